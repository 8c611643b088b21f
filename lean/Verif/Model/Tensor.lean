import Verif.Model.Math

/-!
# Model of `mli_tensor` and of the tensor check

`include/mli_types.h:150-167` `mli_tensor`.  Only the first `rank` entries of `shape[]` and
`mem_stride[]` are meaningful, so a tensor carries a list of `rank` (shape, stride) pairs,
outermost first.  The data pointer is an element address `base` in some buffer; byte addresses
are `base * es` (the library requires element alignment).
-/

namespace Mli

open Spec (lo hi InRange)

/-- include/mli_types.h:34-55 `mli_status` (the values used by the modelled functions). -/
inductive Status where
  | ok | badTensor | shapeMismatch | incompatibleTensors | badFuncCfg | notEnghMem
  | notSupported | sizeMismatch | typeMismatch | rankMismatch | notEnghDma | specParamMismatch
deriving DecidableEq, Repr

/-- One dimension: `shape[i]` (uint32) and `mem_stride[i]` (int32). -/
structure Dim where
  shape : Int
  stride : Int
deriving DecidableEq, Repr

/-- include/mli_types.h:150-167 `mli_tensor` (without the element parameters). -/
structure Tensor where
  dims : List Dim
  /-- element address of `data.mem` -/
  base : Int := 0
  /-- `data.capacity` in bytes (uint32) -/
  cap : Int
  /-- `mli_hlp_tensor_element_size`, helpers/src/mli_helpers.cc:37-48 -/
  es : Int
deriving DecidableEq, Repr

def Tensor.shape (t : Tensor) : List Int := t.dims.map (·.shape)
def Tensor.strides (t : Tensor) : List Int := t.dims.map (·.stride)

/-- Field ranges of the C struct. -/
def Tensor.WellTyped (t : Tensor) : Prop :=
  (∀ d ∈ t.dims, 0 ≤ d.shape ∧ d.shape < 2 ^ 32 ∧ InRange 32 d.stride) ∧
  0 ≤ t.cap ∧ t.cap < 2 ^ 32 ∧ (t.es = 1 ∨ t.es = 2 ∨ t.es = 4)

instance (t : Tensor) : Decidable t.WellTyped := by unfold Tensor.WellTyped; infer_instance

/-- mli_types.h:63 `MLI_MAX_RANK`. -/
def maxRank : Nat := 4

/-- `INT32_MAX`. -/
def int32Max : Int := 2147483647

/-- private/src/mli_check.cc:84-88, the per-dimension test. -/
def dimOk (d : Dim) : Bool :=
  d.stride ≠ 0 && d.stride > 0 && (d.shape > 0 && d.shape ≤ int32Max)

/-- Local variables of private/src/mli_check.cc:91-99. -/
structure ChkSt where
  fail : Bool
  prevShape : Int
  prevStride : Int
  size : Int
deriving DecidableEq, Repr

/-- private/src/mli_check.cc:94-99: one iteration of the loop from the innermost dimension;
the `int` arithmetic is checked for overflow (`none`). -/
def chkStep (s : ChkSt) (d : Dim) : Option ChkSt := do
  let p ← ckd 32 (s.prevShape * s.prevStride)
  let fail := s.fail || !(decide (d.stride ≥ p))
  let t ← ckd 32 ((d.shape - 1) * d.stride)
  let size ← ckd 32 (s.size + t)
  return { fail, prevShape := d.shape, prevStride := d.stride, size }

/-- private/src/mli_check.cc:94-99: the loop; `ds` is innermost first. -/
def chkLoop : List Dim → ChkSt → Option ChkSt
  | [], s => some s
  | d :: ds, s => (chkStep s d).bind (chkLoop ds)

/-- private/src/mli_check.cc:69-106 `check_tensor_private`.  `size *= element_size` has an
unsigned operand, so it is evaluated modulo 2^32 and converted back to `int` (line 100). -/
def checkTensorPrivate (t : Tensor) : Option Status :=
  if t.dims.length > maxRank ∨ t.cap > int32Max then some .badTensor
  else if !(t.dims.all dimOk) then some .badTensor
  else do
    let s ← chkLoop t.dims.reverse { fail := false, prevShape := 1, prevStride := 1, size := 1 }
    let size := wrap 32 (s.size * t.es)
    if s.fail then return .badTensor
    if t.cap ≥ size then return .ok else return .notEnghMem

/-- private/mli_prv_tensor.h:911-936 `mli_prv_count_elem_num_part`: `uint32_t` product of the
dimensions from `start` on. -/
def countElemNumPart (t : Tensor) (start : Nat) : Int :=
  ((t.dims.drop start).map (·.shape)).foldl (fun acc n => (acc * n) % 2 ^ 32) 1

/-- helpers/src/mli_helpers.cc:28-33 `mli_hlp_count_elem_num` with
private/src/mli_check.cc:2728-2736. -/
def hlpCountElemNum (t : Tensor) (start : Nat) : Int :=
  if t.dims.length > maxRank then 0
  else if t.dims.length ≠ 0 ∧ ¬ start < t.dims.length then 0
  else countElemNumPart t start

/-- private/mli_prv_tensor.h:911-936 `mli_prv_count_elem_num`. -/
def countElemNum (t : Tensor) : Int := countElemNumPart t 0

/-! ## mli_hlp_create_subtensor -/

/-- include/mli_types.h `mli_sub_tensor_cfg`: one (offset, size) pair per input dimension and
the requested rank (all `uint32_t`). -/
structure SubCfg where
  offs : List Int
  sizes : List Int
  rank : Nat
deriving DecidableEq, Repr

/-- private/src/mli_check.cc:2814-2819, the per-dimension test (`uint32_t` addition wraps). -/
def subCfgOk : List Dim → List Int → List Int → Bool
  | d :: ds, o :: os, n :: ns =>
    decide (o < d.shape) && decide ((o + n) % 2 ^ 32 ≤ d.shape) && subCfgOk ds os ns
  | [], _, _ => true
  | _, _, _ => false

/-- helpers/src/mli_helpers.cc:224-237: shape and strides of the result; `skip` is `skip_cnt`. -/
def subDims : (skip : Int) → List Dim → List Int → List Dim
  | skip, d :: ds, n :: ns =>
    if skip > 0 ∧ n = 1 then subDims (skip - 1) ds ns
    else { shape := n, stride := d.stride } :: subDims skip ds ns
  | _, _, _ => []

/-- helpers/src/mli_helpers.cc:191-195 `buf_offset`. -/
def bufOffset : List Dim → List Int → Int
  | d :: ds, o :: os => o * d.stride + bufOffset ds os
  | _, _ => 0

/-- helpers/src/mli_helpers.cc:174-248 `mli_hlp_create_subtensor` with its check
private/src/mli_check.cc:2802-2822.  The input strides are used as they are: the check has
refused zero strides, so the defaulting of lines 185-188 never applies.  `buf_offset` is not
checked for overflow (`c12_in_parent` bounds it).  The quantisation parameters are modelled
in Model/QuantMem.lean (`createSubtensorSa`). -/
def createSubtensor (t : Tensor) (c : SubCfg) : Option (Status × Tensor) := do
  let st ← checkTensorPrivate t
  if st ≠ .ok then return (st, t)
  if c.rank > t.dims.length then return (.badFuncCfg, t)
  if !(subCfgOk t.dims c.offs c.sizes) then return (.badFuncCfg, t)
  let bo := bufOffset t.dims c.offs
  return (.ok,
    { dims := (subDims ((t.dims.length : Int) - c.rank) t.dims c.sizes).take c.rank
      base := t.base + bo
      cap := t.cap - bo * t.es
      es := t.es })

/-- helpers/src/mli_helpers.cc:350-356 `mli_hlp_set_tensor_mem_strides`; `shape` is outermost
first.  (`int32_t` product, not checked here.) -/
def setMemStrides : List Int → List Int
  | [] => []
  | [_] => [1]
  | _ :: n :: ns =>
    match setMemStrides (n :: ns) with
    | [] => []
    | s :: ss => (s * n) :: s :: ss

end Mli
