import Verif.Model.Conv

/-!
# Model of the fully connected kernels (`lib/src/kernels/common/impl/mli_krn_fully_connected_ref.h`)

Input, weights, bias and output are different buffers; sizes and positions are not wrapped to `int`.
-/

namespace Mli

open Spec (lo hi InRange Rnd)

/-- private/src/mli_check.cc:342-361 `check_layout_is_contiguous`, from the last dimension to the first:
result so far, size and stride of the previous dimension.  The `int32_t` product is not wrapped. -/
def contigScan : List Dim → Bool × Int × Int
  | [] => (true, 1, 1)
  | d :: ds =>
    let r := contigScan ds
    (r.1 && d.stride == r.2.1 * r.2.2, d.shape, d.stride)

/-- private/src/mli_check.cc:363-365. -/
def isContig (t : Tensor) : Bool := (contigScan t.dims).1

/-- bricks/impl/mli_krn_dotprod_ref.h:24-38 `dotprod1D`: the pointers are moved along. -/
def dotprod1D (aw : Nat) (src wts : Buf) (p q acc n is ks : Int) : Option Int :=
  (forRange n.toNat (fun _ (s : (Int × Int) × Int) =>
    (macStep aw src wts s.1.1 s.1.2 s.2).map fun a => ((s.1.1 + is, s.1.2 + ks), a)) ((p, q), acc)).map (·.2)

/-- mli_krn_fully_connected_ref.h:31-84 `inner_product` with a bias: `n` inputs at `p`, `m` outputs at `op`, weights
with a row stride of `ws`; `post` is what is done with the bias and the accumulator (bias additive, conversion, limits). -/
def innerProduct (q : ConvQ) (post : Int → Int → Int → Int) (src wts bias : Buf) (p wp bp op n m ws : Int) (d : Buf) : Option Buf :=
  (inAdd2D q src p 0 n 1 1 1).bind fun other =>
  (zpAdd q other n).bind fun other =>
  forRange m.toNat (fun (o : Nat) d =>
    (dotprod1D q.aw src wts p (wp + o) 0 n 1 ws).bind fun acc =>
    (wAdd3D q wts (wp + o) acc n 1 1 ws 1 1).bind fun acc =>
    (bias.rd (bp + o)).bind fun b =>
    d.wr (op + o) (post o b (addFx q.aw acc other))) d

/-- private/src/mli_check.cc:1341-1360: shapes and strides of an accepted set of tensors. -/
def chkFcGeo (apart : Bool) (tin tw tb tout : Tensor) : Status :=
  match tw.dims, tb.dims, tout.dims with
  | [wi, wo], [bn], [on] =>
    if ¬ (countElemNum tin = wi.shape ∧ bn.shape = wo.shape ∧ on.shape = wo.shape) then .shapeMismatch
    else if !(isContig tin && innerOne tw && isContig tb && on.stride == 1) then .incompatibleTensors
    else if !apart then .incompatibleTensors
    else .ok
  | _, _, _ => .shapeMismatch

/-- private/src/mli_check.cc:1320-1363 `mli_chk_fully_connected`, for matching element types and non-null
pointers. -/
def chkFc (apart : Bool) (tin tw tb tout : Tensor) : Option Status :=
  (chkTensors [tin, tw, tb, tout]).bind fun s => if s ≠ .ok then some s else some (chkFcGeo apart tin tw tb tout)

/-- private/src/mli_check.cc:1365-1430 `mli_chk_fully_connected_fx16_fx8_fx8`, `_fx8`, `_fx16`: fractional bits first. -/
def chkFcFx (apart : Bool) (f : FxQ) (tin tw tb tout : Tensor) : Option Status :=
  if ¬ f.fb ≤ f.fi + f.fw then some .incompatibleTensors
  else if ¬ f.fo ≤ f.fi + f.fw then some .incompatibleTensors
  else chkFc apart tin tw tb tout

/-- mli_prv_quant_ref.h:443-456 `result_cast` to an element of `w` bits, and the limits of the built-in ReLU. -/
def castLimFxTo (w : Nat) (m : Rnd) (aw : Nat) (f : FxQ) (acc : Int) : Int :=
  applyLimits (reluLimits w f.relu 0 1 f.fo) (castFx m aw w acc (f.fi + f.fw - f.fo))

/-- kernels/common/mli_krn_fully_connected.cc `mli_krn_fully_connected_fx8` (`w = 8`, `aw = 32`), `_fx16` (16, 64) and
`_fx16_fx8_fx8` (16, 32) with `fully_connected_prepare_and_run` (mli_krn_fully_connected_ref.h:102-145). -/
def krnFcFx (m : Rnd) (w aw : Nat) (apart : Bool) (f : FxQ) (src wts bias : Buf) (tin tw tb tout : Tensor) (dst : Buf) :
    Option (Status × Buf) := do
  let s ← chkFcFx apart f tin tw tb tout
  if s ≠ .ok then return (s, dst)
  let dst' ← innerProduct { aw := aw } (fun _ b acc => castLimFxTo w m aw f (biasFx m aw (f.fi + f.fw - f.fb) b acc))
    src wts bias tin.base tw.base tb.base tout.base (countElemNum tin) (tw.shape.getD 1 0) (tw.strides.getD 0 0) dst
  return (.ok, dst')

/-- kernels/common/mli_krn_fully_connected.cc `mli_krn_fully_connected_sa8_sa8_sa32` (`ext = false`) and
`mli_krn_fully_connected_sa8_sa8_sa32_ext_bias` (`ext = true`: the bias is expected to contain the contribution of the input
zero point, which is taken as 0). -/
def krnFcSa8 (m : Rnd) (full ext apart : Bool) (q : Sa8Q) (src wts bias : Buf) (tin tw tb tout : Tensor) (dst : Buf) :
    Option (Status × Buf) := do
  let s ← chkFc apart tin tw tb tout
  if s ≠ .ok then return (s, dst)
  let s ← chkSa8At 1 m q tin tw tb tout
  if s ≠ .ok then return (s, dst)
  let rt ← inToOut m (q.qi.scaleAt 0) (q.qi.fracAt 0) (q.qo.scaleAt 0) (q.qo.fracAt 0)
  let dst' ← innerProduct { aw := 32, zx := if ext then 0 else q.qi.zpAt 0, zw := q.qw.zpAt 0 }
    (fun o b acc => castLimSa8 m full q rt o (biasS8 full b acc))
    src wts bias tin.base tw.base tb.base tout.base (countElemNum tin) (tw.shape.getD 1 0) (tw.strides.getD 0 0) dst
  return (.ok, dst')

/-- mli_krn_fully_connected_ref.h:84-97 `inner_product` without a bias, for the run-time kernel.  `result_cast` to 32 bits
(mli_prv_quant_ref.h:502-504) is the identity and `adjust_quant_params` does nothing for its parameters. -/
def innerProductNoBias (q : ConvQ) (src wts : Buf) (p wp op n m ws : Int) (d : Buf) : Option Buf :=
  (inAdd2D q src p 0 n 1 1 1).bind fun add =>
  forRange m.toNat (fun (o : Nat) d =>
    (dotprod1D q.aw src wts p (wp + o) 0 n 1 ws).bind fun acc => d.wr (op + o) (addFx q.aw acc add)) d

/-- `InternalBuffer::read<int16_t>` (include/mli_types.hpp:468-472) on a buffer of bytes, little-endian. -/
def rd16 (b : Buf) (p : Int) : Option Int :=
  (b.rd p).bind fun l => (b.rd (p + 1)).map fun h => wrap 16 (l % 256 + 256 * h)

/-- Weights zero point of the run-time kernel: the constructor (common/impl/mli_krn_fully_connected_runtime.cc:98-120) takes a
buffer of `size` bytes at `p` as 16-bit values, and `define_quant_params` (mli_prv_quant_ref.h:145-151) uses the first one.  `none` also stands for
line 119 with a quantization axis: it writes the value of a union whose pointer is read later. -/
def fcZeroPoint (zps : Buf) (p size axis : Int) : Option Int :=
  if size / 2 > 1 then rd16 zps p else if axis ≥ 0 then none else rd16 zps p

/-- common/impl/mli_krn_fully_connected_compiler.cc:71: `-1` for one zero point, the output channels otherwise. -/
def fcAxis (count : Int) : Int := if count = 1 then -1 else 1

/-- common/impl/mli_krn_fully_connected_compiler.cc:179-200 `EncodeWtsZeroPts` (deprecated) for one zero point: 16 bits, little-endian. -/
def fcEncodeZp (z : Int) : List Int := [wrap 8 z, wrap 8 (z / 256)]

/-- include/mli_service_functions.hpp:130-155 `EncodeWeightsAndZeroPts`: the bytes of the weights, then those of the zero points. -/
def fcEncode (w zps : List Int) : List Int := w ++ zps

/-- `FullyConnected::Issue` (common/impl/mli_krn_fully_connected_runtime.cc:124-143) after the constructor (23-122) for 8-bit input
and weights and 32-bit output: strides of output channels and of input elements are not used.  The input zero point is 0. -/
def fcIssue (src wts zps : Buf) (zpos zsize axis : Int) (tin tw tout : Tensor) (dst : Buf) : Option Buf :=
  (fcZeroPoint zps zpos zsize axis).bind fun z =>
  innerProductNoBias { aw := 32, zw := z } src wts tin.base tw.base tout.base (countElemNum tin) (tw.shape.getD 1 0) (tw.strides.getD 0 0) dst

end Mli
