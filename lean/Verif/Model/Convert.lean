import Verif.Model.Argmax
import Verif.Model.Quant

/-!
# Model of the conversion of tensors between number formats
(`lib/src/helpers/src/impl/mli_hlp_convert_tensor_ref.h`)

Floating-point tensors are in Model/ConvertFloat.lean.  Positions are not wrapped to `int`.
-/

namespace Mli

open Spec (Rnd)

/-- The integer element types of include/mli_types.h:64-76 `mli_element_type` that can be converted. -/
inductive ElT
  | fx8 | fx16 | sa8 | sa32
deriving DecidableEq, Repr

def ElT.isSa : ElT → Bool
  | .sa8 | .sa32 => true
  | _ => false

/-- Bits of an element: helpers/src/mli_helpers.cc:34-48 `mli_hlp_tensor_element_size`. -/
def ElT.width : ElT → Nat
  | .fx8 | .sa8 => 8
  | .fx16 => 16
  | .sa32 => 32

/-- include/mli_types.h `mli_tensor`: a tensor with its element type and `el_params`. -/
structure QTensor where
  t : Tensor
  ty : ElT
  fx : Int := 0
  q : SaQ := ⟨-1, [0], [1], [0]⟩

/-- helpers/src/mli_helpers.cc:50-64 `mli_hlp_tensor_scale_shift`. -/
def QTensor.frac (a : QTensor) (k : Int) : Int := if a.ty.isSa then a.q.fracAt k else a.fx

/-- helpers/src/mli_helpers.cc:66-79 `mli_hlp_tensor_scale`. -/
def QTensor.scale (a : QTensor) (k : Int) : Int := if a.ty.isSa then a.q.scaleAt k else 1

/-- helpers/src/mli_helpers.cc:81-94 `mli_hlp_tensor_zero_offset`. -/
def QTensor.zp (a : QTensor) (k : Int) : Int := if a.ty.isSa then a.q.zpAt k else 0

/-- mli_hlp_convert_tensor_ref.h:20-47 `calc_convert`: the value stored for element `x`, with a 64-bit accumulator (`wide`) or a 32-bit one. -/
def calcConvert (m : Rnd) (wide : Bool) (wo : Nat) (zi scale shift zo x : Int) : Int :=
  if wide then
    let v := subFx 32 x zi
    let n := normFx 32 v
    let v := aslFx 32 v n
    let sn := normFx 32 scale
    let s := aslFx 32 scale sn
    let acc := v * s
    let h := wrap 32 (acc >>> 32)
    let r := asrRndFx m 32 h (shift + sn + n - 32)
    castFx m 32 wo (addFx 32 r zo) 0
  else
    let v := subFx 16 x zi
    let r := asrRndFx m 32 (v * scale) shift
    castFx m 32 wo (addFx 32 r zo) 0

/-- mli_hlp_convert_tensor_ref.h:125-157 `convert_quantized_data`: whether the accumulator has 64 bits. -/
def convertWide (src dst : ElT) : Bool := src = .sa32 || dst = .sa32

/-- mli_hlp_convert_tensor_ref.h:73-88: `scale_dim` before the change to the rank-4 view; the destination comes second and wins. -/
def convertAxis (src dst : QTensor) : Int :=
  let a := if src.ty.isSa && decide (src.q.dim ≥ 0) then src.q.dim else -1
  if dst.ty.isSa && decide (dst.q.dim ≥ 0) then dst.q.dim else a

/-- mli_hlp_convert_tensor_ref.h:106-119: the four loops over a slice. -/
def forSlice (t : Tensor) (ax sl : Int) (f : Int → Int → Int → Int → Buf → Option Buf) : Buf → Option Buf :=
  forFrom (sliceLo ax sl 0) (sliceHi t ax sl 0) (fun a => forFrom (sliceLo ax sl 1) (sliceHi t ax sl 1) (fun b =>
    forFrom (sliceLo ax sl 2) (sliceHi t ax sl 2) (fun c => forFrom (sliceLo ax sl 3) (sliceHi t ax sl 3) (fun e => f a b c e))))

/-- mli_hlp_convert_tensor_ref.h:91-120: one pass of the loop over the scales.  `rd` reads the source; the state is the memory of the destination. -/
def convertSlice (m : Rnd) (rd : Buf → Int → Option Int) (src dst : QTensor) (ax sl : Int) (d : Buf) : Option Buf :=
  (requantParams m (src.scale sl) (src.frac sl) (src.zp sl) (dst.scale sl) (dst.frac sl) (dst.zp sl)).bind fun p =>
  let wide := convertWide src.ty dst.ty
  let shift := minFx p.2.1 (if wide then 63 else 31)
  forSlice src.t ax sl (fun a b c e d =>
    (rd d (src.t.base + src.t.rPos a b c e)).bind fun x =>
    d.wr (dst.t.base + dst.t.rPos a b c e) (calcConvert m wide dst.ty.width (src.zp sl) p.1 shift (dst.zp sl) x)) d

/-- mli_hlp_convert_tensor_ref.h:56-123 `compute_convert_quantized_data`. -/
def convertRun (m : Rnd) (rd : Buf → Int → Option Int) (src dst : QTensor) (d : Buf) : Option Buf :=
  let axis := convertAxis src dst
  let ax := if axis ≥ 0 then axis + (maxRank - src.t.dims.length) else -1
  let n := if axis ≥ 0 then (src.t.rDim ax.toNat).shape else 1
  forRange n.toNat (fun sl d => convertSlice m rd src dst ax sl d) d

/-- private/src/mli_check.cc:195-205 `mli_chk_tensor` for one tensor, without pointers and memory banks. -/
def chkQTensor (a : QTensor) : Option Status :=
  (checkTensorPrivate a.t).map fun s => if s ≠ .ok then s else if a.ty.isSa then chkQuant a.t a.q 15 else .ok

/-- private/src/mli_check.cc:2738-2768 `mli_chk_convert_tensor`.  `oneMem`: both tensors lie in one memory; then equal positions are equal
pointers, and helpers/src/mli_helpers.cc:96-119 `mli_hlp_tensor_data_ptr_cmp` compares them only for equal types and positive ranks. -/
def chkConvert (oneMem : Bool) (src dst : QTensor) : Option Status :=
  (chkQTensor src).bind fun s => if s ≠ .ok then some s else
  (chkQTensor dst).map fun s => if s ≠ .ok then s
    else if !sameShape src.t dst.t then .shapeMismatch
    else if !(innerOne src.t && innerOne dst.t) then .incompatibleTensors
    else if oneMem && decide (src.ty = dst.ty ∧ src.t.dims ≠ [] ∧ dst.t.dims ≠ [] ∧ src.t.base = dst.t.base) &&
      !decide (src.t.strides.dropLast = dst.t.strides.dropLast) then .incompatibleTensors
    else if src.ty.isSa && dst.ty.isSa && !decide (src.q.dim = dst.q.dim ∨ src.q.dim < 0 ∨ dst.q.dim < 0) then .sizeMismatch
    else .ok

/-- helpers/src/mli_helpers.cc:250-267 `mli_hlp_convert_tensor`, `mli_hlp_convert_tensor_safx` (the second check repeats the first). -/
def hlpConvert (m : Rnd) (oneMem : Bool) (rd : Buf → Int → Option Int) (src dst : QTensor) (d : Buf) : Option (Status × Buf) :=
  (chkConvert oneMem src dst).bind fun s => if s ≠ .ok then some (s, d) else (convertRun m rd src dst d).map fun d => (.ok, d)

/-- The tensors lie in different memories. -/
def hlpConvertTo (m : Rnd) (mem : Buf) (src dst : QTensor) (d : Buf) : Option (Status × Buf) := hlpConvert m false (fun _ => mem.rd) src dst d

/-- The tensors lie in one memory with elements of one size. -/
def hlpConvertIn (m : Rnd) (src dst : QTensor) (d : Buf) : Option (Status × Buf) := hlpConvert m true (fun d => d.rd) src dst d

end Mli
