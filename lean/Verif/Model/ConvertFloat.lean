import Verif.Model.Convert
import Verif.Model.Float

/-!
# Model of the conversion of tensors from and to floating point
(`lib/src/helpers/src/impl/mli_hlp_convert_tensor_ref.h`, `lib/src/helpers/src/mli_helpers.cc`)

Elements of a floating-point tensor are bit patterns (Model/Float.lean).  Positions are not wrapped to `int`.  Source and destination lie
in different memories.
-/

namespace Mli

open Spec (Rnd)

/-- mli_hlp_convert_tensor_ref.h:196-199: `scale_dim` before the change to the rank-4 view. -/
def floatAxis (a : QTensor) : Int := if a.ty.isSa && decide (a.q.dim ≥ 0) then a.q.dim else -1

/-- mli_hlp_convert_tensor_ref.h:194-242: the loops over the scales and over a slice of the integer tensor. -/
def forScales (a : QTensor) (f : Int → Int → Int → Int → Int → Buf → Option Buf) (d : Buf) : Option Buf :=
  let axis := floatAxis a
  let ax := if axis ≥ 0 then axis + (maxRank - a.t.dims.length) else -1
  let n := if axis ≥ 0 then (a.t.rDim ax.toNat).shape else 1
  forRange n.toNat (fun sl d => forSlice a.t ax sl (f sl) d) d

/-- mli_hlp_convert_tensor_ref.h:203-208 `scale_val` for QUANTIZE. -/
def quantScale (a : QTensor) (sl : Int) : Int := fldexp (fdiv (fofInt 1) (fofInt (a.scale sl))) (a.frac sl)

/-- mli_hlp_convert_tensor_ref.h:203-209 `scale_val` for DEQUANTIZE. -/
def dequantScale (a : QTensor) (sl : Int) : Int := fldexp (fofInt (a.scale sl)) (-a.frac sl)

/-- mli_hlp_convert_tensor_ref.h:235-236: the value stored for the floating-point element `x`. -/
def quantVal (m : Rnd) (a : QTensor) (sl x : Int) : Option Int :=
  (floatScale x (quantScale a sl)).map fun v => castFx m 32 a.ty.width (addFx 32 v (a.zp sl)) 0

/-- mli_hlp_convert_tensor_ref.h:238-239: the floating-point value stored for the element `x`. -/
def dequantVal (a : QTensor) (sl x : Int) : Int := fmul (fofInt (subFx 32 x (a.zp sl))) (dequantScale a sl)

/-- mli_hlp_convert_tensor_ref.h:159-245 `convert_float_data` for QUANTIZE. -/
def quantizeRun (m : Rnd) (mem : Buf) (src : Tensor) (dst : QTensor) (d : Buf) : Option Buf :=
  forScales dst (fun sl a b c e d =>
    (mem.rd (src.base + src.rPos a b c e)).bind fun x =>
    (quantVal m dst sl x).bind fun v => d.wr (dst.t.base + dst.t.rPos a b c e) v) d

/-- mli_hlp_convert_tensor_ref.h:159-245 `convert_float_data` for DEQUANTIZE. -/
def dequantizeRun (mem : Buf) (src : QTensor) (dst : Tensor) (d : Buf) : Option Buf :=
  forScales src (fun sl a b c e d =>
    (mem.rd (src.t.base + src.t.rPos a b c e)).bind fun x => d.wr (dst.base + dst.rPos a b c e) (dequantVal src sl x)) d

/-- mli_hlp_convert_tensor_ref.h:232-233: both tensors are floating-point tensors. -/
def copyFloatRun (mem : Buf) (src dst : Tensor) (d : Buf) : Option Buf :=
  forSlice dst (-1) 0 (fun a b c e d => (mem.rd (src.base + src.rPos a b c e)).bind fun x => d.wr (dst.base + dst.rPos a b c e) x) d

/-- include/mli_types.h `mli_tensor` with an integer element type, or with MLI_EL_FP_32. -/
inductive AnyT
  | q (a : QTensor)
  | f (t : Tensor)

def AnyT.t : AnyT → Tensor
  | .q a => a.t
  | .f t => t

/-- private/src/mli_check.cc:195-205 `mli_chk_tensor`; 131-140: a floating-point tensor has no quantization parameters to check. -/
def chkAny : AnyT → Option Status
  | .q a => chkQTensor a
  | .f t => checkTensorPrivate t

/-- private/src/mli_check.cc:2738-2768 `mli_chk_convert_tensor` for tensors in different memories. -/
def chkConvertAny (src dst : AnyT) : Option Status :=
  (chkAny src).bind fun s => if s ≠ .ok then some s else
  (chkAny dst).map fun s => if s ≠ .ok then s
    else if !sameShape src.t dst.t then .shapeMismatch
    else if !(innerOne src.t && innerOne dst.t) then .incompatibleTensors
    else match src, dst with
      | .q a, .q b => if a.ty.isSa && b.ty.isSa && !decide (a.q.dim = b.q.dim ∨ a.q.dim < 0 ∨ b.q.dim < 0) then .sizeMismatch else .ok
      | _, _ => .ok

/-- helpers/src/mli_helpers.cc:258-289 `mli_hlp_convert_tensor`.  Every type of element is handled, so the status of the float branch, which
the code does not return, is OK. -/
def hlpConvertAny (m : Rnd) (mem : Buf) (src dst : AnyT) (d : Buf) : Option (Status × Buf) :=
  (chkConvertAny src dst).bind fun s => if s ≠ .ok then some (s, d) else
  match src, dst with
  | .q a, .q b => hlpConvertTo m mem a b d
  | .f t, .q b => (quantizeRun m mem t b d).map fun d => (.ok, d)
  | .q a, .f t => (dequantizeRun mem a t d).map fun d => (.ok, d)
  | .f t, .f t' => (copyFloatRun mem t t' d).map fun d => (.ok, d)

end Mli
