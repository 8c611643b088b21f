import Verif.Model.Lut
import Verif.Model.Quant

/-!
# Model of the softmax kernels (`lib/src/kernels/transform/impl/mli_krn_softmax_ref.h`)
-/

namespace Mli

open Spec (Rnd)

/-- private/mli_prv_tensor.h:467-489 `mli_prv_get_axis_tensor` for input and output: all sizes other than that of `axis` are 1;
the whole tensor for a negative `axis`. -/
def axisDims (axis : Int) (ds : List (JDim 2)) : List (JDim 2) :=
  if axis > -1 then ds.mapIdx fun i d => if (i : Int) = axis then d else { d with n := 1 } else ds

/-- private/mli_prv_tensor.h:491-518 `mli_prv_get_non_axis_tensor`: the three dimensions other than `axis` of the four of the generic
tensor; three dimensions of size 1 for a negative `axis` (their strides are not initialised, but multiplied by 0). -/
def nonAxisDims (axis : Int) (ds : List (JDim 2)) : List (JDim 2) :=
  if axis > -1 then (padBack ds).eraseIdx axis.toNat else List.replicate 3 ⟨1, fun _ => 0⟩

/-- The three loops around the body of mli_krn_softmax_ref.h:241-260 and mli_krn_l2_normalize_ref.h; `body` gets the offsets of the slice in input
and output. -/
def axisLoops (axis : Int) (tin tout : Tensor) (body : (Fin 2 → Int) → Buf → Option Buf) (mem : Buf) : Option Buf :=
  match nonAxisDims axis (joint2 tin.dims tout.dims) with
  | [d0, d1, d2] => forRange d0.n.toNat (fun p0 => forRange d1.n.toNat (fun p1 => forRange d2.n.toNat (fun p2 =>
      body (fun j => p0 * d0.s j + p1 * d1.s j + p2 * d2.s j)))) mem
  | _ => none

/-- mli_krn_softmax_ref.h:32-50 `mli_krn_softmax_get_max`; `sq`: the squashed axis tensor, `bi`: address of the slice. -/
def softmaxMax (sq : List (JDim 2)) (bi : Int) (d : Buf) : Option Int :=
  (d.rd bi).bind fun v0 => nest4J sq (fun a mx => (d.rd (bi + a 0)).map fun v => maxFx mx v) v0

/-- mli_krn_softmax_ref.h:72-97, 158-172: shift count, and the reciprocal of the sum as a number of `w` bits.  No result when the mantissa is 0. -/
def softmaxRecip (m : Rnd) (w : Nat) (sum : Int) : Option (Int × Int) :=
  let ex := normFx 32 sum
  let mnt := if w = 8 then accCast8 m sum (16 - ex) else accCast16 m sum (16 - ex)
  if mnt = 0 then none else some (wrap w (minFx ((2 ^ 29 : Int).tdiv mnt) 32767), ex)

/-- mli_krn_softmax_ref.h:52-115 `mli_krn_softmax_fx_run`. -/
def softmaxFxSlice (m : Rnd) (l : Lut) (w : Nat) (inFrac outFrac : Int) (sq : List (JDim 2)) (bi bo : Int) (d : Buf) : Option Buf :=
  (softmaxMax sq bi d).bind fun mx =>
  (nest4J sq (fun a d => (d.rd (bi + a 0)).bind fun v => (lutElem m l (.fxOff mx) (.fx w) inFrac v).bind fun e => d.wr (bo + a 1) e) d).bind fun d =>
  (nest4J sq (fun a s => (d.rd (bo + a 1)).bind fun e => macFx 32 s e 1) 0).bind fun sum =>
  (softmaxRecip m w sum).bind fun p =>
  let shift := minFx (l.outFrac * 2 + (15 - p.2) - outFrac) (2 * w - 1)
  nest4J sq (fun a d => (d.rd (bo + a 1)).bind fun e =>
    d.wr (bo + a 1) (if w = 8 then accCast8 m (p.1 * e) shift else accCast16 m (p.1 * e) shift)) d

/-- mli_prv_lut_ref.h:75-139 `activation_lut_one_elem_interpolate<int8_t, int16_t, true, false>` with the maximum as offset. -/
def softmaxExpSa (m : Rnd) (l : Lut) (sc sh mx v : Int) : Option Int :=
  let f := lutFrac l (.sa mx sc sh) 0
  (lutInterp m l f (lutInput m (.sa mx sc sh) f v)).bind (lutOutput m l (.fx 16))

/-- mli_krn_softmax_ref.h:117-196 `mli_krn_softmax_sa8_run`: output zero point -128, output shift 8. -/
def softmaxSaSlice (m : Rnd) (l : Lut) (sc sh : Int) (sq : List (JDim 2)) (bi bo : Int) (d : Buf) : Option Buf :=
  (softmaxMax sq bi d).bind fun mx =>
  (nest4J sq (fun a s => (d.rd (bi + a 0)).bind fun v => (softmaxExpSa m l sc sh mx v).bind fun e => macFx 32 s e 1) 0).bind fun sum =>
  (softmaxRecip m 16 sum).bind fun p =>
  let shift := minFx (l.outFrac * 2 + (15 - p.2) - 8) 31
  nest4J sq (fun a d => (d.rd (bi + a 0)).bind fun v => (softmaxExpSa m l sc sh mx v).bind fun e =>
    (ckd 32 (asrRndFx m 32 (p.1 * e) shift + -128)).bind fun t => d.wr (bo + a 1) (accCast8 m t 0)) d

/-- private/src/mli_check.cc:1768-1792: checks of the fixed-point kernels, for correct element types and non-null pointers. -/
def chkSoftmax (axis : Int) (tin tout : Tensor) : Option Status :=
  (chkBasicActivation tin tout).bind fun s =>
    if s ≠ .ok then some s
    else if ¬ axis < tin.dims.length then some .badFuncCfg
    else some .ok

/-- kernels/transform/mli_krn_softmax_fx.cc:25-43 `mli_krn_softmax_fx8`, `_fx16` with mli_krn_softmax_ref.h:208-274; the output has `w - 1`
fractional bits. -/
def krnSoftmaxFx (m : Rnd) (l : Lut) (w : Nat) (inFrac axis : Int) (tin tout : Tensor) (mem : Buf) : Option (Status × Buf) :=
  (chkSoftmax axis tin tout).bind fun s =>
    if s ≠ .ok then some (s, mem)
    else
      let sq := squashGeneric (axisDims axis (joint2 tin.dims tout.dims))
      (axisLoops axis tin tout (fun o => softmaxFxSlice m l w inFrac (w - 1) sq (tin.base + o 0) (tout.base + o 1)) mem).map fun mem' => (.ok, mem')

/-- kernels/transform/mli_krn_softmax_fx.cc:45-53 `mli_krn_softmax_sa8` with mli_check.cc:1793-1808. -/
def krnSoftmaxSa (m : Rnd) (l : Lut) (q : SaQ) (axis : Int) (tin tout : Tensor) (mem : Buf) : Option (Status × Buf) :=
  (chkSoftmax axis tin tout).bind fun s =>
    if s ≠ .ok then some (s, mem)
    else if chkQuant tin q 7 ≠ .ok then some (chkQuant tin q 7, mem)
    else if ¬ q.dim < 0 then some (.incompatibleTensors, mem)
    else
      let sq := squashGeneric (axisDims axis (joint2 tin.dims tout.dims))
      (axisLoops axis tin tout (fun o => softmaxSaSlice m l (q.scaleAt 0) (q.fracAt 0) sq (tin.base + o 0) (tout.base + o 1)) mem).map
        fun mem' => (.ok, mem')

end Mli
