import Verif.Model.Softmax

/-!
# Model of the L2 normalisation kernels (`lib/src/kernels/transform/impl/mli_krn_l2_normalize_ref.h`)

The epsilon tensor is not read by the code.
-/

namespace Mli

open Spec (Rnd)

/-- mli_krn_l2_normalize_ref.h:40-56 `normalize_sum`: the mantissa of the sum and its even shift. -/
def l2NormalizeSum (m : Rnd) (sum : Int) : Int × Int :=
  let ns := (8 - 2) * 8 - normFx 64 sum
  let ns := if cand 32 ns 1 = 1 then ns + 1 else ns
  (castFx m 64 16 sum ns, ns)

/-- mli_krn_l2_normalize_ref.h:68-73, 92-96, 113-115: the element as a 16-bit number (`zp` is absent for fixed point). -/
def l2Elem (zp : Option Int) (v : Int) : Int :=
  match zp with
  | none => v
  | some z => subFx 16 v z

/-- mli_krn_l2_normalize_ref.h:105-119 `normalize_elem` for elements of `w` bits. -/
def l2Out (m : Rnd) (w : Nat) (zp : Option Int) (scale shift v : Int) : Int :=
  if w = 8 then accCast8 m (scale * l2Elem zp v) shift else accCast16 m (scale * l2Elem zp v) shift

/-- The loop over one slice: mli_krn_l2_normalize_ref.h:189-190, 213-218 (axis -1: a flat loop if the tensors can be squashed to one dimension, else
the loops over the squashed generic tensor), 245-248 (the innermost axis, adjacent elements), 276-279 (another axis).  Any other negative axis
reads outside of the array of sizes. -/
def l2Inner {σ : Type} (axis : Int) (ds : List (JDim 2)) (f : (Fin 2 → Int) → σ → Option σ) (s : σ) : Option σ :=
  if axis = -1 then
    (squashOneDim ds).bind fun shape => if shape ≠ 0 then flatJ shape (fun _ => 0) f s else nest4J (squashGeneric ds) f s
  else if axis < -1 then none
  else
    (ds[axis.toNat]?).bind fun d =>
      if axis = ds.length - 1 then flatJ d.n (fun _ => 0) f s else forRange d.n.toNat (fun i => f (fun j => i * d.s j)) s

/-- mli_krn_l2_normalize_ref.h:190-211, 219-231, 243-266, 274-304: one slice at `bi` in the input and `bo` in the output. -/
def l2Slice (m : Rnd) (l : Lut) (w : Nat) (zp : Option Int) (outShift axis : Int) (ds : List (JDim 2)) (bi bo : Int) (d : Buf) : Option Buf :=
  (l2Inner axis ds (fun a s => (d.rd (bi + a 0)).bind fun v => macFx 64 s (l2Elem zp v) (l2Elem zp v)) 0).bind fun sum =>
  let p := l2NormalizeSum m sum
  ((lutInterp m l 8 p.1).bind (lutOutput m l (.fx 16))).bind fun scale =>
  let shift := l.outFrac + (p.2 + 8) / 2 - outShift
  l2Inner axis ds (fun a d => (d.rd (bi + a 0)).bind fun v => d.wr (bo + a 1) (l2Out m w zp scale shift v)) d

/-- kernels/transform/mli_krn_l2_normalize.cc:21-32 `mli_krn_l2_normalize_fx16` with mli_check.cc:1810-1821; the output has 15 fractional bits.
`axisLoops` are the loops of mli_krn_l2_normalize_ref.h:235-236, 242-245 (a single slice for a negative axis). -/
def krnL2NormFx16 (m : Rnd) (l : Lut) (axis : Int) (tin tout : Tensor) (mem : Buf) : Option (Status × Buf) :=
  (chkSoftmax axis tin tout).bind fun s =>
    if s ≠ .ok then some (s, mem)
    else
      let ds := joint2 tin.dims tout.dims
      (axisLoops axis tin tout (fun o => l2Slice m l 16 none 15 axis ds (tin.base + o 0) (tout.base + o 1)) mem).map fun mem' => (.ok, mem')

/-- kernels/transform/mli_krn_l2_normalize.cc:34-45 `mli_krn_l2_normalize_sa8` with mli_check.cc:1823-1840; the output has zero point 0 and scale
`2^-7`. -/
def krnL2NormSa8 (m : Rnd) (l : Lut) (q : SaQ) (axis : Int) (tin tout : Tensor) (mem : Buf) : Option (Status × Buf) :=
  (chkSoftmax axis tin tout).bind fun s =>
    if s ≠ .ok then some (s, mem)
    else if chkQuant tin q 7 ≠ .ok then some (chkQuant tin q 7, mem)
    else if ¬ q.dim < 0 then some (.incompatibleTensors, mem)
    else
      let ds := joint2 tin.dims tout.dims
      (axisLoops axis tin tout (fun o => l2Slice m l 8 (some (q.zpAt 0)) 7 axis ds (tin.base + o 0) (tout.base + o 1)) mem).map
        fun mem' => (.ok, mem')

end Mli
