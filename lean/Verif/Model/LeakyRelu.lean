import Verif.Model.Convert
import Verif.Model.Eltwise
import Verif.Model.GroupConv

/-!
# Model of the leaky and parametric ReLU kernels
(`lib/src/kernels/transform/impl/mli_krn_leaky_relu_ref.h`, `mli_krn_prelu_ref.h`)

Input and output lie in one memory (the kernels may work in place), the slopes in another one.
-/

namespace Mli

open Spec (Rnd)

/-- mli_krn_leaky_relu_ref.h:28-44 `compute_leaky_relu` for fixed-point elements of `w` bits (8 or 16). -/
def leakyFx (m : Rnd) (w : Nat) (scale shift x : Int) : Int :=
  let s := minFx shift 31
  let pos := maxFx 0 x
  let acc := minFx 0 x * scale
  let neg := if w = 8 then accCast8 m acc s else accCast16 m acc s
  addFx w pos neg

/-- mli_krn_leaky_relu_ref.h:160-170, part of `leaky_relu_fx_run`: 16-bit slopes are normalised. -/
def leakySlope (m : Rnd) (w : Nat) (slope shift : Int) : Int × Int :=
  if w = 16 then
    let n := normCastFx m 16 16 slope
    (n.1, shift - n.2)
  else (slope, shift)

/-- mli_krn_leaky_relu_ref.h:205-255 `leaky_relu_define_identity_params`: scale and shift; a left shift by a negative amount or out of
the 32-bit range and the division by 0 are undefined. -/
def leakyIdentity (m : Rnd) (sIn fIn sOut fOut : Int) : Option (Int × Int) :=
  let k := normFx 32 sIn - normFx 16 sOut
  (if k < 0 ∨ 32 ≤ k then none else ckd 32 (sIn * 2 ^ k.toNat)).bind fun n =>
  (if sOut = 0 then none else some (n.tdiv sOut)).bind fun q =>
  let nc := normCastFx m 32 16 q
  let shift := k + (fIn - fOut) - nc.2
  some (aslFx 16 nc.1 (maxFx (-shift) 0), maxFx shift 0)

/-- mli_krn_leaky_relu_ref.h:256-323 `leaky_relu_define_alpha_params` with bricks/impl/mli_prv_quant_ref.h:628-635
`mli_prv_convert_sa8_fx16`: scale and shift for slope `a` with zero point `za`, scale `sa` and `fa` fractional bits. -/
def leakyAlpha (m : Rnd) (ident : Int × Int) (za sa fa a : Int) : Int × Int :=
  let v := castFx m 64 32 (wrap 16 (a - za) * sa) 0
  let n1 := normCastFx m 32 16 v
  let n2 := normCastFx m 32 16 (ident.1 * n1.1)
  (n2.1, ident.2 + fa - n1.2 - n2.2)

/-- mli_krn_leaky_relu_ref.h:58-83 `compute_leaky_relu` for SA8 elements. -/
def leakySa (m : Rnd) (zi zo : Int) (ident alpha : Int × Int) (x : Int) : Int :=
  let p := if x ≥ zi then ident else alpha
  let r := asrRndFx m 32 (p.1 * subFx 16 x zi) p.2
  castFx m 32 8 (addFx 32 r zo) 0

/-- private/src/mli_check.cc:1840-1869 `mli_chk_leaky_relu`, for equal element types and non-null pointers. -/
def chkLeaky (tin slope tout : Tensor) : Option Status :=
  (chkTensors [tin, tout]).bind fun s =>
    if s ≠ .ok then some s
    else if !sameShape tin tout then some .shapeMismatch
    else if !(innerOne tin && innerOne tout) then some .incompatibleTensors
    else chkScalarTensor slope

/-- private/src/mli_check.cc:1905-1919, 2021-2035: quantization parameters of input, output and slope. -/
def chkLeakyQuant (tin slope tout : Tensor) (qi qs qo : SaQ) : Status :=
  if chkQuant tin qi 7 ≠ .ok then chkQuant tin qi 7
  else if chkQuant tout qo 7 ≠ .ok then chkQuant tout qo 7
  else if chkQuant slope qs 14 ≠ .ok then chkQuant slope qs 14
  else if ¬ (qi.dim < 0 ∧ qo.dim < 0 ∧ qs.dim < 0) then .incompatibleTensors
  else .ok

/-- The loops of mli_krn_leaky_relu_ref.h:97-145, 172-200, 354-385 (one element per vector) over input and output. -/
def leakyLoops (tin tout : Tensor) (g : Int → Int) (mem : Buf) : Option Buf :=
  traverse (joint2 tin.dims tout.dims) (fun a d => (d.rd (tin.base + a 0)).bind fun x => d.wr (tout.base + a 1) (g x)) mem

/-- kernels/transform/mli_krn_leaky_relu_fx.cc:25-39 `mli_krn_leaky_relu_fx8`, `_fx16` with mli_check.cc:1871-1895 and
mli_krn_leaky_relu_ref.h:147-203; `fi`, `fs`, `fo`: fractional bits of input, slope and output. -/
def krnLeakyFx (m : Rnd) (w : Nat) (fi fs fo : Int) (smem : Buf) (tin : Tensor) (slope : Operand) (tout : Tensor) (mem : Buf) :
    Option (Status × Buf) :=
  (chkLeaky tin slope.t tout).bind fun s =>
    if s ≠ .ok then some (s, mem)
    else if fo ≠ fi then some (.specParamMismatch, mem)
    else (slope.val smem).bind fun a =>
      let p := leakySlope m w a (fi + fs - fo)
      (leakyLoops tin tout (leakyFx m w p.1 p.2) mem).map fun mem' => (.ok, mem')

/-- kernels/transform/mli_krn_leaky_relu_fx.cc:41-47 `mli_krn_leaky_relu_sa8` with mli_krn_leaky_relu_ref.h:325-388. -/
def krnLeakySa (m : Rnd) (qi qs qo : SaQ) (smem : Buf) (tin : Tensor) (slope : Operand) (tout : Tensor) (mem : Buf) :
    Option (Status × Buf) :=
  (chkLeaky tin slope.t tout).bind fun s =>
    if s ≠ .ok then some (s, mem)
    else if chkLeakyQuant tin slope.t tout qi qs qo ≠ .ok then some (chkLeakyQuant tin slope.t tout qi qs qo, mem)
    else (slope.val smem).bind fun a =>
      (leakyIdentity m (qi.scaleAt 0) (qi.fracAt 0) (qo.scaleAt 0) (qo.fracAt 0)).bind fun ident =>
      let alpha := leakyAlpha m ident (qs.zpAt 0) (qs.scaleAt 0) (qs.fracAt 0) a
      (leakyLoops tin tout (leakySa m (qi.zpAt 0) (qo.zpAt 0) ident alpha) mem).map fun mem' => (.ok, mem')

/-- private/src/mli_check.cc:1922-1973 `mli_chk_prelu` for `axis ≠ -1`, for equal element types and non-null pointers;
`stale`: what the shape of the slope contains behind its rank (the code does not compare the ranks). -/
def chkPrelu (axis : Int) (tin slope tout : Tensor) (stale : Nat → Int) : Option Status :=
  (chkTensors [tin, slope, tout]).bind fun s =>
    if s ≠ .ok then some s
    else if !sameShape tin tout then some .shapeMismatch
    else if ¬ axis < tin.dims.length then some .badFuncCfg
    else if !(innerOne tin && innerOne slope && innerOne tout) then some .incompatibleTensors
    else if ¬ ∀ i < tin.dims.length, rawShape slope stale i = if (i : Int) = axis then tin.shape.getD i 0 else 1 then
      some .incompatibleTensors
    else some .ok

/-- private/src/mli_check.cc:1922-1973 `mli_chk_prelu` for `axis = -1`, for equal element types and non-null pointers. -/
def chkPreluScalar (tin slope tout : Tensor) : Option Status :=
  (checkTensorPrivate tin).bind fun s => if s ≠ .ok then some s else
  (chkScalarTensor slope).bind fun s => if s ≠ .ok then some s else
  (checkTensorPrivate tout).bind fun s => if s ≠ .ok then some s else
    if !sameShape tin tout then some .shapeMismatch
    else if !(innerOne tin && innerOne tout) then some .incompatibleTensors
    else some .ok

/-- mli_krn_prelu_ref.h:97-123, 249-277: loops over the dimensions other than `axis`, which is not the innermost one
(private/mli_prv_tensor.h:491-537 `mli_prv_get_non_axis_tensor`, `mli_prv_reorder_generic_tensor`); the innermost step is 1. -/
def preluOuter (ds : List (JDim 2)) (axis : Nat) (o : Fin 2 → Int) (f : (Fin 2 → Int) → Buf → Option Buf) (d : Buf) : Option Buf :=
  match padFront (ds.eraseIdx axis) with
  | [d0, d1, d2, d3] => forRange d1.n.toNat (fun p1 => forRange d2.n.toNat (fun p2 =>
      flatJ d3.n (fun j => o j + pos4 d0 d1 d2 d3 0 p1 p2 0 j) f)) d
  | _ => none

/-- mli_krn_prelu_ref.h:135-150, 289-305: loops over the dimensions other than the innermost one. -/
def preluInner (ds : List (JDim 2)) (o : Fin 2 → Int) (f : (Fin 2 → Int) → Buf → Option Buf) (d : Buf) : Option Buf :=
  match padFront ds with
  | [d0, d1, d2, d3] => forRange d0.n.toNat (fun p0 => forRange d1.n.toNat (fun p1 => forRange d2.n.toNat (fun p2 =>
      f (fun j => o j + pos4 d0 d1 d2 d3 p0 p1 p2 0 j)))) d
  | _ => none

/-- mli_krn_prelu_ref.h:153-210, 308-387, the loops of `prelu_fx_run` and `prelu_sa8_run`: `g idx` is the operation on the elements with index
`idx` in dimension `axis`.  The code reads `shape[axis]`, so a negative `axis` is undefined. -/
def preluLoops (axis : Int) (tin slope tout : Tensor) (stale : Nat → Int) (g : Int → Option (Int → Int)) (mem : Buf) : Option Buf :=
  if axis < 0 then none else
  let ds := joint2 tin.dims tout.dims
  let n := rawShape slope stale axis.toNat
  let si := tin.strides.getD axis.toNat 0
  let so := tout.strides.getD axis.toNat 0
  forRange n.toNat (fun (idx : Nat) d => (g idx).bind fun h =>
    let f := fun (a : Fin 2 → Int) (d : Buf) => (d.rd (tin.base + a 0)).bind fun x => d.wr (tout.base + a 1) (h x)
    if axis = tin.dims.length - 1 then preluInner ds (pair (idx * si) (idx * so)) f d
    else preluOuter ds axis.toNat (pair (idx * si) (idx * so)) f d) mem

/-- kernels/transform/mli_krn_prelu.cc:21-49 `mli_krn_prelu_fx8`, `_fx16` with mli_check.cc:1975-2007 and mli_krn_prelu_ref.h:153-210; one slope
(`axis = -1`) is left to the leaky ReLU, which checks again. -/
def krnPreluFx (m : Rnd) (w : Nat) (fi fs fo : Int) (smem : Buf) (axis : Int) (tin : Tensor) (slope : Operand) (tout : Tensor)
    (stale : Nat → Int) (mem : Buf) : Option (Status × Buf) :=
  if axis = -1 then
    (chkPreluScalar tin slope.t tout).bind fun s =>
      if s ≠ .ok then some (s, mem)
      else if fo ≠ fi then some (.specParamMismatch, mem)
      else krnLeakyFx m w fi fs fo smem tin slope tout mem
  else
  (chkPrelu axis tin slope.t tout stale).bind fun s =>
    if s ≠ .ok then some (s, mem)
    else if fo ≠ fi then some (.specParamMismatch, mem)
    else (preluLoops axis tin slope.t tout stale (fun idx => (smem.rd (slope.t.base + idx)).map fun a => leakyFx m w a (fi + fs - fo)) mem).map
      fun mem' => (.ok, mem')

/-- kernels/transform/mli_krn_prelu.cc:51-64 `mli_krn_prelu_sa8` with mli_check.cc:2009-2036 and mli_krn_prelu_ref.h:308-387. -/
def krnPreluSa (m : Rnd) (qi qs qo : SaQ) (smem : Buf) (axis : Int) (tin : Tensor) (slope : Operand) (tout : Tensor)
    (stale : Nat → Int) (mem : Buf) : Option (Status × Buf) :=
  if axis = -1 then
    (chkPreluScalar tin slope.t tout).bind fun s =>
      if s ≠ .ok then some (s, mem)
      else if chkLeakyQuant tin slope.t tout qi qs qo ≠ .ok then some (chkLeakyQuant tin slope.t tout qi qs qo, mem)
      else krnLeakySa m qi qs qo smem tin slope tout mem
  else
  (chkPrelu axis tin slope.t tout stale).bind fun s =>
    if s ≠ .ok then some (s, mem)
    else if chkLeakyQuant tin slope.t tout qi qs qo ≠ .ok then some (chkLeakyQuant tin slope.t tout qi qs qo, mem)
    else (leakyIdentity m (qi.scaleAt 0) (qi.fracAt 0) (qo.scaleAt 0) (qo.fracAt 0)).bind fun ident =>
      (preluLoops axis tin slope.t tout stale (fun idx => (smem.rd (slope.t.base + idx)).map fun a =>
        leakySa m (qi.zpAt 0) (qo.zpAt 0) ident (leakyAlpha m ident (qs.zpAt 0) (qs.scaleAt 0) (qs.fracAt 0) a)) mem).map
      fun mem' => (.ok, mem')

end Mli
