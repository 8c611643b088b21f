import Verif.Model.Lut

/-!
# Model of the ReLU kernels
-/

namespace Mli

open Spec (lo hi InRange Rnd)

/-- include/mli_types.h:196-202 `mli_relu_type`. -/
inductive ReluType
  | none | gen | one | six
deriving DecidableEq, Repr

/-- private/mli_prv_tensor.h:942-1010 `mli_prv_get_relu_limits` for elements of `w` bits with zero
point, scale and shift of the tensor (0, 1 and the fractional bits for fixed-point tensors).
The scale is positive (checked by `mli_chk_relu_sa8`), so the C division rounds down;
`6 << shift`, `1 << shift` fit 32 bits for the amounts that reach them. -/
def reluLimits (w : Nat) (ty : ReluType) (zero scale shift : Int) : Int × Int :=
  let minVal := lo w
  let maxVal := hi w
  match ty with
  | .gen => (wrap 16 (max zero minVal), wrap 16 maxVal)
  | .six =>
    let six := if shift ≥ 0 then (if shift < 28 then ((6 : Int) * 2 ^ shift.toNat).tdiv scale else maxVal)
      else (if shift > -3 then ((6 : Int) >>> (-shift).toNat).tdiv scale else 0)
    let six := six + zero
    (wrap 16 (max zero minVal), wrap 16 (min six maxVal))
  | .one =>
    let one := if shift ≥ 0 then (if shift < 30 then ((2 : Int) ^ shift.toNat).tdiv scale else maxVal) else 0
    let negOne := -one + zero
    let one := one + zero
    (wrap 16 (max negOne minVal), wrap 16 (min one maxVal))
  | .none => (wrap 16 minVal, wrap 16 maxVal)

/-- private/src/mli_check.cc:1472-1495 `mli_chk_relu`, for equal element types and non-null pointers. -/
def chkRelu (tin tout : Tensor) : Option Status := do
  let s ← checkTensorPrivate tin
  if s ≠ .ok then return s
  let s ← checkTensorPrivate tout
  if s ≠ .ok then return s
  if !sameShape tin tout then return .shapeMismatch
  if !(innerOne tin && innerOne tout) then return .incompatibleTensors
  return .ok

/-- kernels/transform/impl/mli_krn_relu_ref.h:54-96 `mli_krn_relu_fx_run` with the element loop
28-52 (one lane) and kernels/transform/mli_krn_relu_fx.cc: the kernels for elements of `w` bits.
The zero point, scale and shift are those of the input.  `mem` holds input and output. -/
def krnRelu (w : Nat) (ty : ReluType) (zero scale shift : Int) (tin tout : Tensor) (mem : Buf) :
    Option (Status × Buf) := do
  let s ← chkRelu tin tout
  if s ≠ .ok then return (s, mem)
  let lim := reluLimits w ty zero scale shift
  let minVal := wrap w lim.1
  let maxVal := wrap w lim.2
  let mem' ← traverse (joint2 tin.dims tout.dims) (fun a d =>
    (d.rd (tin.base + a 0)).bind fun v =>
    d.wr (tout.base + a 1) (minFx (maxFx v minVal) maxVal)) mem
  return (.ok, mem')

end Mli
