import Verif.Spec.Arith
import Verif.Spec.Scale

/-!
# Specification of leaky ReLU
-/

namespace Mli.Spec

/-- Fixed point: `r` is `x` if that is not negative, else `x` times the slope `a / 2^f`, rounded and limited to `w` bits. -/
def LeakyFx (m : Rnd) (w : Nat) (a f x r : Int) : Prop :=
  if 0 ≤ x then r = x else ∃ v, Scaled m (x * a) f v ∧ r = clamp w v

/-- Leaky ReLU of a number. -/
def leakyQ (slope x : ℚ) : ℚ := if 0 ≤ x then x else slope * x

end Mli.Spec
