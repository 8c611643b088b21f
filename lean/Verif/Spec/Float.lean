import Mathlib.Algebra.Order.Field.Rat
import Mathlib.Data.Rat.Floor

/-! # Single-precision floating-point numbers (IEEE 754 binary32) as bit patterns -/

namespace Mli.Spec

/-- The sign bit. -/
def f32neg (b : Int) : Bool := decide (2 ^ 31 ≤ b)

/-- Exponent and mantissa without the sign. -/
def f32mag (b : Int) : Int := b % 2 ^ 31

/-- The number for exponent and mantissa: `mantissa * 2^-149` for exponent 0, else `(2^23 + mantissa) * 2^(exponent - 150)`. -/
def magVal (m : Int) : ℚ :=
  if m / 2 ^ 23 = 0 then (m : ℚ) * 2 ^ (-149 : Int) else ((2 ^ 23 + m % 2 ^ 23 : Int) : ℚ) * 2 ^ (m / 2 ^ 23 - 150 : Int)

/-- The number for a bit pattern; none for infinities and NaN. -/
def f32val (b : Int) : Option ℚ :=
  if 255 * 2 ^ 23 ≤ f32mag b then none else some (if f32neg b then -magVal (f32mag b) else magVal (f32mag b))

/-- `b` is the pattern of a finite number, and no single-precision number is closer to `v`. -/
def NearestFloat (b : Int) (v : ℚ) : Prop :=
  ∃ x, f32val b = some x ∧ ∀ b' x', 0 ≤ b' → b' < 2 ^ 32 → f32val b' = some x' → |x - v| ≤ |x' - v|

/-- The largest finite number. -/
def maxFloat : ℚ := (2 ^ 24 - 1) * 2 ^ 104

end Mli.Spec
