import Mathlib.Data.Rat.Cast.Order
import Mathlib.Algebra.Order.Field.Power
import Mathlib.Algebra.Order.Field.Rat

/-!
# Quantization scales

A scale is an integer mantissa `s` with `f` fractional bits.
-/

namespace Mli.Spec

/-- The number that mantissa `s` with `f` fractional bits stands for. -/
def scaleVal (s f : Int) : ℚ := s * (2 : ℚ) ^ (-f)

/-- `a` is `b` up to a relative error `e`. -/
def RelErr (e a b : ℚ) : Prop := |a - b| ≤ e * |b|

/-- A number limited to `[l, h]`. -/
def limitQ (l h x : ℚ) : ℚ := max l (min h x)

end Mli.Spec

namespace Mli

/-- `b'` stands in for the bias `b`: it is the bias itself in builds with `FULL_ACCU` and when the bias has
less than 16 bits, and otherwise has a relative error of at most `2^-14`. -/
def BiasFor (full : Bool) (b b' : Int) : Prop := (full = true ∨ |b| < 2 ^ 15 → b' = b) ∧ |b' - b| * 2 ^ 14 ≤ |b|

end Mli
