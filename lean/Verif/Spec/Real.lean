import Mathlib.Analysis.SpecialFunctions.Sigmoid

/-!
# Real values of fixed-point numbers
-/

namespace Mli.Spec

/-- The real number an integer `v` with `f` fractional bits stands for. -/
noncomputable def fxReal (v f : Int) : ℝ := (v : ℝ) / (2 : ℝ) ^ f

/-- The real number nearest to `x` that lies in the range of a `w`-bit number. -/
noncomputable def limitReal (w : Nat) (x : ℝ) : ℝ := max (-(2 : ℝ) ^ (w - 1)) (min ((2 : ℝ) ^ (w - 1) - 1) x)

/-- The exponential function, cut off at 1 for positive arguments. -/
noncomputable def expNeg (x : ℝ) : ℝ := Real.exp (min x 0)

end Mli.Spec
