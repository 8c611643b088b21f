import Verif.Spec.EltSa

/-! # Mean of quantised (SA8) numbers -/

namespace Mli.Spec

/-- The mean of the real numbers that `D` elements of sum `S` stand for. -/
def saMean (z s f : Int) (S D : Int) : ℚ := ((S : ℚ) - D * z) / D * scaleVal s f

/-- The error, in steps of the output, that average pooling with a multiplier of `b` bits may make on `D` elements of sum `S` with zero point `z`, for a
ratio `ρ` of the input scale to the output scale: one step, and a relative error of `2 ^ -(b - 1) + 2 ^ -12` of the stored mean, `2 ^ -13` of the
zero point. -/
def avgErr (b : Nat) (ρ : ℚ) (z S D : Int) : ℚ :=
  1 + ρ * (|(S : ℚ) / D| * (1 / 2 ^ (b - 1) + 1 / 2 ^ 12) + |(z : ℚ)| / 2 ^ 13)

/-- The largest ratio of the input scale to the output scale for which the bound holds, with a multiplier of `b` bits. -/
def avgMaxRatio (b : Nat) : ℚ := if b = 8 then 126 else 254

end Mli.Spec
