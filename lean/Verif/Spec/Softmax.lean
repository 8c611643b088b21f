import Verif.Spec.Axis
import Verif.Spec.Real

/-!
# Softmax along an axis
-/

namespace Mli.Spec

/-- `exp (x is) / Σ exp (x js)` over the slice along `axis` that position `is` is in. -/
noncomputable def softmax (axis : Int) (shape : List Int) (x : List Int → ℝ) (is : List Int) : ℝ :=
  Real.exp (x is) / ((slice axis shape is).map fun js => Real.exp (x js)).sum

end Mli.Spec
