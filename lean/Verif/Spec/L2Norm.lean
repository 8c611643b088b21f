import Verif.Spec.Axis
import Verif.Spec.Real

/-!
# L2 normalisation along an axis
-/

namespace Mli.Spec

/-- `x is / sqrt (Σ (x js)^2)` over the slice along `axis` that position `is` is in; 0 when all elements of the slice are 0. -/
noncomputable def l2norm (axis : Int) (shape : List Int) (x : List Int → ℝ) (is : List Int) : ℝ :=
  if ∀ js ∈ slice axis shape is, x js = 0 then 0 else x is / Real.sqrt ((slice axis shape is).map fun js => x js ^ 2).sum

end Mli.Spec
