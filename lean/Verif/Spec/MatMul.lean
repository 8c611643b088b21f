import Mathlib.Algebra.BigOperators.Group.Finset.Basic
import Mathlib.Algebra.BigOperators.Intervals

/-! # Specification of matrix multiplication -/

namespace Mli.Spec

/-- The element `(i, j)` of the product of the matrices `a - za` and `b - zb`. -/
def matProd (K : Nat) (a b : Int → Int → Int) (za zb i j : Int) : Int := ∑ k ∈ Finset.range K, (a i k - za) * (b k j - zb)

end Mli.Spec
