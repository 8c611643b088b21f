import Mathlib.Algebra.BigOperators.Group.Finset.Basic
import Mathlib.Algebra.BigOperators.Intervals
import Verif.Spec.Tensor

/-!
# Specification of reductions

The result at position `js` (0 in dimension `axis`) depends on the elements `x (js with coordinate axis = i)`, `0 ≤ i < n`.
-/

namespace Mli.Spec

/-- `y` is the largest of `x 0 .. x (n-1)`. -/
def IsMax (n : Nat) (x : Nat → Int) (y : Int) : Prop := (∃ i, i < n ∧ y = x i) ∧ ∀ i, i < n → x i ≤ y

end Mli.Spec
