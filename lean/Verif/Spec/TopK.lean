import Verif.Spec.Tensor

/-!
# Specification of top-k selection

`sel 0 .. sel (k-1)` are the `k` largest elements of a set, largest first.
-/

namespace Mli.Spec

structure TopK (elems : Int → Prop) (key : Int → Int) (k : Nat) (sel : Nat → Int) : Prop where
  mem : ∀ j, j < k → elems (sel j)
  distinct : ∀ i j, i < j → j < k → sel i ≠ sel j
  sorted : ∀ i j, i < j → j < k → key (sel j) ≤ key (sel i)
  largest : ∀ x, elems x → (∀ j, j < k → sel j ≠ x) → ∀ j, j < k → key x ≤ key (sel j)

/-- An element of slice `sl` of dimension `axis` (of the whole tensor if `axis` is negative). -/
def InSlice (shape : List Int) (axis sl : Int) (is : List Int) : Prop := InShape shape is ∧ (0 ≤ axis → is[axis.toNat]? = some sl)

/-- Number of slices. -/
def sliceCount (shape : List Int) (axis : Int) : Int := if 0 ≤ axis then shape.getD axis.toNat 0 else 1

end Mli.Spec
