import Verif.Spec.Tensor
import Mathlib.Algebra.BigOperators.Group.Finset.Basic
import Mathlib.Algebra.Ring.Int.Defs

/-!
# Matrix-vector products

The input of a fully connected layer may have any shape; its elements are numbered in row-major order.
-/

namespace Mli.Spec

/-- Number of position `is` of a tensor of the given shape, in row-major order. -/
def flatIndex : (shape is : List Int) → Int
  | _ :: ns, i :: is => i * prod ns + flatIndex ns is
  | _, _ => 0

/-- `∑ X[i] * W[i]` over `n` elements. -/
def dotSum (n : Int) (X W : Int → Int) : Int := ∑ i ∈ Finset.range n.toNat, X i * W i

end Mli.Spec
