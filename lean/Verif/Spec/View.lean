import Verif.Spec.Tensor

/-!
# What a tensor view is

Positions of a view that merges (or splits) two neighbouring dimensions.
-/

namespace Mli.Spec

/-- Replace the coordinates number `k` and `k+1` by one coordinate computed from both. -/
def mergeAt (f : Int → Int → Int) : Nat → List Int → List Int
  | 0, a :: b :: xs => f a b :: xs
  | k + 1, x :: xs => x :: mergeAt f k xs
  | _, xs => xs

/-- Coordinate-wise sum. -/
def addPos (p q : List Int) : List Int := List.zipWith (· + ·) p q

end Mli.Spec
