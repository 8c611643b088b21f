import Verif.Spec.Tensor

/-!
# Row-major traversal

The plain meaning of "for every element": all multi-indices of a shape, each exactly once, last
coordinate fastest.
-/

namespace Mli.Spec

/-- All multi-indices of `shape` in row-major order. -/
def rowMajor : (shape : List Int) → List (List Int)
  | [] => [[]]
  | n :: ns => (List.range n.toNat).flatMap fun (i : Nat) => (rowMajor ns).map fun is => (i : Int) :: is

end Mli.Spec
