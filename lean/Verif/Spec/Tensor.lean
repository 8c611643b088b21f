/-!
# Tensor specification

What a user of an `mli_tensor` relies on: an element is named by a multi-index inside the
shape and lives `Σ index * stride` elements behind the data pointer.
Lists run from the outermost to the innermost dimension, as in the API.
-/

namespace Mli.Spec

/-- `is` is a multi-index inside `shape`. -/
def InShape : (shape is : List Int) → Prop
  | [], [] => True
  | n :: ns, i :: is => (0 ≤ i ∧ i < n) ∧ InShape ns is
  | _, _ => False

/-- Element offset of a multi-index. -/
def offset : (strides is : List Int) → Int
  | s :: ss, i :: is => i * s + offset ss is
  | _, _ => 0

/-- Product of the dimensions. -/
def prod : List Int → Int
  | [] => 1
  | n :: ns => n * prod ns

/-- Number of elements between the first and the last element of a tensor, both included. -/
def extent : (shape strides : List Int) → Int
  | n :: ns, s :: ss => (n - 1) * s + extent ns ss
  | _, _ => 1

/-- Every stride steps over the complete next inner dimension. -/
def StridesNested : (shape strides : List Int) → Prop
  | _ :: n :: ns, s :: t :: ts => n * t ≤ s ∧ StridesNested (n :: ns) (t :: ts)
  | _, _ => True

/-- Remove from `xs` the first `k` positions at which `sizes` is 1. -/
def dropOnes {α : Type} : (k : Nat) → (sizes : List Int) → (xs : List α) → List α
  | k + 1, n :: ns, x :: xs => if n = 1 then dropOnes k ns xs else x :: dropOnes (k + 1) ns xs
  | _, _, xs => xs

instance : ∀ (shape is : List Int), Decidable (InShape shape is)
  | [], [] => isTrue trivial
  | _ :: _, [] => isFalse id
  | [], _ :: _ => isFalse id
  | n :: ns, i :: is => by
    unfold InShape
    have := instDecidableInShape ns is
    infer_instance

end Mli.Spec
