import Verif.Model.Tensor
import Verif.Model.Mem

/-!
# Squashing of dimensions and the traversal loops of element-wise kernels

The code squashes two (input, output) or three (input 1, input 2, output) tensors together; both
versions have the same text, so the model treats `k` tensors at once.  All of them have the same
shape (the kernels check it beforehand, private/src/mli_check.cc:378-385), so a joint dimension
has one size and one stride per tensor.  Products of sizes are bounded by the tensor capacity and
cannot wrap for accepted tensors, so they are modelled without wrapping.
-/

namespace Mli

/-- Dimension `i` of `k` tensors of equal shape. -/
structure JDim (k : Nat) where
  n : Int
  s : Fin k → Int

/-- The strides of two tensors. -/
def pair (a b : Int) : Fin 2 → Int := fun j => if j = 0 then a else b

/-- The strides of three tensors. -/
def triple (a b c : Int) : Fin 3 → Int := fun j => if j = 0 then a else if j = 1 then b else c

/-- Joint dimensions of two tensors of the same shape, outermost first. -/
def joint2 (a b : List Dim) : List (JDim 2) := List.zipWith (fun d e => ⟨d.shape, pair d.stride e.stride⟩) a b

/-- Joint dimensions of three tensors of the same shape, outermost first. -/
def joint3 : List Dim → List Dim → List Dim → List (JDim 3)
  | d :: ds, e :: es, f :: fs => ⟨d.shape, triple d.stride e.stride f.stride⟩ :: joint3 ds es fs
  | _, _, _ => []

/-- private/mli_prv_tensor.h:548-563 (two tensors), 629-648 (three tensors): the merging loop.
Lists are innermost first; `mem_stride[i-1] == shape[i]` is tested for every tensor; on success
dimension `i-1` becomes the product with stride 1 and the loop goes on with `i-1`. -/
def squashLoop {k : Nat} : List (JDim k) → List (JDim k)
  | d0 :: d1 :: ds =>
    if ∀ j, d1.s j = d0.n then squashLoop (⟨d1.n * d0.n, fun _ => 1⟩ :: ds) else d0 :: d1 :: ds
  | ds => ds
termination_by l => l.length

/-- private/mli_prv_tensor.h:564-578 and 523-537: move the remaining dimensions to the end of the
four slots and fill the front with shape 1, stride 0. -/
def padFront {k : Nat} (ds : List (JDim k)) : List (JDim k) :=
  List.replicate (4 - ds.length) ⟨1, fun _ => 0⟩ ++ ds

/-- private/mli_prv_tensor.h:396-465 `mli_prv_get_generic_tensor`: fill the end with shape 1, stride 0. -/
def padBack {k : Nat} (ds : List (JDim k)) : List (JDim k) :=
  ds ++ List.replicate (4 - ds.length) ⟨1, fun _ => 0⟩

/-- private/mli_prv_tensor.h:543-579, 624-670 `mli_prv_squash_generic_tensor`. -/
def squashGeneric {k : Nat} (ds : List (JDim k)) : List (JDim k) := padFront (squashLoop ds.reverse).reverse

/-- private/mli_prv_tensor.h:581-600, 602-622 `mli_prv_squash_tensor_to_one_dim`, the loop; lists
innermost first; `shape` is the running product, result 0 when a dimension cannot be merged. -/
def oneDimLoop {k : Nat} (shape : Int) : List (JDim k) → Int
  | [] => shape
  | d :: ds => if ∀ j, d.s j = shape then oneDimLoop (shape * d.n) ds else 0

/-- private/mli_prv_tensor.h:581-600, 602-622; for rank 0 the code reads `shape[-1]` (`none`). -/
def squashOneDim {k : Nat} (ds : List (JDim k)) : Option Int :=
  match ds.reverse with
  | [] => none
  | d :: rest => some (oneDimLoop d.n rest)

/-- Offset of a loop point in each tensor, `POS(tensor, pos0, pos1, pos2, pos3)`
(private/mli_prv_tensor.h, macro `POS`). -/
def pos4 {k : Nat} (d0 d1 d2 d3 : JDim k) (p0 p1 p2 p3 : Nat) : Fin k → Int :=
  fun j => p0 * d0.s j + p1 * d1.s j + p2 * d2.s j + p3 * d3.s j

/-- The four loops over a generic tensor, body `f` gets the offset in each tensor. -/
def nest4J {k : Nat} {σ : Type} (ds : List (JDim k)) (f : (Fin k → Int) → σ → Option σ) (s : σ) : Option σ :=
  match ds with
  | [d0, d1, d2, d3] =>
    forRange d0.n.toNat (fun p0 => forRange d1.n.toNat (fun p1 => forRange d2.n.toNat (fun p2 =>
      forRange d3.n.toNat (fun p3 => f (pos4 d0 d1 d2 d3 p0 p1 p2 p3))))) s
  | _ => none

/-- The inner loop over `count` adjacent elements from offsets `o` on
(e.g. kernels/transform/impl/mli_krn_relu_ref.h:27-53 with one lane per vector). -/
def flatJ {k : Nat} {σ : Type} (count : Int) (o : Fin k → Int) (f : (Fin k → Int) → σ → Option σ) (s : σ) :
    Option σ :=
  forRange count.toNat (fun i => f (fun j => o j + i)) s

/-- Three loops around the inner loop over adjacent elements
(e.g. kernels/transform/impl/mli_krn_relu_ref.h:83-91). -/
def nest3J {k : Nat} {σ : Type} (ds : List (JDim k)) (f : (Fin k → Int) → σ → Option σ) (s : σ) : Option σ :=
  match ds with
  | [d0, d1, d2, d3] =>
    forRange d0.n.toNat (fun p0 => forRange d1.n.toNat (fun p1 => forRange d2.n.toNat (fun p2 =>
      flatJ d3.n (pos4 d0 d1 d2 d3 p0 p1 p2 0) f))) s
  | _ => none

/-- The traversal of ReLU-like and element-wise kernels: one flat loop when everything can be
merged, else the generic loops (kernels/transform/impl/mli_krn_relu_ref.h:71-93,
kernels/eltwise/impl/mli_krn_eltwise_ref.h). -/
def traverse {k : Nat} {σ : Type} (ds : List (JDim k)) (f : (Fin k → Int) → σ → Option σ) (s : σ) : Option σ := do
  let shape ← squashOneDim ds
  if shape ≠ 0 then flatJ shape (fun _ => 0) f s else nest3J (squashGeneric ds) f s

end Mli
