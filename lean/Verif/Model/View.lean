import Verif.Model.Mov

/-!
# Model of the tensor descriptor of the code-generation API (`include/mli_types.hpp`, class `Tensor`)

The buffer is left out: a descriptor is its element offset, its dimensions (shape and memory stride, one
pair for each of the `maxRank` array entries) and its rank.  Shapes and offsets are `uint32_t`, strides
`int32_t`; a product of both is computed in `uint32_t` and, when stored as a stride, converted back.
-/

namespace Mli.Cs

/-- include/mli_types.hpp:843-847 the members of `Tensor` without the buffer. -/
structure View where
  offs : Int
  /-- `(shape_[i], mem_stride_[i])` for `i < maxRank` -/
  dims : List (Int × Int)
  rank : Nat
  deriving DecidableEq, Repr

/-- The shape of the dimensions in use. -/
def View.shape (v : View) : List Int := (v.dims.take v.rank).map (·.1)

/-- include/mli_types.hpp:526-537 strides of the contiguous constructor, last dimension first; the first
component is the running `stride`. -/
def contigStrides : List Int → Int × List Int
  | [] => (1, [])
  | n :: ns =>
    let r := contigStrides ns
    (if n > 0 then wrap 32 (u32 (r.1 * n)) else r.1, r.1 :: r.2)

/-- include/mli_types.hpp:526-537 `Tensor(buf, shape, rank)`. -/
def contiguous (maxRank : Nat) (shape : List Int) : View where
  offs := 0
  dims := shape.zip (contigStrides shape).2 ++ List.replicate (maxRank - shape.length) (0, 0)
  rank := shape.length

/-- include/mli_types.hpp:700-706 `get_offset`. -/
def View.getOffset (v : View) (pos : List Int) : Int :=
  (List.range v.rank).foldl (fun acc i => u32 (acc + u32 (pos.getD i 0 * (v.dims.getD i (0, 0)).2))) 0

/-- include/mli_types.hpp:832-840 the buffer index accessed by `read<T>(offset)`, `write<T>(offset, _)`;
`es` is the element size and `sz = sizeof(T)`. -/
def View.access (v : View) (es sz off : Int) : Int := u32 (off + u32 (v.offs * es) / sz)

/-- include/mli_types.hpp:514-522 the completely specialised constructor, with the offset set after. -/
def mkView (maxRank : Nat) (offs : Int) (shape stride : List Int) (rank : Nat) : View where
  offs := offs
  dims := (List.range maxRank).map fun i => if i < rank then (shape.getD i 0, stride.getD i 0) else (0, 0)
  rank := rank

/-- include/mli_types.hpp:708-713 `slice(pos, size)`. -/
def View.slice (v : View) (pos size : List Int) : View :=
  mkView v.dims.length (u32 (v.offs + v.getOffset pos)) size (v.dims.map (·.2)) v.rank

/-- include/mli_types.hpp:715-719 `slice(offset, size)`. -/
def View.sliceOffset (v : View) (offset : Int) (size : List Int) : View :=
  mkView v.dims.length (u32 (v.offs + offset)) size (v.dims.map (·.2)) v.rank

/-- include/mli_types.hpp:721-724 `slice(size)`: the offset of the new tensor stays 0. -/
def View.sliceSize (v : View) (size : List Int) : View :=
  mkView v.dims.length 0 size (v.dims.map (·.2)) v.rank

/-- include/mli_types.hpp:726-743 `transpose`. -/
def View.transpose (v : View) (newOrder : List Nat) : View where
  offs := v.offs
  dims := newOrder.map fun a => v.dims.getD a (0, 0)
  rank := v.rank

/-- include/mli_types.hpp:746-777 the dimension loop of `split`; the output index `s` is the position in
the resulting list. -/
def splitDims (chunks : Int) (left : Bool) : Nat → List (Int × Int) → List (Int × Int)
  | _, [] => []
  | 0, (n, st) :: ds =>
    let m := n / chunks
    let ms := wrap 32 (u32 (m * st))
    if left then (chunks, ms) :: (m, st) :: ds else (m, st) :: (chunks, ms) :: ds
  | a + 1, d :: ds => d :: splitDims chunks left a ds

/-- include/mli_types.hpp:746-777 `split`. -/
def View.split (v : View) (axis : Nat) (chunks : Int) (left : Bool) : View where
  offs := v.offs
  dims := splitDims chunks left axis v.dims
  rank := v.rank + 1

/-- include/mli_types.hpp:780-805 the dimension loop of `combine` (both values of `reverse_order`: only
the asserted condition differs). -/
def combineDims : Nat → List (Int × Int) → List (Int × Int)
  | 0, (n0, s0) :: (n1, _) :: ds => (u32 (n0 * n1), s0) :: ds
  | a + 1, d :: ds => d :: combineDims a ds
  | _, ds => ds

/-- include/mli_types.hpp:780-805 `combine`. -/
def View.combine (v : View) (axis : Nat) : View where
  offs := v.offs
  dims := combineDims axis v.dims
  rank := v.rank - 1

end Mli.Cs
