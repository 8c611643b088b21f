import Verif.Model.Iter
import Verif.Model.View

/-!
# Model of the operations on tilings (include/mli_iterator.hpp, class `IteratorCfg`) and on the granularity of tensors

`RemoveOverlapAdjacentTiles`, `ApplyPrePadding`, `transpose_order`, `ConvertGran`, `Next(offset_inc)`, and `Tensor::ConvertGran`.
-/

namespace Mli.Iter

/-- include/mli_iterator.hpp:250-259 `RemoveOverlapAdjacentTiles`, on the entries of the first iteration dimension.  The sizes are `uint32_t`, the increments `int32_t`;
the signed subtraction of line 256 is not checked for overflow. -/
def removeOverlapDim (c : DimCfg) : DimCfg :=
  if c.count > 1 then
    let overlap := wrap 32 (u32 (c.size - c.inc))
    let lastSize := u32 (c.lastSize - overlap)
    { c with
      firstInc := wrap 32 c.firstSize
      size := u32 c.inc
      lastSize
      lastInc := c.lastInc - overlap
      code := calcDiffCode c.count c.firstSize (u32 c.inc) lastSize }
  else c

/-- include/mli_iterator.hpp:250-259, 864-866 `RemoveOverlapAdjacentTiles`. -/
def removeOverlap : List DimCfg → List DimCfg
  | c :: cs => removeOverlapDim c :: cs
  | [] => []

/-- include/mli_iterator.hpp:266-275 `ApplyPrePadding`, one iteration dimension: `int32_t` members, `uint32_t` padding. -/
def prePadDim (pad : Nat → Int) (c : DimCfg) : DimCfg :=
  if c.order ≥ 0 ∧ c.count > 1 then
    { c with
      firstInc := wrap 32 (u32 (c.firstInc + pad c.order.toNat))
      lastInc := wrap 32 (u32 (c.lastInc - pad c.order.toNat)) }
  else c

/-- include/mli_iterator.hpp:266-275, 868-870 `ApplyPrePadding`. -/
def applyPrePadding (cfg : List DimCfg) (pad : Nat → Int) : List DimCfg := cfg.map (prePadDim pad)

/-- include/mli_iterator.hpp:338-359 `transpose_order`, for an argument that passes its assertions (a permutation). -/
def transposeOrder (cfg : List DimCfg) (newOrder : List Nat) : List DimCfg :=
  cfg.map fun c => { c with order := if c.order < 0 then -1 else newOrder.getD c.order.toNat 0 }

/-- lib/src/private/mli_math_macros.h:16 `CEIL_DIV` on `int32_t` operands (division towards zero; the signed operations are not checked for overflow). -/
def ceilDivS (a b : Int) : Int := (a + b - 1).tdiv b

/-- include/mli_iterator.hpp:298-307 `ConvertGran`, one iteration dimension.  Sizes are computed in `uint32_t`, increments in `int32_t`. -/
def convertGranDim (tnsDim old new : Int) (c : DimCfg) : DimCfg :=
  if c.order = tnsDim then
    { c with
      firstSize := ceilDivU (u32 (c.firstSize * old)) new
      size := ceilDivU (u32 (c.size * old)) new
      lastSize := ceilDivU (u32 (c.lastSize * old)) new
      firstInc := ceilDivS (c.firstInc * old) new
      inc := ceilDivS (c.inc * old) new
      lastInc := ceilDivS (c.lastInc * old) new }
  else c

/-- include/mli_iterator.hpp:298-307 `ConvertGran`. -/
def convertGran (cfg : List DimCfg) (tnsDim old new : Int) : List DimCfg := cfg.map (convertGranDim tnsDim old new)

/-- include/mli_iterator.hpp:939-963 `Next(offset_inc)`: returns the increment of the offset in elements, the new tile indices and `done`; `stride` are the memory strides of
the tensor.  (The code adds up in `int32_t` with `uint32_t` products: the sum is taken modulo 2^32 here by the caller.) -/
def nextOffs (stride : List Int) : List DimCfg → List Int → Int × List Int × Bool
  | c :: cs, i :: is =>
    if c.order < 0 then
      let (o, is', done) := nextOffs stride cs is
      (o, i :: is', done)
    else
      let ms := stride.getD c.order.toNat 0
      if i = c.count - 1 then
        let (o, is', done) := nextOffs stride cs is
        (c.lastInc * ms + o, 0 :: is', cs.isEmpty || done)
      else if i = 0 then (c.firstInc * ms, (i + 1) :: is, false)
      else (c.inc * ms, (i + 1) :: is, false)
  | _, _ => (0, [], false)

/-- A caller that adds the increments returned by `Next(offset_inc)` to an `int32_t` offset (mli_iterator.hpp:938 "to increment outside the iterator"), `n` calls. -/
def accOffs (stride : List Int) (cfg : List DimCfg) : Nat → Int × List Int
  | 0 => (0, cfg.map fun _ => 0)
  | n + 1 =>
    let (acc, idx) := accOffs stride cfg n
    let (o, idx', _) := nextOffs stride cfg idx
    (wrap 32 (acc + o), idx')

end Mli.Iter

namespace Mli.Cs

/-- include/mli_types.hpp:815-830 `Tensor::ConvertGran` with `reverse_order == false`, the descriptor without the buffer; `old` is the element size of the buffer (the old
vector size).  The outer strides are divided by the stride of the last but one dimension (line 828, signed division towards zero).  The offset is not converted. -/
def View.convertGran (v : View) (old new : Int) : View :=
  let l := v.rank - 1
  let n := (v.dims.getD l (0, 0)).1
  let oldstride := (v.dims.getD (l - 1) (0, 0)).2
  let newstride := wrap 32 (Iter.ceilDivU (u32 (oldstride * old)) (u32 new))
  { v with dims := v.dims.mapIdx fun i d =>
      if i = l then (Iter.ceilDivU (u32 (n * old)) (u32 new), d.2)
      else if i < l then (d.1, d.2.tdiv oldstride * newstride)
      else d }

/-- include/mli_types.hpp:817-819 `Tensor::ConvertGran`: the size of the buffer afterwards (`size_` is in bytes, see lines 340-346: sizes and offsets of buffers are subtracted). -/
def granBufSize (size old new : Int) : Int := u32 (size * old) / u32 new

end Mli.Cs
