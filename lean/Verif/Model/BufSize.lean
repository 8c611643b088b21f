import Verif.Model.Iter
import Verif.Model.View

/-!
# Model of the buffer sizes reported to the compiler

`include/mli_service_functions.hpp` (`GetBufferSize`), `include/mli_types.hpp` (`get_total_elem_num`) and, in
`include/mli_iterator.hpp`, `UpdateMemstrides`, `ComputeTiledMaxBufferSize`, `ShrinkBuffer`, `ShrinkCfg`.
All sizes are `uint32_t` counts of elements.
-/

namespace Mli.Iter

open Mli.Cs

/-- include/mli_service_functions.hpp:24-38 and 41-49 `GetBufferSize(tensor)`, `GetBufferSize(rank, shape, stride)`;
the loop runs from the last dimension to the first.  The first overload runs over the unused dimensions too: their
stride is 0 and they add nothing.  The size getters of the compiler kernels return this value:
mli_krn_conv2d_compiler.cc:57-62, 104-106, mli_krn_depthwise_conv2d_compiler.cc:58-63, 108-110,
mli_krn_transpose_conv_compiler.cc:38, mli_krn_sumpool_compiler.cc:87-102, mli_krn_maxpool_compiler.cc:86-101,
mli_krn_rescale_compiler.cc:43-46, mli_krn_permute_compiler.cc:32-33, mli_krn_clip_compiler.cc:38-41,
mli_krn_add_compiler.cc:54-56, mli_krn_fully_connected_compiler.cc:203-217. -/
def bufSize (shape strides : List Int) : Int :=
  u32 ((shape.zip strides).foldr (fun p acc => u32 (acc + u32 (p.2 * u32 (p.1 - 1)))) 0 + 1)

/-- include/mli_service_functions.hpp:52-61: the loop of `GetBufferSize(rank, shape)`; returns `ret_val` and the
running `int32_t` stride. -/
def bufSizeLoop : List Int → Int × Int
  | [] => (0, 1)
  | n :: ns =>
    let r := bufSizeLoop ns
    (u32 (r.1 + u32 (r.2 * u32 (n - 1))), wrap 32 (u32 (r.2 * n)))

/-- include/mli_service_functions.hpp:52-61 `GetBufferSize(rank, shape)`. -/
def bufSizeContig (shape : List Int) : Int := u32 ((bufSizeLoop shape).1 + 1)

/-- include/mli_types.hpp:686-690 `get_total_elem_num`. -/
def totalElems (shape : List Int) : Int := shape.foldl (fun acc n => u32 (acc * n)) 1

/-- include/mli_iterator.hpp:1094-1105: the loop of `UpdateMemstrides`, last dimension first; the list holds
`get_size(get_order(i))` for `i = 0, 1, …`, the second argument the strides before.  Returns `mem_stride` and the
new strides.  (An iterator of higher rank than the tensor writes behind the array: not modelled.) -/
def packStrides : List Int → List Int → Int × List Int
  | n :: ns, s :: ss =>
    let r := packStrides ns ss
    if n = 0 then (r.1, s :: r.2) else (u32 (r.1 * n), wrap 32 r.1 :: r.2)
  | _, ss => (1, ss)

/-- include/mli_iterator.hpp:1094-1105 `UpdateMemstrides`; `tilesNum` is `m_buf_tiles_num`.  A negative order, which
the code uses as an index, is read as 0. -/
def updStrides (tilesNum : Int) (cfg : List DimCfg) (strides : List Int) : List Int :=
  if tilesNum ≠ 0 then
    (packStrides (cfg.map fun c => (cfg.map (·.size)).getD c.order.toNat 0) strides).2
  else strides

/-- include/mli_iterator.hpp:992-1010 `ComputeTiledMaxBufferSize`.  (The code declares the strides it passes on as
`uint32_t`, where `GetBufferSize` takes `int32_t`: the bits are the same.) -/
def tiledMaxSize (tilesNum : Int) (cfg : List DimCfg) (dims strides : List Int) : Int :=
  if tilesNum = 0 then bufSize dims strides
  else bufSize (cfg.map fun c => max c.firstSize c.size) strides

/-! ## `ShrinkBuffer` -/

/-- include/mli_iterator.hpp:831-837: the largest tile along one dimension. -/
def maxTile (c : DimCfg) : Int :=
  if c.count > 1 then
    let m := max c.lastSize c.firstSize
    if c.count > 2 then max m c.size else m
  else c.lastSize

/-- include/mli_iterator.hpp:840-850: extent of a cyclic buffer for `nTiles` tiles along the first iteration
dimension (the loops of lines 845 and 848 as one product). -/
def cyclicExtent (c : DimCfg) (nTiles : Int) : Int :=
  if nTiles > 1 then
    if c.count = 1 then u32 (maxTile c * nTiles)
    else if c.count = 2 then u32 (u32 (c.lastSize + c.firstSize) + (nTiles - 2) * u32 c.inc)
    else u32 (u32 (maxTile c + max c.firstSize (u32 c.inc)) + (nTiles - 2) * u32 c.inc)
  else maxTile c

/-- lib/src/private/mli_math_macros.h:17 `CEIL_RND` on `uint32_t` operands (`a = 0` divides by zero in the code). -/
def ceilRnd (n a : Int) : Int := u32 (a * ceilDivU n a)

/-- include/mli_iterator.hpp:830-856: one iteration of the dimension loop of `ShrinkBuffer`, on the array `dims`. -/
def shrinkStep (nTiles : Int) (cyclic : Bool) (aligns : List Int) (i : Nat) (c : DimCfg) (dims : List Int) : List Int :=
  if c.order ≥ 0 then
    let d := c.order.toNat
    let align := aligns.getD d 0
    let dims :=
      if cyclic && i == 0 then
        dims.set d (max (cyclicExtent c nTiles) (u32 (u32 (align * nTiles) + u32 (c.size - u32 c.inc))))
      else dims.set d (ceilRnd (maxTile c) align)
    if cyclic then dims else dims.set 0 (u32 (dims.getD 0 0 * nTiles))
  else dims

/-- include/mli_iterator.hpp:830-856: the dimension loop from iteration dimension `i` on. -/
def shrinkFrom (nTiles : Int) (cyclic : Bool) (aligns : List Int) : Nat → List DimCfg → List Int → List Int
  | _, [], dims => dims
  | i, c :: cs, dims => shrinkFrom nTiles cyclic aligns (i + 1) cs (shrinkStep nTiles cyclic aligns i c dims)

/-- include/mli_iterator.hpp:238-246 `ShrinkCfg`. -/
def shrinkCfg (cyclic : Bool) : List DimCfg → List DimCfg
  | [] => []
  | c :: cs => (if cyclic then { c with lastInc := wrap 32 c.lastSize } else { c with inc := 0, firstInc := 0, lastInc := 0 })
      :: cs.map fun c => { c with inc := 0, firstInc := 0, lastInc := 0 }

/-- include/mli_iterator.hpp:824-861 `ShrinkBuffer`: the dimensions of the shrunk buffer, the strides the iterator's
tensor gets, its configuration and the returned number of elements.  The shape of the iterator's tensor stays. -/
def shrinkBuffer (cfg : List DimCfg) (dims : List Int) (nTiles : Int) (cyclic : Bool) (aligns : List Int) :
    List Int × List Int × List DimCfg × Int :=
  let d := shrinkFrom nTiles cyclic aligns 0 cfg dims
  (d, (contigStrides d).2, shrinkCfg cyclic cfg, totalElems d)

end Mli.Iter
