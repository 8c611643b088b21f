import Verif.Model.Mov

/-!
# Model of `include/mli_iterator.hpp`

An `IteratorCfg<iterRank>` is a list of per-iteration-dimension records; a `TensorIterator` state is
a list of (position, tile index) pairs of the same length plus the buffer offset.
-/

namespace Mli.Iter

/-- mli_iterator.hpp:484-493, the members of `IteratorCfg` for one iteration dimension. -/
structure DimCfg where
  order : Int
  count : Int
  firstInc : Int
  inc : Int
  lastInc : Int
  firstSize : Int
  size : Int
  lastSize : Int
  code : Nat
deriving DecidableEq, Repr

/-- mli_iterator.hpp:471-482 `CalcDiffCode`. -/
def calcDiffCode (count firstSize size lastSize : Int) : Nat :=
  if count > 1 then
    let c := if firstSize ≠ lastSize then 1 else 0
    if count > 2 ∧ firstSize ≠ size then
      if firstSize = lastSize then 2 else if size = lastSize then 3 else 4
    else c
  else 0

/-- mli_math_macros.h:16 `CEIL_DIV` on `uint32_t` operands. -/
def ceilDivU (a b : Int) : Int := u32 (u32 (a + b) - 1) / b

/-- mli_iterator.hpp:142-160: one dimension of the tiling constructor (`dim = order[i]`, `n` the
tensor dimension, `tile` the tile size, `skew` non-zero for the first iteration dimension only).
`uint32_t` arithmetic, stored to `int32_t` members where the code does so. -/
def tileDim (dim : Int) (n tile skew : Int) : DimCfg :=
  let count := wrap 32 (ceilDivU (u32 (n + skew)) tile)
  let firstSize := u32 (tile - skew)
  let lastSize := u32 (u32 (u32 (n + skew) - 1) % tile + 1)
  { order := dim
    count
    firstInc := wrap 32 firstSize
    inc := wrap 32 tile
    lastInc := wrap 32 (u32 (u32 (tile * u32 (1 - count)) + skew))
    firstSize
    size := tile
    lastSize
    code := calcDiffCode count firstSize tile lastSize }

/-- mli_iterator.hpp:142-160: the tiling constructor; `order` is the iteration order. -/
def tileCfg (shape : List Int) (tiles : List Int) (order : List Nat) (skew : Int) : List DimCfg :=
  (List.range order.length).map fun i =>
    let d := order.getD i 0
    tileDim d (shape.getD d 0) (tiles.getD d 0) (if i = 0 then skew else 0)

/-- mli_iterator.hpp:164-191: one dimension of the kernel-aware constructor; `n` is the input
tensor dimension, `k` the effective kernel size, `s` the stride, `p` the pre-padding.  The signed
expression of line 184 is not checked for overflow. -/
def kernelDim (ic : DimCfg) (n k s p : Int) : DimCfg :=
  let inc := wrap 32 (u32 (ic.inc * s))
  let firstInc := wrap 32 (u32 (u32 (ic.firstInc * s) - p))
  let lastInc := if ic.count > 1 then inc * (2 - ic.count) - firstInc else 0
  let size := u32 (u32 (u32 (ic.size - 1) * s) + k)
  let fs := u32 (u32 (u32 (u32 (ic.firstSize - 1) * s) + k) - p)
  let firstSize := if fs > n then n else fs
  let lastSize := u32 (n + lastInc)
  { order := ic.order, count := ic.count, firstInc, inc, lastInc, firstSize, size, lastSize
    code := calcDiffCode ic.count firstSize size lastSize }

/-- mli_iterator.hpp:164-191: the kernel-aware constructor. -/
def kernelCfg (cfg : List DimCfg) (shape : List Int) (k s p : Nat → Int) : List DimCfg :=
  cfg.map fun c =>
    let d := c.order.toNat
    kernelDim c (shape.getD d 0) (k d) (s d) (p d)

/-- mli_iterator.hpp:193-212: the constructor that drops an axis, as coded: the first and the
regular increments are exchanged (lines 205-206), the order becomes the identity. -/
def dropAxis (cfg : List DimCfg) (axis : Nat) : List DimCfg :=
  ((List.range cfg.length).zip cfg |>.filter (fun p => p.1 ≠ axis)).map (·.2)
  |>.mapIdx fun j c => { c with order := j, inc := c.firstInc, firstInc := c.inc }

/-- State of one iteration dimension: `m_pos[r]`, `m_tile_idx[r]`. -/
structure DimSt where
  pos : Int
  idx : Int
deriving DecidableEq, Repr

/-- mli_iterator.hpp:895-901 `Reset`, position and tile index. -/
def reset (cfg : List DimCfg) : List DimSt := cfg.map fun _ => { pos := 0, idx := 0 }

/-- mli_iterator.hpp:906-936 `Next()`, position and tile index: returns the new state and `done`. -/
def next : List DimCfg → List DimSt → List DimSt × Bool
  | c :: cs, s :: ss =>
    if s.idx = c.count - 1 then
      let (ss', done) := next cs ss
      ({ pos := 0, idx := 0 } :: ss', cs.isEmpty || done)
    else if s.idx = 0 then
      ({ pos := s.pos + c.firstInc, idx := s.idx + 1 } :: ss, false)
    else
      ({ pos := s.pos + c.inc, idx := s.idx + 1 } :: ss, false)
  | _, _ => ([], false)

/-- `n` calls of `Next()` after a `Reset`, and the value returned by the last one. -/
def nextN (cfg : List DimCfg) : Nat → List DimSt × Bool
  | 0 => (reset cfg, false)
  | n + 1 => next cfg (nextN cfg n).1

/-- mli_iterator.hpp:966-989 `Next(pos_inc[])`: returns the increment of each iteration dimension,
the new tile indices and `done`.  Dimensions with a negative order are skipped. -/
def nextInc : List DimCfg → List Int → List Int × List Int × Bool
  | c :: cs, i :: is =>
    if c.order < 0 then
      let (incs, is', done) := nextInc cs is
      (0 :: incs, i :: is', done)
    else if i = c.count - 1 then
      let (incs, is', done) := nextInc cs is
      (c.lastInc :: incs, 0 :: is', cs.isEmpty || done)
    else if i = 0 then
      (c.firstInc :: cs.map (fun _ => 0), (i + 1) :: is, false)
    else
      (c.inc :: cs.map (fun _ => 0), (i + 1) :: is, false)
  | _, _ => ([], [], false)

/-- A caller that accumulates the increments returned by `Next(pos_inc[])`, `n` calls. -/
def accInc (cfg : List DimCfg) : Nat → List Int × List Int
  | 0 => (cfg.map fun _ => 0, cfg.map fun _ => 0)
  | n + 1 =>
    let (acc, idx) := accInc cfg n
    let (incs, idx', _) := nextInc cfg idx
    (List.zipWith (· + ·) acc incs, idx')

/-- mli_iterator.hpp:1026-1034: size of the tile along one dimension of extent `n`
(`uint32_t` subtraction). -/
def tileSize (n : Int) (c : DimCfg) (s : DimSt) : Int :=
  if s.idx = c.count - 1 then c.lastSize
  else if s.idx = 0 then c.firstSize
  else min (u32 (n - u32 s.pos)) c.size

/-- mli_iterator.hpp:1017-1037 `GetSubTensor`: (pos, copysize) of the current tile. -/
def subTensor (shape : List Int) : List DimCfg → List DimSt → List Int × List Int
  | c :: cs, s :: ss =>
    -- the C++ loop runs from r = 0 upwards; with distinct orders the writes commute
    let (pos, size) := subTensor shape cs ss
    if c.order < 0 then (pos, size)
    else
      let d := c.order.toNat
      (pos.set d (u32 s.pos), size.set d (tileSize (shape.getD d 0) c s))
  | _, _ => (shape.map fun _ => 0, shape)

/-- mli_iterator.hpp:1205-1224: the modifier and the number of variants of one dimension. -/
def updPart (c : DimCfg) (idx : Int) : Nat × Nat :=
  match c.code with
  | 1 => (if idx = c.count - 1 then 1 else 0, 2)
  | 2 => (if idx > 0 ∧ idx < c.count - 1 then 1 else 0, 2)
  | 3 => (if idx > 0 then 1 else 0, 2)
  | 4 => (if idx = c.count - 1 then 2 else if idx > 0 then 1 else 0, 3)
  | _ => (0, 1)

/-- mli_iterator.hpp:1198-1228 `get_update_idx` (no wrap: the value is below 3^iterRank). -/
def updIdx : List DimCfg → List Int → (mul : Nat) → Nat
  | c :: cs, i :: is, mul => (updPart c i).1 * mul + updIdx cs is (mul * (updPart c i).2)
  | _, _, _ => 0

/-- mli_iterator.hpp:1181-1188 `GetTotalCount`. -/
def totalCount (cfg : List DimCfg) : Int := (cfg.map (·.count)).foldl (· * ·) 1

end Mli.Iter
