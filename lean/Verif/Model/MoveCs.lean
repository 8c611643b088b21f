import Verif.Model.Iter
import Verif.Model.Mem

/-!
# Model of `BufferIterator` (include/mli_iterator.hpp) and of the runtime `Move` kernel
(lib/src/move/mli_mov_runtime.cc)

All offsets are in elements.  `int32_t` overflow of offsets is not modelled (offsets are `Int`); reading a
member array entry that no constructor has written is `none`.
-/

namespace Mli.MoveCs
open Mli Mli.Iter

/-- mli_iterator.hpp:611-618: the entries of the member arrays for one dimension. -/
structure BufDim where
  firstInc : Int
  inc : Int
  lastInc : Int
  dec : Int
deriving DecidableEq, Repr

/-- mli_iterator.hpp:515-541 the constructor of `BufferIterator` for `buf_tiles_num = 0` (a buffer for the
full tensor; every `IteratorCfg` constructor but the explicit one sets it to 0).  Entries for axes that are
not in the order stay uninitialised (`none`).  The second component is `m_buffer_size`. -/
def bufCtor (cfg : List DimCfg) (dims strides : List Int) : List (Option BufDim) × Int :=
  (List.range cfg.length).foldl (fun acc i =>
    let order := (cfg.getD i ⟨0, 0, 0, 0, 0, 0, 0, 0, 0⟩).order
    if order = -1 then acc
    else
      let a := order.toNat
      let c := cfg.getD a ⟨0, 0, 0, 0, 0, 0, 0, 0, 0⟩
      let st := strides.getD a 0
      let dec := dims.getD a 0 * st
      if dims.getD i 0 > 1 then
        let f := fun inc : Int => if inc = 0 then st else inc * st
        (acc.1.set a (some ⟨f c.firstInc, f c.inc, f c.lastInc, dec⟩), acc.2)
      else (acc.1.set a (some ⟨0, 0, 0, dec⟩), acc.2 * max c.size c.firstSize))
    (List.replicate cfg.length none, 1)

/-- mli_iterator.hpp:549-559 `UpdateConfig`. -/
def updateConfig (cfg : List DimCfg) (dims strides : List Int) : List (Option BufDim) :=
  (List.range cfg.length).map fun i =>
    let c := cfg.getD i ⟨0, 0, 0, 0, 0, 0, 0, 0, 0⟩
    let st := strides.getD i 0
    let f := fun inc : Int => if inc > 0 then inc * st else st
    some ⟨f c.firstInc, f c.inc, f c.lastInc, dims.getD i 0 * st⟩

/-- mli_iterator.hpp:568-583 `BufferIterator::Next`; `inc` is the increment selected by the tile position. -/
def bufStep (size off inc : Int) : Int :=
  let o := off + inc
  if size > 1 then o.tmod size else o

/-- mli_iterator.hpp:591-595 `EndOfDim`. -/
def endOfDim (dec off : Int) : Int := if dec ≤ off then off - dec else off

/-- mli_iterator.hpp:906-936 `TensorIterator::Next()`, with the buffer offset: like `Iter.next`, the buffer
increments are those of entry `r` of the member arrays. -/
def nextB (size : Int) : List DimCfg → List (Option BufDim) → List DimSt → Int → Option (List DimSt × Int × Bool)
  | c :: cs, b :: bs, s :: ss, off =>
    match b with
    | none => none
    | some b =>
      if s.idx = c.count - 1 then
        match nextB size cs bs ss (endOfDim b.dec (bufStep size off b.lastInc)) with
        | none => none
        | some (ss', off', done) => some ({ pos := 0, idx := 0 } :: ss', off', cs.isEmpty || done)
      else if s.idx = 0 then
        some ({ pos := s.pos + c.firstInc, idx := s.idx + 1 } :: ss, bufStep size off b.firstInc, false)
      else
        some ({ pos := s.pos + c.inc, idx := s.idx + 1 } :: ss, bufStep size off b.inc, false)
  | _, _, _, off => some ([], off, false)

/-- A `TensorIterator` over a tensor with the given shape and strides. -/
structure It where
  cfg : List DimCfg
  dims : List Int
  strides : List Int
  buf : List (Option BufDim)
  bufSize : Int
  st : List DimSt
  off : Int

/-- mli_iterator.hpp:656-663, 895-901 constructor from tensor and configuration, followed by `Reset`. -/
def It.mk' (cfg : List DimCfg) (dims strides : List Int) : It where
  cfg := cfg
  dims := dims
  strides := strides
  buf := (bufCtor cfg dims strides).1
  bufSize := (bufCtor cfg dims strides).2
  st := reset cfg
  off := 0

/-- mli_iterator.hpp:906-936 `Next()`. -/
def It.next (it : It) : Option (It × Bool) :=
  match nextB it.bufSize it.cfg it.buf it.st it.off with
  | none => none
  | some (st, off, done) => some ({ it with st := st, off := off }, done)

/-- mli_iterator.hpp:895-901 `Reset()` in any state: the buffer offset is kept. -/
def It.reset (it : It) : It := { it with st := Iter.reset it.cfg }

/-- mli_iterator.hpp:1042-1055 `current_size` along dimension `i`. -/
def curSize (n : Int) (c : DimCfg) (s : DimSt) : Int :=
  let tile := if s.idx = c.count - 1 then c.lastSize else if s.idx = 0 then c.firstSize else c.size
  if u32 (n - s.pos) < tile then u32 (n - s.pos) else tile

/-- mli_iterator.hpp:41-51 the default configuration of one dimension with the count set afterwards
(`SetCount`). -/
def unitDim (order count : Int) : DimCfg := ⟨order, count, 0, 0, 0, 1, 1, 1, 0⟩

/-- mli_iterator.hpp:1039-1066 `GetSubTensorIterator`: the shape of the current tile. -/
def It.subSizes (it : It) : List Int :=
  (List.range it.cfg.length).map fun i =>
    curSize (it.dims.getD i 0) (it.cfg.getD i ⟨0, 0, 0, 0, 0, 0, 0, 0, 0⟩) (it.st.getD i ⟨0, 0⟩)

/-- mli_mov_runtime.cc:41-44: the counts of the element iteration. -/
def moveCounts (sizes : List Int) : List Int := sizes.map fun n => if wrap 32 n ≤ 0 then 1 else wrap 32 n

/-- mli_mov_runtime.cc:48-65, the element loop; `cfg` is the (common) configuration of both element
iterators, `ss`/`ds` their positions, `so`/`dof` their offsets.  `fuel` bounds the loop: `none` when it is
exhausted.  The three cases of the element size move one element each. -/
def moveLoop (cfg : List DimCfg) (sb db : List (Option BufDim)) :
    (fuel : Nat) → (ss ds : List DimSt) → (so dof : Int) → (src dst : Buf) → Option Buf
  | 0, _, _, _, _, _, _ => none
  | fuel + 1, ss, ds, so, dof, src, dst =>
    (src.rd so).bind fun v =>
    (dst.wr dof v).bind fun dst =>
    match nextB 1 cfg sb ss so, nextB 1 cfg db ds dof with
    | some (ss', so', done), some (ds', dof', _) =>
      if done then some dst else moveLoop cfg sb db fuel ss' ds' so' dof' src dst
    | _, _ => none

/-- mli_mov_runtime.cc:35-67 `Move::Issue` (source and destination are different buffers). -/
def issue (fuel : Nat) (src dst : It) (sbuf dbuf : Buf) : Option Buf :=
  let counts := moveCounts src.subSizes
  -- the element iterators: default configuration, `UpdateConfig` and then `SetCount`
  let dflt := src.cfg.map fun c => unitDim c.order 1
  let cfg := (src.cfg.zip counts).map fun p => unitDim p.1.order p.2
  moveLoop cfg (updateConfig dflt src.subSizes src.strides) (updateConfig dflt dst.subSizes dst.strides) fuel
    (reset cfg) (reset cfg) src.off dst.off sbuf dbuf

/-- A caller that issues the kernel for `n` tiles, with `Update` (mli_mov_runtime.cc:73-77) after each. -/
def moveTiles (fuel : Nat) : (n : Nat) → (src dst : It) → (sbuf dbuf : Buf) → Option Buf
  | 0, _, _, _, dbuf => some dbuf
  | n + 1, src, dst, sbuf, dbuf =>
    (issue fuel src dst sbuf dbuf).bind fun dbuf =>
    match src.next, dst.next with
    | some (src', _), some (dst', _) => moveTiles fuel n src' dst' sbuf dbuf
    | _, _ => none

end Mli.MoveCs
