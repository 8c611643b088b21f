import Verif.Model.Permute

/-!
# Model of the data movement functions (`lib/src/move`)

`mli_mov_prepare` in the build without DMA (`USE_DMA = 0`) performs the whole copy.

Simplifications: element addresses (`dst_pos`, `src_pos`) and source coordinates are exact
integers (the code computes them modulo 2^32, which is the same for tensors below 2^31
elements); the byte-wise inner loop used when both inner strides are 1 is modelled element by
element; the quantisation parameters are in Model/QuantMem.lean (`movPrepareSa`).  Shapes and sizes keep their
`uint32_t` arithmetic.
-/

namespace Mli

/-- `uint32_t` conversion. -/
def u32 (x : Int) : Int := x % 2 ^ 32

/-- include/mli_types.h:449-458 `mli_mov_cfg_t` (each array has 4 entries). -/
structure MovCfg where
  offset : Nat → Int
  size : Nat → Int
  sub : Nat → Int
  dstOffset : Nat → Int
  dstStride : Nat → Int
  perm : Nat → Nat
  padPre : Nat → Int
  padPost : Nat → Int

/-- move/mli_mov_api.cc:122-126 `src_cpy_size[i]`. -/
def movCpySize (src : Tensor) (c : MovCfg) (i : Nat) : Int :=
  let p := c.perm i
  if c.size p > 0 then c.size p else u32 (src.gShape p - c.offset p + c.padPre p + c.padPost p)

/-- move/mli_mov_api.cc:127 `dst_write_size[i] = CEIL_DIV(src_cpy_size[i], step)` in `uint32_t`
(lib/src/private/mli_math_macros.h:16). -/
def movWriteSize (src : Tensor) (c : MovCfg) (i : Nat) : Int :=
  u32 (movCpySize src c i + c.sub (c.perm i) - 1) / c.sub (c.perm i)

/-- move/mli_mov_api.cc:128 `dst->shape[i]`. -/
def movDstShape (src : Tensor) (c : MovCfg) (i : Nat) : Int := u32 (movWriteSize src c i + c.dstOffset i)

/-- move/mli_mov_api.cc:209-220: destination strides of the dimensions `k, k+1, ..`; `n` is the
number of dimensions.  A configured stride wins, then the one found in the tensor, then the
product with the next inner dimension. -/
def movDstStrides (shape cfgStride old : Nat → Int) : (k n : Nat) → List Int
  | _, 0 => []
  | k, n + 1 =>
    let inner := movDstStrides shape cfgStride old (k + 1) n
    let s := if cfgStride k ≠ 0 then cfgStride k
      else if old k ≠ 0 then old k
      else match inner with
        | [] => 1
        | t :: _ => wrap 32 (t * shape (k + 1))
    s :: inner

/-- move/mli_mov_api.cc:107-128, 209-220: the destination descriptor written by the call.  -/
def movDst (src : Tensor) (c : MovCfg) (dst : Tensor) : Tensor :=
  let r := src.dims.length
  let strides := movDstStrides (movDstShape src c) c.dstStride dst.gStride 0 r
  { dst with
    dims := (List.range r).map fun i => { shape := movDstShape src c i, stride := strides.getD i 0 }
    es := src.es }

/-- move/mli_mov_api.cc:230-244 `no_padding`. -/
def movNoPadding (r : Nat) (c : MovCfg) : Bool :=
  (List.range r).all fun i => c.padPre i == 0 && c.padPost i == 0

/-- move/mli_mov_api.cc:229-244 `is_possible_in_single1d_transfer`; `n` counts the dimensions
still to be visited, `stride` is the running product (`int32_t`). -/
def movIs1d (src dst : Tensor) (c : MovCfg) : (n : Nat) → (stride : Int) → Bool
  | 0, _ => true
  | i + 1, stride =>
    (src.gStride i == stride) && (dst.gStride i == stride) && (src.gShape i == dst.gShape i)
      && (c.padPre i == 0 && c.padPost i == 0) && (c.perm i == i) && (c.sub i == 1)
      && movIs1d src dst c i (wrap 32 (stride * src.gShape i))

/-- move/impl/mli_mov_ref.h:228-251: an `ordered_*` array, i.e. the entries of the `r` dimensions
moved to the end of a 4-entry array with the given default. -/
def ord {α : Type} (r : Nat) (dflt : α) (f : Nat → α) (i : Nat) : α :=
  if i < 4 - r then dflt else f (i - (4 - r))

/-- move/impl/mli_mov_ref.h:247 `ordered_pdim`. -/
def ordPdim (r : Nat) (perm : Nat → Nat) (i : Nat) : Nat :=
  if i < 4 - r then i else perm (i - (4 - r)) + (4 - r)

/-- move/impl/mli_mov_ref.h:102-104, 153-155 `src_pos0..2` and the inner `inner_src_pos`: the
source coordinate for destination position `p` of dimension `k` (padding is zero in the first case). -/
def movCoord (r : Nat) (c : MovCfg) (k : Nat) (p : Nat) : Int :=
  let d := ordPdim r c.perm k
  p * ord r 1 c.sub d + ord r 0 c.offset d - ord r 0 c.padPre d

/-- move/impl/mli_mov_ref.h:97-100, 148-150 with the inner position: destination address. -/
def movDstPos (r : Nat) (dst : Tensor) (c : MovCfg) (p0 p1 p2 p3 : Nat) : Int :=
  (p0 + ord r 0 c.dstOffset 0) * ord r 0 dst.gStride 0 + (p1 + ord r 0 c.dstOffset 1) * ord r 0 dst.gStride 1
    + (p2 + ord r 0 c.dstOffset 2) * ord r 0 dst.gStride 2 + (p3 + ord r 0 c.dstOffset 3) * ord r 0 dst.gStride 3

/-- move/impl/mli_mov_ref.h:106-109, 161-163 with the inner position: source address. -/
def movSrcPos (r : Nat) (src : Tensor) (c : MovCfg) (p0 p1 p2 p3 : Nat) : Int :=
  movCoord r c 0 p0 * ord r 0 src.gStride (ordPdim r c.perm 0)
    + movCoord r c 1 p1 * ord r 0 src.gStride (ordPdim r c.perm 1)
    + movCoord r c 2 p2 * ord r 0 src.gStride (ordPdim r c.perm 2)
    + movCoord r c 3 p3 * ord r 0 src.gStride (ordPdim r c.perm 3)

/-- move/impl/mli_mov_ref.h:157-159, 50: the coordinate falls into the padding. -/
def movOutside (r : Nat) (src : Tensor) (c : MovCfg) (k p : Nat) : Bool :=
  decide (movCoord r c k p < 0) || decide (movCoord r c k p ≥ ord r 1 src.gShape (ordPdim r c.perm k))

/-- move/impl/mli_mov_ref.h:76-221 `mli_mov_basic_operation` with the inner loops 32-74. -/
def movLoops (r : Nat) (src dst : Tensor) (c : MovCfg) (w : Nat → Int) (noPad : Bool) (sb : Buf) (db : Buf) :
    Option Buf :=
  let n : Nat → Nat := fun i => (ord r 1 w i).toNat
  if noPad then
    forRange (n 0) (fun p0 => forRange (n 1) (fun p1 => forRange (n 2) (fun p2 => forRange (n 3) (fun p3 d => do
      let v ← sb.rd (src.base + movSrcPos r src c p0 p1 p2 p3)
      d.wr (dst.base + movDstPos r dst c p0 p1 p2 p3) v)))) db
  else
    forRange (n 0) (fun p0 => forRange (n 1) (fun p1 => forRange (n 2) (fun p2 =>
      let zeroInner := movOutside r src c 0 p0 || movOutside r src c 1 p1 || movOutside r src c 2 p2
      forRange (n 3) (fun p3 d =>
        if zeroInner then d.wr (dst.base + movDstPos r dst c p0 p1 p2 p3) 0
        else if movOutside r src c 3 p3 then d.wr (dst.base + movDstPos r dst c p0 p1 p2 p3) 0
        else do
          let v ← sb.rd (src.base + movSrcPos r src c p0 p1 p2 p3)
          d.wr (dst.base + movDstPos r dst c p0 p1 p2 p3) v)))) db

/-- move/impl/mli_mov_ref.h:20-29 `mli_mov_memcpy` of `n` elements. -/
def movMemcpy (src dst : Tensor) (n : Nat) (sb db : Buf) : Option Buf :=
  forRange n (fun k d => do
    let v ← sb.rd (src.base + k)
    d.wr (dst.base + k) v) db

/-- move/mli_mov_api.cc:99-275 `mli_mov_prepare` for tensors without per-axis quantisation
(private/src/mli_check.cc:2824-2898 then checks the source tensor and the overlap only).
`notOverlapped` is the result of the overlap check.  Rank 0 indexes `mem_stride[-1]`, a zero
sub-sampling step divides by zero: both are undefined behaviour. -/
def movPrepare (src dst : Tensor) (c : MovCfg) (notOverlapped : Bool) (sb db : Buf) :
    Option (Status × Tensor × Buf) := do
  let st ← checkTensorPrivate src
  if st ≠ .ok then return (st, dst, db)
  if !notOverlapped then return (.incompatibleTensors, dst, db)
  let r := src.dims.length
  if r = 0 then none
  if (List.range r).any (fun i => c.sub (c.perm i) == 0) then none
  let dst' := movDst src c dst
  let st ← checkTensorPrivate dst'
  if st ≠ .ok then return (st, dst', db)
  if movIs1d src dst' c r 1 then
    let d ← movMemcpy src dst' (hlpCountElemNum src 0).toNat sb db
    return (.ok, dst', d)
  else
    let d ← movLoops r src dst' c (movWriteSize src c) (movNoPadding r c) sb db
    return (.ok, dst', d)

end Mli
