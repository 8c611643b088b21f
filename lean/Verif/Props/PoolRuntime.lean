import Verif.Lemmas.PoolRuntime
import Verif.Props.EltRuntime

/-! # C69: run-time pooling kernels tile by tile -/

namespace Mli.Rt

open Mli Mli.Iter Mli.Spec

/-- C69 for `MaxPool2D`: the caller's loop over all tiles (copy the input tile, `Issue`, copy the output tile, `Update`) ends with status OK, every
element of the output tensor is the largest element of its window in the whole input tensor, and nothing else in the output buffer changes.

Partial: the iterators go through the dimensions in their own order, sizes and paddings of the kernel are bytes, and the conditions of `PoolOk` on
the tiles; see the violations below. -/
theorem c69_maxpool_tiled_partial (wi wo : Nat) (g : Geo) (nb ih iw ch oh ow : Int) (tiles itiles : List Int) (skew : Int) (ls lo : List Int)
    (bi bo : Int) (gin : Glob) (gos : List Int) (lin lout gout : Buf)
    (h : PoolOk .max g nb ih iw ch oh ow tiles itiles skew ls lo bi bo gin gos lin lout gout) (hw : wi = 8 ∨ wi = 16) :
    let inp := poolIn g [nb, oh, ow, ch] [nb, ih, iw, ch] tiles skew ls
    let out := poolOut [nb, oh, ow, ch] tiles skew lo
    ∃ s, PoolHost.run gin gos (totalCount out.cfg).toNat ⟨PoolObj.new .max wi wo g inp out bi bo, lin, lout, gout, .ok⟩ = some s ∧ s.status = .ok ∧
      s.gout.size = gout.size ∧
      (∀ b y x c, InShape [nb, oh, ow, ch] [b, y, x, c] →
        IsWindowMax (fun r q => gin.buf.get (offset gin.strides [b, r, q, c])) ih iw g.kh g.kw g.sh g.sw g.pt g.pl y x
          (s.gout.get (offset gos [b, y, x, c]))) ∧
      ∀ a, (∀ x, InShape [nb, oh, ow, ch] x → offset gos x ≠ a) → s.gout.get a = gout.get a :=
  pool_run h hw

/-- C69 for `SumPool2D`: every element of the output tensor is the sum of the elements of its window in the whole input tensor. -/
theorem c69_sumpool_tiled_partial (g : Geo) (nb ih iw ch oh ow : Int) (tiles itiles : List Int) (skew : Int) (ls lo : List Int)
    (bi bo : Int) (gin : Glob) (gos : List Int) (lin lout gout : Buf)
    (h : PoolOk .sum g nb ih iw ch oh ow tiles itiles skew ls lo bi bo gin gos lin lout gout) :
    let inp := poolIn g [nb, oh, ow, ch] [nb, ih, iw, ch] tiles skew ls
    let out := poolOut [nb, oh, ow, ch] tiles skew lo
    ∃ s, PoolHost.run gin gos (totalCount out.cfg).toNat ⟨PoolObj.new .sum 8 32 g inp out bi bo, lin, lout, gout, .ok⟩ = some s ∧ s.status = .ok ∧
      s.gout.size = gout.size ∧
      (∀ b y x c, InShape [nb, oh, ow, ch] [b, y, x, c] →
        s.gout.get (offset gos [b, y, x, c]) =
          windowSum (fun r q => gin.buf.get (offset gin.strides [b, r, q, c])) ih iw g.kh g.kw g.sh g.sw g.pt g.pl y x) ∧
      ∀ a, (∀ x, InShape [nb, oh, ow, ch] x → offset gos x ≠ a) → s.gout.get a = gout.get a :=
  pool_run (wi := 8) (wo := 32) h ⟨rfl, rfl⟩

/-- C69, status: `SumPool2D::Issue` succeeds only for 8-bit input and 32-bit output, and for others it changes nothing. -/
theorem c69_status (o : PoolObj) (lin lout lout' : Buf) (st : Status) (ho : o.op = .sum) (h : o.issue lin lout = some (st, lout')) :
    (st = .ok ↔ o.wi = 8 ∧ o.wo = 32) ∧ (st ≠ .ok → st = .notSupported ∧ lout' = lout) := by
  unfold PoolObj.issue at h
  rw [ho] at h
  simp only at h
  split at h
  · rename_i c
    cases he : sumpoolIssueN o.nb.toNat o.si o.so lin o.tin o.tcfg o.tout lout with
    | none => rw [he] at h; simp at h
    | some d =>
      rw [he] at h
      simp only [Option.map_some, Option.some.injEq, Prod.mk.injEq] at h
      obtain ⟨rfl, rfl⟩ := h
      exact ⟨by simp [c], fun c => absurd rfl c⟩
  · rename_i c
    simp only [Option.some.injEq, Prod.mk.injEq] at h
    obtain ⟨rfl, rfl⟩ := h
    exact ⟨by simp [c], fun _ => ⟨rfl, rfl⟩⟩

/-! ### A case -/

/-- 3x3 windows with padding 1 on all sides. -/
def exGeo : Geo := { kh := 3, kw := 3, sh := 1, sw := 1, pt := 1, pb := 1, pl := 1, pr := 1 }

/-- Two batch elements of 4 by 3 elements. -/
def exIn : Glob := ⟨Buf.ofList [1, 2, 3, 4, 5, 6, 7, 8, 9, 10, 11, 12, -1, -2, -3, -4, -5, -6, -7, -8, -9, -10, -11, -12], [12, 3, 1, 1]⟩


def exLocal : Buf := Buf.ofList [0, 0, 0, 0, 0, 0, 0, 0, 0]

def exTile : Buf := Buf.ofList [0, 0, 0, 0]

/-- The output buffer has one element more than the output tensor. -/
def exPool : Buf :=
  Buf.ofList [0, 0, 0, 0, 0, 0, 0, 0, 0, 0, 0, 0, 0, 0, 0, 0, 0, 0, 0, 0, 0, 0, 0, 0, 77]

theorem exPoolTiling : TilingOk [2, 4, 3, 1] [1, 2, 2, 1] (List.range 4) 0 := by
  refine ⟨rfl, by decide, by decide, by decide, ?_⟩
  intro i hi
  have : i = 0 ∨ i = 1 ∨ i = 2 ∨ i = 3 := by simp at hi; omega
  rcases this with rfl | rfl | rfl | rfl <;> exact ⟨by decide, by decide, by decide⟩

/-- Eight tiles; those of the output have 2 rows and at most 2 columns, those of the input 3 rows and at most 3 columns. -/
theorem exPoolOk (op : PoolOp) : PoolOk op exGeo 2 4 3 1 4 3 [1, 2, 2, 1] [1, 3, 3, 1] 0 [9, 3, 1, 1] [4, 2, 1, 1] 0 0 exIn [12, 3, 1, 1] exLocal exTile exPool where
  tiling := exPoolTiling
  rank := rfl
  kern := by
    intro d hd
    have : d = 0 ∨ d = 1 ∨ d = 2 ∨ d = 3 := by omega
    rcases this with rfl | rfl | rfl | rfl <;>
      exact ⟨⟨by decide, by decide, by decide⟩, by decide, by decide, by decide, by decide, by decide, by decide, by decide⟩
  bytes := by decide
  rows := by
    intro j h0 h1
    simp only [List.getD_cons_succ, List.getD_cons_zero, exGeo] at *
    omega
  cols := by
    intro j h0 h1
    simp only [List.getD_cons_succ, List.getD_cons_zero, exGeo] at *
    omega
  sums := fun _ => ⟨Or.inr (Or.inl (by decide)), Or.inr (Or.inl (by decide))⟩
  fits := by
    intro n d hn hd
    have h8 : (totalCount (poolOut [2, 4, 3, 1] [1, 2, 2, 1] 0 [4, 2, 1, 1]).cfg).toNat = 8 := by decide +kernel
    rw [h8] at hn
    exact (show ∀ n, n < 8 → ∀ d, d < 4 → ((poolIn exGeo [2, 4, 3, 1] [2, 4, 3, 1] [1, 2, 2, 1] 0 [9, 3, 1, 1]).at n).sizes.getD d 0 ≤
      [1, 3, 3, 1].getD d 0 by decide +kernel) n hn d hd
  ilen := rfl
  iplace := ⟨rfl, rfl, allIn (by decide +kernel), fun y z hy hz =>
    allIn (P := fun y => ∀ z ∈ rowMajor [1, 3, 3, 1], offset [9, 3, 1, 1] y = offset [9, 3, 1, 1] z → y = z) (by decide +kernel) y hy z
      (mem_rowMajor.mpr hz)⟩
  oplace := ⟨rfl, rfl, allIn (by decide +kernel), fun y z hy hz =>
    allIn (P := fun y => ∀ z ∈ rowMajor [1, 2, 2, 1], offset [4, 2, 1, 1] y = offset [4, 2, 1, 1] z → y = z) (by decide +kernel) y hy z
      (mem_rowMajor.mpr hz)⟩
  inb := allIn (by decide +kernel)
  outb := allIn (by decide +kernel)
  outj := fun y z hy hz =>
    allIn (P := fun y => ∀ z ∈ rowMajor [2, 4, 3, 1], offset [12, 3, 1, 1] y = offset [12, 3, 1, 1] z → y = z) (by decide +kernel) y hy z
      (mem_rowMajor.mpr hz)
  range := fun _ => allIn (by decide +kernel)

/-- The runs of the case, as computed by the model. -/
def poolRunOf (op : PoolOp) (wi wo : Nat) (g : Geo) (oshape ishape tiles ls lo : List Int) (bo : Int) (gin : Glob) (gos : List Int)
    (lin lout gout : Buf) : Option (Status × List Int) :=
  let inp := poolIn g oshape ishape tiles 0 ls
  let out := poolOut oshape tiles 0 lo
  (PoolHost.run gin gos (totalCount out.cfg).toNat ⟨PoolObj.new op wi wo g inp out 0 bo, lin, lout, gout, .ok⟩).map fun s => (s.status, s.gout.toList)

example : poolRunOf .max 8 8 exGeo [2, 4, 3, 1] [2, 4, 3, 1] [1, 2, 2, 1] [9, 3, 1, 1] [4, 2, 1, 1] 0 exIn [12, 3, 1, 1] exLocal exTile exPool =
    some (.ok, [5, 6, 6, 8, 9, 9, 11, 12, 12, 11, 12, 12, -1, -1, -2, -1, -1, -2, -4, -4, -5, -7, -7, -8, 77]) := by decide +kernel

example : poolRunOf .sum 8 32 exGeo [2, 4, 3, 1] [2, 4, 3, 1] [1, 2, 2, 1] [9, 3, 1, 1] [4, 2, 1, 1] 0 exIn [12, 3, 1, 1] exLocal exTile exPool =
    some (.ok, [12, 21, 16, 27, 45, 33, 45, 72, 51, 36, 57, 40, -12, -21, -16, -27, -45, -33, -45, -72, -51, -36, -57, -40, 77]) := by decide +kernel

example : ∃ s, PoolHost.run exIn [12, 3, 1, 1] 8 ⟨PoolObj.new .sum 8 32 exGeo (poolIn exGeo [2, 4, 3, 1] [2, 4, 3, 1] [1, 2, 2, 1] 0 [9, 3, 1, 1])
      (poolOut [2, 4, 3, 1] [1, 2, 2, 1] 0 [4, 2, 1, 1]) 0 0, exLocal, exTile, exPool, .ok⟩ = some s ∧ s.gout.get 16 = -45 ∧ s.gout.get 24 = 77 := by
  obtain ⟨s, h1, -, -, h2, h3⟩ := c69_sumpool_tiled_partial exGeo 2 4 3 1 4 3 [1, 2, 2, 1] [1, 3, 3, 1] 0 [9, 3, 1, 1] [4, 2, 1, 1] 0 0 exIn [12, 3, 1, 1]
    exLocal exTile exPool (exPoolOk .sum)
  exact ⟨s, h1, (h2 1 1 1 0 (by decide)).trans (by decide +kernel), (h3 24 (allIn (by decide +kernel))).trans (by decide)⟩

example : ∃ s, PoolHost.run exIn [12, 3, 1, 1] 8 ⟨PoolObj.new .max 8 8 exGeo (poolIn exGeo [2, 4, 3, 1] [2, 4, 3, 1] [1, 2, 2, 1] 0 [9, 3, 1, 1])
      (poolOut [2, 4, 3, 1] [1, 2, 2, 1] 0 [4, 2, 1, 1]) 0 0, exLocal, exTile, exPool, .ok⟩ = some s ∧ s.status = .ok ∧ s.gout.get 24 = 77 := by
  obtain ⟨s, h1, hs, -, -, h3⟩ := c69_maxpool_tiled_partial 8 8 exGeo 2 4 3 1 4 3 [1, 2, 2, 1] [1, 3, 3, 1] 0 [9, 3, 1, 1] [4, 2, 1, 1] 0 0 exIn
    [12, 3, 1, 1] exLocal exTile exPool (exPoolOk .max) (Or.inl rfl)
  exact ⟨s, h1, hs, (h3 24 (allIn (by decide +kernel))).trans (by decide)⟩

/-! ### Violations -/

/-- Five rows of one element. -/
def exFive : Glob := ⟨Buf.ofList [1, 2, 3, 4, 5], [5, 1, 1, 1]⟩

/-- Windows of `k` rows with padding `p` and stride `s`. -/
def exRows (k s p : Int) : Geo := { kh := k, kw := 1, sh := s, sw := 1, pt := p, pb := p, pl := 0, pr := 0 }

/-- **Violation**: windows of 5 rows with padding 2 on 5 rows, in tiles of 2 output rows.  The last tile has one output row, but two rows of windows go
beyond the end of the input.  The kernel then writes before the start of the output tile: undefined behaviour with the tile at the start of its buffer,
and another value of the buffer is changed if there is something before the tile. -/
theorem c69_last_tile_violated :
    poolRunOf .max 8 8 (exRows 5 1 2) [1, 5, 1, 1] [1, 5, 1, 1] [1, 2, 1, 1] [6, 1, 1, 1] [2, 1, 1, 1] 0 exFive [5, 1, 1, 1]
      (Buf.ofList [0, 0, 0, 0, 0, 0]) (Buf.ofList [0, 0]) (Buf.ofList [0, 0, 0, 0, 0]) = none ∧
    (PoolHost.run exFive [5, 1, 1, 1] 3 ⟨PoolObj.new .max 8 8 (exRows 5 1 2) (poolIn (exRows 5 1 2) [1, 5, 1, 1] [1, 5, 1, 1] [1, 2, 1, 1] 0 [6, 1, 1, 1])
      (poolOut [1, 5, 1, 1] [1, 2, 1, 1] 0 [2, 1, 1, 1]) 0 1, Buf.ofList [0, 0, 0, 0, 0, 0], Buf.ofList [99, 0, 0], Buf.ofList [0, 0, 0, 0, 0], .ok⟩).map
      (fun s => (s.status, s.lout.get 0)) = some (.ok, 5) := by
  constructor <;> decide +kernel

/-- **Violation**: `SumPool2D` with windows of 3 rows and padding 1 in tiles of one output row.  The input of the second tile starts at row 0 too, and
`Update` keeps the top padding for it: the sum for row 1 is 3 instead of 6. -/
theorem c69_sum_padding_violated :
    poolRunOf .sum 8 32 (exRows 3 1 1) [1, 5, 1, 1] [1, 5, 1, 1] [1, 1, 1, 1] [3, 1, 1, 1] [1, 1, 1, 1] 0 exFive [5, 1, 1, 1]
      (Buf.ofList [0, 0, 0]) (Buf.ofList [0]) (Buf.ofList [0, 0, 0, 0, 0]) = some (.ok, [3, 3, 9, 12, 9]) ∧
    windowSum (fun r q => exFive.buf.get (offset exFive.strides [0, r, q, 0])) 5 1 3 1 1 1 1 0 1 0 = 6 := by
  constructor <;> decide +kernel

/-- **Violation**: the last input tile can be larger than the sizes of the first and of the other tiles, from which the callers compute the size of the
local buffer: 2 windows of 2 rows with stride 2 on 5 rows in tiles of one output row.  The caller's copy of the last tile goes beyond a buffer of 2 rows. -/
theorem c69_buffer_violated :
    (kernelDim (tileDim 1 2 1 0) 5 2 2 0).firstSize = 2 ∧ (kernelDim (tileDim 1 2 1 0) 5 2 2 0).size = 2 ∧
    (kernelDim (tileDim 1 2 1 0) 5 2 2 0).lastSize = 3 ∧
    poolRunOf .max 8 8 (exRows 2 2 0) [1, 2, 1, 1] [1, 5, 1, 1] [1, 1, 1, 1] [2, 1, 1, 1] [1, 1, 1, 1] 0 exFive [2, 1, 1, 1]
      (Buf.ofList [0, 0]) (Buf.ofList [0]) (Buf.ofList [0, 0]) = none := by
  refine ⟨?_, ?_, ?_, ?_⟩ <;> decide +kernel

/-- **Violation**: `MaxPool2D::Issue` with elements that are neither 8 nor 16 bits wide returns OK and does nothing. -/
theorem c69_width_violated (o : PoolObj) (lin lout : Buf) (ho : o.op = .max) (hw : o.wi ≠ 8 ∧ o.wi ≠ 16) : o.issue lin lout = some (.ok, lout) := by
  unfold PoolObj.issue
  rw [ho]
  simp only
  rw [if_neg (by omega)]

/-- 257 rows of one element, with the values 0 to 127 and then 127. -/
def exMany : Glob := ⟨⟨257, fun a => min a 127⟩, [257, 1, 1, 1]⟩

/-- **Violation**: the sizes of the kernel are kept in bytes: the maximum over a window of 257 rows is that of the first row. -/
theorem c69_bytes_violated :
    poolRunOf .max 8 8 (exRows 257 1 0) [1, 1, 1, 1] [1, 257, 1, 1] [1, 1, 1, 1] [257, 1, 1, 1] [1, 1, 1, 1] 0 exMany [1, 1, 1, 1]
      ⟨257, fun _ => 0⟩ (Buf.ofList [-1]) (Buf.ofList [-1]) = some (.ok, [0]) := by decide +kernel

/-- **Violation**: with an iteration order other than that of the dimensions the offsets of the tiles are those of other dimensions: 2 by 2 elements in
tiles of one row, with the columns before the rows in the order; the last element of the output is never written. -/
theorem c69_order_violated :
    let g := exRows 1 1 0
    let out := TIt.start (tileCfg [1, 2, 2, 1] [1, 1, 2, 1] [0, 2, 1, 3] 0) [1, 2, 2, 1] [2, 2, 1, 1]
    let inp := TIt.start (kernelCfg (tileCfg [1, 2, 2, 1] [1, 1, 2, 1] [0, 2, 1, 3] 0) [1, 2, 2, 1] (Geo.k4 g) (Geo.s4 g) (Geo.p4 g)) [1, 2, 2, 1] [2, 2, 1, 1]
    (PoolHost.run ⟨Buf.ofList [1, 2, 3, 4], [4, 2, 1, 1]⟩ [4, 2, 1, 1] (totalCount out.cfg).toNat ⟨PoolObj.new .max 8 8 g inp out 0 0, Buf.ofList [0, 0],
      Buf.ofList [0, 0], Buf.ofList [0, 0, 0, 0], .ok⟩).map (fun s => (s.status, s.gout.toList)) = some (.ok, [1, 2, 3, 0]) := by decide +kernel

end Mli.Rt
