import Verif.Lemmas.TransposeRun
import Verif.Props.ConvTiles

/-! # C78: run-time transposed convolution tile by tile -/

namespace Mli.Rt

open Mli Mli.Iter Mli.Spec

/-- C78: with the iterators of `GetDeconvTensorIterators`, the caller's loop over all tiles (copy the tiles of input, weights and zero points, `Issue`, copy
the output tile, `Update`) ends with status OK, every element of the output tensor is the sum over all elements of the whole input tensor that are scattered
to it, with the zero point subtracted, plus the zero point of the input times the sum of the weights, and nothing else in the output buffer changes.

Partial: one group, tiles with one batch element, zero points of the weights that are 0, a kernel of the size of the stride if height or width is tiled
(`TcSplit.one`), and the other conditions of `DcOk`; see the violations below. -/
theorem c78_transpose_tiled_partial (R : DcRun) (h : DcOk R) :
    ∃ s, R.run 8 8 32 = some s ∧ s.status = .ok ∧ s.gout.size = R.gout.size ∧
      (∀ b y x k, InShape [R.nb, R.oh, R.ow, 1, R.oc] [b, y, x, 0, k] →
        s.gout.get (offset R.gos [b, y, x, 0, k]) =
          scatterSum R.ih R.iw R.kh R.kw R.ic (fun r q c => R.gin.buf.get (offset R.gin.strides [b, r, q, 0, c]) - R.zx)
            (fun i j c => R.gw.buf.get (offset R.gw.strides [0, i, j, c, k])) R.c.sh R.c.sw R.c.pt R.c.pl y x +
          R.zx * kernelSum R.kh R.kw R.ic fun i j c => R.gw.buf.get (offset R.gw.strides [0, i, j, c, k])) ∧
      ∀ a, (∀ x, InShape [R.nb, R.oh, R.ow, 1, R.oc] x → offset R.gos x ≠ a) → s.gout.get a = R.gout.get a :=
  dc_run h

/-- C78, status: `Issue` succeeds only for 8-bit input and weights and 32-bit output, and for others it changes nothing. -/
theorem c78_status (o : DcObj) (lin lw lz lout lout' : Buf) (st : Status) (h : o.issue lin lw lz lout = some (st, lout')) :
    (st = .ok ↔ o.wi = 8 ∧ o.ww = 8 ∧ o.wo = 32) ∧ (st ≠ .ok → st = .notSupported ∧ lout' = lout) := by
  unfold DcObj.issue at h
  split at h
  · rename_i c
    cases hz : lz.rd o.bz with
    | none => rw [hz] at h; simp at h
    | some zw =>
      rw [hz, Option.bind_some] at h
      obtain ⟨d, -, e⟩ := Option.map_eq_some_iff.mp h
      simp only [Prod.mk.injEq] at e
      obtain ⟨rfl, rfl⟩ := e
      exact ⟨by simp [c], fun c => absurd rfl c⟩
  · rename_i c
    simp only [Option.some.injEq, Prod.mk.injEq] at h
    obtain ⟨rfl, rfl⟩ := h
    exact ⟨by simp [c], fun _ => ⟨rfl, rfl⟩⟩

/-! ### A case -/

/-- Two batch elements of 4 by 3 elements and two channels, kernel 2 by 3, stride 2 in both directions.  Height is tiled; width is not, as the last tile would
be shorter than the kernel.  The output buffer has one element more than the output tensor. -/
def exDcRun : DcRun :=
  { zx := 1, c := { sh := 2, sw := 2, pt := 1, pb := 0, pl := 1, pr := 1 }
    nb := 2, ih := 4, iw := 3, ic := 2, oh := 7, ow := 5, oc := 2, kh := 2, kw := 3, t1 := 2, t2 := 2, t4 := 1
    itiles := [1, 2, 3, 1, 2], otiles := [1, 4, 5, 1, 1], ls := [12, 6, 2, 2, 1], lw := [12, 6, 2, 1, 1], lo := [20, 5, 1, 1, 1]
    bi := 0, bw := 0, bz := 0, bo := 0, lin := ⟨12, fun _ => 0⟩, lwt := ⟨12, fun _ => 0⟩, lz := ⟨1, fun _ => 0⟩, lout := ⟨20, fun _ => 0⟩
    gin := ⟨⟨48, fun a => a % 7 - 3⟩, [24, 6, 2, 2, 1]⟩, gw := ⟨⟨24, fun a => a % 5 - 1⟩, [24, 12, 4, 2, 1]⟩
    gz := Buf.ofList [0, 0], gos := [70, 10, 2, 2, 1], gout := ⟨141, fun _ => 77⟩ }

theorem exDcOk : DcOk exDcRun where
  batch := ⟨by decide, by decide⟩
  rows := ⟨by decide, by decide, by decide, by decide, by decide, by decide, by decide, Or.inr (Or.inr rfl), by decide⟩
  cols := ⟨by decide, by decide, by decide, by decide, by decide, by decide, by decide, Or.inr (Or.inl (by decide)), by decide⟩
  chans := ⟨by decide, by decide, by decide⟩
  inch := ⟨by decide, by decide⟩
  typed := by decide
  taps := by decide
  zin := by decide
  zuse := by
    intro k h0 h1
    change k < 2 at h1
    have : k = 0 ∨ k = 1 := by omega
    rcases this with rfl | rfl <;> decide
  zsize := by decide
  ifits := by
    intro n d hn hd
    have h8 : exDcRun.rounds = 8 := by decide +kernel
    rw [h8] at hn
    exact (show ∀ n, n < 8 → ∀ d, d < 5 → (exDcRun.inp.at n).sizes.getD d 0 ≤ [1, 2, 3, 1, 2].getD d 0 by decide +kernel) n hn d hd
  ofits := by
    intro n d hn hd
    have h8 : exDcRun.rounds = 8 := by decide +kernel
    rw [h8] at hn
    exact (show ∀ n, n < 8 → ∀ d, d < 5 → (exDcRun.out.at n).sizes.getD d 0 ≤ [1, 4, 5, 1, 1].getD d 0 by decide +kernel) n hn d hd
  ilen := rfl
  olen := rfl
  iplace := ⟨rfl, rfl, allIn (by decide +kernel), fun y z hy hz =>
    allIn (ns := [1, 2, 3, 1, 2]) (P := fun y => ∀ z ∈ rowMajor [1, 2, 3, 1, 2], offset [12, 6, 2, 2, 1] y = offset [12, 6, 2, 2, 1] z → y = z) (by decide +kernel) y hy z
      (mem_rowMajor.mpr hz)⟩
  oplace := ⟨rfl, rfl, allIn (by decide +kernel), fun y z hy hz =>
    allIn (ns := [1, 4, 5, 1, 1]) (P := fun y => ∀ z ∈ rowMajor [1, 4, 5, 1, 1], offset [20, 5, 1, 1, 1] y = offset [20, 5, 1, 1, 1] z → y = z) (by decide +kernel) y hy z
      (mem_rowMajor.mpr hz)⟩
  wlen := rfl
  wbound := allIn (by decide +kernel)
  winj := fun y z hy hz => allIn (P := fun y => ∀ z ∈ rowMajor [1, 2, 3, 2, 1], offset [12, 6, 2, 1, 1] y = offset [12, 6, 2, 1, 1] z → y = z)
    (by decide +kernel) y hy z (mem_rowMajor.mpr hz)
  zplace := ⟨by decide, by decide⟩
  inb := allIn (by decide +kernel)
  wb := allIn (by decide +kernel)
  outb := allIn (by decide +kernel)
  outj := fun y z hy hz =>
    allIn (ns := [2, 7, 5, 1, 2]) (P := fun y => ∀ z ∈ rowMajor [2, 7, 5, 1, 2], offset [70, 10, 2, 2, 1] y = offset [70, 10, 2, 2, 1] z → y = z) (by decide +kernel) y hy z
      (mem_rowMajor.mpr hz)

example : (List.range 8).map (fun n => ((exDcRun.inp.at n).getPos, (exDcRun.out.at n).getPos, (exDcRun.out.at n).sizes)) =
    [([0, 0, 0, 0, 0], [0, 0, 0, 0, 0], [1, 3, 5, 1, 1]), ([1, 0, 0, 0, 0], [1, 0, 0, 0, 0], [1, 3, 5, 1, 1]),
      ([0, 2, 0, 0, 0], [0, 3, 0, 0, 0], [1, 4, 5, 1, 1]), ([1, 2, 0, 0, 0], [1, 3, 0, 0, 0], [1, 4, 5, 1, 1]),
      ([0, 0, 0, 0, 0], [0, 0, 0, 0, 1], [1, 3, 5, 1, 1]), ([1, 0, 0, 0, 0], [1, 0, 0, 0, 1], [1, 3, 5, 1, 1]),
      ([0, 2, 0, 0, 0], [0, 3, 0, 0, 1], [1, 4, 5, 1, 1]), ([1, 2, 0, 0, 0], [1, 3, 0, 0, 1], [1, 4, 5, 1, 1])] := by decide +kernel

example : (exDcRun.run 8 8 32).map (fun s => (s.status, s.gout.toList)) = some (.ok,
    [4, -1, 6, 3, 8, 7, 14, 9, 12, 15, 16, 6, 19, 14, 1, 13, 7, 3, 7, 13, 2, 2, -5, 0, 6, 3, 10, 6, 10, 11, 13, 13, 11, 9,
      -2, 13, 6, -2, 4, 13, 14, 19, -2, 11, 4, -1, 6, 3, 8, 7, 10, 13, 3, 4, 16, 6, 19, 14, 1, 13, 12, 15, 1, 22, 2, 2, -5,
      0, 6, 3, 10, 11, 18, 12, 14, 19, -2, 11, 4, -1, 4, 13, 8, 8, 10, 13, 3, 4, 16, 6, 8, 7, 14, 9, 12, 15, 1, 22, 2, 2, 1,
      13, 7, 3, 7, 13, 9, 13, 13, 13, 6, 3, 10, 6, 10, 11, 18, 12, 14, 19, -2, 13, 6, -2, 4, 13, 8, 8, 10, 13, 4, -1, 6, 3,
      8, 7, 14, 9, 12, 15, 77]) := by decide +kernel

example : ∃ s, exDcRun.run 8 8 32 = some s ∧ s.gout.get 34 = -2 ∧ s.gout.get 140 = 77 := by
  obtain ⟨s, h1, -, -, h2, h3⟩ := c78_transpose_tiled_partial _ exDcOk
  exact ⟨s, h1, (h2 0 3 2 0 (by decide)).trans (by decide +kernel), (h3 140 (allIn (by decide +kernel))).trans (by decide)⟩

example : (exDcRun.start 16 8 32).obj.issue ⟨12, fun _ => 0⟩ ⟨12, fun _ => 0⟩ ⟨1, fun _ => 0⟩ ⟨20, fun _ => 0⟩ = some (.notSupported, ⟨20, fun _ => 0⟩) := rfl

/-! ### Violations -/

/-- One batch element and channel, width 1, kernel of 3, stride 1, height 6 in tiles of `t`, zero point `z` of the weights. -/
def exDcWide (t z : Int) : DcRun :=
  { zx := 0, c := { sh := 1, sw := 1 }, nb := 1, ih := 6, iw := 1, ic := 1, oh := 8, ow := 1, oc := 1, kh := 3, kw := 1, t1 := t, t2 := 1, t4 := 1
    itiles := [1, 6, 1, 1, 1], otiles := [1, 8, 1, 1, 1], ls := [1, 1, 1, 1, 1], lw := [1, 1, 1, 1, 1], lo := [1, 1, 1, 1, 1]
    bi := 0, bw := 0, bz := 0, bo := 0, lin := ⟨6, fun _ => 0⟩, lwt := ⟨3, fun _ => 0⟩, lz := ⟨1, fun _ => 0⟩, lout := ⟨8, fun _ => 99⟩
    gin := ⟨Buf.ofList [1, 2, 3, 4, 5, 6], [6, 1, 1, 1, 1]⟩, gw := ⟨Buf.ofList [1, 1, 1], [3, 1, 1, 1, 1]⟩
    gz := Buf.ofList [z], gos := [8, 1, 1, 1, 1], gout := ⟨8, fun _ => 77⟩ }

/-- **Violation**: a kernel larger than the stride, height in two tiles.  The output tiles overlap in two rows, and what the first tile adds there is
overwritten by the second: rows 3 and 4 are 4 and 9 instead of 9 and 12.  In one tile they are right. -/
theorem c78_overlap_violated :
    ((exDcWide 3 0).run 8 8 32).map (fun s => (s.status, s.gout.toList)) = some (.ok, [1, 3, 6, 4, 9, 15, 11, 6]) ∧
    ((exDcWide 6 0).run 8 8 32).map (fun s => (s.status, s.gout.toList)) = some (.ok, [1, 3, 6, 9, 12, 15, 11, 6]) ∧
    (List.range 8).map (fun y : Nat => scatterSum 6 1 3 1 1 (fun r _ _ => (Buf.ofList [1, 2, 3, 4, 5, 6]).get r) (fun _ _ _ => 1) 1 1 0 0 y 0) =
      [1, 3, 6, 9, 12, 15, 11, 6] := by
  refine ⟨?_, ?_, ?_⟩ <;> decide +kernel

/-- **Violation**: a zero point of the weights other than 0, in one tile.  All weights are equal to it, so that all sums should be 0;
it is as if the zero point were 0. -/
theorem c78_zero_point_violated :
    ((exDcWide 6 1).run 8 8 32).map (fun s => (s.status, s.gout.toList)) = some (.ok, [1, 3, 6, 9, 12, 15, 11, 6]) := by
  decide +kernel

end Mli.Rt
