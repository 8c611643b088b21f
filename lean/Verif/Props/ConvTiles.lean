import Verif.Lemmas.ConvTiles
import Verif.Props.EltRuntime

/-! # C70: run-time convolution kernels tile by tile -/

namespace Mli.Rt

open Mli Mli.Iter Mli.Spec

/-- C70 for `Conv2d`: the caller's loop over all tiles (copy the tiles of input, weights and zero points, `Issue`, copy the output tile, `Update`) ends with
status OK, every element of the output tensor is the sum over its window in the whole input tensor, where the zero point of the input stands for the
elements outside of it, and nothing else in the output buffer changes.

Partial: one group, tiles with one batch element, zero points of the weights that are 0, and the other conditions of `ConvOk`; see the violations below. -/
theorem c70_conv2d_tiled_partial (R : ConvRun) (h : ConvOk R) (hd : R.dw = false) :
    ∃ s, R.run 8 8 32 = some s ∧ s.status = .ok ∧ s.gout.size = R.gout.size ∧
      (∀ b y x k, InShape [R.nb, R.oh, R.ow, 1, R.oc] [b, y, x, 0, k] →
        s.gout.get (offset R.gos [b, y, x, 0, k]) =
          convSum R.kh R.kw R.ic (padded R.ih R.iw R.zx fun r q c => R.gin.buf.get (offset R.gin.strides [b, r, q, 0, c]))
            (fun i j c => R.gw.buf.get (offset R.gw.strides [0, i, j, c, k])) R.c.sh R.c.sw R.c.pt R.c.pl R.c.dh R.c.dw y x) ∧
      ∀ a, (∀ x, InShape [R.nb, R.oh, R.ow, 1, R.oc] x → offset R.gos x ≠ a) → s.gout.get a = R.gout.get a := by
  obtain ⟨s, h1, h2, h3, h4, h5⟩ := conv_run h
  refine ⟨s, h1, h2, h3, ?_, h5⟩
  intro b y x k hx
  rw [h4 b y x k hx]
  unfold ConvRun.value ConvRun.weight
  rw [hd]
  rfl

/-- C70 for `DepthwiseConv2d`: channel `k` of the output comes from channel `k` of the input and of the weights, whose zero point for the channel is
subtracted.

Partial: tiles with one batch element, the same zero point of the weights for all channels of a tile, and the other conditions of `ConvOk`. -/
theorem c70_depthwise_tiled_partial (R : ConvRun) (h : ConvOk R) (hd : R.dw = true) :
    ∃ s, R.run 8 8 32 = some s ∧ s.status = .ok ∧ s.gout.size = R.gout.size ∧
      (∀ b y x k, InShape [R.nb, R.oh, R.ow, 1, R.oc] [b, y, x, 0, k] →
        s.gout.get (offset R.gos [b, y, x, 0, k]) =
          convSum R.kh R.kw 1 (padded R.ih R.iw R.zx fun r q _ => R.gin.buf.get (offset R.gin.strides [b, r, q, 0, k]))
            (fun i j _ => R.gw.buf.get (offset R.gw.strides [i, j, k]) - R.gz.get k) R.c.sh R.c.sw R.c.pt R.c.pl R.c.dh R.c.dw y x) ∧
      ∀ a, (∀ x, InShape [R.nb, R.oh, R.ow, 1, R.oc] x → offset R.gos x ≠ a) → s.gout.get a = R.gout.get a := by
  obtain ⟨s, h1, h2, h3, h4, h5⟩ := conv_run h
  refine ⟨s, h1, h2, h3, ?_, h5⟩
  intro b y x k hx
  rw [h4 b y x k hx]
  unfold ConvRun.value ConvRun.weight
  rw [hd]
  rfl

/-- C70, status: `Issue` succeeds only for 8-bit input and weights and 32-bit output, and for others it changes nothing. -/
theorem c70_status (o : ConvObj) (lin lw lz lout lout' : Buf) (st : Status) (h : o.issue lin lw lz lout = some (st, lout')) :
    (st = .ok ↔ o.wi = 8 ∧ o.ww = 8 ∧ o.wo = 32) ∧ (st ≠ .ok → st = .notSupported ∧ lout' = lout) := by
  unfold ConvObj.issue at h
  split at h
  · rename_i c
    cases hz : lz.rd o.bz with
    | none => rw [hz] at h; simp at h
    | some zw =>
      rw [hz, Option.bind_some] at h
      obtain ⟨d, -, e⟩ := Option.map_eq_some_iff.mp h
      simp only [Prod.mk.injEq] at e
      obtain ⟨rfl, rfl⟩ := e
      exact ⟨by simp [c], fun c => absurd rfl c⟩
  · rename_i c
    simp only [Option.some.injEq, Prod.mk.injEq] at h
    obtain ⟨rfl, rfl⟩ := h
    exact ⟨by simp [c], fun _ => ⟨rfl, rfl⟩⟩

/-! ### A case -/

/-- 3 by 3 windows with padding 1 on two batch elements of 4 by 3 elements and two channels, in tiles of at most 2 by 2 output elements and one channel.
The output buffer has one element more than the output tensor. -/
def exConvRun (dw : Bool) : ConvRun :=
  { dw, zx := 1, c := { sh := 1, sw := 1, pt := 1, pb := 1, pl := 1, pr := 1 }
    nb := 2, ih := 4, iw := 3, ic := 2, oh := 4, ow := 3, oc := 2, kh := 3, kw := 3, t1 := 2, t2 := 2, t4 := 1
    itiles := [1, 3, 3, 1, 2], ls := [18, 6, 2, 2, 1], lw := (if dw then [3, 1, 1] else [18, 6, 2, 1, 1]), lo := [4, 2, 1, 1, 1]
    bi := 0, bw := 0, bz := 0, bo := 0, lin := ⟨18, fun _ => 0⟩, lwt := ⟨18, fun _ => 0⟩, lz := ⟨1, fun _ => 0⟩, lout := ⟨4, fun _ => 0⟩
    gin := ⟨⟨48, fun a => a % 7 - 3⟩, [24, 6, 2, 2, 1]⟩, gw := ⟨⟨36, fun a => a % 5 - 1⟩, (if dw then [6, 2, 1] else [36, 12, 4, 2, 1])⟩
    gz := Buf.ofList (if dw then [1, 2] else [0, 0]), gos := [24, 6, 2, 2, 1], gout := ⟨49, fun _ => 77⟩ }

theorem exConvAxis {n t : Int} (h : n = 4 ∧ t = 2 ∨ n = 3 ∧ t = 2) : KernOk n t 0 n ((3 - 1) * 1 + 1) 1 1 := by
  rcases h with ⟨rfl, rfl⟩ | ⟨rfl, rfl⟩ <;>
    exact ⟨⟨by decide, by decide, by decide⟩, by decide, by decide, by decide, by decide, by decide, by decide, by decide⟩

theorem exConvOk (dw : Bool) : ConvOk (exConvRun dw) where
  batch := by exact ⟨by show (1 : Int) ≤ 2; omega, by show (2 : Int) < 2 ^ 29; omega⟩
  rows := exConvAxis (Or.inl ⟨rfl, rfl⟩)
  cols := exConvAxis (Or.inr ⟨rfl, rfl⟩)
  chans := ⟨by show (1 : Int) ≤ 1; omega, by show (1 : Int) ≤ 2; omega, by show (2 : Int) < 2 ^ 29; omega⟩
  inch := ⟨by show (1 : Int) ≤ 2; omega, by show (2 : Int) < 2 ^ 29; omega⟩
  kern := ⟨⟨by show (1 : Int) ≤ 3; omega, by show (3 : Int) < 2 ^ 29; omega⟩, by show (1 : Int) ≤ 3; omega, by show (3 : Int) < 2 ^ 29; omega⟩
  depth := fun _ => rfl
  typed := by show ConvCfg.Typed { sh := 1, sw := 1, pt := 1, pb := 1, pl := 1, pr := 1 }; decide
  dil := ⟨by show (1 : Int) ≤ 1; omega, by show (1 : Int) ≤ 1; omega⟩
  meet := fun _ y h0 h1 => ⟨1, by omega, by show (1 : Int) < 3; omega, by
    show 0 ≤ y * 1 - 1 + 1 * 1; omega, by show y * 1 - 1 + 1 * 1 < 4; change y < 4 at h1; omega⟩
  taps := by cases dw <;> decide
  zin := by cases dw <;> decide
  zwts := by
    intro k h0 h1
    change k < 2 at h1
    have : k = 0 ∨ k = 1 := by omega
    rcases this with rfl | rfl <;> cases dw <;> decide
  zuse := by
    intro k h0 h1
    change k < 2 at h1
    have : k = 0 ∨ k = 1 := by omega
    rcases this with rfl | rfl <;> cases dw <;> decide
  zsize := by cases dw <;> decide
  fits := by
    intro n d hn hd
    have h16 : (exConvRun dw).rounds = 16 := by cases dw <;> decide +kernel
    rw [h16] at hn
    cases dw
    · exact (show ∀ n, n < 16 → ∀ d, d < 5 → ((exConvRun false).inp.at n).sizes.getD d 0 ≤ [1, 3, 3, 1, 2].getD d 0 by decide +kernel) n hn d hd
    · exact (show ∀ n, n < 16 → ∀ d, d < 5 → ((exConvRun true).inp.at n).sizes.getD d 0 ≤ [1, 3, 3, 1, 2].getD d 0 by decide +kernel) n hn d hd
  ilen := rfl
  iplace := ⟨rfl, rfl, by cases dw <;> exact allIn (by decide +kernel), fun y z hy hz =>
    allIn (ns := [1, 3, 3, 1, 2]) (P := fun y => ∀ z ∈ rowMajor [1, 3, 3, 1, 2], offset [18, 6, 2, 2, 1] y = offset [18, 6, 2, 2, 1] z → y = z) (by decide +kernel) y hy z
      (mem_rowMajor.mpr hz)⟩
  oplace := ⟨rfl, rfl, by cases dw <;> exact allIn (by decide +kernel), fun y z hy hz =>
    allIn (ns := [1, 2, 2, 1, 1]) (P := fun y => ∀ z ∈ rowMajor [1, 2, 2, 1, 1], offset [4, 2, 1, 1, 1] y = offset [4, 2, 1, 1, 1] z → y = z) (by decide +kernel) y hy z
      (mem_rowMajor.mpr hz)⟩
  wlen := by cases dw <;> rfl
  wbound := by cases dw <;> exact allIn (by decide +kernel)
  winj := by
    cases dw
    · exact fun y z hy hz => allIn (P := fun y => ∀ z ∈ rowMajor [1, 3, 3, 2, 1], offset [18, 6, 2, 1, 1] y = offset [18, 6, 2, 1, 1] z → y = z)
        (by decide +kernel) y hy z (mem_rowMajor.mpr hz)
    · exact fun y z hy hz => allIn (P := fun y => ∀ z ∈ rowMajor [3, 3, 1], offset [3, 1, 1] y = offset [3, 1, 1] z → y = z)
        (by decide +kernel) y hy z (mem_rowMajor.mpr hz)
  zplace := ⟨by show (0 : Int) ≤ 0; omega, by show (0 : Int) + 1 ≤ 1; omega⟩
  inb := by cases dw <;> exact allIn (by decide +kernel)
  wb := by cases dw <;> exact allIn (by decide +kernel)
  outb := by cases dw <;> exact allIn (by decide +kernel)
  outj := fun y z hy hz =>
    allIn (ns := [2, 4, 3, 1, 2]) (P := fun y => ∀ z ∈ rowMajor [2, 4, 3, 1, 2], offset [24, 6, 2, 2, 1] y = offset [24, 6, 2, 2, 1] z → y = z) (by decide +kernel) y hy z
      (mem_rowMajor.mpr hz)

example : ((exConvRun false).run 8 8 32).map (fun s => (s.status, s.gout.toList)) = some (.ok,
    [12, 3, 5, -9, 4, 14, -17, -5, -8, -4, -5, 5, 14, 10, 2, -6, 3, -12, 12, 0, 0, 0, -1, 10, 19, 12, 5, 24, 27, 10, 9, 6,
      4, -5, -1, 14, -2, -7, 7, 14, 21, 18, 2, -1, 2, 8, 19, 17, 77]) := by decide +kernel

example : ((exConvRun true).run 8 8 32).map (fun s => (s.status, s.gout.toList)) = some (.ok,
    [6, 2, -4, -5, -1, -9, 9, -11, -2, 4, 1, -4, 0, 4, -1, 8, 1, 1, -13, 7, 1, -13, 2, -3, -8, -13, 7, -2, -2, -4, -6, -14,
      -12, 6, 1, -26, -8, -6, 3, 3, 1, -14, -3, -12, 9, -13, 3, -9, 77]) := by decide +kernel

example : ∃ s, (exConvRun false).run 8 8 32 = some s ∧ s.gout.get 31 = 6 ∧ s.gout.get 48 = 77 := by
  obtain ⟨s, h1, -, -, h2, h3⟩ := c70_conv2d_tiled_partial _ (exConvOk false) rfl
  exact ⟨s, h1, (h2 1 1 0 1 (by decide)).trans (by decide +kernel), (h3 48 (allIn (by decide +kernel))).trans (by decide)⟩

example : ∃ s, (exConvRun true).run 8 8 32 = some s ∧ s.gout.get 31 = -14 ∧ s.gout.get 48 = 77 := by
  obtain ⟨s, h1, -, -, h2, h3⟩ := c70_depthwise_tiled_partial _ (exConvOk true) rfl
  exact ⟨s, h1, (h2 1 1 0 1 (by decide)).trans (by decide +kernel), (h3 48 (allIn (by decide +kernel))).trans (by decide)⟩

example : ((exConvRun false).start 16 8 32).obj.issue ⟨18, fun _ => 0⟩ ⟨18, fun _ => 0⟩ ⟨1, fun _ => 0⟩ ⟨4, fun _ => 0⟩ = some (.notSupported, ⟨4, fun _ => 0⟩) := rfl

/-! ### Violations -/

/-- A run with one-element windows and any tiles. -/
def convRunOf (dw : Bool) (oshape wshape tiles ls lw : List Int) (gin gw : Glob) (gz : Buf) (gos : List Int) (lin lwt lz lout gout : Buf) :
    Option (Status × List Int) :=
  let out := convOutIt oshape tiles ls
  let inp := TIt.start (kernelCfg (tileCfg oshape tiles (List.range oshape.length) 0) oshape (fun _ => 1) (fun _ => 1) (fun _ => 0)) oshape ls
  (ConvHost.run gin gw gz gos (totalCount out.cfg).toNat ⟨ConvObj.new dw 8 8 32 0 { sh := 1, sw := 1 } inp (convWtsIt dw oshape tiles wshape lw) out 0 0 0 0,
    lin, lwt, lz, lout, gout, .ok⟩).map fun s => (s.status, s.gout.toList)

/-- **Violation**: with tiles of two batch elements only the first one is computed.  `Conv2d` reports both, so that the caller copies what the local buffer
held before; `DepthwiseConv2d` reports one, and the other one is never written. -/
theorem c70_batch_violated :
    convRunOf false [2, 1, 1, 1, 1] [1, 1, 1, 1, 1] [2, 1, 1, 1, 1] [1, 1, 1, 1, 1] [1, 1, 1, 1, 1] ⟨Buf.ofList [3, 4], [1, 1, 1, 1, 1]⟩
      ⟨Buf.ofList [5], [1, 1, 1, 1, 1]⟩ (Buf.ofList [0]) [1, 1, 1, 1, 1] (Buf.ofList [0, 0]) (Buf.ofList [0]) (Buf.ofList [0]) (Buf.ofList [99, 99])
      (Buf.ofList [77, 77]) = some (.ok, [15, 99]) ∧
    convRunOf true [2, 1, 1, 1, 1] [1, 1, 1] [2, 1, 1, 1, 1] [1, 1, 1, 1, 1] [1, 1, 1] ⟨Buf.ofList [3, 4], [1, 1, 1, 1, 1]⟩
      ⟨Buf.ofList [5], [1, 1, 1]⟩ (Buf.ofList [0]) [1, 1, 1, 1, 1] (Buf.ofList [0, 0]) (Buf.ofList [0]) (Buf.ofList [0]) (Buf.ofList [99, 99])
      (Buf.ofList [77, 77]) = some (.ok, [15, 77]) := by
  constructor <;> decide +kernel

/-- **Violation**: with tiles of two groups `Conv2d` only computes the first one. -/
theorem c70_group_violated :
    convRunOf false [1, 1, 1, 2, 1] [2, 1, 1, 1, 1] [1, 1, 1, 2, 1] [2, 2, 2, 1, 1] [1, 1, 1, 1, 1] ⟨Buf.ofList [3, 4], [2, 2, 2, 1, 1]⟩
      ⟨Buf.ofList [5, 6], [1, 1, 1, 1, 1]⟩ (Buf.ofList [0]) [2, 2, 2, 1, 1] (Buf.ofList [0, 0]) (Buf.ofList [0, 0]) (Buf.ofList [0]) (Buf.ofList [99, 99])
      (Buf.ofList [77, 77]) = some (.ok, [15, 99]) := by
  decide +kernel

/-- **Violation**: with two groups and tiles of one group the weights stay at the first group, because the weights are only advanced with the output channels:
the second element is `4 * 5` instead of `4 * 6`. -/
theorem c70_group_weights_violated :
    convRunOf false [1, 1, 1, 2, 1] [2, 1, 1, 1, 1] [1, 1, 1, 1, 1] [2, 2, 2, 1, 1] [1, 1, 1, 1, 1] ⟨Buf.ofList [3, 4], [2, 2, 2, 1, 1]⟩
      ⟨Buf.ofList [5, 6], [1, 1, 1, 1, 1]⟩ (Buf.ofList [0]) [2, 2, 2, 1, 1] (Buf.ofList [0, 0]) (Buf.ofList [0, 0]) (Buf.ofList [0]) (Buf.ofList [99, 99])
      (Buf.ofList [77, 77]) = some (.ok, [15, 20]) := by
  decide +kernel

/-- The case above for `DepthwiseConv2d` with tiles of two channels, which have different zero points of the weights. -/
def exConvTwo : ConvRun :=
  { exConvRun true with t4 := 2, lz := ⟨2, fun _ => 0⟩, lout := ⟨8, fun _ => 0⟩, lo := [8, 4, 2, 2, 1], lw := [6, 2, 1] }

/-- **Violation**: `DepthwiseConv2d` uses the zero point of the first channel of the tile for all of its channels: the second channel of the first element
is 1 instead of 2. -/
theorem c70_zero_points_violated :
    (exConvTwo.run 8 8 32).map (fun s => (s.status, s.gout.get (offset exConvTwo.gos [0, 0, 0, 0, 1]))) = some (.ok, 1) ∧
    convSum 3 3 1 (padded 4 3 1 fun r q _ => exConvTwo.gin.buf.get (offset exConvTwo.gin.strides [0, r, q, 0, 1]))
      (fun i j _ => exConvTwo.gw.buf.get (offset exConvTwo.gw.strides [i, j, 1]) - exConvTwo.gz.get 1) 1 1 1 1 1 1 0 0 = 2 := by
  constructor <;> decide +kernel

/-- **Violation**: `Conv2d` with a zero point of the weights other than 0; the first element, where the window goes beyond the input, differs from the sum. -/
theorem c70_conv2d_zero_point_violated :
    let R := { exConvRun false with gz := Buf.ofList [1, 1] }
    (R.run 8 8 32).map (fun s => (s.status, decide (s.gout.get (offset R.gos [0, 0, 0, 0, 0]) =
      convSum 3 3 2 (padded 4 3 1 fun r q c => R.gin.buf.get (offset R.gin.strides [0, r, q, 0, c]))
        (fun i j c => R.gw.buf.get (offset R.gw.strides [0, i, j, c, 0]) - R.gz.get 0) 1 1 1 1 1 1 0 0))) = some (.ok, false) := by
  decide +kernel

end Mli.Rt
