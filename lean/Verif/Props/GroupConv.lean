import Verif.Model.GroupConv
import Verif.Lemmas.ConvGen
import Verif.Props.ConvMore
import Verif.Props.ConvSa8

/-!
# C57: group convolution

The channels of the input are divided into groups of as many channels as the weights have, the filters into equally many
groups; each filter convolves the channels of its own group.
-/

namespace Mli

open Spec

/-- With weights zero point 0 one output element is that of an ordinary convolution over the channels of the group. -/
theorem groupBias_eq (q : ConvQ) (hzw : q.zw = 0) (post : Int → Int → Int → Int) (src wts bias : Buf) (bptr : Int) (c : ConvCfg)
    (i : Prv) (w : WPrv) (H W oc : Int) :
    groupBias q post src wts bias bptr c i w H W oc = convBias q post src wts bias bptr c
      { i with ch := w.inCh, ptr := i.ptr + w.inCh * (oc / (w.outCh / (i.ch / w.inCh))) } w H W oc := by
  have e : ∀ d : Int, i.ptr + i.row * (H * c.sh - c.pt + (validArea H W i.height i.width w.height w.width c.sh c.sw c.pl c.pt c.dh c.dw).inTop) +
      i.col * (W * c.sw - c.pl + (validArea H W i.height i.width w.height w.width c.sh c.sw c.pl c.pt c.dh c.dw).inLeft) + d =
      i.ptr + d + i.row * (H * c.sh - c.pt + (validArea H W i.height i.width w.height w.width c.sh c.sw c.pl c.pt c.dh c.dw).inTop) +
      i.col * (W * c.sw - c.pl + (validArea H W i.height i.width w.height w.width c.sh c.sw c.pl c.pt c.dh c.dw).inLeft) := by
    intro d; ring
  unfold groupBias convBias convCore convWin inAdd3D
  simp only [hzw, ne_eq, not_true_eq_false, and_false, if_false, Option.bind_some, e]
  simp only [Option.bind_assoc, Option.bind_some]

/-- The taps of a window do not see how far the input was cut. -/
theorem convSum_cut {kh kw n ih iw H W : Int} (X Wt : Int → Int → Int → Int) {sh sw pt pl dh dw y x : Int}
    (hH : ∀ i, i < kh → (tapCoord sh pt dh y i < H ↔ tapCoord sh pt dh y i < ih))
    (hW : ∀ j, j < kw → (tapCoord sw pl dw x j < W ↔ tapCoord sw pl dw x j < iw)) :
    convSum kh kw n (padded H W 0 X) Wt sh sw pt pl dh dw y x = convSum kh kw n (padded ih iw 0 X) Wt sh sw pt pl dh dw y x := by
  unfold convSum
  apply Finset.sum_congr rfl; intro i hi
  apply Finset.sum_congr rfl; intro j hj
  apply Finset.sum_congr rfl; intro c _
  rw [Finset.mem_range] at hi hj
  unfold padded
  simp only [hH i (by omega), hW j (by omega)]

/-- What an accepted group convolution satisfies. -/
theorem chkGroup_ok {apart : Bool} {ks : Int} {tin tw tb tout : Tensor} {c : ConvCfg}
    (h : chkGroup ks apart tin tw tb c tout = some .ok) :
    ∃ ih iw ic kh kw kc kn bn oh ow oc, tin.dims = [ih, iw, ic] ∧ tw.dims = [kh, kw, kc, kn] ∧ tb.dims = [bn] ∧
      tout.dims = [oh, ow, oc] ∧
      (ic.shape / kc.shape ≠ 0 ∧ ic.shape % kc.shape = 0 ∧ kn.shape % (ic.shape / kc.shape) = 0) ∧ oc.shape = kn.shape ∧ bn.shape = kn.shape ∧
      ic.stride = 1 ∧ kn.stride = 1 ∧ bn.stride = 1 ∧ oc.stride = 1 ∧
      (ks ≠ 0 → kh.shape = ks ∧ kw.shape = ks) ∧ 0 < c.dh ∧ 0 < c.dw ∧ 0 < c.sh ∧ 0 < c.sw ∧
      (c.pl < wrap 32 ((kw.shape - 1) * c.dw + 1) ∧ c.pr < wrap 32 ((kw.shape - 1) * c.dw + 1) ∧
       c.pt < wrap 32 ((kh.shape - 1) * c.dh + 1) ∧ c.pb < wrap 32 ((kh.shape - 1) * c.dh + 1)) ∧
      wrap 32 (oh.shape * c.sh + wrap 32 ((kh.shape - 1) * c.dh + 1) - c.sh) ≤ wrap 32 (ih.shape + c.pt + c.pb) ∧
      wrap 32 (ow.shape * c.sw + wrap 32 ((kw.shape - 1) * c.dw + 1) - c.sw) ≤ wrap 32 (iw.shape + c.pl + c.pr) ∧
      apart = true := by
  unfold chkGroup at h
  split at h
  · cases h
  rename_i hks
  rw [Option.bind_eq_some_iff] at h
  obtain ⟨s1, -, h⟩ := h
  split at h
  · rename_i h'; exact absurd (Option.some.inj h) h'
  unfold chkGroupGeo at h
  split at h
  · rename_i ih iw ic kh kw kc kn bn oh ow oc e1 e2 e3 e4
    simp only [] at h
    split at h
    · cases h
    rename_i hg
    split at h
    · cases h
    rename_i hsh
    split at h
    · cases h
    rename_i hin
    split at h
    · cases h
    rename_i hcfg
    split at h
    · cases h
    rename_i hap
    simp only [innerOne, Tensor.strides, e1, e2, e3, e4, List.map_cons, List.map_nil, Bool.not_eq_true, Bool.not_eq_false',
      Bool.and_eq_true] at hin
    simp only [List.getLast?_cons_cons, List.getLast?_singleton, beq_iff_eq] at hin
    obtain ⟨sh1, sh2, sh3, sh4⟩ := not_not.1 hsh
    have hcfg := not_not.1 hcfg
    obtain ⟨⟨⟨u1, u2⟩, u3⟩, u4⟩ := hin
    obtain ⟨a1, a2, a3, a4, a5, a6, a7, a8, a9, a10⟩ := hcfg
    refine ⟨ih, iw, ic, kh, kw, kc, kn, bn, oh, ow, oc, e1, e2, e3, e4, ⟨hg, sh2, sh3⟩, sh4, sh1, u1, u2, u3, u4, ?_, a1, a2,
      a7, a8, ⟨a3, a4, a5, a6⟩, a9, a10, by simpa using hap⟩
    intro h0
    by_contra hc
    apply hks
    refine ⟨h0, ?_⟩
    simpa [Tensor.shape, e2] using hc
  · cases h

/-- Set-up of an accepted group convolution, with `g` groups of `n` filters. -/
structure GroupRun (ks : Int) (tin tw tb tout : Tensor) (c : ConvCfg) (src wts bias : Buf)
    (ih iw ic kh kw kc kn bn oh ow oc : Dim) (i o : Prv) (w : WPrv) (H W g n : Int) : Prop where
  T : ConvT tin tw c src wts ih iw ic kh kw kc kn
  db : tb.dims = [bn]
  dout : tout.dims = [oh, ow, oc]
  uo : oc.stride = 1
  hg : 0 < g
  hn : 0 < n
  eic : ic.shape = g * kc.shape
  ekn : kn.shape = g * n
  eo : oc.shape = kn.shape
  eb : bn.shape = kn.shape
  hi : prvHwc tin = some i
  ho : prvHwc tout = some o
  hw : prvHwcnFix ks tw = some w
  och : o.ch = oc.shape
  wv : w = wtPrv tw kh kw kc kn
  adj : convAdjust (ks = 1) c i w o = (c, inPrv tin ih iw ic H W)
  hH : H ≤ ih.shape
  hW : W ≤ iw.shape
  rowH : ∀ y : Nat, (y : Int) < oh.shape → ∀ j, j < kh.shape →
    (tapCoord c.sh c.pt c.dh y j < H ↔ tapCoord c.sh c.pt c.dh y j < ih.shape)
  colW : ∀ x : Nat, (x : Int) < ow.shape → ∀ j, j < kw.shape →
    (tapCoord c.sw c.pl c.dw x j < W ↔ tapCoord c.sw c.pl c.dw x j < iw.shape)
  hb : ∀ k : Nat, (k : Int) < kn.shape → bias.rd (tb.base + k) = some (bias.get (tb.addr [(k : Int)]))

theorem GroupRun.bias_in {ks : Int} {tin tw tb tout : Tensor} {c : ConvCfg} {src wts bias : Buf}
    {ih iw ic kh kw kc kn bn oh ow oc : Dim} {i o : Prv} {w : WPrv} {H W g n : Int}
    (R : GroupRun ks tin tw tb tout c src wts bias ih iw ic kh kw kc kn bn oh ow oc i o w H W g n) {k : Int}
    (hk : 0 ≤ k ∧ k < kn.shape) : InShape tb.shape [k] := by
  simp only [Tensor.shape, R.db, List.map_cons, List.map_nil, InShape, R.eb]
  exact ⟨hk, trivial⟩

theorem group_setup {apart : Bool} {ks : Int} {tin tw tb tout : Tensor} {c : ConvCfg} {src wts bias : Buf}
    (hchk : chkGroup ks apart tin tw tb c tout = some .ok) (hc : c.Typed)
    (vi : tin.Valid src) (vw : tw.Valid wts) (vb : tb.Valid bias) :
    ∃ ih iw ic kh kw kc kn bn oh ow oc i o w H W g n,
      GroupRun ks tin tw tb tout c src wts bias ih iw ic kh kw kc kn bn oh ow oc i o w H W g n := by
  obtain ⟨ih, iw, ic, kh, kw, kc, kn, bn, oh, ow, oc, e1, e2, e3, e4, ⟨g1, g2, g3⟩, h2, h3, u1, u2, u3, u4, hks, d1, d2, s1, s2,
    ⟨p1, p2, p3, p4⟩, r1, r2, -⟩ := chkGroup_ok hchk
  obtain ⟨⟨t1, -⟩, ⟨t2, -⟩, ⟨t3, -⟩, ⟨t4, -⟩, ⟨t5, -⟩, ⟨t6, -⟩, -⟩ := hc
  have pic := vi.shape_pos ic (by simp [e1])
  have pkc := vw.shape_pos kc (by simp [e2])
  have pkn := vw.shape_pos kn (by simp [e2])
  have gp : 0 < ic.shape / kc.shape := by
    have := Int.ediv_nonneg (a := ic.shape) (b := kc.shape) (by omega) (by omega)
    omega
  have q1 := Int.mul_ediv_add_emod ic.shape kc.shape
  have q2 := Int.mul_ediv_add_emod kn.shape (ic.shape / kc.shape)
  rw [g2, Int.add_zero] at q1
  rw [g3, Int.add_zero] at q2
  have np : 0 < kn.shape / (ic.shape / kc.shape) := by
    by_contra hn
    have : (ic.shape / kc.shape) * (kn.shape / (ic.shape / kc.shape)) ≤ 0 := Int.mul_nonpos_of_nonneg_of_nonpos (by omega) (by omega)
    omega
  have hcc : (if ks = 1 then { c with pt := 0, pb := 0, pl := 0, pr := 0 } else c) = c := by
    split
    · rename_i hk
      obtain ⟨k1, k2⟩ := hks (by omega)
      rw [k1, hk] at p3 p4
      rw [k2, hk] at p1 p2
      have e : ∀ d, wrap 32 ((1 - 1) * d + 1) = 1 := by intro d; rw [Int.sub_self, Int.zero_mul]; decide
      rw [e] at p1 p2 p3 p4
      have z1 : c.pt = 0 := by omega
      have z2 : c.pb = 0 := by omega
      have z3 : c.pl = 0 := by omega
      have z4 : c.pr = 0 := by omega
      cases c
      simp only at z1 z2 z3 z4
      subst z1 z2 z3 z4
      rfl
    · rfl
  refine ⟨ih, iw, ic, kh, kw, kc, kn, bn, oh, ow, oc,
    { ptr := tin.base, width := iw.shape, height := ih.shape, ch := ic.shape, col := iw.stride, row := ih.stride },
    { ptr := tout.base, width := ow.shape, height := oh.shape, ch := oc.shape, col := ow.stride, row := oh.stride },
    wtPrv tw kh kw kc kn,
    if (oh.shape * c.sh + ((kh.shape - 1) * c.dh + 1) - c.sh) - ih.shape - c.pt < 0 then
      ih.shape + ((oh.shape * c.sh + ((kh.shape - 1) * c.dh + 1) - c.sh) - ih.shape - c.pt) else ih.shape,
    if (ow.shape * c.sw + ((kw.shape - 1) * c.dw + 1) - c.sw) - iw.shape - c.pl < 0 then
      iw.shape + ((ow.shape * c.sw + ((kw.shape - 1) * c.dw + 1) - c.sw) - iw.shape - c.pl) else iw.shape,
    ic.shape / kc.shape, kn.shape / (ic.shape / kc.shape),
    ⟨⟨vi.placed, vw.placed, e1, e2, u1, by omega, by omega⟩, e3, e4, u4, gp, np, by rw [Int.mul_comm]; exact q1.symm, q2.symm, h2, h3, ?_, ?_, ?_, rfl, rfl, ?_,
      ?_, ?_, ?_, ?_, ?_⟩⟩
  · simp only [prvHwc, e1]
  · simp only [prvHwc, e4]
  · simp only [prvHwcnFix, prvHwcn, e2, wtPrv, u2, if_true, Option.map_some]
    split
    · rfl
    · rename_i hk
      obtain ⟨k1, k2⟩ := hks hk
      rw [k1, k2]
  · unfold convAdjust
    simp only [decide_eq_true_eq, hcc]
    rfl
  · split <;> omega
  · split <;> omega
  · intro y hy j hj
    exact adjust_tap (n := ih.shape) (k := kh.shape) (s := c.sh) (p := c.pt) (d := c.dh) (o := oh.shape) (y := y) (i := j) (by omega) (by omega) hy hj
  · intro y hy j hj
    exact adjust_tap (n := iw.shape) (k := kw.shape) (s := c.sw) (p := c.pl) (d := c.dw) (o := ow.shape) (y := y) (i := j) (by omega) (by omega) hy hj
  · intro k hk
    have hs : InShape tb.shape [(k : Int)] := by
      simp only [Tensor.shape, e3, List.map_cons, List.map_nil, InShape]
      exact ⟨by omega, trivial⟩
    rw [← vb.rd hs rfl]
    congr 1
    simp only [Tensor.addr, Tensor.strides, e3, List.map_cons, List.map_nil, offset, u3]
    ring

/-- Filter `k` belongs to group `k / n`, whose channels are in the input. -/
theorem group_in {g n k kc ch : Int} (hn : 0 < n) (k0 : 0 ≤ k) (k1 : k < g * n) (c0 : 0 ≤ ch) (c1 : ch < kc) :
    0 ≤ k / n * kc + ch ∧ k / n * kc + ch < g * kc := by
  have a := Int.ediv_nonneg k0 (show 0 ≤ n by omega)
  have b : k / n < g := Int.ediv_lt_of_lt_mul hn k1
  have e : (k / n + 1) * kc ≤ g * kc := Int.mul_le_mul_of_nonneg_right (by omega) (by omega)
  have e' : (k / n + 1) * kc = k / n * kc + kc := by ring
  have : 0 ≤ k / n * kc := Int.mul_nonneg a (by omega)
  omega

/-- All elements of the output of an accepted group convolution. -/
theorem group_all {ks : Int} {tin tw tb tout : Tensor} {c : ConvCfg} {src wts bias dst : Buf}
    {ih iw ic kh kw kc kn bn oh ow oc : Dim} {i o : Prv} {w : WPrv} {H W g n : Int}
    (R : GroupRun ks tin tw tb tout c src wts bias ih iw ic kh kw kc kn bn oh ow oc i o w H W g n) (vo : tout.Valid dst)
    (q : ConvQ) (post : Int → Int → Int → Int) (hzw : q.zw = 0) (hzx : wrap 16 (-q.zx) = -q.zx)
    (hmeet : RowsMeet ih.shape kh.shape oh.shape c) (B1 B2 : Int) (n1 : 0 ≤ B1) (n2 : 0 ≤ B2)
    (hB1 : ∀ is js, InShape tin.shape is → InShape tw.shape js → |src.get (tin.addr is) * wts.get (tw.addr js)| ≤ B1)
    (hB2 : ∀ js, InShape tw.shape js → |-q.zx * wts.get (tw.addr js)| ≤ B2)
    (hfit : kc.shape * (kh.shape * kw.shape) * (B1 + B2) ≤ hi q.aw) :
    ∃ dst' val, convLoop (groupBias q post src wts bias tb.base c (inPrv tin ih iw ic H W) w) o o.ch dst = some dst' ∧
      tout.Writes val dst dst' ∧ ∀ y x k, InShape tout.shape [y, x, k] → val [y, x, k] =
        post k (bias.get (tb.addr [k])) (convSum kh.shape kw.shape kc.shape
          (padded ih.shape iw.shape 0 fun r p ch => inElem src tin r p (k / n * kc.shape + ch) - q.zx) (wtElem wts tw k)
          c.sh c.sw c.pt c.pl c.dh c.dw y x) := by
  have T := R.T
  have pi := T.vi.shape_pos
  have pw := T.vw.shape_pos
  simp only [T.di, T.dk, List.mem_cons, List.not_mem_nil, or_false, forall_eq_or_imp, forall_eq] at pi pw
  have hgrp : (inPrv tin ih iw ic H W).ch / (wtPrv tw kh kw kc kn).inCh = g := by
    show ic.shape / kc.shape = g
    rw [R.eic, Int.mul_ediv_cancel _ (by omega)]
  have hper : (wtPrv tw kh kw kc kn).outCh / g = n := by
    show kn.shape / g = n
    have := R.hg
    rw [R.ekn, Int.mul_ediv_cancel_left _ (by omega)]
  obtain ⟨dst', h1, h2⟩ := convLoop_writes vo R.dout R.uo o.ch R.och
    (fun is => match is with
      | [y, x, k] => post k (bias.get (tb.addr [k])) (convSum kh.shape kw.shape kc.shape
          (padded ih.shape iw.shape 0 fun r p ch => inElem src tin r p (k / n * kc.shape + ch) - q.zx) (wtElem wts tw k)
          c.sh c.sw c.pt c.pl c.dh c.dw y x)
      | _ => 0) (groupBias q post src wts bias tb.base c (inPrv tin ih iw ic H W) w) (by
      intro y x k hy hx hk
      have hk' : (k : Int) < kn.shape := by rw [← R.eo]; exact hk
      have hH := R.hH
      have hW := R.hW
      have rd : ∀ r p (ch : Nat), 0 ≤ r → r < H → 0 ≤ p → p < W → (ch : Int) < kc.shape →
          InShape tin.shape [r, p, (k : Int) / n * kc.shape + ch] := by
        intro r p ch r0 r1 p0 p1 hc
        have hn := R.hn
        have := group_in (g := g) (k := k) hn (by omega) (by rw [← R.ekn]; exact hk') (show (0 : Int) ≤ ch by omega) hc
        simp only [Tensor.shape, T.di, List.map_cons, List.map_nil, InShape]
        rw [R.eic]
        exact ⟨⟨r0, by omega⟩, ⟨p0, by omega⟩, this, trivial⟩
      have rw' : ∀ a b (ch : Nat), 0 ≤ a → a < kh.shape → 0 ≤ b → b < kw.shape → (ch : Int) < kc.shape →
          InShape tw.shape [a, b, (ch : Int), (k : Int)] := by
        intro a b ch a0 a1 b0 b1 hc
        simp only [Tensor.shape, T.dk, List.map_cons, List.map_nil, InShape]
        exact ⟨⟨a0, a1⟩, ⟨b0, b1⟩, ⟨by omega, hc⟩, ⟨by omega, hk'⟩, trivial⟩
      rw [groupBias_eq q hzw, R.wv, hgrp, hper]
      have Rd : Reads { (inPrv tin ih iw ic H W) with
            ch := (wtPrv tw kh kw kc kn).inCh
            ptr := (inPrv tin ih iw ic H W).ptr + (wtPrv tw kh kw kc kn).inCh * ((k : Int) / n) } (wtPrv tw kh kw kc kn) k src wts
          (fun r p ch => inElem src tin r p ((k : Int) / n * kc.shape + ch)) (wtElem wts tw k) := by
        refine ⟨?_, ?_⟩
        · intro r p ch r0 r1 p0 p1 hc
          have e := T.vi.rd (rd r p ch r0 r1 p0 p1 hc) rfl
          rw [inElem, ← e]
          congr 1
          simp only [Tensor.addr, Tensor.strides, T.di, List.map_cons, List.map_nil, offset, T.ui, inPrv, wtPrv]
          ring
        · intro a b ch a0 a1 b0 b1 hc
          have e := T.vw.rd (rw' a b ch a0 a1 b0 b1 hc) rfl
          rw [wtElem, ← e]
          congr 1
          simp only [Tensor.addr, Tensor.strides, T.dk, List.map_cons, List.map_nil, offset, wtPrv]
          ring
      obtain ⟨t, t0, t1, t2, t3⟩ := hmeet y (by omega) hy
      rw [convBias_gen Rd q T.dh T.dw hzw hzx (by show 0 ≤ kc.shape; omega) (by show 0 ≤ kh.shape; omega) (by show 0 ≤ kw.shape; omega)
        post bias tb.base (bias.get (tb.addr [(k : Int)])) ⟨t, t0, t1, t2, (R.rowH y hy t t1).2 t3⟩ B1 B2
        ⟨n1, n2, fun r p a b ch r0 r1 p0 p1 a0 a1 b0 b1 hc => hB1 _ _ (rd r p ch r0 r1 p0 p1 hc) (rw' a b ch a0 a1 b0 b1 hc),
          fun a b ch a0 a1 b0 b1 hc => hB2 _ (rw' a b ch a0 a1 b0 b1 hc)⟩ (by
          refine le_trans (le_of_eq ?_) hfit
          show ((kc.shape.toNat * (kh.shape.toNat * kw.shape.toNat) : Nat) : Int) * (B1 + B2) = _
          push_cast
          rw [Int.toNat_of_nonneg (by omega), Int.toNat_of_nonneg (by omega), Int.toNat_of_nonneg (by omega)]) (R.hb k hk')]
      simp only []
      refine congrArg (fun z => some (post k (bias.get (tb.addr [(k : Int)])) z)) ?_
      exact convSum_cut (fun r p ch => inElem src tin r p ((k : Int) / n * kc.shape + ch) - q.zx) (wtElem wts tw k)
        (R.rowH y hy) (R.colW x hx)) o R.ho
  exact ⟨dst', _, h1, h2, fun _ _ _ _ => rfl⟩

/-- The sum of one group is bounded by its number of taps. -/
theorem group_sum_le {ks : Int} {tin tw tb tout : Tensor} {c : ConvCfg} {src wts bias : Buf}
    {ih iw ic kh kw kc kn bn oh ow oc : Dim} {i o : Prv} {w : WPrv} {H W g n : Int}
    (R : GroupRun ks tin tw tb tout c src wts bias ih iw ic kh kw kc kn bn oh ow oc i o w H W g n) (z B : Int) (hB : 0 ≤ B)
    (h : ∀ is js, InShape tin.shape is → InShape tw.shape js → |(src.get (tin.addr is) - z) * wts.get (tw.addr js)| ≤ B)
    {k : Int} (k0 : 0 ≤ k) (k1 : k < kn.shape) (y x : Int) :
    |convSum kh.shape kw.shape kc.shape (padded ih.shape iw.shape 0 fun r p ch => inElem src tin r p (k / n * kc.shape + ch) - z) (wtElem wts tw k)
      c.sh c.sw c.pt c.pl c.dh c.dw y x| ≤ kc.shape * (kh.shape * kw.shape) * B := by
  have T := R.T
  have pi := T.vi.shape_pos
  have pw := T.vw.shape_pos
  simp only [T.di, T.dk, List.mem_cons, List.not_mem_nil, or_false, forall_eq_or_imp, forall_eq] at pi pw
  have hs := convSum_abs kh.shape.toNat kw.shape.toNat kc.shape.toNat ih.shape iw.shape
    (fun r p ch => inElem src tin r p (k / n * kc.shape + ch) - z) (wtElem wts tw k) c.sh c.sw c.pt c.pl c.dh c.dw y x B hB (by
      intro i j cc r q hi' hj hcc r0 r1 q0 q1
      apply h
      · have := group_in (g := g) (k := k) R.hn (by omega) (by rw [← R.ekn]; exact k1) (show (0 : Int) ≤ cc by omega)
          (show (cc : Int) < kc.shape by omega)
        simp only [Tensor.shape, T.di, List.map_cons, List.map_nil, InShape]
        rw [R.eic]
        exact ⟨⟨r0, r1⟩, ⟨q0, q1⟩, this, trivial⟩
      · simp only [Tensor.shape, T.dk, List.map_cons, List.map_nil, InShape]
        exact ⟨by omega, by omega, by omega, by omega, trivial⟩)
  rw [Int.toNat_of_nonneg (by omega), Int.toNat_of_nonneg (by omega), Int.toNat_of_nonneg (by omega)] at hs
  exact hs

theorem GroupRun.taps_lt {ks : Int} {tin tw tb tout : Tensor} {c : ConvCfg} {src wts bias : Buf}
    {ih iw ic kh kw kc kn bn oh ow oc : Dim} {i o : Prv} {w : WPrv} {H W g n : Int}
    (R : GroupRun ks tin tw tb tout c src wts bias ih iw ic kh kw kc kn bn oh ow oc i o w H W g n) (hv : tw.Valid wts) :
    kc.shape * (kh.shape * kw.shape) < 2 ^ 31 := by
  have hc := hv.count_le
  have p := R.T.vw.shape_pos
  simp only [R.T.dk, List.mem_cons, List.not_mem_nil, or_false, forall_eq_or_imp, forall_eq] at p
  obtain ⟨p1, p2, p3, p4⟩ := p
  simp only [Tensor.shape, R.T.dk, List.map_cons, List.map_nil, List.prod_cons, List.prod_nil, Nat.mul_one] at hc
  have e : kc.shape * (kh.shape * kw.shape) = ((kc.shape.toNat * (kh.shape.toNat * kw.shape.toNat) : Nat) : Int) := by
    push_cast
    rw [Int.toNat_of_nonneg (by omega), Int.toNat_of_nonneg (by omega), Int.toNat_of_nonneg (by omega)]
  have a : kc.shape.toNat * (kh.shape.toNat * kw.shape.toNat) ≤ kc.shape.toNat * (kh.shape.toNat * kw.shape.toNat) * kn.shape.toNat :=
    Nat.le_mul_of_pos_right _ (by omega)
  have e2 : kc.shape.toNat * (kh.shape.toNat * kw.shape.toNat) * kn.shape.toNat =
    kh.shape.toNat * (kw.shape.toNat * (kc.shape.toNat * kn.shape.toNat)) := by ring
  omega

theorem chkGroupFx_ok {apart : Bool} {ks : Int} {f : FxQ} {tin tw tb tout : Tensor} {c : ConvCfg}
    (h : chkGroupFx ks apart f tin tw tb c tout = some .ok) :
    f.fb ≤ f.fi + f.fw ∧ f.fo ≤ f.fi + f.fw ∧ chkGroup ks apart tin tw tb c tout = some .ok := by
  unfold chkGroupFx at h
  split at h
  · cases h
  rename_i h1
  split at h
  · cases h
  rename_i h2
  exact ⟨not_not.1 h1, not_not.1 h2, h⟩

/-- Groups and filters per group are determined by the shapes. -/
theorem GroupRun.same {ks : Int} {tin tw tb tout : Tensor} {c : ConvCfg} {src wts bias : Buf}
    {ih iw ic kh kw kc kn bn oh ow oc : Dim} {i o : Prv} {w : WPrv} {H W g n : Int}
    (R : GroupRun ks tin tw tb tout c src wts bias ih iw ic kh kw kc kn bn oh ow oc i o w H W g n) {g' n' : Int}
    (h1 : ic.shape = g' * kc.shape) (h2 : kn.shape = g' * n') : g = g' ∧ n = n' := by
  have pw := R.T.vw.shape_pos kc (by simp [R.T.dk])
  have hg := R.hg
  have e : g = g' := Int.eq_of_mul_eq_mul_right (show kc.shape ≠ 0 by omega) (by rw [← R.eic, h1])
  subst e
  exact ⟨rfl, Int.eq_of_mul_eq_mul_left (show g ≠ 0 by omega) (by rw [← R.ekn, h2])⟩

/-- Filter `f` of group `j`. -/
theorem filter_of {g n j f : Int} (j0 : 0 ≤ j) (j1 : j < g) (f0 : 0 ≤ f) (f1 : f < n) :
    (j * n + f) / n = j ∧ 0 ≤ j * n + f ∧ j * n + f < g * n := by
  have e : (j * n + f) / n = j := by
    rw [Int.add_comm, Int.add_mul_ediv_right _ _ (by omega), Int.ediv_eq_zero_of_lt f0 f1, Int.zero_add]
  have h1 : (j + 1) * n ≤ g * n := Int.mul_le_mul_of_nonneg_right (by omega) (by omega)
  have h2 : (j + 1) * n = j * n + n := by ring
  have h3 : 0 ≤ j * n := Int.mul_nonneg j0 (by omega)
  exact ⟨e, by omega, by omega⟩

/-- What an accepted fixed-point group convolution computes, as long as the accumulator cannot overflow. -/
theorem krnGroupFx_exact (m : Rnd) (aw : Nat) (ks : Int) (apart : Bool) (f : FxQ) (src wts bias dst : Buf)
    (tin tw tb tout : Tensor) (c : ConvCfg) (ih iw kh kw kc g n oh ow : Int) (ww wb : Nat) (hww : 1 ≤ ww)
    (A : ConvArgs tin tw tb tout c src wts bias dst 16 ww wb)
    (hchk : chkGroupFx ks apart f tin tw tb c tout = some .ok)
    (si : tin.shape = [ih, iw, g * kc]) (sk : tw.shape = [kh, kw, kc, g * n]) (so : tout.shape = [oh, ow, g * n])
    (hmeet : RowsMeet ih kh oh c) (hfit : kc * (kh * kw) < 2 ^ 31 → kc * (kh * kw) * (2 ^ 15 * 2 ^ (ww - 1)) ≤ hi aw) :
    ∃ dst' val, krnGroupFx m aw ks apart f src wts bias tin tw tb c tout dst = some (.ok, dst') ∧
      tout.Writes val dst dst' ∧ kc * (kh * kw) < 2 ^ 31 ∧ ∀ y x j i, 0 ≤ j → j < g → 0 ≤ i → i < n → InShape tout.shape [y, x, j * n + i] →
        |convSum kh kw kc (padded ih iw 0 fun r p ch => inElem src tin r p (j * kc + ch)) (wtElem wts tw (j * n + i))
            c.sh c.sw c.pt c.pl c.dh c.dw y x| ≤ kc * (kh * kw) * (2 ^ 15 * 2 ^ (ww - 1)) ∧ InShape tb.shape [j * n + i] ∧
        val [y, x, j * n + i] = castLimFx m aw f (biasFx m aw (f.fi + f.fw - f.fb) (bias.get (tb.addr [j * n + i]))
          (convSum kh kw kc (padded ih iw 0 fun r p ch => inElem src tin r p (j * kc + ch)) (wtElem wts tw (j * n + i))
            c.sh c.sw c.pt c.pl c.dh c.dw y x)) := by
  obtain ⟨f1, f2, hck⟩ := chkGroupFx_ok hchk
  obtain ⟨ih', iw', ic', kh', kw', kc', kn', bn', oh', ow', oc', i, o, w, H, W, g', n', R⟩ := group_setup hck A.hc A.vi A.vw A.vb
  simp only [Tensor.shape, R.T.di, R.T.dk, R.dout, List.map_cons, List.map_nil, List.cons.injEq, and_true] at si sk so
  obtain ⟨rfl, rfl, eic⟩ := si
  obtain ⟨rfl, rfl, rfl, ekn⟩ := sk
  obtain ⟨rfl, rfl, -⟩ := so
  obtain ⟨rfl, rfl⟩ := R.same eic ekn
  have ht := R.taps_lt A.vw
  have mul16 : ∀ is js, InShape tin.shape is → InShape tw.shape js → |src.get (tin.addr is) * wts.get (tw.addr js)| ≤ 2 ^ 15 * 2 ^ (ww - 1) :=
    fun is js hi hj => by simpa using abs_mul_le (a := 16) (b := ww) (by omega) hww (A.hi is hi) (A.hw js hj)
  have hB : (0 : Int) ≤ 2 ^ 15 * 2 ^ (ww - 1) := by positivity
  obtain ⟨dst', val, r1, r2, r3⟩ := group_all R A.vo { aw := aw }
    (fun _ b acc => castLimFx m aw f (biasFx m aw (f.fi + f.fw - f.fb) b acc)) rfl (show wrap 16 (-0) = -0 by decide) hmeet
    (2 ^ 15 * 2 ^ (ww - 1)) 0 hB (le_refl 0) mul16 (fun js _ => by simp) (by simpa using hfit ht)
  refine ⟨dst', val, ?_, r2, ht, ?_⟩
  · unfold krnGroupFx
    simp only [hchk, Option.bind_eq_bind, Option.bind_some, ne_eq, not_true_eq_false, if_false, R.hi, R.ho, R.hw, R.adj, r1,
      Option.pure_def]
  · intro y x j i j0 j1 i0 i1 hs
    obtain ⟨e, k0, k1⟩ := filter_of (g := g') (n := n') j0 j1 i0 i1
    rw [← R.ekn] at k1
    have h1 := r3 y x _ hs
    have h2 := group_sum_le R 0 _ hB (by simpa using mul16) k0 k1 y x
    rw [e] at h1 h2
    simp only [Int.sub_zero] at h1 h2
    exact ⟨h2, R.bias_in ⟨k0, k1⟩, h1⟩

/-- C57, 16-bit fixed point: for every accepted call with `g` groups of `kc` channels and `n` filters, the output of filter `i` of
group `j` is the exact sum of products over the `kc` channels of group `j` only, with the taps outside of the input
counting as zero, plus the bias, scaled, rounded, saturated and limited by the built-in ReLU.
Partial: the conditions of `c36_conv2d_fx16_partial`. -/
theorem c57_fx16_partial (m : Rnd) (ks : Int) (apart : Bool) (f : FxQ) (src wts bias dst : Buf)
    (tin tw tb tout : Tensor) (c : ConvCfg) (ih iw kh kw kc g n oh ow : Int)
    (A : ConvArgs tin tw tb tout c src wts bias dst 16 16 16)
    (hchk : chkGroupFx ks apart f tin tw tb c tout = some .ok)
    (si : tin.shape = [ih, iw, g * kc]) (sk : tw.shape = [kh, kw, kc, g * n]) (so : tout.shape = [oh, ow, g * n])
    (hmeet : RowsMeet ih kh oh c) (hb : f.fi + f.fw - f.fb ≤ 16) (h1 : f.relu = .one → f.fo < 30) :
    ∃ dst' val, krnGroupFx m 64 ks apart f src wts bias tin tw tb c tout dst = some (.ok, dst') ∧
      tout.Writes val dst dst' ∧ ∀ y x j i, 0 ≤ j → j < g → 0 ≤ i → i < n → InShape tout.shape [y, x, j * n + i] →
        ∃ r, Scaled m (convSum kh kw kc (padded ih iw 0 fun r p ch => inElem src tin r p (j * kc + ch)) (wtElem wts tw (j * n + i))
              c.sh c.sw c.pt c.pl c.dh c.dw y x + bias.get (tb.addr [j * n + i]) * 2 ^ (f.fi + f.fw - f.fb).toNat) (f.fi + f.fw - f.fo) r ∧
          NearestIn (f.relu.Admissible 16 0 1 f.fo) (clamp 16 r) (val [y, x, j * n + i]) := by
  have f1 := (chkGroupFx_ok hchk).1
  obtain ⟨dst', val, r1, r2, ht, r3⟩ := krnGroupFx_exact m 64 ks apart f src wts bias dst tin tw tb tout c ih iw kh kw kc g n oh ow 16 16
    (by omega) A hchk si sk so hmeet (fun ht => (show kc * (kh * kw) * (2 ^ 15 * 2 ^ (16 - 1)) ≤ 2 ^ 61 by omega).trans (by decide))
  have hle : kc * (kh * kw) * (2 ^ 15 * 2 ^ (16 - 1)) ≤ 2 ^ 61 := by omega
  refine ⟨dst', val, r1, r2, fun y x j i j0 j1 i0 i1 hs => ?_⟩
  obtain ⟨hS, hk, e0⟩ := r3 y x j i j0 j1 i0 i1 hs
  obtain ⟨e, e1, e2⟩ := biasFx64 m (f.fi + f.fw - f.fb) (by omega) hb (A.hb _ hk) (hS.trans hle)
  rw [e0, e]
  apply castLimFx_spec m 64 (by omega) f e1 h1
  intro _
  by_cases h64 : 64 ≤ f.fi + f.fw - f.fo
  · exact Or.inr (Or.inl h64)
  · refine Or.inr (Or.inr ?_)
    have : (2 : Int) ^ ((f.fi + f.fw - f.fo).toNat - 1) ≤ 2 ^ 62 := pow_le_pow_right₀ (by decide) (by omega)
    omega

/-- C57, 16-bit input with 8-bit weights and bias, accumulated in 32 bits.  Partial: the conditions of `c36_conv2d_fx16_fx8_partial`; the
bound on the number of taps is on those of one group. -/
theorem c57_fx16_fx8_partial (m : Rnd) (ks : Int) (apart : Bool) (f : FxQ) (src wts bias dst : Buf)
    (tin tw tb tout : Tensor) (c : ConvCfg) (ih iw kh kw kc g n oh ow : Int)
    (A : ConvArgs tin tw tb tout c src wts bias dst 16 8 8)
    (hchk : chkGroupFx ks apart f tin tw tb c tout = some .ok)
    (si : tin.shape = [ih, iw, g * kc]) (sk : tw.shape = [kh, kw, kc, g * n]) (so : tout.shape = [oh, ow, g * n])
    (hmeet : RowsMeet ih kh oh c) (ht : kc * (kh * kw) ≤ 511) (h1 : f.relu = .one → f.fo < 30)
    (hup : m = .up → f.fi + f.fw - f.fo ≤ 16 ∨ 32 ≤ f.fi + f.fw - f.fo) :
    ∃ dst' val, krnGroupFx m 32 ks apart f src wts bias tin tw tb c tout dst = some (.ok, dst') ∧
      tout.Writes val dst dst' ∧ ∀ y x j i, 0 ≤ j → j < g → 0 ≤ i → i < n → InShape tout.shape [y, x, j * n + i] →
        ∃ r, Scaled m (clamp 32 (convSum kh kw kc (padded ih iw 0 fun r p ch => inElem src tin r p (j * kc + ch)) (wtElem wts tw (j * n + i))
              c.sh c.sw c.pt c.pl c.dh c.dw y x + clamp 32 (bias.get (tb.addr [j * n + i]) * 2 ^ (f.fi + f.fw - f.fb).toNat)))
            (f.fi + f.fw - f.fo) r ∧
          NearestIn (f.relu.Admissible 16 0 1 f.fo) (clamp 16 r) (val [y, x, j * n + i]) := by
  have f1 := (chkGroupFx_ok hchk).1
  have hle : kc * (kh * kw) * (2 ^ 15 * 2 ^ (8 - 1)) ≤ 2 ^ 31 - 1 := by omega
  obtain ⟨dst', val, r1, r2, -, r3⟩ := krnGroupFx_exact m 32 ks apart f src wts bias dst tin tw tb tout c ih iw kh kw kc g n oh ow 8 8
    (by omega) A hchk si sk so hmeet (fun _ => hle.trans (by decide))
  refine ⟨dst', val, r1, r2, fun y x j i j0 j1 i0 i1 hs => ?_⟩
  obtain ⟨hS, hk, e0⟩ := r3 y x j i j0 j1 i0 i1 hs
  have hS := abs_le.1 (hS.trans hle)
  rw [e0, biasFx32 m (f.fi + f.fw - f.fb) (by omega) (A.hb _ hk) ⟨by simp only [lo]; omega, by simp only [hi]; omega⟩]
  exact castLimFx_spec m 32 (by omega) f (clamp_inRange _ _) h1 (fun hm => (hup hm).elim (fun h => Or.inl (by omega)) (fun h => Or.inr (Or.inl (by omega))))

/-- C57, 8-bit asymmetric: each output of filter `i` of group `j` is the sum of `(x - x_zp) * w` over the channels of group `j`, plus the bias,
rescaled with the scale of that filter, within 3/5 of an output step, then limited by the built-in ReLU.
Partial: the conditions of `c36_conv2d_sa8_partial`. -/
theorem c57_sa8_partial (m : Rnd) (full : Bool) (ks : Int) (apart : Bool) (q : Sa8Q) (src wts bias dst : Buf)
    (tin tw tb tout : Tensor) (c : ConvCfg) (ih iw kh kw kc g n oh ow : Int)
    (A : ConvArgs tin tw tb tout c src wts bias dst 8 8 32)
    (tq : q.qi.Typed ∧ q.qw.Typed ∧ q.qo.Typed)
    (hck : chkGroup ks apart tin tw tb c tout = some .ok) (hq : chkSa8 m q tin tw tb tout = some .ok)
    (si : tin.shape = [ih, iw, g * kc]) (sk : tw.shape = [kh, kw, kc, g * n]) (so : tout.shape = [oh, ow, g * n])
    (hmeet : RowsMeet ih kh oh c) (ht : kc * (kh * kw) ≤ 65535)
    (h6 : q.relu = .six → q.qo.zpAt 0 = 0 ∨ q.qo.fracAt 0 < 28) (h1 : q.relu = .one → q.qo.fracAt 0 < 30) :
    ∃ dst' val, krnGroupSa8 m full ks apart q src wts bias tin tw tb c tout dst = some (.ok, dst') ∧
      tout.Writes val dst dst' ∧ ∀ y x j i, 0 ≤ j → j < g → 0 ≤ i → i < n → InShape tout.shape [y, x, j * n + i] →
        ∃ b' acc, BiasFor full (bias.get (tb.addr [j * n + i])) b' ∧
          acc = clamp 32 (convSum kh kw kc (padded ih iw 0 fun r p ch => inElem src tin r p (j * kc + ch) - q.qi.zpAt 0) (wtElem wts tw (j * n + i))
            c.sh c.sw c.pt c.pl c.dh c.dw y x + b') ∧
          (full = true ∨ |acc| < 2 ^ 23 - 2 ^ 7 → ∃ v : Int,
            |(v : ℚ) - limitQ (-128) 127 (q.qo.zpAt 0 + q.real (j * n + i) acc)| ≤ 3 / 5 ∧
            NearestIn (q.relu.Admissible 8 (q.qo.zpAt 0) (q.qo.scaleAt 0) (q.qo.fracAt 0)) v (val [y, x, j * n + i])) := by
  obtain ⟨⟨d1, d2, d3⟩, ⟨I1, I2⟩, ⟨O1, O2⟩, hWt⟩ := chkSa8_ok hq
  obtain ⟨ih', iw', ic', kh', kw', kc', kn', bn', oh', ow', oc', i, o, w, H, W, g', n', R⟩ := group_setup hck A.hc A.vi A.vw A.vb
  have sk0 := sk
  simp only [Tensor.shape, R.T.di, R.T.dk, R.dout, List.map_cons, List.map_nil, List.cons.injEq, and_true] at si sk so
  obtain ⟨rfl, rfl, eic⟩ := si
  obtain ⟨rfl, rfl, rfl, ekn⟩ := sk
  obtain ⟨rfl, rfl, -⟩ := so
  obtain ⟨rfl, rfl⟩ := R.same eic ekn
  have pk := R.T.vw.shape_pos kn' (by simp [R.T.dk])
  rw [sk0] at hWt
  simp only [List.getD_cons_succ, List.getD_cons_zero] at hWt
  rw [← R.ekn] at hWt
  have hzw := (hWt 0 (by omega) (by omega)).2
  have zx16 : wrap 16 (-q.qi.zpAt 0) = -q.qi.zpAt 0 := by
    apply wrap_of_inRange (by omega)
    obtain ⟨a, b⟩ := I2
    simp only [lo, hi] at a b
    constructor <;> simp only [lo, hi] <;> omega
  obtain ⟨ratio, shift, hrt, -⟩ := c46_in_to_out m (q.qi.scaleAt 0) (q.qi.fracAt 0) (q.qo.scaleAt 0) (q.qo.fracAt 0) I1
    (tq.1.scaleAt 0) O1 (tq.2.2.scaleAt 0)
  obtain ⟨dst', val, r1, r2, r3⟩ := group_all R A.vo { aw := 32, zx := q.qi.zpAt 0, zw := q.qw.zpAt 0 }
    (fun oc b acc => castLimSa8 m full q (ratio, shift) oc (biasS8 full b acc)) hzw zx16 hmeet (2 ^ 14) (2 ^ 14) (by decide) (by decide)
    (fun is js hi hj => by simpa using abs_mul_le (a := 8) (b := 8) (by omega) (by omega) (A.hi is hi) (A.hw js hj))
    (fun js hj => by
      simpa [neg_mul, abs_neg] using abs_mul_le (a := 8) (b := 8) (by omega) (by omega) I2 (A.hw js hj)) (by simp only [hi]; omega)
  refine ⟨dst', val, ?_, r2, ?_⟩
  · unfold krnGroupSa8
    simp only [hck, hq, hrt, Option.bind_eq_bind, Option.bind_some, ne_eq, not_true_eq_false, if_false, R.hi, R.ho, R.hw, R.adj, r1,
      Option.pure_def]
  · intro y x j i j0 j1 i0 i1 hs
    obtain ⟨e, k0, k1⟩ := filter_of (g := g') (n := n') j0 j1 i0 i1
    rw [← R.ekn] at k1
    have e0 := r3 y x _ hs
    have hS := group_sum_le R (q.qi.zpAt 0) (2 ^ 15) (by decide)
      (fun is js h1 h2 => zp_mul_le (A.hi is h1) I2 (A.hw js h2)) k0 k1 y x
    rw [e] at e0 hS
    have hS := abs_le.1 (hS.trans (show _ ≤ 2 ^ 31 - 1 by omega))
    have hSr : InRange 32 (convSum kh'.shape kw'.shape kc'.shape (padded ih'.shape iw'.shape 0 fun r p ch => inElem src tin r p (j * kc'.shape + ch) - q.qi.zpAt 0)
      (wtElem wts tw (j * n' + i)) c.sh c.sw c.pt c.pl c.dh c.dw y x) := ⟨by simp only [lo]; omega, by simp only [hi]; omega⟩
    obtain ⟨b', hb1, hb2⟩ := biasFor full (A.hb _ (R.bias_in ⟨k0, k1⟩)) hSr
    refine ⟨b', _, hb2, rfl, ?_⟩
    intro hacc
    simp only [] at e0
    rw [e0, hb1]
    exact castLimSa8_spec m full q hrt ⟨I1, tq.1.scaleAt 0⟩ ⟨(hWt _ k0 (by omega)).1, tq.2.1.scaleAt _⟩ ⟨O1, tq.2.2.scaleAt 0⟩ O2 h6 h1
      (clamp_inRange _ _) hacc

/-- An accepted call has a whole number of groups of the weights' channels, and equally many groups of filters. -/
theorem c57_shape {apart : Bool} {ks : Int} {tin tw tb tout : Tensor} {c : ConvCfg} {src wts bias : Buf}
    (hchk : chkGroup ks apart tin tw tb c tout = some .ok) (hc : c.Typed)
    (vi : tin.Valid src) (vw : tw.Valid wts) (vb : tb.Valid bias) :
    ∃ ih iw kh kw kc g n oh ow, 0 < g ∧ 0 < n ∧ tin.shape = [ih, iw, g * kc] ∧ tw.shape = [kh, kw, kc, g * n] ∧
      tb.shape = [g * n] ∧ tout.shape = [oh, ow, g * n] := by
  obtain ⟨ih', iw', ic', kh', kw', kc', kn', bn', oh', ow', oc', i, o, w, H, W, g', n', R⟩ := group_setup hchk hc vi vw vb
  refine ⟨ih'.shape, iw'.shape, kh'.shape, kw'.shape, kc'.shape, g', n', oh'.shape, ow'.shape, R.hg, R.hn, ?_, ?_, ?_, ?_⟩
  · simp only [Tensor.shape, R.T.di, List.map_cons, List.map_nil, R.eic]
  · simp only [Tensor.shape, R.T.dk, List.map_cons, List.map_nil, R.ekn]
  · simp only [Tensor.shape, R.db, List.map_cons, List.map_nil, R.eb, R.ekn]
  · simp only [Tensor.shape, R.dout, List.map_cons, List.map_nil, R.eo, R.ekn]

/-- A refused call leaves the output as it was, and `ok` is returned only for checked arguments. -/
theorem c57_status_fx (m : Rnd) (aw : Nat) (ks : Int) (apart : Bool) (f : FxQ) (src wts bias : Buf) (tin tw tb : Tensor) (c : ConvCfg)
    (tout : Tensor) (dst dst' : Buf) (st : Status)
    (h : krnGroupFx m aw ks apart f src wts bias tin tw tb c tout dst = some (st, dst')) :
    (st ≠ .ok → dst' = dst) ∧ (st = .ok → chkGroupFx ks apart f tin tw tb c tout = some .ok) := by
  unfold krnGroupFx at h
  simp only [Option.bind_eq_bind, Option.pure_def] at h
  rw [Option.bind_eq_some_iff] at h
  obtain ⟨s1, hs1, h⟩ := h
  split at h
  · rename_i hne
    simp only [Option.some.injEq, Prod.mk.injEq] at h
    obtain ⟨rfl, rfl⟩ := h
    exact ⟨fun _ => rfl, fun e => absurd e hne⟩
  · rename_i hne
    simp only [Option.bind_eq_some_iff, Option.some.injEq, Prod.mk.injEq] at h
    obtain ⟨_, -, _, -, _, -, _, -, rfl, -⟩ := h
    exact ⟨fun e => absurd rfl e, fun _ => by rw [hs1, not_not.1 hne]⟩

theorem c57_status_sa8 (m : Rnd) (full : Bool) (ks : Int) (apart : Bool) (q : Sa8Q) (src wts bias : Buf) (tin tw tb : Tensor) (c : ConvCfg)
    (tout : Tensor) (dst dst' : Buf) (st : Status)
    (h : krnGroupSa8 m full ks apart q src wts bias tin tw tb c tout dst = some (st, dst')) :
    (st ≠ .ok → dst' = dst) ∧
    (st = .ok → chkGroup ks apart tin tw tb c tout = some .ok ∧ chkSa8 m q tin tw tb tout = some .ok) := by
  unfold krnGroupSa8 at h
  simp only [Option.bind_eq_bind, Option.pure_def] at h
  rw [Option.bind_eq_some_iff] at h
  obtain ⟨s1, hs1, h⟩ := h
  split at h
  · rename_i hne
    simp only [Option.some.injEq, Prod.mk.injEq] at h
    obtain ⟨rfl, rfl⟩ := h
    exact ⟨fun _ => rfl, fun e => absurd e hne⟩
  · rename_i hne
    rw [Option.bind_eq_some_iff] at h
    obtain ⟨s2, hs2, h⟩ := h
    split at h
    · rename_i hne2
      simp only [Option.some.injEq, Prod.mk.injEq] at h
      obtain ⟨rfl, rfl⟩ := h
      exact ⟨fun _ => rfl, fun e => absurd e hne2⟩
    · rename_i hne2
      simp only [Option.bind_eq_some_iff, Option.some.injEq, Prod.mk.injEq] at h
      obtain ⟨_, -, _, -, _, -, _, -, _, -, rfl, -⟩ := h
      exact ⟨fun e => absurd rfl e, fun _ => ⟨by rw [hs1, not_not.1 hne], by rw [hs2, not_not.1 hne2]⟩⟩

/-! ## A concrete call -/

/-- 3 by 4 input with 2 groups of 2 channels, 2 by 3 kernel, 2 filters per group. -/
def exGIn : Tensor := { dims := [⟨3, 16⟩, ⟨4, 4⟩, ⟨4, 1⟩], cap := 96, es := 2 }
def exGWt : Tensor := { dims := [⟨2, 24⟩, ⟨3, 8⟩, ⟨2, 4⟩, ⟨4, 1⟩], cap := 96, es := 2 }
def exGBias : Tensor := { dims := [⟨4, 1⟩], cap := 8, es := 2 }
def exGOut : Tensor := { dims := [⟨2, 8⟩, ⟨2, 4⟩, ⟨4, 1⟩], cap := 32, es := 2 }
def exGSrc : List Int := (List.range 48).map fun (n : Nat) => 5 * (n : Int) - 120
def exGWts : List Int := (List.range 48).map fun (n : Nat) => 60 - 3 * (n : Int)

theorem exGArgs : ConvArgs exGIn exGWt exGBias exGOut exCfg (Buf.ofList exGSrc) (Buf.ofList exGWts) (Buf.ofList [5, -6, 7, -8]) (Buf.ofList (List.replicate 16 99)) 16 16 16 :=
  ⟨⟨by decide, by decide, by decide, by decide⟩, ⟨by decide, by decide, by decide, by decide⟩, ⟨by decide, by decide, by decide, by decide⟩,
    ⟨by decide, by decide, by decide, by decide⟩, holds_ofList (by decide) _, holds_ofList (by decide) _, holds_ofList (by decide) _, by decide⟩

theorem exGArgs8 : ConvArgs exGIn exGWt.bytes exGBias.bytes exGOut exCfg (Buf.ofList exGSrc) (Buf.ofList exGWts) (Buf.ofList [5, -6, 7, -8]) (Buf.ofList (List.replicate 16 99)) 16 8 8 :=
  ⟨⟨by decide, by decide, by decide, by decide⟩, ⟨by decide, by decide, by decide, by decide⟩, ⟨by decide, by decide, by decide, by decide⟩,
    ⟨by decide, by decide, by decide, by decide⟩, holds_ofList (by decide) _, holds_ofList (by decide) _, holds_ofList (by decide) _, by decide⟩

def exGQ : Sa8Q := {
  qi := { dim := -1, zp := [-3], scale := [20000], frac := [18] }
  qw := { dim := 3, zp := [0, 0, 0, 0], scale := [150, 97, 150, 97], frac := [12, 11, 12, 11] }
  qb := { dim := 0, zp := [0, 0, 0, 0], scale := [183, 118, 183, 118], frac := [16, 15, 16, 15] }
  qo := { dim := -1, zp := [7], scale := [3000], frac := [10] }
  relu := .gen }

def exGBias32 : Tensor := { dims := [⟨4, 1⟩], cap := 16, es := 4 }

theorem exGArgsSa8 : ConvArgs exGIn.bytes exGWt.bytes exGBias32 exGOut.bytes exCfg (Buf.ofList exGSrc) (Buf.ofList exGWts) (Buf.ofList [500, -600, 700, -800]) (Buf.ofList (List.replicate 16 99)) 8 8 32 :=
  ⟨⟨by decide, by decide, by decide, by decide⟩, ⟨by decide, by decide, by decide, by decide⟩, ⟨by decide, by decide, by decide, by decide⟩,
    ⟨by decide, by decide, by decide, by decide⟩, holds_ofList (by decide) _, holds_ofList (by decide) _, holds_ofList (by decide) _, by decide⟩

/-- Hypotheses of `c57_fx16_partial` and `c57_fx16_fx8_partial` (with `exGArgs`, `exGArgs8`, `exMeet`), and the results. -/
example :
    let f : FxQ := { fi := 3, fw := 4, fb := 5, fo := 2, relu := .none }
    chkGroupFx 0 true f exGIn exGWt exGBias exCfg exGOut = some .ok ∧ f.fi + f.fw - f.fb ≤ 16 ∧
    chkGroupFx 0 true f exGIn exGWt.bytes exGBias.bytes exCfg exGOut = some .ok ∧ (2 * (2 * 3) ≤ 511) ∧
    exGIn.shape = [3, 4, 2 * 2] ∧ exGWt.shape = [2, 3, 2, 2 * 2] ∧ exGOut.shape = [2, 2, 2 * 2] ∧
    (krnGroupFx .convergent 64 0 true f (Buf.ofList exGSrc) (Buf.ofList exGWts) (Buf.ofList [5, -6, 7, -8]) exGIn exGWt exGBias exCfg exGOut
      (Buf.ofList (List.replicate 16 99))).map (fun p => (p.1, p.2.toList)) =
      some (.ok, [709, 748, 715, 750, 548, 590, 546, 582, -449, -460, -528, -547, -761, -810, -901, -962]) ∧
    (krnGroupFx .convergent 32 0 true f (Buf.ofList exGSrc) (Buf.ofList exGWts) (Buf.ofList [5, -6, 7, -8]) exGIn exGWt.bytes exGBias.bytes exCfg exGOut
      (Buf.ofList (List.replicate 16 99))).map (fun p => (p.1, p.2.toList)) =
      some (.ok, [709, 748, 715, 750, 548, 590, 546, 582, -449, -460, -528, -547, -761, -810, -901, -962]) := by
  decide +kernel

/-- Hypotheses of `c57_sa8_partial` (with `exGArgsSa8`, `exMeet`), and the result. -/
example :
    chkGroup 0 true exGIn.bytes exGWt.bytes exGBias32 exCfg exGOut.bytes = some .ok ∧
    chkSa8 .convergent exGQ exGIn.bytes exGWt.bytes exGBias32 exGOut.bytes = some .ok ∧ (exGQ.qi.Typed ∧ exGQ.qw.Typed ∧ exGQ.qo.Typed) ∧
    (krnGroupSa8 .convergent true 0 true exGQ (Buf.ofList exGSrc) (Buf.ofList exGWts) (Buf.ofList [500, -600, 700, -800]) exGIn.bytes exGWt.bytes
      exGBias32 exCfg exGOut.bytes (Buf.ofList (List.replicate 16 99))).map (fun p => (p.1, p.2.toList)) =
      some (.ok, [28, 35, 29, 35, 23, 29, 23, 28, 7, 7, 7, 7, 7, 7, 7, 7]) := by
  decide +kernel

/-- An input with fewer channels than the weights should be refused; the check divides by zero, for well-formed tensors. -/
theorem c57_check_violated :
    let tin : Tensor := { dims := [⟨3, 4⟩, ⟨4, 1⟩, ⟨1, 1⟩], cap := 24, es := 2 }
    tin.Valid (Buf.ofList (List.replicate 12 0)) ∧ chkTensors [tin, exGWt, exGBias, exGOut] = some .ok ∧ exCfg.Typed ∧
      chkGroup 0 true tin exGWt exGBias exCfg exGOut = none :=
  ⟨⟨by decide, by decide, by decide, by decide⟩, by decide, by decide, by decide⟩

end Mli
