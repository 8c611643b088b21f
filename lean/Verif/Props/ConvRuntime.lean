import Verif.Props.ConvMore

/-!
# Properties of the run-time convolution kernels (C36, C37, C38, C56)
-/

namespace Mli

open Spec

theorem narrow_typed {c : ConvCfg} (h : c.Typed) : c.narrow = c := by
  obtain ⟨⟨a, a'⟩, ⟨b, b'⟩, ⟨d, d'⟩, ⟨e, e'⟩, ⟨f, f'⟩, ⟨g, g'⟩, ⟨i, i'⟩, ⟨j, j'⟩⟩ := h
  cases c
  simp only [ConvCfg.narrow, ConvCfg.mk.injEq]
  simp only at *
  omega

/-- What the caller of `Conv2d::Issue` and `DepthwiseConv2d::Issue` has to provide, here for tensors of 8-bit input
and weights: nothing of this is checked. -/
structure IssueArgs (tin tw tout : Tensor) (c : ConvCfg) (src wts dst : Buf) (ih iw ic kh kw kc kn oh ow : Int) : Prop where
  vi : tin.Valid src
  vw : tw.Valid wts
  vo : tout.Valid dst
  xr : tin.Holds src 8
  wr : tw.Holds wts 8
  cfg : c.Typed
  si : tin.shape = [ih, iw, ic]
  sk : tw.shape = [kh, kw, kc, kn]
  so : tout.shape = [oh, ow, kn]
  ui : innerOne tin = true
  uo : innerOne tout = true
  fits : c.Fits ih iw kh kw oh ow

theorem shape3 {t : Tensor} {a b c : Int} (h : t.shape = [a, b, c]) :
    ∃ x y z : Dim, t.dims = [x, y, z] ∧ x.shape = a ∧ y.shape = b ∧ z.shape = c := by
  unfold Tensor.shape at h
  match hd : t.dims, h with
  | [x, y, z], h =>
    simp only [List.map_cons, List.map_nil, List.cons.injEq, and_true] at h
    exact ⟨x, y, z, rfl, h.1, h.2.1, h.2.2⟩

theorem shape4 {t : Tensor} {a b c d : Int} (h : t.shape = [a, b, c, d]) :
    ∃ x y z w : Dim, t.dims = [x, y, z, w] ∧ x.shape = a ∧ y.shape = b ∧ z.shape = c ∧ w.shape = d := by
  unfold Tensor.shape at h
  match hd : t.dims, h with
  | [x, y, z, w], h =>
    simp only [List.map_cons, List.map_nil, List.cons.injEq, and_true] at h
    exact ⟨x, y, z, w, rfl, h.1, h.2.1, h.2.2.1, h.2.2.2⟩

theorem inner3 {t : Tensor} {x y z : Dim} (e : t.dims = [x, y, z]) (h : innerOne t = true) : z.stride = 1 := by
  simpa [innerOne, Tensor.strides, e] using h

theorem dot8_le {a b : Int} (ha : InRange 8 a) (hb : InRange 8 b) : |a * b| ≤ 2 ^ 14 := by
  have := abs_mul_le (a := 8) (b := 8) (by omega) (by omega) ha hb
  simpa using this

/-- The number of rows or columns kept of the input is not negative. -/
theorem adjust_nonneg {n k s p d o e : Int} (hn : 0 < n) (hk : 1 ≤ k) (hs : 0 < s) (ho : 0 < o) (hp : p < (k - 1) * d + 1) :
    0 ≤ (if (o * s + ((k - 1) * d + 1) - s) - n - p < 0 then n + ((o * s + ((k - 1) * d + 1) - s) - n - p) else n) := by
  have h1 : 1 * s ≤ o * s := Int.mul_le_mul_of_nonneg_right (by omega) hs.le
  split <;> omega

/-- `Conv2d::Issue` on tensors that only need to be laid out in their buffers; the output elements are at different addresses. -/
theorem conv2d_issue_laid (zx : Int) {src wts dst : Buf} {tin tw tout : Tensor} {c : ConvCfg} {ih iw ic kh kw kc kn oh ow oc : Dim}
    (T : ConvT tin tw c src wts ih iw ic kh kw kc kn) (hkc : ic.shape = kc.shape) (hoc : oc.shape = kn.shape) (e3 : tout.dims = [oh, ow, oc])
    (uo : oc.stride = 1) (hob : ∀ is, InShape tout.shape is → 0 ≤ tout.addr is ∧ tout.addr is < dst.size)
    (hoj : ∀ is js, InShape tout.shape is → InShape tout.shape js → tout.addr is = tout.addr js → is = js)
    (xr : tin.Holds src 8) (wr : tw.Holds wts 8) (hc : c.Typed) (hz : InRange 8 zx)
    (hmeet : RowsMeet ih.shape kh.shape oh.shape c) (ht : ic.shape * (kh.shape * kw.shape) ≤ 43690) :
    ∃ dst', conv2dIssue zx 0 src wts tin tw c tout dst = some dst' ∧ tout.Writes (fun is => match is with
      | [y, x, k] => convSum kh.shape kw.shape ic.shape (padded ih.shape iw.shape zx (inElem src tin)) (wtElem wts tw k)
          c.sh c.sw c.pt c.pl c.dh c.dw y x
      | _ => 0) dst dst' := by
  obtain ⟨⟨s1, -⟩, ⟨s2, -⟩, ⟨t1, -⟩, ⟨t2, -⟩, ⟨t3, -⟩, ⟨t4, -⟩, -⟩ := id hc
  have d1 := T.dh; have d2 := T.dw
  have p1 := T.vw.shape_pos kh (by simp [T.dk])
  have p2 := T.vw.shape_pos kw (by simp [T.dk])
  have p3 := T.vi.shape_pos ic (by simp [T.di])
  have hzx : wrap 16 (-zx) = -zx := by
    apply wrap_of_inRange (by omega)
    obtain ⟨a, b⟩ := hz
    simp only [lo, hi] at a b
    constructor <;> simp only [lo, hi] <;> omega
  obtain ⟨dst', h1, h2⟩ := convLoop_laid hob hoj e3 uo oc.shape rfl
    (fun is => match is with
      | [y, x, k] => convSum kh.shape kw.shape ic.shape (padded ih.shape iw.shape zx (inElem src tin)) (wtElem wts tw k)
          c.sh c.sw c.pt c.pl c.dh c.dw y x
      | _ => 0) (convNoBias { aw := 32, zx := zx, zw := 0, inAdd3 := false } src wts c (inPrv tin ih iw ic
        (if (oh.shape * c.sh + ((kh.shape - 1) * c.dh + 1) - c.sh) - ih.shape - c.pt < 0 then
          ih.shape + ((oh.shape * c.sh + ((kh.shape - 1) * c.dh + 1) - c.sh) - ih.shape - c.pt) else ih.shape)
        (if (ow.shape * c.sw + ((kw.shape - 1) * c.dw + 1) - c.sw) - iw.shape - c.pl < 0 then
          iw.shape + ((ow.shape * c.sw + ((kw.shape - 1) * c.dw + 1) - c.sw) - iw.shape - c.pl) else iw.shape))
        (wtPrv tw kh kw kc kn)) (by
      intro y x k hy hx hk
      refine convNoBias_run T _ rfl hzx hkc (fun i hi => adjust_tap s1 (by omega) hy hi) (fun i hi => adjust_tap s2 (by omega) hx hi)
        (hmeet y (by omega) hy) (by omega) (2 ^ 14) (2 ^ 14) (fun is js h h' => dot8_le (xr is h) (wr js h')) (fun js h' => ?_) ?_
      · have := dot8_le hz (wr js h')
        rwa [Int.neg_mul, abs_neg]
      · have e : ((taps kh kw ic : Nat) : Int) = ic.shape * (kh.shape * kw.shape) := by
          unfold taps
          push_cast
          rw [Int.toNat_of_nonneg (by omega), Int.toNat_of_nonneg (by omega), Int.toNat_of_nonneg (by omega)]
        rw [e]
        show _ ≤ hi 32
        simp only [hi]
        omega) { ptr := tout.base, width := ow.shape, height := oh.shape, ch := oc.shape, col := ow.stride, row := oh.stride }
        (by simp only [prvHwc, e3])
  refine ⟨dst', ?_, h2⟩
  simp only [conv2dIssue, prvHwc, T.di, prvHwcn, T.dk, e3, Option.bind_eq_bind, Option.bind_some, narrow_typed hc, convAdjust,
    Bool.false_eq_true, if_false]
  exact h1

/-- C36 for `Conv2d::Issue` (8-bit input and weights, 32-bit output) with weights zero point 0: each output is the exact sum of
products over the window, elements outside of the input counting as the input zero point.  Partial: weights zero
point 0 (`c37_conv2d_runtime_violated`), at most 43690 products, and each window meets the input. -/
theorem c36_conv2d_runtime_partial (zx : Int) (src wts dst : Buf) (tin tw tout : Tensor) (c : ConvCfg) (ih iw ic kh kw kn oh ow : Int)
    (A : IssueArgs tin tw tout c src wts dst ih iw ic kh kw ic kn oh ow) (hz : InRange 8 zx)
    (hmeet : RowsMeet ih kh oh c) (ht : ic * (kh * kw) ≤ 43690) :
    ∃ dst' val, conv2dIssue zx 0 src wts tin tw c tout dst = some dst' ∧ tout.Writes val dst dst' ∧
      ∀ y x k, InShape tout.shape [y, x, k] →
        val [y, x, k] = convSum kh kw ic (padded ih iw zx (inElem src tin)) (wtElem wts tw k) c.sh c.sw c.pt c.pl c.dh c.dw y x := by
  obtain ⟨ih, iw, ic', e1, rfl, rfl, rfl⟩ := shape3 A.si
  obtain ⟨kh, kw, kc, kn, e2, rfl, rfl, hkc, rfl⟩ := shape4 A.sk
  obtain ⟨oh, ow, oc, e3, rfl, rfl, hoc⟩ := shape3 A.so
  have F := A.fits
  have d1 := F.dh; have d2 := F.dw
  have T : ConvT tin tw c src wts ih iw ic' kh kw kc kn := ⟨A.vi.placed, A.vw.placed, e1, e2, inner3 e1 A.ui, by omega, by omega⟩
  obtain ⟨dst', h1, h2⟩ := conv2d_issue_laid zx T hkc.symm hoc e3 (inner3 e3 A.uo) A.vo.placed.inb A.vo.addr_inj A.xr A.wr A.cfg hz hmeet ht
  exact ⟨dst', _, h1, h2, fun _ _ _ _ => rfl⟩

/-- Taps of a window that fits: the last is not before the input, the first not behind it. -/
theorem fits_taps {n k s p p' d o y : Int} (hs : 0 ≤ s) (hd : 0 ≤ d) (hy : 0 ≤ y) (hyo : y < o) (hp : p < (k - 1) * d + 1)
    (hp' : p' < (k - 1) * d + 1) (hf : (o - 1) * s + ((k - 1) * d + 1) ≤ n + p + p') :
    0 ≤ tapCoord s p d y (k - 1) ∧ tapCoord s p d y 0 < n := by
  have h1 : y * s ≤ (o - 1) * s := Int.mul_le_mul_of_nonneg_right (by omega) hs
  have h2 : 0 * s ≤ y * s := Int.mul_le_mul_of_nonneg_right hy hs
  unfold tapCoord
  constructor <;> omega

/-- `DepthwiseConv2d::Issue` on tensors that only need to be laid out in their buffers; each window meets the input. -/
theorem depthwise_issue_laid (zx zw : Int) {src wts dst : Buf} {tin tw tout : Tensor} {c : ConvCfg} {ih iw ic kh kw kc kn oh ow oc : Dim}
    (T : ConvT tin tw c src wts ih iw ic kh kw kc kn) (hkn : kn.shape = ic.shape) (hoc : oc.shape = ic.shape)
    (e3 : tout.dims = [oh, ow, oc]) (o1 : 1 ≤ oh.shape) (o2 : 1 ≤ ow.shape)
    (uo : oc.stride = 1) (hob : ∀ is, InShape tout.shape is → 0 ≤ tout.addr is ∧ tout.addr is < dst.size)
    (hoj : ∀ is js, InShape tout.shape is → InShape tout.shape js → tout.addr is = tout.addr js → is = js)
    (xr : tin.Holds src 8) (wr : tw.Holds wts 8) (hc : c.Typed) (hz : InRange 8 zx) (hzw : InRange 8 zw)
    (hs : 0 < c.sh ∧ 0 < c.sw) (hp : c.pt < (kh.shape - 1) * c.dh + 1 ∧ c.pl < (kw.shape - 1) * c.dw + 1)
    (hrow : ∀ y, 0 ≤ y → y < oh.shape → 0 ≤ tapCoord c.sh c.pt c.dh y (kh.shape - 1) ∧ tapCoord c.sh c.pt c.dh y 0 < ih.shape)
    (hcol : ∀ x, 0 ≤ x → x < ow.shape → 0 ≤ tapCoord c.sw c.pl c.dw x (kw.shape - 1) ∧ tapCoord c.sw c.pl c.dw x 0 < iw.shape)
    (ht : kh.shape * kw.shape ≤ 26214) :
    ∃ dst', depthwiseIssue zx zw src wts tin tw c tout dst = some dst' ∧ tout.Writes (fun is => match is with
      | [y, x, k] => convSum kh.shape kw.shape 1 (padded ih.shape iw.shape zx fun r q _ => inElem src tin r q k)
          (fun i j _ => wtElem wts tw k i j 0 - zw) c.sh c.sw c.pt c.pl c.dh c.dw y x
      | _ => 0) dst dst' := by
  obtain ⟨⟨s1, -⟩, ⟨s2, -⟩, ⟨t1, -⟩, ⟨t2, -⟩, ⟨t3, -⟩, ⟨t4, -⟩, -⟩ := id hc
  have d1 := T.dh; have d2 := T.dw
  have p1 := T.vw.shape_pos kh (by simp [T.dk])
  have p2 := T.vw.shape_pos kw (by simp [T.dk])
  have q1 := T.vi.shape_pos ih (by simp [T.di])
  have q2 := T.vi.shape_pos iw (by simp [T.di])
  have neg : ∀ z, InRange 8 z → wrap 16 (-z) = -z := by
    intro z hz
    apply wrap_of_inRange (by omega)
    obtain ⟨a, b⟩ := hz
    simp only [lo, hi] at a b
    constructor <;> simp only [lo, hi] <;> omega
  obtain ⟨dst', h1, h2⟩ := convLoop_laid hob hoj e3 uo ic.shape hoc.symm
    (fun is => match is with
      | [y, x, k] => convSum kh.shape kw.shape 1 (padded ih.shape iw.shape zx fun r q _ => inElem src tin r q k)
          (fun i j _ => wtElem wts tw k i j 0 - zw) c.sh c.sw c.pt c.pl c.dh c.dw y x
      | _ => 0) (dwNoBias { aw := 32, zx := zx, zw := zw } src wts c (inPrv tin ih iw ic
        (if (oh.shape * c.sh + ((kh.shape - 1) * c.dh + 1) - c.sh) - ih.shape - c.pt < 0 then
          ih.shape + ((oh.shape * c.sh + ((kh.shape - 1) * c.dh + 1) - c.sh) - ih.shape - c.pt) else ih.shape)
        (if (ow.shape * c.sw + ((kw.shape - 1) * c.dw + 1) - c.sw) - iw.shape - c.pl < 0 then
          iw.shape + ((ow.shape * c.sw + ((kw.shape - 1) * c.dw + 1) - c.sw) - iw.shape - c.pl) else iw.shape))
        (wtPrv tw kh kw kc kn)) (by
      intro y x k hy hx hk
      obtain ⟨w1, w2⟩ := hrow y (by omega) hy
      obtain ⟨w3, w4⟩ := hcol x (by omega) hx
      refine dwNoBias_run T _ (neg _ hz) (neg _ hzw) hkn (fun i hi => adjust_tap s1 (by omega) hy hi)
        (fun i hi => adjust_tap s2 (by omega) hx hi)
        (adjust_nonneg (e := 0) q1 p1 hs.1 o1 hp.1) (adjust_nonneg (e := 0) q2 p2 hs.2 o2 hp.2) w1 w2 w3 w4 (by omega) (2 ^ 14) (2 ^ 14) (2 ^ 14)
        (fun is js h h' => dot8_le (xr is h) (wr js h')) (fun js h' => ?_) (fun is h => ?_) ?_
      · have := dot8_le hz (wr js h')
        rwa [Int.neg_mul, abs_neg]
      · have := dot8_le hzw (xr is h)
        rwa [Int.neg_mul, abs_neg]
      · have e : ((kh.shape.toNat * kw.shape.toNat : Nat) : Int) = kh.shape * kw.shape := by
          push_cast
          rw [Int.toNat_of_nonneg (by omega), Int.toNat_of_nonneg (by omega)]
        rw [e]
        have := dot8_le hz hzw
        have hp : 0 ≤ kh.shape * kw.shape := Int.mul_nonneg (by omega) (by omega)
        have := mul_le_mul ht (show 2 ^ 14 + 2 * 2 ^ 14 + 2 ^ 14 + |zx * zw| ≤ 5 * 2 ^ 14 by omega) (by positivity) (by decide)
        refine this.trans ?_
        show _ ≤ hi 32
        simp only [hi]
        omega) { ptr := tout.base, width := ow.shape, height := oh.shape, ch := oc.shape, col := ow.stride, row := oh.stride }
        (by simp only [prvHwc, e3])
  refine ⟨dst', ?_, h2⟩
  simp only [depthwiseIssue, prvHwc, T.di, prvHwcn, T.dk, e3, Option.bind_eq_bind, Option.bind_some, narrow_typed hc, convAdjust,
    Bool.false_eq_true, if_false]
  exact h1

/-- C36 for `DepthwiseConv2d::Issue` (8-bit input and weights, 32-bit output), any weights zero point.  Partial: at most 26214 products. -/
theorem c36_depthwise_runtime_partial (zx zw : Int) (src wts dst : Buf) (tin tw tout : Tensor) (c : ConvCfg) (ih iw ic kh kw oh ow : Int)
    (A : IssueArgs tin tw tout c src wts dst ih iw ic kh kw 1 ic oh ow) (hz : InRange 8 zx) (hzw : InRange 8 zw)
    (ht : kh * kw ≤ 26214) :
    ∃ dst' val, depthwiseIssue zx zw src wts tin tw c tout dst = some dst' ∧ tout.Writes val dst dst' ∧
      ∀ y x k, InShape tout.shape [y, x, k] →
        val [y, x, k] = convSum kh kw 1 (padded ih iw zx fun r q _ => inElem src tin r q k) (fun i j _ => wtElem wts tw k i j 0 - zw)
          c.sh c.sw c.pt c.pl c.dh c.dw y x := by
  obtain ⟨ih, iw, ic', e1, rfl, rfl, rfl⟩ := shape3 A.si
  obtain ⟨kh, kw, kc, kn, e2, rfl, rfl, hkc, hkn⟩ := shape4 A.sk
  obtain ⟨oh, ow, oc, e3, rfl, rfl, hoc⟩ := shape3 A.so
  obtain ⟨⟨s1, -⟩, ⟨s2, -⟩, -⟩ := A.cfg
  have F := A.fits
  have d1 := F.dh; have d2 := F.dw
  have T : ConvT tin tw c src wts ih iw ic' kh kw kc kn := ⟨A.vi.placed, A.vw.placed, e1, e2, inner3 e1 A.ui, by omega, by omega⟩
  obtain ⟨dst', h1, h2⟩ := depthwise_issue_laid zx zw T hkn hoc e3 (A.vo.shape_pos oh (by simp [e3])) (A.vo.shape_pos ow (by simp [e3]))
    (inner3 e3 A.uo) A.vo.placed.inb A.vo.addr_inj A.xr A.wr A.cfg hz hzw ⟨F.sh, F.sw⟩ ⟨F.pt, F.pl⟩
    (fun y y0 y1 => fits_taps s1 d1.le y0 y1 F.pt F.pb F.rows) (fun x x0 x1 => fits_taps s2 d2.le x0 x1 F.pl F.pr F.cols) ht
  exact ⟨dst', _, h1, h2, fun _ _ _ _ => rfl⟩

def exOut32 : Tensor := { dims := [⟨2, 4⟩, ⟨2, 2⟩, ⟨2, 1⟩], cap := 32, es := 4 }

theorem exIssue : IssueArgs exIn.bytes exWt.bytes exOut32 exCfg (Buf.ofList exSrc) (Buf.ofList exWts) (Buf.ofList (List.replicate 8 99)) 3 4 2 2 3 2 2 2 2 :=
  ⟨⟨by decide, by decide, by decide, by decide⟩, ⟨by decide, by decide, by decide, by decide⟩, ⟨by decide, by decide, by decide, by decide⟩,
    holds_ofList (by decide) _, holds_ofList (by decide) _, by decide, by decide, by decide, by decide, by decide, by decide, by decide⟩

/-- Depthwise, dilation 2. -/
def exCfgD : ConvCfg := { sh := 1, sw := 1, pt := 1, pb := 0, pl := 2, pr := 1, dh := 2, dw := 2 }

theorem exIssueDw : IssueArgs exIn.bytes exDw.bytes exOut32 exCfgD (Buf.ofList exSrc) (Buf.ofList exWts) (Buf.ofList (List.replicate 8 99)) 3 4 2 2 3 1 2 2 2 :=
  ⟨⟨by decide, by decide, by decide, by decide⟩, ⟨by decide, by decide, by decide, by decide⟩, ⟨by decide, by decide, by decide, by decide⟩,
    holds_ofList (by decide) _, holds_ofList (by decide) _, by decide, by decide, by decide, by decide, by decide, by decide, by decide⟩

/-- The results for `exIssue` (hypotheses of `c36_conv2d_runtime_partial`, with `exMeet`) and `exIssueDw` (hypotheses of
`c36_depthwise_runtime_partial`). -/
example :
    (conv2dIssue (-3) 0 (Buf.ofList exSrc) (Buf.ofList exWts) exIn.bytes exWt.bytes exCfg exOut32 (Buf.ofList (List.replicate 8 99))).map Buf.toList =
      some [12818, 13724, 10977, 11904, -7580, -7892, -16890, -18168] ∧
    (depthwiseIssue (-3) 5 (Buf.ofList exSrc) (Buf.ofList exWts) exIn.bytes exDw.bytes exCfgD exOut32 (Buf.ofList (List.replicate 8 99))).map
      Buf.toList = some [372, 132, -216, -540, -1686, -1968, -2358, -2808] ∧
    (2 * (2 * 3) ≤ 43690) ∧ InRange 8 (-3) ∧ InRange 8 5 := by
  refine ⟨by decide +kernel, by decide +kernel, by decide, ?_, ?_⟩ <;> constructor <;> decide

/-- The sum that C36 and C37 ask for, for a 1 by 1 input and kernel. -/
theorem convSum_one (X W : Int → Int → Int → Int) (sh sw dh dw : Int) : convSum 1 1 1 X W sh sw 0 0 dh dw 0 0 = X 0 0 0 * W 0 0 0 := by
  simp [convSum, tapCoord]

/-- C36 and C37 fail for `Conv2d::Issue` with a non-zero weights zero point: with `x = w = zw = 1` and input
zero point 0 the output is 1, not `(1 - 0) * (1 - 1) = 0`. -/
theorem c37_conv2d_runtime_violated :
    let w1 : Tensor := { dims := [⟨1, 1⟩, ⟨1, 1⟩, ⟨1, 1⟩, ⟨1, 1⟩], cap := 1, es := 1 }
    let i1 : Tensor := { dims := [⟨1, 1⟩, ⟨1, 1⟩, ⟨1, 1⟩], cap := 1, es := 1 }
    let o1 : Tensor := { dims := [⟨1, 1⟩, ⟨1, 1⟩, ⟨1, 1⟩], cap := 4, es := 4 }
    IssueArgs i1 w1 o1 { sh := 1, sw := 1 } (Buf.ofList [1]) (Buf.ofList [1]) (Buf.ofList [99]) 1 1 1 1 1 1 1 1 1 ∧
    (conv2dIssue 0 1 (Buf.ofList [1]) (Buf.ofList [1]) i1 w1 { sh := 1, sw := 1 } o1 (Buf.ofList [99])).map Buf.toList = some [1] ∧
    convSum 1 1 1 (padded 1 1 0 (inElem (Buf.ofList [1]) i1)) (fun i j k => wtElem (Buf.ofList [1]) w1 0 i j k - 1) 1 1 0 0 1 1 0 0 = 0 := by
  refine ⟨⟨⟨by decide, by decide, by decide, by decide⟩, ⟨by decide, by decide, by decide, by decide⟩, ⟨by decide, by decide, by decide, by decide⟩,
    holds_ofList (by decide) _, holds_ofList (by decide) _, by decide, by decide, by decide, by decide, by decide, by decide, by decide⟩,
    by decide +kernel, ?_⟩
  rw [convSum_one]
  decide

/-- C36 fails for `Conv2d::Issue` with a stride of 257 (the field has 32 bits): the second output is element 1 of the input, not
element 257. -/
theorem c36_narrow_violated :
    let w1 : Tensor := { dims := [⟨1, 1⟩, ⟨1, 1⟩, ⟨1, 1⟩, ⟨1, 1⟩], cap := 1, es := 1 }
    let i1 : Tensor := { dims := [⟨258, 1⟩, ⟨1, 1⟩, ⟨1, 1⟩], cap := 258, es := 1 }
    let o1 : Tensor := { dims := [⟨2, 1⟩, ⟨1, 1⟩, ⟨1, 1⟩], cap := 8, es := 4 }
    let c : ConvCfg := { sh := 257, sw := 1 }
    let src : Buf := { size := 258, get := fun n => if n = 257 then 5 else 0 }
    c.Fits 258 1 1 1 2 1 ∧
    (conv2dIssue 0 0 src (Buf.ofList [1]) i1 w1 c o1 (Buf.ofList [99, 99])).map Buf.toList = some [0, 0] ∧
    convSum 1 1 1 (padded 258 1 0 (inElem src i1)) (wtElem (Buf.ofList [1]) w1 0) 257 1 0 0 1 1 1 0 = 5 := by
  refine ⟨by decide, by decide +kernel, ?_⟩
  simp only [convSum]
  decide +kernel

/-! ## C38 -/

/-- C38 for `Conv2d::Issue`. -/
theorem c38_conv2d_runtime_partial (zx : Int) (src src' wts dst : Buf) (tin tin' tw tout : Tensor) (c : ConvCfg) (ih iw ic kh kw kn oh ow : Int)
    (A : IssueArgs tin tw tout c src wts dst ih iw ic kh kw ic kn oh ow)
    (A' : IssueArgs tin' tw tout c.unpadded src' wts dst (ih + c.pt + c.pb) (iw + c.pl + c.pr) ic kh kw ic kn oh ow)
    (E : Extended c zx tin src tin' src' ih iw ic) (hz : InRange 8 zx)
    (hmeet : RowsMeet ih kh oh c) (ht : ic * (kh * kw) ≤ 43690) :
    ∃ d d' val, conv2dIssue zx 0 src wts tin tw c tout dst = some d ∧ conv2dIssue zx 0 src' wts tin' tw c.unpadded tout dst = some d' ∧
      tout.Writes val dst d ∧ tout.Writes val dst d' := by
  obtain ⟨-, -, ⟨t1, -⟩, ⟨t2, -⟩, ⟨t3, -⟩, ⟨t4, -⟩, -⟩ := A.cfg
  obtain ⟨d, v, r1, r2, r3⟩ := c36_conv2d_runtime_partial zx src wts dst tin tw tout c ih iw ic kh kw kn oh ow A hz hmeet ht
  obtain ⟨d', v', q1, q2, q3⟩ := c36_conv2d_runtime_partial zx src' wts dst tin' tw tout c.unpadded _ _ ic kh kw kn oh ow A' hz
    (hmeet.unpadded ⟨t1, t2⟩) ht
  refine ⟨d, d', v, r1, q1, r2, q2.congr fun is hs => ?_⟩
  have hs' := hs
  rw [A.so] at hs'
  obtain ⟨y, x, k, rfl, hk⟩ := inShape3 hs'
  rw [r3 y x k hs, q3 y x k hs]
  exact convSum_explicit zx (inElem src tin) (inElem src' tin') (wtElem wts tw k) c.sh c.sw c.pt c.pb c.pl c.pr c.dh c.dw y x ⟨t1, t2, t3, t4⟩
    (fun r q cc hcc a b c' d => E.elems r q cc a b c' d (by omega) hcc)

/-- C38 for `DepthwiseConv2d::Issue`. -/
theorem c38_depthwise_runtime_partial (zx zw : Int) (src src' wts dst : Buf) (tin tin' tw tout : Tensor) (c : ConvCfg) (ih iw ic kh kw oh ow : Int)
    (A : IssueArgs tin tw tout c src wts dst ih iw ic kh kw 1 ic oh ow)
    (A' : IssueArgs tin' tw tout c.unpadded src' wts dst (ih + c.pt + c.pb) (iw + c.pl + c.pr) ic kh kw 1 ic oh ow)
    (E : Extended c zx tin src tin' src' ih iw ic) (hz : InRange 8 zx) (hzw : InRange 8 zw) (ht : kh * kw ≤ 26214) :
    ∃ d d' val, depthwiseIssue zx zw src wts tin tw c tout dst = some d ∧ depthwiseIssue zx zw src' wts tin' tw c.unpadded tout dst = some d' ∧
      tout.Writes val dst d ∧ tout.Writes val dst d' := by
  obtain ⟨-, -, ⟨t1, -⟩, ⟨t2, -⟩, ⟨t3, -⟩, ⟨t4, -⟩, -⟩ := A.cfg
  obtain ⟨d, v, r1, r2, r3⟩ := c36_depthwise_runtime_partial zx zw src wts dst tin tw tout c ih iw ic kh kw oh ow A hz hzw ht
  obtain ⟨d', v', q1, q2, q3⟩ := c36_depthwise_runtime_partial zx zw src' wts dst tin' tw tout c.unpadded _ _ ic kh kw oh ow A' hz hzw ht
  refine ⟨d, d', v, r1, q1, r2, q2.congr fun is hs => ?_⟩
  have hs' := hs
  rw [A.so] at hs'
  obtain ⟨y, x, k, rfl, hk⟩ := inShape3 hs'
  rw [r3 y x k hs, q3 y x k hs]
  exact convSum_explicit zx (fun r q _ => inElem src tin r q k) (fun r q _ => inElem src' tin' r q k) _ c.sh c.sw c.pt c.pb c.pl c.pr c.dh c.dw y x
    ⟨t1, t2, t3, t4⟩ (fun r q cc hcc a b c' d => E.elems r q k a b c' d hk.1 hk.2)

/-- The example input with explicit padding: `exCfg` adds one row above and one column on each side. -/
def exInP : Tensor := { dims := [⟨4, 12⟩, ⟨6, 2⟩, ⟨2, 1⟩], cap := 96, es := 2 }
def exSrcP (z : Int) : List Int :=
  List.replicate 12 z ++ (List.range 3).flatMap fun r => [z, z] ++ (exSrc.drop (8 * r)).take 8 ++ [z, z]

theorem exExtended (z : Int) (hz : z = 0 ∨ z = -3) : Extended exCfg z exIn (Buf.ofList exSrc) exInP (Buf.ofList (exSrcP z)) 3 4 2 := by
  refine ⟨by decide, by decide, fun r q k a b c d e f => ?_⟩
  simp only [exCfg] at b d
  have key : ∀ z ∈ ([0, -3] : List Int), ∀ r ∈ List.range 4, ∀ q ∈ List.range 6, ∀ k ∈ List.range 2,
      inElem (Buf.ofList (exSrcP z)) exInP (r : Nat) (q : Nat) (k : Nat) =
        padded 3 4 z (inElem (Buf.ofList exSrc) exIn) ((r : Nat) - exCfg.pt) ((q : Nat) - exCfg.pl) (k : Nat) := by decide +kernel
  have := key z (by simpa using hz) r.toNat (List.mem_range.2 (by omega)) q.toNat (List.mem_range.2 (by omega)) k.toNat (List.mem_range.2 (by omega))
  rwa [Int.toNat_of_nonneg a, Int.toNat_of_nonneg c, Int.toNat_of_nonneg e] at this

/-- The hypotheses of the C38 theorems for the padded input, and a common result. -/
example :
    ConvArgs exInP exWt exBias exOut exCfg.unpadded (Buf.ofList (exSrcP 0)) (Buf.ofList exWts) (Buf.ofList [5, -6]) (Buf.ofList (List.replicate 8 99)) 16 16 16 ∧
    chkConvFx false 0 true { fi := 3, fw := 4, fb := 5, fo := 2, relu := .none } exInP exWt exBias exCfg.unpadded exOut = some .ok ∧
    IssueArgs exInP.bytes exWt.bytes exOut32 exCfg.unpadded (Buf.ofList (exSrcP (-3))) (Buf.ofList exWts) (Buf.ofList (List.replicate 8 99))
      (3 + 1 + 0) (4 + 1 + 1) 2 2 3 2 2 2 2 ∧
    (conv2dIssue (-3) 0 (Buf.ofList (exSrcP (-3))) (Buf.ofList exWts) exInP.bytes exWt.bytes exCfg.unpadded exOut32
      (Buf.ofList (List.replicate 8 99))).map Buf.toList = some [12818, 13724, 10977, 11904, -7580, -7892, -16890, -18168] := by
  refine ⟨⟨⟨by decide, by decide, by decide, by decide⟩, ⟨by decide, by decide, by decide, by decide⟩, ⟨by decide, by decide, by decide, by decide⟩,
    ⟨by decide, by decide, by decide, by decide⟩, holds_ofList (by decide) _, holds_ofList (by decide) _, holds_ofList (by decide) _, by decide⟩,
    by decide, ⟨⟨by decide, by decide, by decide, by decide⟩, ⟨by decide, by decide, by decide, by decide⟩, ⟨by decide, by decide, by decide, by decide⟩,
    holds_ofList (by decide) _, holds_ofList (by decide) _, by decide, by decide, by decide, by decide, by decide, by decide, by decide⟩,
    by decide +kernel⟩

/-- C38 fails for `Conv2d::Issue` with a non-zero weights zero point: input 7 padded on the left, or the input 2, 7 with the zero
point 2 in front. -/
theorem c38_conv2d_runtime_violated :
    let w1 : Tensor := { dims := [⟨1, 2⟩, ⟨2, 1⟩, ⟨1, 1⟩, ⟨1, 1⟩], cap := 2, es := 1 }
    let i1 : Tensor := { dims := [⟨1, 1⟩, ⟨1, 1⟩, ⟨1, 1⟩], cap := 1, es := 1 }
    let i2 : Tensor := { dims := [⟨1, 2⟩, ⟨2, 1⟩, ⟨1, 1⟩], cap := 2, es := 1 }
    let o1 : Tensor := { dims := [⟨1, 1⟩, ⟨1, 1⟩, ⟨1, 1⟩], cap := 4, es := 4 }
    (conv2dIssue 2 3 (Buf.ofList [7]) (Buf.ofList [5, 11]) i1 w1 { sh := 1, sw := 1, pl := 1 } o1 (Buf.ofList [99])).map Buf.toList = some [81] ∧
    (conv2dIssue 2 3 (Buf.ofList [2, 7]) (Buf.ofList [5, 11]) i2 w1 { sh := 1, sw := 1 } o1 (Buf.ofList [99])).map Buf.toList = some [87] := by
  decide +kernel

end Mli
