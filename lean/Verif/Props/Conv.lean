import Verif.Model.Conv
import Verif.Lemmas.ConvRun
import Verif.Props.Relu
import Verif.Props.AvePool
import Mathlib.Algebra.Order.Ring.Abs

/-!
# Properties of the convolution kernels (C36, C37, C38)
-/

namespace Mli

open Spec

/-- The fields of the configuration structure have type `uint8_t`. -/
def ConvCfg.Typed (c : ConvCfg) : Prop :=
  (0 ≤ c.sh ∧ c.sh < 256) ∧ (0 ≤ c.sw ∧ c.sw < 256) ∧ (0 ≤ c.pt ∧ c.pt < 256) ∧ (0 ≤ c.pb ∧ c.pb < 256) ∧
  (0 ≤ c.pl ∧ c.pl < 256) ∧ (0 ≤ c.pr ∧ c.pr < 256) ∧ (0 ≤ c.dh ∧ c.dh < 256) ∧ (0 ≤ c.dw ∧ c.dw < 256)

instance (c : ConvCfg) : Decidable c.Typed := by unfold ConvCfg.Typed; infer_instance

/-- At each row of the output the window has a row in the input (see `c36_rows_meet`). -/
def RowsMeet (ih kh oh : Int) (c : ConvCfg) : Prop :=
  ∀ y, 0 ≤ y → y < oh → ∃ i, 0 ≤ i ∧ i < kh ∧ 0 ≤ tapCoord c.sh c.pt c.dh y i ∧ tapCoord c.sh c.pt c.dh y i < ih

/-- What an accepted convolution satisfies. -/
theorem chkConv_ok {dw apart : Bool} {ks : Int} {tin tw tb tout : Tensor} {c : ConvCfg}
    (h : chkConv dw ks apart tin tw tb c tout = some .ok) :
    ∃ ih iw ic kh kw kc kn bn oh ow oc, tin.dims = [ih, iw, ic] ∧ tw.dims = [kh, kw, kc, kn] ∧ tb.dims = [bn] ∧
      tout.dims = [oh, ow, oc] ∧
      ((dw = true → kc.shape = 1 ∧ kn.shape = ic.shape) ∧ (dw = false → ic.shape = kc.shape)) ∧ oc.shape = kn.shape ∧ bn.shape = kn.shape ∧
      ic.stride = 1 ∧ kn.stride = 1 ∧ bn.stride = 1 ∧ oc.stride = 1 ∧
      (ks ≠ 0 → kh.shape = ks ∧ kw.shape = ks) ∧ 0 < c.dh ∧ 0 < c.dw ∧ 0 < c.sh ∧ 0 < c.sw ∧
      (c.pl < wrap 32 ((kw.shape - 1) * c.dw + 1) ∧ c.pr < wrap 32 ((kw.shape - 1) * c.dw + 1) ∧
       c.pt < wrap 32 ((kh.shape - 1) * c.dh + 1) ∧ c.pb < wrap 32 ((kh.shape - 1) * c.dh + 1)) ∧
      wrap 32 (oh.shape * c.sh + wrap 32 ((kh.shape - 1) * c.dh + 1) - c.sh) ≤ wrap 32 (ih.shape + c.pt + c.pb) ∧
      wrap 32 (ow.shape * c.sw + wrap 32 ((kw.shape - 1) * c.dw + 1) - c.sw) ≤ wrap 32 (iw.shape + c.pl + c.pr) ∧
      apart = true := by
  unfold chkConv at h
  split at h
  · cases h
  rename_i hks
  rw [Option.bind_eq_some_iff] at h
  obtain ⟨s1, -, h⟩ := h
  split at h
  · rename_i h'; exact absurd (Option.some.inj h) h'
  replace h := Option.some.inj h
  unfold chkConvGeo at h
  split at h
  · rename_i ih iw ic kh kw kc kn bn oh ow oc e1 e2 e3 e4
    simp only [] at h
    split at h
    · cases h
    rename_i hsh
    split at h
    · cases h
    rename_i hin
    split at h
    · cases h
    rename_i hcfg
    split at h
    · cases h
    rename_i hap
    simp only [innerOne, Tensor.strides, e1, e2, e3, e4, List.map_cons, List.map_nil, Bool.not_eq_true, Bool.not_eq_false',
      Bool.and_eq_true] at hin
    simp only [List.getLast?_cons_cons, List.getLast?_singleton, beq_iff_eq] at hin
    have hsh := not_not.1 hsh
    have hcfg := not_not.1 hcfg
    obtain ⟨⟨⟨u1, u2⟩, u3⟩, u4⟩ := hin
    obtain ⟨a1, a2, a3, a4, a5, a6, a7, a8, a9, a10⟩ := hcfg
    refine ⟨ih, iw, ic, kh, kw, kc, kn, bn, oh, ow, oc, e1, e2, e3, e4, ⟨hsh.1, hsh.2.1⟩, hsh.2.2.1, hsh.2.2.2, u1, u2, u3, u4, ?_, a1, a2,
      a7, a8, ⟨a3, a4, a5, a6⟩, a9, a10, by simpa using hap⟩
    intro h0
    by_contra hc
    apply hks
    refine ⟨h0, ?_⟩
    simpa [Tensor.shape, e2] using hc
  · cases h

/-- The convolution loops write `val`. -/
theorem convLoop_laid {tout : Tensor} {dst : Buf} {oh ow oc : Dim}
    (hb : ∀ is, InShape tout.shape is → 0 ≤ tout.addr is ∧ tout.addr is < dst.size)
    (hinj : ∀ is js, InShape tout.shape is → InShape tout.shape js → tout.addr is = tout.addr js → is = js) (e : tout.dims = [oh, ow, oc])
    (hu : oc.stride = 1) (n : Int) (hn : n = oc.shape) (val : List Int → Int) (value : Int → Int → Int → Option Int)
    (h : ∀ y x k : Nat, (y : Int) < oh.shape → (x : Int) < ow.shape → (k : Int) < oc.shape →
      value y x k = some (val [(y : Int), (x : Int), (k : Int)])) (o : Prv) (ho : prvHwc tout = some o) :
    ∃ dst', convLoop value o n dst = some dst' ∧ tout.Writes val dst dst' := by
  subst hn
  simp only [prvHwc, e, Option.some.injEq] at ho
  subst ho
  unfold convLoop
  apply loop3_laid tout dst hb hinj e val
  intro y x k h1 h2 h3 d' _
  rw [h y x k (by omega) (by omega) (by omega), Option.bind_some]
  congr 1
  simp only [Tensor.addr, Tensor.strides, e, List.map_cons, List.map_nil, offset, hu]
  ring

theorem Tensor.Valid.addr_inj {t : Tensor} {b : Buf} (h : t.Valid b) :
    ∀ is js, InShape t.shape is → InShape t.shape js → t.addr is = t.addr js → is = js :=
  fun is js hi hj e => c09_accepted_no_alias t h.accepted is js hi hj (by unfold Tensor.addr at e; omega)

theorem convLoop_writes {tout : Tensor} {dst : Buf} {oh ow oc : Dim} (hv : tout.Valid dst) (e : tout.dims = [oh, ow, oc])
    (hu : oc.stride = 1) (n : Int) (hn : n = oc.shape) (val : List Int → Int) (value : Int → Int → Int → Option Int)
    (h : ∀ y x k : Nat, (y : Int) < oh.shape → (x : Int) < ow.shape → (k : Int) < oc.shape →
      value y x k = some (val [(y : Int), (x : Int), (k : Int)])) (o : Prv) (ho : prvHwc tout = some o) :
    ∃ dst', convLoop value o n dst = some dst' ∧ tout.Writes val dst dst' :=
  convLoop_laid hv.placed.inb hv.addr_inj e hu n hn val value h o ho

/-- Set-up of an accepted convolution. -/
structure ConvRun (dw : Bool) (ks : Int) (tin tw tb tout : Tensor) (c : ConvCfg) (src wts bias : Buf)
    (ih iw ic kh kw kc kn bn oh ow oc : Dim) (i o : Prv) (w : WPrv) (H W : Int) : Prop where
  T : ConvT tin tw c src wts ih iw ic kh kw kc kn
  db : tb.dims = [bn]
  dout : tout.dims = [oh, ow, oc]
  uo : oc.stride = 1
  hch : (dw = true → kc.shape = 1 ∧ kn.shape = ic.shape) ∧ (dw = false → ic.shape = kc.shape)
  eo : oc.shape = kn.shape
  eb : bn.shape = kn.shape
  hi : prvHwc tin = some i
  ho : prvHwc tout = some o
  hw : prvHwcnFix ks tw = some w
  ich : i.ch = ic.shape
  och : o.ch = oc.shape
  wv : w = wtPrv tw kh kw kc kn
  adj : convAdjust (ks = 1) c i w o = (c, inPrv tin ih iw ic H W)
  rowH : ∀ y : Nat, (y : Int) < oh.shape → ∀ j, j < kh.shape →
    (tapCoord c.sh c.pt c.dh y j < H ↔ tapCoord c.sh c.pt c.dh y j < ih.shape)
  colW : ∀ x : Nat, (x : Int) < ow.shape → ∀ j, j < kw.shape →
    (tapCoord c.sw c.pl c.dw x j < W ↔ tapCoord c.sw c.pl c.dw x j < iw.shape)
  hb : ∀ k : Nat, (k : Int) < kn.shape → bias.rd (tb.base + k) = some (bias.get (tb.addr [(k : Int)]))

theorem ConvRun.bias_in {dw : Bool} {ks : Int} {tin tw tb tout : Tensor} {c : ConvCfg} {src wts bias : Buf}
    {ih iw ic kh kw kc kn bn oh ow oc : Dim} {i o : Prv} {w : WPrv} {H W : Int}
    (R : ConvRun dw ks tin tw tb tout c src wts bias ih iw ic kh kw kc kn bn oh ow oc i o w H W) {k : Int}
    (hk : 0 ≤ k ∧ k < kn.shape) : InShape tb.shape [k] := by
  simp only [Tensor.shape, R.db, List.map_cons, List.map_nil, InShape, R.eb]
  exact ⟨hk, trivial⟩

theorem conv_setup {dw apart : Bool} {ks : Int} {tin tw tb tout : Tensor} {c : ConvCfg} {src wts bias : Buf}
    (hchk : chkConv dw ks apart tin tw tb c tout = some .ok) (hc : c.Typed)
    (vi : tin.Valid src) (vw : tw.Valid wts) (vb : tb.Valid bias) :
    ∃ ih iw ic kh kw kc kn bn oh ow oc i o w H W,
      ConvRun dw ks tin tw tb tout c src wts bias ih iw ic kh kw kc kn bn oh ow oc i o w H W := by
  obtain ⟨ih, iw, ic, kh, kw, kc, kn, bn, oh, ow, oc, e1, e2, e3, e4, h1, h2, h3, u1, u2, u3, u4, hks, d1, d2, s1, s2,
    ⟨p1, p2, p3, p4⟩, r1, r2, -⟩ := chkConv_ok hchk
  obtain ⟨⟨t1, -⟩, ⟨t2, -⟩, ⟨t3, -⟩, ⟨t4, -⟩, ⟨t5, -⟩, ⟨t6, -⟩, -⟩ := hc
  have hcc : (if ks = 1 then { c with pt := 0, pb := 0, pl := 0, pr := 0 } else c) = c := by
    split
    · rename_i hk
      obtain ⟨k1, k2⟩ := hks (by omega)
      rw [k1, hk] at p3 p4
      rw [k2, hk] at p1 p2
      have e : ∀ d, wrap 32 ((1 - 1) * d + 1) = 1 := by intro d; rw [Int.sub_self, Int.zero_mul]; decide
      rw [e] at p1 p2 p3 p4
      have z1 : c.pt = 0 := by omega
      have z2 : c.pb = 0 := by omega
      have z3 : c.pl = 0 := by omega
      have z4 : c.pr = 0 := by omega
      cases c
      simp only at z1 z2 z3 z4
      subst z1 z2 z3 z4
      rfl
    · rfl
  refine ⟨ih, iw, ic, kh, kw, kc, kn, bn, oh, ow, oc,
    { ptr := tin.base, width := iw.shape, height := ih.shape, ch := ic.shape, col := iw.stride, row := ih.stride },
    { ptr := tout.base, width := ow.shape, height := oh.shape, ch := oc.shape, col := ow.stride, row := oh.stride },
    wtPrv tw kh kw kc kn,
    if (oh.shape * c.sh + ((kh.shape - 1) * c.dh + 1) - c.sh) - ih.shape - c.pt < 0 then
      ih.shape + ((oh.shape * c.sh + ((kh.shape - 1) * c.dh + 1) - c.sh) - ih.shape - c.pt) else ih.shape,
    if (ow.shape * c.sw + ((kw.shape - 1) * c.dw + 1) - c.sw) - iw.shape - c.pl < 0 then
      iw.shape + ((ow.shape * c.sw + ((kw.shape - 1) * c.dw + 1) - c.sw) - iw.shape - c.pl) else iw.shape,
    ⟨⟨vi.placed, vw.placed, e1, e2, u1, by omega, by omega⟩, e3, e4, u4, h1, h2, h3, ?_, ?_, ?_, rfl, rfl, rfl, ?_, ?_, ?_, ?_⟩⟩
  · simp only [prvHwc, e1]
  · simp only [prvHwc, e4]
  · simp only [prvHwcnFix, prvHwcn, e2, wtPrv, u2, if_true, Option.map_some]
    split
    · rfl
    · rename_i hk
      obtain ⟨k1, k2⟩ := hks hk
      rw [k1, k2]
  · unfold convAdjust
    simp only [decide_eq_true_eq, hcc]
    rfl
  · intro y hy j hj
    have := adjust_tap (n := ih.shape) (k := kh.shape) (s := c.sh) (p := c.pt) (d := c.dh) (o := oh.shape) (y := y) (i := j) (by omega) (by omega) hy hj
    exact this
  · intro y hy j hj
    exact adjust_tap (n := iw.shape) (k := kw.shape) (s := c.sw) (p := c.pl) (d := c.dw) (o := ow.shape) (y := y) (i := j) (by omega) (by omega) hy hj
  · intro k hk
    have hs : InShape tb.shape [(k : Int)] := by
      simp only [Tensor.shape, e3, List.map_cons, List.map_nil, InShape]
      exact ⟨by omega, trivial⟩
    rw [← vb.rd hs rfl]
    congr 1
    simp only [Tensor.addr, Tensor.strides, e3, List.map_cons, List.map_nil, offset, u3]
    ring

/-- All elements of the output of an accepted convolution with bias. -/
theorem convBias_all {ks : Int} {tin tw tb tout : Tensor} {c : ConvCfg} {src wts bias dst : Buf}
    {ih iw ic kh kw kc kn bn oh ow oc : Dim} {i o : Prv} {w : WPrv} {H W : Int}
    (R : ConvRun false ks tin tw tb tout c src wts bias ih iw ic kh kw kc kn bn oh ow oc i o w H W) (vo : tout.Valid dst)
    (q : ConvQ) (post : Int → Int → Int → Int) (hzw : q.zw = 0) (hzx : wrap 16 (-q.zx) = -q.zx)
    (hmeet : RowsMeet ih.shape kh.shape oh.shape c) (B1 B2 : Int)
    (hB1 : ∀ is js, InShape tin.shape is → InShape tw.shape js → |src.get (tin.addr is) * wts.get (tw.addr js)| ≤ B1)
    (hB2 : ∀ js, InShape tw.shape js → |-q.zx * wts.get (tw.addr js)| ≤ B2)
    (hfit : taps kh kw ic * (B1 + B2) ≤ hi q.aw) :
    ∃ dst' val, convLoop (convBias q post src wts bias tb.base c (inPrv tin ih iw ic H W) w) o o.ch dst = some dst' ∧
      tout.Writes val dst dst' ∧ ∀ y x k, InShape tout.shape [y, x, k] → val [y, x, k] =
        post k (bias.get (tb.addr [k])) (convSum kh.shape kw.shape ic.shape
          (padded ih.shape iw.shape 0 fun r p k => inElem src tin r p k - q.zx) (wtElem wts tw k) c.sh c.sw c.pt c.pl c.dh c.dw y x) := by
  obtain ⟨dst', h1, h2⟩ := convLoop_writes vo R.dout R.uo o.ch R.och
    (fun is => match is with
      | [y, x, k] => post k (bias.get (tb.addr [k])) (convSum kh.shape kw.shape ic.shape
          (padded ih.shape iw.shape 0 fun r p k => inElem src tin r p k - q.zx) (wtElem wts tw k) c.sh c.sw c.pt c.pl c.dh c.dw y x)
      | _ => 0) (convBias q post src wts bias tb.base c (inPrv tin ih iw ic H W) w) (by
      intro y x k hy hx hk
      rw [R.wv]
      have hk' : (k : Int) < kn.shape := by rw [← R.eo]; exact hk
      exact convBias_run R.T q hzw hzx (R.hch.2 rfl) post bias tb.base _ (R.rowH y hy) (R.colW x hx)
        (hmeet y (by omega) hy) hk' B1 B2 hB1 hB2 hfit (R.hb k hk')) o R.ho
  exact ⟨dst', _, h1, h2, fun _ _ _ _ => rfl⟩

/-- All elements of the output of an accepted depthwise convolution with bias. -/
theorem dwBias_all {ks : Int} {tin tw tb tout : Tensor} {c : ConvCfg} {src wts bias dst : Buf}
    {ih iw ic kh kw kc kn bn oh ow oc : Dim} {i o : Prv} {w : WPrv} {H W : Int}
    (R : ConvRun true ks tin tw tb tout c src wts bias ih iw ic kh kw kc kn bn oh ow oc i o w H W) (vo : tout.Valid dst)
    (q : ConvQ) (add post : Int → Int → Int) (hzw : q.zw = 0) (hzx : wrap 16 (-q.zx) = -q.zx) (B1 B2 : Int)
    (hB1 : ∀ is js, InShape tin.shape is → InShape tw.shape js → |src.get (tin.addr is) * wts.get (tw.addr js)| ≤ B1)
    (hB2 : ∀ js, InShape tw.shape js → |-q.zx * wts.get (tw.addr js)| ≤ B2)
    (hfit : ((kh.shape.toNat * kw.shape.toNat : Nat) : Int) * (B1 + B2) ≤ hi q.aw)
    (hadd : ∀ js, InShape tb.shape js → ∀ a, |a| ≤ hi q.aw → InRange q.aw (add (bias.get (tb.addr js)) a)) :
    ∃ dst' val, convLoop (dwBias q add post src wts bias tb.base c (inPrv tin ih iw ic H W) w) o i.ch dst = some dst' ∧
      tout.Writes val dst dst' ∧ ∀ y x k, InShape tout.shape [y, x, k] → val [y, x, k] =
        post k (add (bias.get (tb.addr [k])) (convSum kh.shape kw.shape 1
          (padded ih.shape iw.shape 0 fun r p _ => inElem src tin r p k - q.zx) (fun i j _ => wtElem wts tw k i j 0)
          c.sh c.sw c.pt c.pl c.dh c.dw y x)) := by
  obtain ⟨dst', h1, h2⟩ := convLoop_writes vo R.dout R.uo i.ch (by rw [R.ich, R.eo, (R.hch.1 rfl).2])
    (fun is => match is with
      | [y, x, k] => post k (add (bias.get (tb.addr [k])) (convSum kh.shape kw.shape 1
          (padded ih.shape iw.shape 0 fun r p _ => inElem src tin r p k - q.zx) (fun i j _ => wtElem wts tw k i j 0)
          c.sh c.sw c.pt c.pl c.dh c.dw y x))
      | _ => 0) (dwBias q add post src wts bias tb.base c (inPrv tin ih iw ic H W) w) (by
      intro y x k hy hx hk
      rw [R.wv]
      have hk' : (k : Int) < kn.shape := by rw [← R.eo]; exact hk
      exact dwBias_run R.T q hzw hzx (R.hch.1 rfl).2 add post bias tb.base _ (R.rowH y hy) (R.colW x hx)
        hk' B1 B2 hB1 hB2 hfit (R.hb k hk') (hadd _ (R.bias_in ⟨by omega, hk'⟩))) o R.ho
  exact ⟨dst', _, h1, h2, fun _ _ _ _ => rfl⟩

/-- A sum of products over a padded input is bounded by the number of taps. -/
theorem convSum_abs (kh kw n : Nat) (ih iw : Int) (X W : Int → Int → Int → Int) (sh sw pt pl dh dw y x B : Int) (hB : 0 ≤ B)
    (h : ∀ (i j c : Nat) r q, i < kh → j < kw → c < n → 0 ≤ r → r < ih → 0 ≤ q → q < iw → |X r q c * W i j c| ≤ B) :
    |convSum kh kw n (padded ih iw 0 X) W sh sw pt pl dh dw y x| ≤ n * (kh * kw) * B := by
  unfold convSum
  simp only [Int.toNat_natCast]
  have step : ∀ (m : Nat) (f : Nat → Int) (b : Int), (∀ i, i < m → |f i| ≤ b) → |∑ i ∈ Finset.range m, f i| ≤ m * b := by
    intro m f b hf
    refine (Finset.abs_sum_le_sum_abs _ _).trans ?_
    have := Finset.sum_le_card_nsmul (Finset.range m) (fun i => |f i|) b (fun i hi => hf i (Finset.mem_range.1 hi))
    simpa using this
  have e : (n : Int) * (kh * kw) * B = kh * (kw * (n * B)) := by ring
  rw [e]
  apply step; intro i hi
  apply step; intro j hj
  apply step; intro k hk
  unfold padded
  split
  · rename_i hr
    exact h i j k _ _ hi hj hk hr.1 hr.2.1 hr.2.2.1 hr.2.2.2
  · simpa using hB

theorem abs_mul_le {a b : Nat} {x y : Int} (ha : 1 ≤ a) (hb : 1 ≤ b) (hx : InRange a x) (hy : InRange b y) :
    |x * y| ≤ 2 ^ (a - 1) * 2 ^ (b - 1) := by
  rw [abs_mul]
  have h1 : |x| ≤ 2 ^ (a - 1) := by
    obtain ⟨l, h⟩ := hx; simp only [lo, hi] at l h; rw [abs_le]; omega
  have h2 : |y| ≤ 2 ^ (b - 1) := by
    obtain ⟨l, h⟩ := hy; simp only [lo, hi] at l h; rw [abs_le]; omega
  exact mul_le_mul h1 h2 (abs_nonneg _) (by positivity)

/-- `applyLimits` for limits that make sense. -/
theorem applyLimits_eq {mn mx v : Int} (h : mn ≤ mx) : applyLimits (mn, mx) v = minFx (maxFx v mn) mx := by
  unfold applyLimits minFx maxFx
  simp only []
  by_cases h1 : v < mx <;> by_cases h2 : v > mn <;> simp only [h1, h2, if_true, if_false] <;> (repeat' split) <;> omega

/-- Conversion to the output format and built-in ReLU. -/
theorem castLimFx_spec (m : Rnd) (aw : Nat) (ha : 16 ≤ aw) (f : FxQ) {acc : Int} (hr : InRange aw acc)
    (h1 : f.relu = .one → f.fo < 30)
    (hup : m = .up → f.fi + f.fw - f.fo ≤ (aw : Int) - 16 ∨ (aw : Int) ≤ f.fi + f.fw - f.fo ∨
      acc + 2 ^ ((f.fi + f.fw - f.fo).toNat - 1) ≤ hi aw) :
    ∃ r, Scaled m acc (f.fi + f.fw - f.fo) r ∧
      NearestIn (f.relu.Admissible 16 0 1 f.fo) (clamp 16 r) (castLimFx m aw f acc) := by
  obtain ⟨mn, mx, hlim, -, -, b1, b2, hiff⟩ := reluLimits_iff 16 (by omega) f.relu 0 1 f.fo (by decide) (by decide) (by decide)
    (fun _ => Or.inl rfl) h1
  obtain ⟨r, hr1, hr2⟩ : ∃ r, Scaled m acc (f.fi + f.fw - f.fo) r ∧ castFx m aw 16 acc (f.fi + f.fw - f.fo) = clamp 16 r := by
    cases m
    · exact c05_cast_up_partial aw 16 (by omega) ha acc hr _ (hup rfl)
    · exact c05_cast_convergent aw 16 (by omega) ha acc hr _
  refine ⟨r, hr1, ?_⟩
  unfold castLimFx
  rw [hlim, hr2, applyLimits_eq (by omega)]
  exact nearestIn_interval (by omega) hiff

/-- The bias is added exactly to a 64-bit accumulator. -/
theorem biasFx64 (m : Rnd) (bs : Int) (h0 : 0 ≤ bs) (h1 : bs ≤ 16) {b S : Int} (hb : InRange 16 b) (hS : |S| ≤ 2 ^ 61) :
    biasFx m 64 bs b S = S + b * 2 ^ bs.toNat ∧ InRange 64 (S + b * 2 ^ bs.toNat) ∧
      S + b * 2 ^ bs.toNat + 2 ^ 62 ≤ hi 64 := by
  obtain ⟨n, rfl⟩ : ∃ n : Nat, bs = n := ⟨bs.toNat, by omega⟩
  have hp : (2 : Int) ^ n ≤ 2 ^ 16 := pow_le_pow_right₀ (by decide) (by omega)
  have hp0 := two_pow_pos n
  obtain ⟨l, u⟩ := hb
  simp only [lo, hi] at l u
  have hab : |b * 2 ^ n| ≤ 2 ^ 15 * 2 ^ 16 := by
    rw [abs_mul, abs_of_pos hp0]
    exact mul_le_mul (by rw [abs_le]; omega) hp (by omega) (by decide)
  obtain ⟨b2, b1⟩ := abs_le.1 hab
  have hS := abs_le.1 hS
  have r1 : InRange 64 (S + b * 2 ^ n) := by constructor <;> simp only [lo, hi] <;> omega
  unfold biasFx
  rw [if_pos rfl, c05_acc40_partial m b ⟨by simp only [lo]; omega, by simp only [hi]; omega⟩ n (by omega),
    addFx_eq ⟨by simp only [lo]; omega, by simp only [hi]; omega⟩ ⟨by simp only [lo]; omega, by simp only [hi]; omega⟩,
    Int.toNat_natCast, clamp_of_inRange r1]
  exact ⟨rfl, r1, by simp only [hi]; omega⟩

theorem biasFx64_inRange (m : Rnd) (n : Nat) (h1 : n ≤ 16) {b S : Int} (hb : InRange 16 b) (hS : InRange 64 S) :
    InRange 64 (biasFx m 64 n b S) := by
  unfold biasFx
  rw [if_pos rfl, c05_acc40_partial m b hb n h1]
  apply addFx_inRange hS
  have hp : (2 : Int) ^ n ≤ 2 ^ 16 := pow_le_pow_right₀ (by decide) (by omega)
  have hp0 := two_pow_pos n
  obtain ⟨l, u⟩ := hb
  simp only [lo, hi] at l u
  have hab : |b * 2 ^ n| ≤ 2 ^ 15 * 2 ^ 16 := by
    rw [abs_mul, abs_of_pos hp0]
    exact mul_le_mul (by rw [abs_le]; omega) hp (by omega) (by decide)
  have := abs_le.1 hab
  constructor <;> simp only [lo, hi] <;> omega

/-- The bias is added with saturation to a 32-bit accumulator. -/
theorem biasFx32 (m : Rnd) (bs : Int) (h0 : 0 ≤ bs) {b S : Int} (hb : InRange 8 b) (hS : InRange 32 S) :
    biasFx m 32 bs b S = clamp 32 (S + clamp 32 (b * 2 ^ bs.toNat)) := by
  obtain ⟨n, rfl⟩ : ∃ n : Nat, bs = n := ⟨bs.toNat, by omega⟩
  unfold biasFx
  rw [if_neg (by decide), asrRnd_neg (by omega) (inRange_mono (by omega) hb), addFx_eq hS (clamp_inRange _ _), Int.toNat_natCast]

/-- Arguments of a convolution kernel: accepted tensors over the buffers that hold their elements,
of `wi`, `ww` and `wb` bits. -/
structure ConvArgs (tin tw tb tout : Tensor) (c : ConvCfg) (src wts bias dst : Buf) (wi ww wb : Nat) : Prop where
  vi : tin.Valid src
  vw : tw.Valid wts
  vb : tb.Valid bias
  vo : tout.Valid dst
  hi : tin.Holds src wi
  hw : tw.Holds wts ww
  hb : tb.Holds bias wb
  hc : c.Typed

theorem taps_lt {tin tw : Tensor} {c : ConvCfg} {src wts : Buf} {ih iw ic kh kw kc kn : Dim}
    (T : ConvT tin tw c src wts ih iw ic kh kw kc kn) (hv : tw.Valid wts) (h : ic.shape = kc.shape) : (taps kh kw ic : Int) < 2 ^ 31 := by
  have hc := hv.count_le
  have p := T.vw.shape_pos
  simp only [T.dk, List.mem_cons, List.not_mem_nil, or_false, forall_eq_or_imp, forall_eq] at p
  obtain ⟨p1, p2, p3, p4⟩ := p
  simp only [Tensor.shape, T.dk, List.map_cons, List.map_nil, List.prod_cons, List.prod_nil, Nat.mul_one] at hc
  unfold taps
  rw [h]
  refine lt_of_le_of_lt ?_ hc
  have : (kc.shape.toNat * (kh.shape.toNat * kw.shape.toNat)) ≤ kh.shape.toNat * (kw.shape.toNat * (kc.shape.toNat * kn.shape.toNat)) := by
    have e : kh.shape.toNat * (kw.shape.toNat * (kc.shape.toNat * kn.shape.toNat)) =
      (kc.shape.toNat * (kh.shape.toNat * kw.shape.toNat)) * kn.shape.toNat := by ring
    rw [e]
    exact Nat.le_mul_of_pos_right _ (by omega)
  exact_mod_cast this

/-- The sum of the products of a convolution of accepted tensors. -/
theorem conv_sum_le {tin tw : Tensor} {c : ConvCfg} {src wts : Buf} {ih iw ic kh kw kc kn : Dim}
    (T : ConvT tin tw c src wts ih iw ic kh kw kc kn) (h : ic.shape = kc.shape) {wi ww : Nat} (h1 : 1 ≤ wi) (h2 : 1 ≤ ww)
    (hi : tin.Holds src wi) (hw : tw.Holds wts ww) {k : Int} (k0 : 0 ≤ k) (k1 : k < kn.shape) (y x : Int) :
    |convSum kh.shape kw.shape ic.shape (padded ih.shape iw.shape 0 (inElem src tin)) (wtElem wts tw k)
      c.sh c.sw c.pt c.pl c.dh c.dw y x| ≤ taps kh kw ic * (2 ^ (wi - 1) * 2 ^ (ww - 1)) := by
  have pi := T.vi.shape_pos
  have pw := T.vw.shape_pos
  simp only [T.di, T.dk, List.mem_cons, List.not_mem_nil, or_false, forall_eq_or_imp, forall_eq] at pi pw
  have hs := convSum_abs kh.shape.toNat kw.shape.toNat ic.shape.toNat ih.shape iw.shape (inElem src tin) (wtElem wts tw k)
    c.sh c.sw c.pt c.pl c.dh c.dw y x (2 ^ (wi - 1) * 2 ^ (ww - 1)) (by positivity) (by
      intro i j cc r q hi' hj hcc r0 r1 q0 q1
      apply abs_mul_le h1 h2
      · apply hi
        simp only [Tensor.shape, T.di, List.map_cons, List.map_nil, InShape]
        exact ⟨⟨r0, r1⟩, ⟨q0, q1⟩, by omega, trivial⟩
      · apply hw
        simp only [Tensor.shape, T.dk, List.map_cons, List.map_nil, InShape]
        exact ⟨by omega, by omega, by omega, by omega, trivial⟩)
  rw [show ((kh.shape.toNat : Nat) : Int) = kh.shape by omega, show ((kw.shape.toNat : Nat) : Int) = kw.shape by omega,
    show ((ic.shape.toNat : Nat) : Int) = ic.shape by omega] at hs
  unfold taps
  push_cast
  rw [show ((kh.shape.toNat : Nat) : Int) = kh.shape by omega, show ((kw.shape.toNat : Nat) : Int) = kw.shape by omega,
    show ((ic.shape.toNat : Nat) : Int) = ic.shape by omega]
  exact hs

theorem ConvT.taps_eq {tin tw : Tensor} {c : ConvCfg} {src wts : Buf} {ih iw ic kh kw kc kn : Dim}
    (T : ConvT tin tw c src wts ih iw ic kh kw kc kn) : (taps kh kw ic : Int) = ic.shape * (kh.shape * kw.shape) := by
  have pi := T.vi.shape_pos
  have pw := T.vw.shape_pos
  simp only [T.di, T.dk, List.mem_cons, List.not_mem_nil, or_false, forall_eq_or_imp, forall_eq] at pi pw
  unfold taps
  push_cast
  rw [show ((kh.shape.toNat : Nat) : Int) = kh.shape by omega, show ((kw.shape.toNat : Nat) : Int) = kw.shape by omega,
    show ((ic.shape.toNat : Nat) : Int) = ic.shape by omega]

theorem ConvT.dw_taps_eq {tin tw : Tensor} {c : ConvCfg} {src wts : Buf} {ih iw ic kh kw kc kn : Dim}
    (T : ConvT tin tw c src wts ih iw ic kh kw kc kn) :
    ((kh.shape.toNat * kw.shape.toNat : Nat) : Int) = kh.shape * kw.shape := by
  have pw := T.vw.shape_pos
  simp only [T.dk, List.mem_cons, List.not_mem_nil, or_false, forall_eq_or_imp, forall_eq] at pw
  push_cast
  rw [show ((kh.shape.toNat : Nat) : Int) = kh.shape by omega, show ((kw.shape.toNat : Nat) : Int) = kw.shape by omega]

theorem taps_dw {tin tw : Tensor} {c : ConvCfg} {src wts : Buf} {ih iw ic kh kw kc kn : Dim}
    (T : ConvT tin tw c src wts ih iw ic kh kw kc kn) (hv : tw.Valid wts) : ((kh.shape.toNat * kw.shape.toNat : Nat) : Int) < 2 ^ 31 := by
  have hc := hv.count_le
  have p := T.vw.shape_pos
  simp only [T.dk, List.mem_cons, List.not_mem_nil, or_false, forall_eq_or_imp, forall_eq] at p
  obtain ⟨p1, p2, p3, p4⟩ := p
  simp only [Tensor.shape, T.dk, List.map_cons, List.map_nil, List.prod_cons, List.prod_nil, Nat.mul_one] at hc
  refine lt_of_le_of_lt ?_ hc
  have : (kh.shape.toNat * kw.shape.toNat) ≤ kh.shape.toNat * (kw.shape.toNat * (kc.shape.toNat * kn.shape.toNat)) := by
    rw [← Nat.mul_assoc]
    exact Nat.le_mul_of_pos_right _ (Nat.mul_pos (by omega) (by omega))
  exact_mod_cast this

/-- The sum of the products of a depthwise convolution of accepted tensors. -/
theorem dw_sum_le {tin tw : Tensor} {c : ConvCfg} {src wts : Buf} {ih iw ic kh kw kc kn : Dim}
    (T : ConvT tin tw c src wts ih iw ic kh kw kc kn) (h : kc.shape = 1 ∧ kn.shape = ic.shape) {wi ww : Nat} (h1 : 1 ≤ wi) (h2 : 1 ≤ ww)
    (hi : tin.Holds src wi) (hw : tw.Holds wts ww) {k : Int} (k0 : 0 ≤ k) (k1 : k < kn.shape) (y x : Int) :
    |convSum kh.shape kw.shape 1 (padded ih.shape iw.shape 0 fun r q _ => inElem src tin r q k) (fun i j _ => wtElem wts tw k i j 0)
      c.sh c.sw c.pt c.pl c.dh c.dw y x| ≤ ((kh.shape.toNat * kw.shape.toNat : Nat) : Int) * (2 ^ (wi - 1) * 2 ^ (ww - 1)) := by
  have pi := T.vi.shape_pos
  have pw := T.vw.shape_pos
  simp only [T.di, T.dk, List.mem_cons, List.not_mem_nil, or_false, forall_eq_or_imp, forall_eq] at pi pw
  have hs := convSum_abs kh.shape.toNat kw.shape.toNat 1 ih.shape iw.shape (fun r q _ => inElem src tin r q k)
    (fun i j _ => wtElem wts tw k i j 0) c.sh c.sw c.pt c.pl c.dh c.dw y x (2 ^ (wi - 1) * 2 ^ (ww - 1)) (by positivity) (by
      intro i j cc r q hi' hj hcc r0 r1 q0 q1
      apply abs_mul_le h1 h2
      · apply hi
        simp only [Tensor.shape, T.di, List.map_cons, List.map_nil, InShape]
        exact ⟨⟨r0, r1⟩, ⟨q0, q1⟩, by omega, trivial⟩
      · apply hw
        simp only [Tensor.shape, T.dk, List.map_cons, List.map_nil, InShape]
        exact ⟨by omega, by omega, by omega, by omega, trivial⟩)
  rw [show ((kh.shape.toNat : Nat) : Int) = kh.shape by omega, show ((kw.shape.toNat : Nat) : Int) = kw.shape by omega] at hs
  rw [T.dw_taps_eq]
  simpa using hs

theorem chkConvFx_ok {dw apart : Bool} {ks : Int} {f : FxQ} {tin tw tb tout : Tensor} {c : ConvCfg}
    (h : chkConvFx dw ks apart f tin tw tb c tout = some .ok) :
    f.fb ≤ f.fi + f.fw ∧ f.fo ≤ f.fi + f.fw ∧ chkConv dw ks apart tin tw tb c tout = some .ok := by
  unfold chkConvFx at h
  split at h
  · cases h
  rename_i h1
  split at h
  · cases h
  rename_i h2
  exact ⟨not_not.1 h1, not_not.1 h2, h⟩

/-- What an accepted fixed-point convolution computes, as long as the accumulator cannot overflow. -/
theorem krnConvFx_exact (m : Rnd) (aw : Nat) (ks : Int) (apart : Bool) (f : FxQ) (src wts bias dst : Buf)
    (tin tw tb tout : Tensor) (c : ConvCfg) (ih iw ic kh kw kn oh ow : Int) (ww wb : Nat) (hww : 1 ≤ ww)
    (A : ConvArgs tin tw tb tout c src wts bias dst 16 ww wb)
    (hchk : chkConvFx false ks apart f tin tw tb c tout = some .ok)
    (si : tin.shape = [ih, iw, ic]) (sk : tw.shape = [kh, kw, ic, kn]) (so : tout.shape = [oh, ow, kn])
    (hmeet : RowsMeet ih kh oh c) (hfit : ic * (kh * kw) * (2 ^ 15 * 2 ^ (ww - 1)) ≤ hi aw) :
    ∃ dst' val, krnConvFx m aw ks apart f src wts bias tin tw tb c tout dst = some (.ok, dst') ∧
      tout.Writes val dst dst' ∧ ∀ y x k, InShape tout.shape [y, x, k] →
        |convSum kh kw ic (padded ih iw 0 (inElem src tin)) (wtElem wts tw k) c.sh c.sw c.pt c.pl c.dh c.dw y x| ≤
          ic * (kh * kw) * (2 ^ 15 * 2 ^ (ww - 1)) ∧ InShape tb.shape [k] ∧
        val [y, x, k] = castLimFx m aw f (biasFx m aw (f.fi + f.fw - f.fb) (bias.get (tb.addr [k]))
          (convSum kh kw ic (padded ih iw 0 (inElem src tin)) (wtElem wts tw k) c.sh c.sw c.pt c.pl c.dh c.dw y x)) := by
  obtain ⟨f1, f2, hck⟩ := chkConvFx_ok hchk
  obtain ⟨ih', iw', ic', kh', kw', kc', kn', bn', oh', ow', oc', i, o, w, H, W, R⟩ := conv_setup hck A.hc A.vi A.vw A.vb
  simp only [Tensor.shape, R.T.di, R.T.dk, R.dout, List.map_cons, List.map_nil, List.cons.injEq, and_true] at si sk so
  obtain ⟨rfl, rfl, rfl⟩ := si
  obtain ⟨rfl, rfl, -, rfl⟩ := sk
  obtain ⟨rfl, rfl, -⟩ := so
  have hch := R.hch.2 rfl
  rw [← R.T.taps_eq] at hfit ⊢
  obtain ⟨dst', val, r1, r2, r3⟩ := convBias_all R A.vo { aw := aw }
    (fun _ b acc => castLimFx m aw f (biasFx m aw (f.fi + f.fw - f.fb) b acc)) rfl (show wrap 16 (-0) = -0 by decide) hmeet (2 ^ 15 * 2 ^ (ww - 1)) 0
    (fun is js hi hj => by simpa using abs_mul_le (a := 16) (b := ww) (by omega) hww (A.hi is hi) (A.hw js hj))
    (fun js _ => by simp) (by simpa using hfit)
  refine ⟨dst', val, ?_, r2, ?_⟩
  · unfold krnConvFx
    simp only [hchk, Option.bind_eq_bind, Option.bind_some, ne_eq, not_true_eq_false, if_false, R.hi, R.ho, R.hw, R.adj, r1,
      Option.pure_def]
  · intro y x k hs
    have hk : 0 ≤ k ∧ k < kn'.shape := by
      simp only [Tensor.shape, R.dout, List.map_cons, List.map_nil, InShape, R.eo] at hs
      exact hs.2.2.1
    have ez : (fun r p k => inElem src tin r p k - (0 : Int)) = inElem src tin := by funext r p k; exact Int.sub_zero _
    have := r3 y x k hs
    rw [ez] at this
    exact ⟨conv_sum_le R.T hch (by omega) hww A.hi A.hw hk.1 hk.2 y x, R.bias_in hk, this⟩

/-- What an accepted fixed-point depthwise convolution computes, as long as the accumulator cannot overflow. -/
theorem krnDwFx_exact (m : Rnd) (aw : Nat) (ks : Int) (apart : Bool) (f : FxQ) (src wts bias dst : Buf)
    (tin tw tb tout : Tensor) (c : ConvCfg) (ih iw ic kh kw oh ow : Int) (ww wb : Nat) (hww : 1 ≤ ww)
    (A : ConvArgs tin tw tb tout c src wts bias dst 16 ww wb)
    (hchk : chkConvFx true ks apart f tin tw tb c tout = some .ok)
    (si : tin.shape = [ih, iw, ic]) (sk : tw.shape = [kh, kw, 1, ic]) (so : tout.shape = [oh, ow, ic])
    (hfit : kh * kw * (2 ^ 15 * 2 ^ (ww - 1)) ≤ hi aw)
    (hadd : ∀ b a, InRange wb b → InRange aw a → InRange aw (biasFx m aw (f.fi + f.fw - f.fb) b a)) :
    ∃ dst' val, krnDwFx m aw ks apart f src wts bias tin tw tb c tout dst = some (.ok, dst') ∧
      tout.Writes val dst dst' ∧ ∀ y x k, InShape tout.shape [y, x, k] →
        |convSum kh kw 1 (padded ih iw 0 fun r q _ => inElem src tin r q k) (fun i j _ => wtElem wts tw k i j 0)
          c.sh c.sw c.pt c.pl c.dh c.dw y x| ≤ kh * kw * (2 ^ 15 * 2 ^ (ww - 1)) ∧ InShape tb.shape [k] ∧
        val [y, x, k] = castLimFx m aw f (biasFx m aw (f.fi + f.fw - f.fb) (bias.get (tb.addr [k]))
          (convSum kh kw 1 (padded ih iw 0 fun r q _ => inElem src tin r q k) (fun i j _ => wtElem wts tw k i j 0)
            c.sh c.sw c.pt c.pl c.dh c.dw y x)) := by
  obtain ⟨f1, f2, hck⟩ := chkConvFx_ok hchk
  obtain ⟨ih', iw', ic', kh', kw', kc', kn', bn', oh', ow', oc', i, o, w, H, W, R⟩ := conv_setup hck A.hc A.vi A.vw A.vb
  simp only [Tensor.shape, R.T.di, R.T.dk, R.dout, List.map_cons, List.map_nil, List.cons.injEq, and_true] at si sk so
  obtain ⟨rfl, rfl, rfl⟩ := si
  obtain ⟨rfl, rfl, -, -⟩ := sk
  obtain ⟨rfl, rfl, -⟩ := so
  rw [← R.T.dw_taps_eq] at hfit ⊢
  obtain ⟨dst', val, r1, r2, r3⟩ := dwBias_all R A.vo { aw := aw } (biasFx m aw (f.fi + f.fw - f.fb))
    (fun _ acc => castLimFx m aw f acc) rfl (show wrap 16 (-0) = -0 by decide) (2 ^ 15 * 2 ^ (ww - 1)) 0
    (fun is js hi hj => by simpa using abs_mul_le (a := 16) (b := ww) (by omega) hww (A.hi is hi) (A.hw js hj))
    (fun js _ => by simp) (by simpa using hfit) (fun js hj a ha => by
      have ha := abs_le.1 ha
      exact hadd _ _ (A.hb js hj) ⟨by have := lo_eq aw; have := hi_eq aw; simp only [] at ha; omega, ha.2⟩)
  refine ⟨dst', val, ?_, r2, ?_⟩
  · unfold krnDwFx
    simp only [hchk, Option.bind_eq_bind, Option.bind_some, ne_eq, not_true_eq_false, if_false, R.hi, R.ho, R.hw, R.adj, r1,
      Option.pure_def]
  · intro y x k hs
    have hk : 0 ≤ k ∧ k < kn'.shape := by
      simp only [Tensor.shape, R.dout, List.map_cons, List.map_nil, InShape, R.eo] at hs
      exact hs.2.2.1
    have := r3 y x k hs
    simp only [Int.sub_zero] at this
    exact ⟨dw_sum_le R.T (R.hch.1 rfl) (by omega) hww A.hi A.hw hk.1 hk.2 y x, R.bias_in hk, this⟩

/-- The taps of an accepted convolution. -/
theorem ConvArgs.taps_lt {apart : Bool} {ks : Int} {tin tw tb tout : Tensor} {c : ConvCfg} {src wts bias dst : Buf} {wi ww wb : Nat}
    (A : ConvArgs tin tw tb tout c src wts bias dst wi ww wb) (hck : chkConv false ks apart tin tw tb c tout = some .ok)
    {ih iw ic kh kw kn : Int} (si : tin.shape = [ih, iw, ic]) (sk : tw.shape = [kh, kw, ic, kn]) : ic * (kh * kw) < 2 ^ 31 := by
  obtain ⟨ih', iw', ic', kh', kw', kc', kn', bn', oh', ow', oc', i, o, w, H, W, R⟩ := conv_setup hck A.hc A.vi A.vw A.vb
  simp only [Tensor.shape, R.T.di, R.T.dk, List.map_cons, List.map_nil, List.cons.injEq, and_true] at si sk
  obtain ⟨rfl, rfl, rfl⟩ := si
  obtain ⟨rfl, rfl, -, rfl⟩ := sk
  rw [← R.T.taps_eq]
  exact Mli.taps_lt R.T A.vw (R.hch.2 rfl)

theorem ConvArgs.dw_taps_lt {apart : Bool} {ks : Int} {tin tw tb tout : Tensor} {c : ConvCfg} {src wts bias dst : Buf} {wi ww wb : Nat}
    (A : ConvArgs tin tw tb tout c src wts bias dst wi ww wb) (hck : chkConv true ks apart tin tw tb c tout = some .ok)
    {kh kw kc kn : Int} (sk : tw.shape = [kh, kw, kc, kn]) : kh * kw < 2 ^ 31 := by
  obtain ⟨ih', iw', ic', kh', kw', kc', kn', bn', oh', ow', oc', i, o, w, H, W, R⟩ := conv_setup hck A.hc A.vi A.vw A.vb
  simp only [Tensor.shape, R.T.dk, List.map_cons, List.map_nil, List.cons.injEq, and_true] at sk
  obtain ⟨rfl, rfl, -, rfl⟩ := sk
  rw [← R.T.dw_taps_eq]
  exact taps_dw R.T A.vw

/-- C36, 16-bit fixed point: for every accepted call, each element of the output is the exact sum of
products with the taps that fall outside of the input counting as zero, plus the bias aligned to the product's format,
scaled to the output format, rounded, saturated and limited by the built-in ReLU; no accumulation overflows.
Partial: the bias must not be shifted left by more than 16 bits (`c36_bias_violated`), some row of each
window must be inside of the input (`c36_rows_meet`, `c36_empty_window_violated`). -/
theorem c36_conv2d_fx16_partial (m : Rnd) (ks : Int) (apart : Bool) (f : FxQ) (src wts bias dst : Buf)
    (tin tw tb tout : Tensor) (c : ConvCfg) (ih iw ic kh kw kn oh ow : Int)
    (A : ConvArgs tin tw tb tout c src wts bias dst 16 16 16)
    (hchk : chkConvFx false ks apart f tin tw tb c tout = some .ok)
    (si : tin.shape = [ih, iw, ic]) (sk : tw.shape = [kh, kw, ic, kn]) (so : tout.shape = [oh, ow, kn])
    (hmeet : RowsMeet ih kh oh c) (hb : f.fi + f.fw - f.fb ≤ 16) (h1 : f.relu = .one → f.fo < 30) :
    ∃ dst' val, krnConvFx m 64 ks apart f src wts bias tin tw tb c tout dst = some (.ok, dst') ∧
      tout.Writes val dst dst' ∧ ∀ y x k, InShape tout.shape [y, x, k] →
        ∃ r, Scaled m (convSum kh kw ic (padded ih iw 0 (inElem src tin)) (wtElem wts tw k) c.sh c.sw c.pt c.pl c.dh c.dw y x +
            bias.get (tb.addr [k]) * 2 ^ (f.fi + f.fw - f.fb).toNat) (f.fi + f.fw - f.fo) r ∧
          NearestIn (f.relu.Admissible 16 0 1 f.fo) (clamp 16 r) (val [y, x, k]) := by
  have f1 := (chkConvFx_ok hchk).1
  have ht := A.taps_lt (chkConvFx_ok hchk).2.2 si sk
  have hle : ic * (kh * kw) * (2 ^ 15 * 2 ^ (16 - 1)) ≤ 2 ^ 61 := by omega
  obtain ⟨dst', val, r1, r2, r3⟩ := krnConvFx_exact m 64 ks apart f src wts bias dst tin tw tb tout c ih iw ic kh kw kn oh ow 16 16
    (by omega) A hchk si sk so hmeet (hle.trans (by decide))
  refine ⟨dst', val, r1, r2, fun y x k hs => ?_⟩
  obtain ⟨hS, hk, e0⟩ := r3 y x k hs
  obtain ⟨e, e1, e2⟩ := biasFx64 m (f.fi + f.fw - f.fb) (by omega) hb (A.hb [k] hk) (hS.trans hle)
  rw [e0, e]
  apply castLimFx_spec m 64 (by omega) f e1 h1
  intro _
  by_cases h64 : 64 ≤ f.fi + f.fw - f.fo
  · exact Or.inr (Or.inl h64)
  · refine Or.inr (Or.inr ?_)
    have : (2 : Int) ^ ((f.fi + f.fw - f.fo).toNat - 1) ≤ 2 ^ 62 := pow_le_pow_right₀ (by decide) (by omega)
    omega

/-- C36, 16-bit input with 8-bit weights and bias, accumulated in 32 bits.  Partial: at most 511 taps
(`c36_fx8_overflow_violated`), and with rounding up the output shift must not be between 17 and 31 (`c05_cast_up_violated`). -/
theorem c36_conv2d_fx16_fx8_partial (m : Rnd) (ks : Int) (apart : Bool) (f : FxQ) (src wts bias dst : Buf)
    (tin tw tb tout : Tensor) (c : ConvCfg) (ih iw ic kh kw kn oh ow : Int)
    (A : ConvArgs tin tw tb tout c src wts bias dst 16 8 8)
    (hchk : chkConvFx false ks apart f tin tw tb c tout = some .ok)
    (si : tin.shape = [ih, iw, ic]) (sk : tw.shape = [kh, kw, ic, kn]) (so : tout.shape = [oh, ow, kn])
    (hmeet : RowsMeet ih kh oh c) (ht : ic * (kh * kw) ≤ 511) (h1 : f.relu = .one → f.fo < 30)
    (hup : m = .up → f.fi + f.fw - f.fo ≤ 16 ∨ 32 ≤ f.fi + f.fw - f.fo) :
    ∃ dst' val, krnConvFx m 32 ks apart f src wts bias tin tw tb c tout dst = some (.ok, dst') ∧
      tout.Writes val dst dst' ∧ ∀ y x k, InShape tout.shape [y, x, k] →
        ∃ r, Scaled m (clamp 32 (convSum kh kw ic (padded ih iw 0 (inElem src tin)) (wtElem wts tw k)
              c.sh c.sw c.pt c.pl c.dh c.dw y x + clamp 32 (bias.get (tb.addr [k]) * 2 ^ (f.fi + f.fw - f.fb).toNat)))
            (f.fi + f.fw - f.fo) r ∧
          NearestIn (f.relu.Admissible 16 0 1 f.fo) (clamp 16 r) (val [y, x, k]) := by
  have f1 := (chkConvFx_ok hchk).1
  have hle : ic * (kh * kw) * (2 ^ 15 * 2 ^ (8 - 1)) ≤ 2 ^ 31 - 1 := by omega
  obtain ⟨dst', val, r1, r2, r3⟩ := krnConvFx_exact m 32 ks apart f src wts bias dst tin tw tb tout c ih iw ic kh kw kn oh ow 8 8
    (by omega) A hchk si sk so hmeet (hle.trans (by decide))
  refine ⟨dst', val, r1, r2, fun y x k hs => ?_⟩
  obtain ⟨hS, hk, e0⟩ := r3 y x k hs
  have hS := abs_le.1 (hS.trans hle)
  rw [e0, biasFx32 m (f.fi + f.fw - f.fb) (by omega) (A.hb [k] hk) ⟨by simp only [lo]; omega, by simp only [hi]; omega⟩]
  exact castLimFx_spec m 32 (by omega) f (clamp_inRange _ _) h1 (fun hm => (hup hm).elim (fun h => Or.inl (by omega)) (fun h => Or.inr (Or.inl (by omega))))

/-- C36, depthwise convolution, 16-bit fixed point. -/
theorem c36_depthwise_fx16_partial (m : Rnd) (ks : Int) (apart : Bool) (f : FxQ) (src wts bias dst : Buf)
    (tin tw tb tout : Tensor) (c : ConvCfg) (ih iw ic kh kw oh ow : Int)
    (A : ConvArgs tin tw tb tout c src wts bias dst 16 16 16)
    (hchk : chkConvFx true ks apart f tin tw tb c tout = some .ok)
    (si : tin.shape = [ih, iw, ic]) (sk : tw.shape = [kh, kw, 1, ic]) (so : tout.shape = [oh, ow, ic])
    (hb : f.fi + f.fw - f.fb ≤ 16) (h1 : f.relu = .one → f.fo < 30) :
    ∃ dst' val, krnDwFx m 64 ks apart f src wts bias tin tw tb c tout dst = some (.ok, dst') ∧
      tout.Writes val dst dst' ∧ ∀ y x k, InShape tout.shape [y, x, k] →
        ∃ r, Scaled m (convSum kh kw 1 (padded ih iw 0 fun r q _ => inElem src tin r q k) (fun i j _ => wtElem wts tw k i j 0)
              c.sh c.sw c.pt c.pl c.dh c.dw y x +
            bias.get (tb.addr [k]) * 2 ^ (f.fi + f.fw - f.fb).toNat) (f.fi + f.fw - f.fo) r ∧
          NearestIn (f.relu.Admissible 16 0 1 f.fo) (clamp 16 r) (val [y, x, k]) := by
  have f1 := (chkConvFx_ok hchk).1
  have ht := A.dw_taps_lt (chkConvFx_ok hchk).2.2 sk
  have hle : kh * kw * (2 ^ 15 * 2 ^ (16 - 1)) ≤ 2 ^ 61 := by omega
  obtain ⟨n, hn⟩ : ∃ n : Nat, f.fi + f.fw - f.fb = n := ⟨(f.fi + f.fw - f.fb).toNat, by omega⟩
  obtain ⟨dst', val, r1, r2, r3⟩ := krnDwFx_exact m 64 ks apart f src wts bias dst tin tw tb tout c ih iw ic kh kw oh ow 16 16
    (by omega) A hchk si sk so (hle.trans (by decide)) (fun b a h1 h2 => by rw [hn]; exact biasFx64_inRange m n (by omega) h1 h2)
  refine ⟨dst', val, r1, r2, fun y x k hs => ?_⟩
  obtain ⟨hS, hk, e0⟩ := r3 y x k hs
  obtain ⟨e, e1, e2⟩ := biasFx64 m (f.fi + f.fw - f.fb) (by omega) hb (A.hb [k] hk) (hS.trans hle)
  rw [e0, e]
  apply castLimFx_spec m 64 (by omega) f e1 h1
  intro _
  by_cases h64 : 64 ≤ f.fi + f.fw - f.fo
  · exact Or.inr (Or.inl h64)
  · refine Or.inr (Or.inr ?_)
    have : (2 : Int) ^ ((f.fi + f.fw - f.fo).toNat - 1) ≤ 2 ^ 62 := pow_le_pow_right₀ (by decide) (by omega)
    omega

/-- C36, depthwise convolution, 16-bit input with 8-bit weights and bias. -/
theorem c36_depthwise_fx16_fx8_partial (m : Rnd) (ks : Int) (apart : Bool) (f : FxQ) (src wts bias dst : Buf)
    (tin tw tb tout : Tensor) (c : ConvCfg) (ih iw ic kh kw oh ow : Int)
    (A : ConvArgs tin tw tb tout c src wts bias dst 16 8 8)
    (hchk : chkConvFx true ks apart f tin tw tb c tout = some .ok)
    (si : tin.shape = [ih, iw, ic]) (sk : tw.shape = [kh, kw, 1, ic]) (so : tout.shape = [oh, ow, ic])
    (ht : kh * kw ≤ 511) (h1 : f.relu = .one → f.fo < 30)
    (hup : m = .up → f.fi + f.fw - f.fo ≤ 16 ∨ 32 ≤ f.fi + f.fw - f.fo) :
    ∃ dst' val, krnDwFx m 32 ks apart f src wts bias tin tw tb c tout dst = some (.ok, dst') ∧
      tout.Writes val dst dst' ∧ ∀ y x k, InShape tout.shape [y, x, k] →
        ∃ r, Scaled m (clamp 32 (convSum kh kw 1 (padded ih iw 0 fun r q _ => inElem src tin r q k)
              (fun i j _ => wtElem wts tw k i j 0) c.sh c.sw c.pt c.pl c.dh c.dw y x +
              clamp 32 (bias.get (tb.addr [k]) * 2 ^ (f.fi + f.fw - f.fb).toNat))) (f.fi + f.fw - f.fo) r ∧
          NearestIn (f.relu.Admissible 16 0 1 f.fo) (clamp 16 r) (val [y, x, k]) := by
  have f1 := (chkConvFx_ok hchk).1
  have hle : kh * kw * (2 ^ 15 * 2 ^ (8 - 1)) ≤ 2 ^ 31 - 1 := by omega
  obtain ⟨dst', val, r1, r2, r3⟩ := krnDwFx_exact m 32 ks apart f src wts bias dst tin tw tb tout c ih iw ic kh kw oh ow 8 8
    (by omega) A hchk si sk so (hle.trans (by decide)) (fun b a h1 h2 => by rw [biasFx32 m _ (by omega) h1 h2]; exact clamp_inRange _ _)
  refine ⟨dst', val, r1, r2, fun y x k hs => ?_⟩
  obtain ⟨hS, hk, e0⟩ := r3 y x k hs
  have hS := abs_le.1 (hS.trans hle)
  rw [e0, biasFx32 m (f.fi + f.fw - f.fb) (by omega) (A.hb [k] hk) ⟨by simp only [lo]; omega, by simp only [hi]; omega⟩]
  exact castLimFx_spec m 32 (by omega) f (clamp_inRange _ _) h1 (fun hm => (hup hm).elim (fun h => Or.inl (by omega)) (fun h => Or.inr (Or.inl (by omega))))

end Mli
