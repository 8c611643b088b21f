import Verif.Lemmas.ConvRun
import Verif.Model.TransposeConv

/-! # One output element of a convolution over arbitrary views -/

namespace Mli

open Spec

/-- The clipped window at output position `(y, x)`, for arbitrary views. -/
structure GWin (c : ConvCfg) (p : Prv) (w : WPrv) (y x : Int) (v : Win) (t b l r : Int) : Prop where
  t0 : 0 ≤ t
  b0 : 0 ≤ b
  l0 : 0 ≤ l
  r0 : 0 ≤ r
  rows : v.rows = w.height - t - b
  clmns : v.clmns = w.width - r - l
  rowIn : ∀ i, 0 ≤ i → i < w.height → ((t ≤ i ∧ i < w.height - b) ↔ (0 ≤ tapCoord c.sh c.pt c.dh y i ∧ tapCoord c.sh c.pt c.dh y i < p.height))
  colIn : ∀ j, 0 ≤ j → j < w.width → ((l ≤ j ∧ j < w.width - r) ↔ (0 ≤ tapCoord c.sw c.pl c.dw x j ∧ tapCoord c.sw c.pl c.dw x j < p.width))
  inPtr : v.inPtr = p.ptr + p.row * tapCoord c.sh c.pt c.dh y t + p.col * tapCoord c.sw c.pl c.dw x l
  wPtr : v.wPtr = w.ptr + w.row * t + w.col * l

theorem convWin_gWin (c : ConvCfg) (p : Prv) (w : WPrv) (y x : Int) (dh : 1 ≤ c.dh) (dw : 1 ≤ c.dw) :
    ∃ t b l r, GWin c p w y x (convWin c p w y x) t b l r := by
  obtain ⟨h1, h2, ⟨h3, h4⟩, h5, h6, h7, h8⟩ := c35_valid_area y x p.height p.width w.height w.width c.sh c.sw c.pl c.pt c.dh c.dw dh dw
  refine ⟨_, _, _, _, ⟨h5, h6, h7, h8, rfl, rfl, h1, h2, ?_, rfl⟩⟩
  simp only [convWin, h3, h4]

/-- Readable views: `X` are the elements of the input view, `Wt` those of the weights view for one output channel. -/
structure Reads (p : Prv) (w : WPrv) (oc : Int) (src wts : Buf) (X Wt : Int → Int → Int → Int) : Prop where
  x : ∀ r q (ch : Nat), 0 ≤ r → r < p.height → 0 ≤ q → q < p.width → (ch : Int) < p.ch →
    src.rd (p.ptr + p.row * r + p.col * q + ch) = some (X r q ch)
  w : ∀ a b (ch : Nat), 0 ≤ a → a < w.height → 0 ≤ b → b < w.width → (ch : Int) < p.ch →
    wts.rd (w.ptr + w.outChS * oc + w.inChS * ch + w.row * a + w.col * b) = some (Wt a b ch)

variable {c : ConvCfg} {p : Prv} {w : WPrv} {src wts : Buf} {X Wt : Int → Int → Int → Int}

theorem GWin.inTap {y x oc t b l r : Int} {v : Win} (R : Reads p w oc src wts X Wt) (h : GWin c p w y x v t b l r) {i j ch : Nat}
    (hi : i < v.rows.toNat) (hj : j < v.clmns.toNat) (hc : (ch : Int) < p.ch) :
    src.rd (v.inPtr + 1 * ch + p.row * c.dh * i + p.col * c.dw * j) =
      some (X (tapCoord c.sh c.pt c.dh y (t + i)) (tapCoord c.sw c.pl c.dw x (l + j)) ch) := by
  have hr := h.rows; have hcl := h.clmns
  have t0 := h.t0; have b0 := h.b0; have l0 := h.l0; have r0 := h.r0
  have s1 := (h.rowIn (t + i) (by omega) (by omega)).1 (by omega)
  have s2 := (h.colIn (l + j) (by omega) (by omega)).1 (by omega)
  rw [← R.x _ _ ch s1.1 s1.2 s2.1 s2.2 hc, h.inPtr]
  congr 1
  simp only [tapCoord]
  ring

theorem GWin.wtTap {y x oc t b l r : Int} {v : Win} (R : Reads p w oc src wts X Wt) (h : GWin c p w y x v t b l r) {i j ch : Nat}
    (hi : i < v.rows.toNat) (hj : j < v.clmns.toNat) (hc : (ch : Int) < p.ch) :
    wts.rd (v.wPtr + w.outChS * oc + w.inChS * ch + w.row * i + w.col * j) = some (Wt (t + i) (l + j) ch) := by
  have hr := h.rows; have hcl := h.clmns
  have t0 := h.t0; have b0 := h.b0; have l0 := h.l0; have r0 := h.r0
  rw [← R.w (t + i) (l + j) ch (by omega) (by omega) (by omega) (by omega) hc, h.wPtr]
  congr 1
  ring

/-- The sum over the taps of the clipped window. -/
theorem GWin.sum {y x t b l r : Int} {v : Win} (h : GWin c p w y x v t b l r) (p1 : 0 ≤ w.height) (p2 : 0 ≤ w.width)
    (n : Nat) (X W : Int → Int → Int → Int) :
    convSum w.height w.width n (padded p.height p.width 0 X) W c.sh c.sw c.pt c.pl c.dh c.dw y x =
      boxSum n v.rows.toNat v.clmns.toNat fun cc i j =>
        X (tapCoord c.sh c.pt c.dh y (t + i)) (tapCoord c.sw c.pl c.dw x (l + j)) cc * W (t + i) (l + j) cc := by
  have e1 : ((w.height.toNat : Nat) : Int) = w.height := by omega
  have e2 : ((w.width.toNat : Nat) : Int) = w.width := by omega
  have t0 := h.t0; have l0 := h.l0; have b0 := h.b0; have r0 := h.r0
  unfold convSum
  rw [clip3 w.height.toNat w.width.toNat (n : Int).toNat t b l r h.t0 h.b0 h.l0 h.r0]
  · rw [e1, e2, ← h.rows, ← h.clmns, Int.toNat_natCast]
    apply boxSum_congr
    intro cc i j hc hi hj
    have hr := h.rows; have hcl := h.clmns
    have c1 : ((t.toNat + i : Nat) : Int) = t + i := by omega
    have c2 : ((l.toNat + j : Nat) : Int) = l + j := by omega
    have s1 := (h.rowIn (t + i) (by omega) (by omega)).1 (by omega)
    have s2 := (h.colIn (l + j) (by omega) (by omega)).1 (by omega)
    rw [c1, c2, padded, if_pos ⟨s1.1, s1.2, s2.1, s2.2⟩]
  · intro i j cc hi hj hn
    rw [e1, e2] at hn
    rw [padded, if_neg, Int.zero_mul]
    intro hs
    exact hn ⟨(h.rowIn i (by omega) (by omega)).2 ⟨hs.1, hs.2.1⟩, (h.colIn j (by omega) (by omega)).2 ⟨hs.2.2.1, hs.2.2.2⟩⟩

theorem GWin.le {y x t b l r : Int} {v : Win} (h : GWin c p w y x v t b l r) :
    v.rows.toNat ≤ w.height.toNat ∧ v.clmns.toNat ≤ w.width.toNat := by
  have hr := h.rows; have hcl := h.clmns
  have t0 := h.t0; have b0 := h.b0; have l0 := h.l0; have r0 := h.r0
  omega

/-- Bounds on the products. -/
structure Bounds (p : Prv) (w : WPrv) (X Wt : Int → Int → Int → Int) (zx B1 B2 : Int) : Prop where
  n1 : 0 ≤ B1
  n2 : 0 ≤ B2
  b1 : ∀ r q a b (ch : Nat), 0 ≤ r → r < p.height → 0 ≤ q → q < p.width → 0 ≤ a → a < w.height → 0 ≤ b → b < w.width → (ch : Int) < p.ch →
    |X r q ch * Wt a b ch| ≤ B1
  b2 : ∀ a b (ch : Nat), 0 ≤ a → a < w.height → 0 ≤ b → b < w.width → (ch : Int) < p.ch → |-zx * Wt a b ch| ≤ B2

/-- With a bias (weights zero point 0): what is handed to the rounding and limiting step is the exact
sum of the products. -/
theorem convBias_gen {y x oc : Int} (R : Reads p w oc src wts X Wt) (q : ConvQ) (dh : 1 ≤ c.dh) (dw : 1 ≤ c.dw) (hzw : q.zw = 0) (hzx : wrap 16 (-q.zx) = -q.zx)
    (p0 : 0 ≤ p.ch) (p1 : 0 ≤ w.height) (p2 : 0 ≤ w.width) (post : Int → Int → Int → Int) (bias : Buf) (bptr bv : Int)
    (hrow : ∃ i, 0 ≤ i ∧ i < w.height ∧ 0 ≤ tapCoord c.sh c.pt c.dh y i ∧ tapCoord c.sh c.pt c.dh y i < p.height)
    (B1 B2 : Int) (B : Bounds p w X Wt q.zx B1 B2)
    (hfit : ((p.ch.toNat * (w.height.toNat * w.width.toNat) : Nat) : Int) * (B1 + B2) ≤ hi q.aw)
    (hb : bias.rd (bptr + oc) = some bv) :
    convBias q post src wts bias bptr c p w y x oc =
      some (post oc bv (convSum w.height w.width p.ch (padded p.height p.width 0 fun r a k => X r a k - q.zx)
        Wt c.sh c.sw c.pt c.pl c.dh c.dw y x)) := by
  obtain ⟨t, b, l, r, h⟩ := convWin_gWin c p w y x dh dw
  unfold convBias convCore
  simp only []
  generalize hv : convWin c p w y x = v at h
  have t0 := h.t0; have b0 := h.b0; have l0 := h.l0; have r0 := h.r0
  have hr := h.rows; have hcl := h.clmns
  have e3 : ((p.ch.toNat : Nat) : Int) = p.ch := by omega
  have rpos : 0 < v.rows := by
    obtain ⟨i, i0, i1, hi⟩ := hrow
    have := (h.rowIn i i0 i1).2 hi
    omega
  have nB1 := B.n1
  have nB2 := B.n2
  have insI : ∀ i j : Nat, i < v.rows.toNat → j < v.clmns.toNat →
      (0 ≤ tapCoord c.sh c.pt c.dh y (t + i) ∧ tapCoord c.sh c.pt c.dh y (t + i) < p.height) ∧
      (0 ≤ tapCoord c.sw c.pl c.dw x (l + j) ∧ tapCoord c.sw c.pl c.dw x (l + j) < p.width) := by
    intro i j hi hj
    exact ⟨(h.rowIn (t + i) (by omega) (by omega)).1 (by omega), (h.colIn (l + j) (by omega) (by omega)).1 (by omega)⟩
  have A1 := dotprod3D_adds (aw := q.aw) (src := src) (wts := wts) (p := v.inPtr) (q := v.wPtr + w.outChS * oc) (W := v.clmns)
    (H := v.rows) (C := p.ch) (ics := p.col * c.dw) (irs := p.row * c.dh) (ichs := 1) (kcs := w.col) (krs := w.row)
    (kchs := w.inChS) rpos
    (fun cc i j => X (tapCoord c.sh c.pt c.dh y (t + i)) (tapCoord c.sw c.pl c.dw x (l + j)) cc)
    (fun cc i j => Wt (t + i) (l + j) cc) B1
    (fun cc i j hc hi hj => h.inTap R hi hj (by omega))
    (fun cc i j hc hi hj => h.wtTap R hi hj (by omega))
    (fun cc i j hc hi hj => B.b1 _ _ _ _ cc (insI i j hi hj).1.1 (insI i j hi hj).1.2 (insI i j hi hj).2.1 (insI i j hi hj).2.2
      (by omega) (by omega) (by omega) (by omega) (by omega))
  have A2 := wAdd3D_adds (q := q) (wts := wts) (p := v.wPtr + w.outChS * oc) (W := v.clmns) (H := v.rows) (C := p.ch)
    (cs := w.col) (rs := w.row) (chs := w.inChS) (fun cc i j => Wt (t + i) (l + j) cc) B2 hzx
    (fun cc i j hc hi hj => h.wtTap R hi hj (by omega))
    (fun cc i j hc hi hj => B.b2 _ _ cc (by omega) (by omega) (by omega) (by omega) (by omega)) nB2
  have A3 := zpAdd_adds (q := q) (v.clmns * v.rows)
  have AA := (A1.comp (A2.comp A3)).2 0
  have m1 := box_le (C := p.ch.toNat) h.le.1 h.le.2 nB1
  have m2 := box_le (C := p.ch.toNat) h.le.1 h.le.2 nB2
  rw [hzw] at AA
  simp only [Int.mul_zero, abs_zero, Int.add_zero, Int.zero_add] at AA
  have hlo := lo_eq q.aw; have hhi := hi_eq q.aw
  have efit : ((p.ch.toNat * (w.height.toNat * w.width.toNat) : Nat) : Int) * (B1 + B2) =
    p.ch.toNat * (w.height.toNat * (w.width.toNat * B1)) + p.ch.toNat * (w.height.toNat * (w.width.toNat * B2)) := by
    push_cast; ring
  have AA := AA (by omega) (by omega)
  have i0 : ∀ a, inAdd3D q src v.inPtr a v.clmns v.rows p.ch p.col p.row 1 = some a := by
    intro a; unfold inAdd3D; rw [if_neg (by simp [hzw])]
  simp only [i0]
  rw [Option.bind_eq_some_iff] at AA
  obtain ⟨a1, x1, AA⟩ := AA
  rw [Option.bind_eq_some_iff] at AA
  obtain ⟨a2, x2, AA⟩ := AA
  simp only [x1, Option.bind_some, x2, AA, hb, Option.map_some]
  have hs := h.sum p1 p2 p.ch.toNat (fun r p k => X r p k - q.zx) Wt
  rw [e3] at hs
  rw [hs, boxSum_add]
  congr 2
  apply boxSum_congr
  intro cc i j _ _ _
  ring

theorem GWin.whole {y x t b l r : Int} {v : Win} (h : GWin c p w y x v t b l r) {kh kw : Int} (h1 : w.height ≤ kh) (h2 : w.width ≤ kw)
    (p1 : 1 ≤ kh) (p2 : 1 ≤ kw) (hr : 0 ≤ v.rows) (e : v.rows * v.clmns = kh * kw) :
    v.rows = kh ∧ v.clmns = kw ∧ w.height = kh ∧ w.width = kw ∧ t = 0 ∧ l = 0 := by
  have t0 := h.t0; have b0 := h.b0; have l0 := h.l0; have r0 := h.r0
  have hrows := h.rows; have hclmns := h.clmns
  have cpos : 0 < v.clmns := by
    by_contra hc
    have : v.rows * v.clmns ≤ 0 := Int.mul_nonpos_of_nonneg_of_nonpos hr (by omega)
    have : 0 < kh * kw := Int.mul_pos (by omega) (by omega)
    omega
  have hle : v.rows * v.clmns ≤ v.rows * kw := Int.mul_le_mul_of_nonneg_left (by omega) hr
  have hrk : v.rows = kh := by
    by_contra hne
    have : v.rows * kw < kh * kw := Int.mul_lt_mul_of_pos_right (by omega) (by omega)
    omega
  have hck : v.clmns = kw := by
    rw [hrk] at e
    exact Int.eq_of_mul_eq_mul_left (by omega) e
  omega

/-- Without a bias (weights zero point 0), with `wf` the whole kernel and `w` the part of it in the dot product: the exact
sum, what is not in the dot product counting with the input zero point. -/
theorem convNoBiasFull_gen {y x oc : Int} {wf : WPrv} {F : Int → Int → Int → Int} (R : Reads p w oc src wts X Wt)
    (RF : ∀ a b (ch : Nat), 0 ≤ a → a < wf.height → 0 ≤ b → b < wf.width → (ch : Int) < p.ch →
      wts.rd (wf.ptr + wf.outChS * oc + wf.inChS * ch + wf.row * a + wf.col * b) = some (F a b ch))
    (q : ConvQ) (dh : 1 ≤ c.dh) (dw : 1 ≤ c.dw) (hzw : q.zw = 0) (hzx : wrap 16 (-q.zx) = -q.zx)
    (p0 : 0 ≤ p.ch) (p1 : 0 ≤ w.height) (p2 : 0 ≤ w.width) (l1 : w.height ≤ wf.height) (l2 : w.width ≤ wf.width)
    (f1 : 1 ≤ wf.height) (f2 : 1 ≤ wf.width)
    (same : w.height = wf.height → w.width = wf.width → ∀ a b ch, Wt a b ch = F a b ch)
    (hrow : ∃ i, 0 ≤ i ∧ i < w.height ∧ 0 ≤ tapCoord c.sh c.pt c.dh y i ∧ tapCoord c.sh c.pt c.dh y i < p.height)
    (B1 B2 : Int) (B : Bounds p w X Wt q.zx B1 B2)
    (BF : ∀ a b (ch : Nat), 0 ≤ a → a < wf.height → 0 ≤ b → b < wf.width → (ch : Int) < p.ch → |-q.zx * F a b ch| ≤ B2)
    (hfit : ((p.ch.toNat * (wf.height.toNat * wf.width.toNat) : Nat) : Int) * (B1 + 2 * B2) ≤ hi q.aw) :
    convNoBiasFull q src wts wf c p w y x oc =
      some (convSum w.height w.width p.ch (padded p.height p.width 0 fun r a k => X r a k - q.zx)
        Wt c.sh c.sw c.pt c.pl c.dh c.dw y x +
        q.zx * boxSum p.ch.toNat wf.height.toNat wf.width.toNat fun cc i j => F i j cc) := by
  obtain ⟨t, b, l, r, h⟩ := convWin_gWin c p w y x dh dw
  unfold convNoBiasFull convCore
  simp only []
  generalize hv : convWin c p w y x = v at h
  have t0 := h.t0; have b0 := h.b0; have l0 := h.l0; have r0 := h.r0
  have hr := h.rows; have hcl := h.clmns
  have e3 : ((p.ch.toNat : Nat) : Int) = p.ch := by omega
  have rpos : 0 < v.rows := by
    obtain ⟨i, i0, i1, hi⟩ := hrow
    have := (h.rowIn i i0 i1).2 hi
    omega
  have nB1 := B.n1
  have nB2 := B.n2
  have insI : ∀ i j : Nat, i < v.rows.toNat → j < v.clmns.toNat →
      (0 ≤ tapCoord c.sh c.pt c.dh y (t + i) ∧ tapCoord c.sh c.pt c.dh y (t + i) < p.height) ∧
      (0 ≤ tapCoord c.sw c.pl c.dw x (l + j) ∧ tapCoord c.sw c.pl c.dw x (l + j) < p.width) := by
    intro i j hi hj
    exact ⟨(h.rowIn (t + i) (by omega) (by omega)).1 (by omega), (h.colIn (l + j) (by omega) (by omega)).1 (by omega)⟩
  have A1 := dotprod3D_adds (aw := q.aw) (src := src) (wts := wts) (p := v.inPtr) (q := v.wPtr + w.outChS * oc) (W := v.clmns)
    (H := v.rows) (C := p.ch) (ics := p.col * c.dw) (irs := p.row * c.dh) (ichs := 1) (kcs := w.col) (krs := w.row)
    (kchs := w.inChS) rpos
    (fun cc i j => X (tapCoord c.sh c.pt c.dh y (t + i)) (tapCoord c.sw c.pl c.dw x (l + j)) cc)
    (fun cc i j => Wt (t + i) (l + j) cc) B1
    (fun cc i j hc hi hj => h.inTap R hi hj (by omega))
    (fun cc i j hc hi hj => h.wtTap R hi hj (by omega))
    (fun cc i j hc hi hj => B.b1 _ _ _ _ cc (insI i j hi hj).1.1 (insI i j hi hj).1.2 (insI i j hi hj).2.1 (insI i j hi hj).2.2
      (by omega) (by omega) (by omega) (by omega) (by omega))
  have A2 := wAdd3D_adds (q := q) (wts := wts) (p := v.wPtr + w.outChS * oc) (W := v.clmns) (H := v.rows) (C := p.ch)
    (cs := w.col) (rs := w.row) (chs := w.inChS) (fun cc i j => Wt (t + i) (l + j) cc) B2 hzx
    (fun cc i j hc hi hj => h.wtTap R hi hj (by omega))
    (fun cc i j hc hi hj => B.b2 _ _ cc (by omega) (by omega) (by omega) (by omega) (by omega)) nB2
  have A3 := wAdd3D_adds (q := q) (wts := wts) (p := wf.ptr + wf.outChS * oc) (W := wf.width) (H := wf.height) (C := p.ch)
    (cs := wf.col) (rs := wf.row) (chs := wf.inChS) (fun cc i j => F i j cc) B2 hzx
    (fun cc i j hc hi hj => RF i j cc (by omega) (by omega) (by omega) (by omega) (by omega))
    (fun cc i j hc hi hj => BF _ _ cc (by omega) (by omega) (by omega) (by omega) (by omega)) nB2
  have w1 : v.rows.toNat ≤ wf.height.toNat := by have := h.le.1; omega
  have w2 : v.clmns.toNat ≤ wf.width.toNat := by have := h.le.2; omega
  have m1 := box_le (C := p.ch.toNat) w1 w2 nB1
  have m2 := box_le (C := p.ch.toNat) w1 w2 nB2
  have efit : ((p.ch.toNat * (wf.height.toNat * wf.width.toNat) : Nat) : Int) * (B1 + 2 * B2) =
    p.ch.toNat * (wf.height.toNat * (wf.width.toNat * B1)) + 2 * (p.ch.toNat * (wf.height.toNat * (wf.width.toNat * B2))) := by
    push_cast; ring
  rw [efit] at hfit
  have nT : 0 ≤ (p.ch.toNat : Int) * (wf.height.toNat * (wf.width.toNat * B1)) := by positivity
  have nT2 : 0 ≤ (p.ch.toNat : Int) * (wf.height.toNat * (wf.width.toNat * B2)) := by positivity
  have hlo := lo_eq q.aw; have hhi := hi_eq q.aw
  have A1' := A1.weaken m1
  have A2' := A2.weaken m2
  have hs := h.sum p1 p2 p.ch.toNat (fun r p k => X r p k - q.zx) Wt
  rw [e3] at hs
  rw [hs]
  have i0 : ∀ a, inAdd3D q src v.inPtr a v.clmns v.rows p.ch p.col p.row 1 = some a := by
    intro a; unfold inAdd3D; rw [if_neg (by simp [hzw])]
  simp only [i0]
  have x1 := A1'.2 0 (by omega) (by omega)
  have b1 := A1'.1; have b2 := A2'.1; have b3 := A3.1
  simp only [x1, Option.bind_some, Int.zero_add]
  have esub : (boxSum p.ch.toNat v.rows.toNat v.clmns.toNat fun cc i j =>
      (X (tapCoord c.sh c.pt c.dh y (t + i)) (tapCoord c.sw c.pl c.dw x (l + j)) cc - q.zx) * Wt (t + i) (l + j) cc) =
      (boxSum p.ch.toNat v.rows.toNat v.clmns.toNat fun cc i j =>
        X (tapCoord c.sh c.pt c.dh y (t + i)) (tapCoord c.sw c.pl c.dw x (l + j)) cc * Wt (t + i) (l + j) cc) -
      q.zx * boxSum p.ch.toNat v.rows.toNat v.clmns.toNat fun cc i j => Wt (t + i) (l + j) cc := by
    simp only [boxSum, Finset.mul_sum, ← Finset.sum_sub_distrib]
    apply Finset.sum_congr rfl; intro i _
    apply Finset.sum_congr rfl; intro j _
    apply Finset.sum_congr rfl; intro k _
    ring
  rw [esub]
  generalize hS : (boxSum p.ch.toNat v.rows.toNat v.clmns.toNat fun cc i j =>
    X (tapCoord c.sh c.pt c.dh y (t + i)) (tapCoord c.sw c.pl c.dw x (l + j)) cc * Wt (t + i) (l + j) cc) = S at *
  have neg2 : (boxSum p.ch.toNat v.rows.toNat v.clmns.toNat fun cc i j => -q.zx * Wt (t + i) (l + j) cc) =
      -(q.zx * boxSum p.ch.toNat v.rows.toNat v.clmns.toNat fun cc i j => Wt (t + i) (l + j) cc) := by
    simp only [boxSum, Finset.mul_sum, ← Finset.sum_neg_distrib, Int.neg_mul]
  have neg3 : (boxSum p.ch.toNat wf.height.toNat wf.width.toNat fun cc i j => -q.zx * F i j cc) =
      -(q.zx * boxSum p.ch.toNat wf.height.toNat wf.width.toNat fun cc i j => F i j cc) := by
    simp only [boxSum, Finset.mul_sum, ← Finset.sum_neg_distrib, Int.neg_mul]
  rw [neg2] at b2 A2'
  rw [neg3] at b3 A3
  by_cases hw : v.rows * v.clmns = wf.height * wf.width
  swap
  · simp only [ne_eq, hw, not_false_eq_true, if_true]
    generalize q.zx * (boxSum p.ch.toNat v.rows.toNat v.clmns.toNat fun cc i j => Wt (t + i) (l + j) cc) = V at *
    generalize q.zx * (boxSum p.ch.toNat wf.height.toNat wf.width.toNat fun cc i j => F i j cc) = G at *
    have c1 := abs_le.1 b1; have c2 := abs_le.1 b2; have c3 := abs_le.1 b3
    rw [subFx_neg (abs_le.2 ⟨by omega, by omega⟩)]
    have z3 := A3.2 (-S) (by omega) (by omega)
    beta_reduce at z3
    have z2 := A2'.2 (S + G) (by omega) (by omega)
    beta_reduce at z2
    rw [z3, Option.bind_some, subFx_neg (abs_le.2 ⟨by omega, by omega⟩), show -(-S + -G) = S + G by ring,
      z2, Option.bind_some, subFx_neg (abs_le.2 ⟨by omega, by omega⟩)]
    have A4 := (zpAdd_adds (q := q) (wf.height * wf.width - v.clmns * v.rows)).2
    rw [hzw] at A4
    simp only [Int.mul_zero, abs_zero, Int.add_zero, Int.sub_zero] at A4
    rw [A4 _ (by omega) (by omega), Option.map_some, subFx_neg (abs_le.2 ⟨by omega, by omega⟩)]
    congr 1; ring
  · simp only [ne_eq, hw, not_true_eq_false, if_false]
    obtain ⟨w1, w2, w3, w4, w5, w6⟩ := h.whole l1 l2 f1 f2 (by omega) hw
    subst w5 w6
    rw [w1, w2]
    simp only [Int.zero_add, same w3 w4, Int.sub_add_cancel]

end Mli
