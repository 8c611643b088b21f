import Verif.Props.RealLayer
import Verif.Props.Rnn

/-!
# C101: the RNN dense layer in real numbers

The kernel adds the inner products of up to four inputs with their weights, and a bias.  Each inner product is rounded on its own, so the number of
inputs enters the error.
-/

namespace Mli

open Spec

/-- The real value of an RNN dense layer at output `o`: `x k` and `w k` give the numbers of input `k` and its weights. -/
def rnnReal (as : List RnnArg) (x : Fin as.length → Int → ℚ) (w : Fin as.length → Int → ℚ) (b : ℚ) : ℚ :=
  (∑ k : Fin as.length, dotSumQ (prod as[k].tin.shape) (x k) (w k)) + b

theorem fxNum_clamp (w : Nat) (f v : Int) : fxNum f (clamp w v) = limitQ (fxNum f (lo w)) (fxNum f (hi w)) (fxNum f v) := by
  have h := limitQ_affine (z := 0) (s := (2 : ℚ) ^ (-f)) (by positivity) (lo w : ℚ) (hi w : ℚ) (v : ℚ)
  simp only [sub_zero] at h
  unfold fxNum
  rw [clamp_limitQ, h]

theorem scaled_num {m : Rnd} {x p fo r : Int} (h : Scaled m x (p - fo) r) : |fxNum fo r - x * (2 : ℚ) ^ (-p)| ≤ 1 / 2 * (2 : ℚ) ^ (-fo) := by
  have he := scaled_err h
  have two : (2 : ℚ) ≠ 0 := by norm_num
  have hp : (0 : ℚ) < 2 ^ (-fo) := by positivity
  have e : (x : ℚ) * 2 ^ (-p) = x * 2 ^ (-(p - fo)) * 2 ^ (-fo) := by
    rw [mul_assoc, ← zpow_add₀ two]
    congr 2
    ring
  unfold fxNum
  rw [e, ← sub_mul, abs_mul, abs_of_pos hp]
  exact mul_le_mul_of_nonneg_right he hp.le

theorem shift_num {b p fb : Int} (h : fb ≤ p) : ((b * 2 ^ (p - fb).toNat : Int) : ℚ) * (2 : ℚ) ^ (-p) = fxNum fb b := by
  have two : (2 : ℚ) ≠ 0 := by norm_num
  have e2 : ((2 ^ (p - fb).toNat : Int) : ℚ) = (2 : ℚ) ^ (p - fb) := by
    have : p - fb = (((p - fb).toNat : Nat) : Int) := by omega
    conv_rhs => rw [this]
    rw [zpow_natCast]
    push_cast
    rfl
  unfold fxNum
  rw [Int.cast_mul, e2, mul_assoc, ← zpow_add₀ two]
  congr 2
  ring

/-- The error of a fixed-point call with `n` inputs whose output element `y` should stand for `r`: half an output step for each input. -/
def RnnFxQ.Close (f : RnnFxQ) (n : Nat) (y : Int) (r : ℚ) : Prop :=
  |fxNum f.fo y - limitQ (fxNum f.fo (lo 16)) (fxNum f.fo (hi 16)) r| ≤ n / 2 * (2 : ℚ) ^ (-f.fo)

theorem rnn_fx_real {m : Rnd} {f : RnnFxQ} {as : List RnnArg} {X : Nat → Int → Int} {o b y : Int} (hlen : 1 ≤ as.length)
    (hf : f.fb ≤ f.fi.getD 0 0 + f.fw.getD 0 0)
    (h : ∃ r : Nat → Int, y = clamp 16 (∑ k ∈ Finset.range as.length, r k) ∧ ∀ k (hk : k < as.length),
      Scaled m (as[k].dot (X k) 0 o + if k = 0 then b * 2 ^ (f.fi.getD 0 0 + f.fw.getD 0 0 - f.fb).toNat else 0)
        (f.fi.getD k 0 + f.fw.getD k 0 - f.fo) (r k)) :
    f.Close as.length y (rnnReal as (fun k i => fxNum (f.fi.getD k 0) (X k i)) (fun k i => fxNum (f.fw.getD k 0) (as[k].wts.get (as[k].tw.addr [i, o])))
      (fxNum f.fb b)) := by
  obtain ⟨r, e, hr⟩ := h
  have two : (2 : ℚ) ≠ 0 := by norm_num
  have hd : ∀ k : Fin as.length, dotSumQ (prod as[k].tin.shape) (fun i => fxNum (f.fi.getD k 0) (X k i))
      (fun i => fxNum (f.fw.getD k 0) (as[k].wts.get (as[k].tw.addr [i, o]))) =
      (as[k].dot (X k) 0 o : ℚ) * (2 : ℚ) ^ (-(f.fi.getD k 0 + f.fw.getD k 0)) := by
    intro k
    rw [dotSumQ_eq ((2 : ℚ) ^ (-f.fi.getD k 0)) ((2 : ℚ) ^ (-f.fw.getD k 0)) (X := fun i => X k i - 0) (W := fun i => as[k].wts.get (as[k].tw.addr [i, o]))
      (XQ := fun i => fxNum (f.fi.getD k 0) (X k i)) (WQ := fun i => fxNum (f.fw.getD k 0) (as[k].wts.get (as[k].tw.addr [i, o])))
      (fun i => by simp only [Int.sub_zero]; rfl) (fun i => rfl)]
    rw [← zpow_add₀ two, mul_comm, show -f.fi.getD k 0 + -f.fw.getD k 0 = -(f.fi.getD k 0 + f.fw.getD k 0) by ring]
    rfl
  have hb : fxNum f.fb b = ∑ k : Fin as.length, if (k : Nat) = 0 then fxNum f.fb b else 0 := by
    rw [Finset.sum_eq_single (⟨0, hlen⟩ : Fin as.length)]
    · rw [if_pos rfl]
    · intro k _ hk
      rw [if_neg]
      intro h0
      exact hk (Fin.ext h0)
    · intro h; exact absurd (Finset.mem_univ _) h
  have hone : ∀ k : Fin as.length, |fxNum f.fo (r k) - (dotSumQ (prod as[k].tin.shape) (fun i => fxNum (f.fi.getD k 0) (X k i))
      (fun i => fxNum (f.fw.getD k 0) (as[k].wts.get (as[k].tw.addr [i, o]))) + if (k : Nat) = 0 then fxNum f.fb b else 0)| ≤ 1 / 2 * (2 : ℚ) ^ (-f.fo) := by
    intro k
    have h1 := scaled_num (hr k k.2)
    rw [hd k]
    convert h1 using 3
    rw [Int.cast_add, add_mul]
    congr 1
    by_cases h0 : (k : Nat) = 0
    · rw [if_pos h0, if_pos h0, h0, shift_num hf]
    · rw [if_neg h0, if_neg h0, Int.cast_zero, zero_mul]
  unfold RnnFxQ.Close
  subst e
  rw [fxNum_clamp]
  refine (limitQ_lip _ _ _ _).trans ?_
  have es : fxNum f.fo (∑ k ∈ Finset.range as.length, r k) = ∑ k : Fin as.length, fxNum f.fo (r k) := by
    rw [Finset.sum_range]
    unfold fxNum
    push_cast
    rw [Finset.sum_mul]
  unfold rnnReal
  conv_lhs => rw [hb]
  rw [← Finset.sum_add_distrib, es, ← Finset.sum_sub_distrib]
  refine (Finset.abs_sum_le_sum_abs _ _).trans ((Finset.sum_le_sum fun k _ => hone k).trans ?_)
  rw [Finset.sum_const, Finset.card_univ, Fintype.card_fin, nsmul_eq_mul]
  apply le_of_eq
  ring

/-- **C101**, 16-bit fixed point.  Partial: the conditions of `c65_fx16_partial`. -/
theorem c101_fx16_partial (m : Rnd) (f : RnnFxQ) (as : List RnnArg) (bias dst : Buf) (tb tout : Tensor) (A : ∀ a ∈ as, a.Valid 16 16) (vb : tb.Valid bias)
    (vo : tout.Valid dst) (hb : tb.Holds bias 16) (hchk : chkRnnFx f as tb tout = some .ok)
    (hbs : f.fi.getD 0 0 + f.fw.getD 0 0 - f.fb ≤ 16) (hos : ∀ k < as.length, f.fi.getD k 0 + f.fw.getD k 0 - f.fo ≤ 39)
    (hn : ∀ a ∈ as, prod a.tin.shape ≤ 2 ^ 29) :
    ∃ dst' val, ∃ X : Nat → Int → Int, (∀ k (hk : k < as.length), as[k].tin.Flat as[k].src (X k)) ∧
      krnRnnFx m 64 f as bias tb tout dst = some (.ok, dst') ∧ tout.Writes val dst dst' ∧ ∀ o, InShape tout.shape [o] →
        f.Close as.length (val [o]) (rnnReal as (fun k i => fxNum (f.fi.getD k 0) (X k i))
          (fun k i => fxNum (f.fw.getD k 0) (as[k].wts.get (as[k].tw.addr [i, o]))) (fxNum f.fb (bias.get (tb.addr [o])))) := by
  obtain ⟨c1, c2, c3⟩ := chkRnnFx_ok hchk
  obtain ⟨hlen, -, -⟩ := chkRnn_ok c1
  obtain ⟨dst', val, X, hX, r1, r2, r3⟩ := c65_fx16_partial m f as bias dst tb tout A vb vo hb hchk hbs hos hn
  exact ⟨dst', val, X, hX, r1, r2, fun o ho => rnn_fx_real (by omega) c3 (r3 o ho)⟩

/-- **C101**, 16-bit inputs with 8-bit weights.  Partial: the conditions of `c65_fx16_fx8_partial`. -/
theorem c101_fx16_fx8_partial (m : Rnd) (f : RnnFxQ) (as : List RnnArg) (bias dst : Buf) (tb tout : Tensor) (A : ∀ a ∈ as, a.Valid 16 8) (vb : tb.Valid bias)
    (vo : tout.Valid dst) (hb : tb.Holds bias 8) (hchk : chkRnnFx f as tb tout = some .ok)
    (hfit : ∀ o, InShape tb.shape [o] → |bias.get (tb.addr [o])| * 2 ^ (f.fi.getD 0 0 + f.fw.getD 0 0 - f.fb).toNat +
      (as.map fun a => prod a.tin.shape).sum * 2 ^ 22 < if m = .up then 2 ^ 30 else 2 ^ 31) :
    ∃ dst' val, ∃ X : Nat → Int → Int, (∀ k (hk : k < as.length), as[k].tin.Flat as[k].src (X k)) ∧
      krnRnnFx m 32 f as bias tb tout dst = some (.ok, dst') ∧ tout.Writes val dst dst' ∧ ∀ o, InShape tout.shape [o] →
        f.Close as.length (val [o]) (rnnReal as (fun k i => fxNum (f.fi.getD k 0) (X k i))
          (fun k i => fxNum (f.fw.getD k 0) (as[k].wts.get (as[k].tw.addr [i, o]))) (fxNum f.fb (bias.get (tb.addr [o])))) := by
  obtain ⟨c1, c2, c3⟩ := chkRnnFx_ok hchk
  obtain ⟨hlen, -, -⟩ := chkRnn_ok c1
  obtain ⟨dst', val, X, hX, r1, r2, r3⟩ := c65_fx16_fx8_partial m f as bias dst tb tout A vb vo hb hchk hfit
  exact ⟨dst', val, X, hX, r1, r2, fun o ho => rnn_fx_real (by omega) c3 (r3 o ho)⟩

/-! ## 8-bit asymmetric -/

/-- The product of the scales of input `k` and its weights. -/
def RnnSaQ.inScale (q : RnnSaQ) (k : Nat) : ℚ :=
  scaleVal ((q.qiAt k).scaleAt 0) ((q.qiAt k).fracAt 0) * scaleVal ((q.qwAt k).scaleAt 0) ((q.qwAt k).fracAt 0)

/-- The step of the output. -/
def RnnSaQ.step (q : RnnSaQ) : ℚ := scaleVal (q.qo.scaleAt 0) (q.qo.fracAt 0)

/-- What the bias `b` costs, as for the other layers (`Sa8Q.biasErr`). -/
def RnnSaQ.biasErr (q : RnnSaQ) (full : Bool) (b : Int) : ℚ :=
  |(b : ℚ)| * ((if full = true ∨ |b| < 2 ^ 15 then 0 else q.inScale 0 / 2 ^ 14) + |q.inScale 0 - scaleVal (q.qb.scaleAt 0) (q.qb.fracAt 0)|)

/-- The number of input `k`'s contribution at output `o`, the first with the bias `b`. -/
def RnnSaQ.term (q : RnnSaQ) (as : List RnnArg) (X : Nat → Int → Int) (o b : Int) (k : Fin as.length) : ℚ :=
  dotSumQ (prod as[k].tin.shape) (fun i => saNum (q.qiAt k) 0 (X k i)) (fun i => saNum (q.qwAt k) 0 (as[k].wts.get (as[k].tw.addr [i, o]))) +
    if (k : Nat) = 0 then saNum q.qb 0 b else 0

theorem chkRnnSa_bias {m : Rnd} {q : RnnSaQ} {as : List RnnArg} {tb tout : Tensor} (h : chkRnnSa m q as tb tout = some .ok) : q.qb.zpAt 0 = 0 := by
  unfold chkRnnSa at h
  rw [Option.bind_eq_some_iff] at h
  obtain ⟨s, hs, h⟩ := h
  by_cases e : s = .ok
  swap
  · rw [if_pos e] at h
    exact absurd (Option.some.inj h) e
  rw [if_neg (not_not.2 e)] at h
  by_cases c1 : chkRnnQuant q 0 as = .ok
  swap
  · rw [if_pos c1] at h; exact absurd (Option.some.inj h) c1
  rw [if_neg (not_not.2 c1)] at h
  by_cases c2 : chkQuant tout q.qo 7 = .ok
  swap
  · rw [if_pos c2] at h; exact absurd (Option.some.inj h) c2
  rw [if_neg (not_not.2 c2)] at h
  by_cases c3 : chkQuant tb q.qb 0 = .ok
  swap
  · rw [if_pos c3] at h; exact absurd (Option.some.inj h) c3
  rw [if_neg (not_not.2 c3)] at h
  by_cases c4 : (∀ k < as.length, (q.qiAt k).dim < 0 ∧ (q.qwAt k).dim < 0) ∧ q.qo.dim < 0 ∧ q.qb.dim < 0
  swap
  · rw [if_pos c4] at h; cases h
  obtain ⟨d1, d2, d3⟩ := c4
  obtain ⟨w1, w2, w3⟩ := chkQuant_ok c3 (k := 0) (Or.inl d3)
  simp only [if_true] at w2 w3
  omega

theorem biasFor_num {q : RnnSaQ} {full : Bool} {b b' : Int} (hb : BiasFor full b b') (hs : 0 < q.inScale 0) (hz : q.qb.zpAt 0 = 0) :
    |q.inScale 0 * b' - saNum q.qb 0 b| ≤ q.biasErr full b := by
  obtain ⟨h1, h2⟩ := hb
  have e : q.inScale 0 * b' - saNum q.qb 0 b = q.inScale 0 * (b' - b) + b * (q.inScale 0 - scaleVal (q.qb.scaleAt 0) (q.qb.fracAt 0)) := by
    unfold saNum
    rw [hz, Int.cast_zero, sub_zero]
    ring
  rw [e]
  refine (abs_add_le _ _).trans ?_
  unfold RnnSaQ.biasErr
  rw [mul_add, abs_mul, abs_mul, abs_of_pos hs]
  refine add_le_add ?_ le_rfl
  by_cases hc : full = true ∨ |b| < 2 ^ 15
  · rw [if_pos hc, h1 hc, sub_self, abs_zero, mul_zero, mul_zero]
  · rw [if_neg hc]
    have h3 : |((b' : ℚ) - b)| * 2 ^ 14 ≤ |(b : ℚ)| := by exact_mod_cast h2
    have h4 : |((b' : ℚ) - b)| ≤ |(b : ℚ)| / 2 ^ 14 := by rw [le_div_iff₀ (by positivity)]; exact h3
    calc q.inScale 0 * |((b' : ℚ) - b)| ≤ q.inScale 0 * (|(b : ℚ)| / 2 ^ 14) := mul_le_mul_of_nonneg_left h4 hs.le
      _ = |(b : ℚ)| * (q.inScale 0 / 2 ^ 14) := by ring

theorem saNum_limit {q : SaQ} {y : Int} {t : ℚ} {e : ℚ} (hs : 0 < q.scaleAt 0) (h : |(y : ℚ) - limitQ (-128) 127 t| ≤ e) :
    |saNum q 0 y - limitQ (saNum q 0 (-128)) (saNum q 0 127) ((t - q.zpAt 0) * scaleVal (q.scaleAt 0) (q.fracAt 0))| ≤
      e * scaleVal (q.scaleAt 0) (q.fracAt 0) := by
  have hp := scaleVal_pos (f := q.fracAt 0) hs
  have h1 := limitQ_affine (z := q.zpAt 0) hp (-128) 127 t
  unfold saNum
  push_cast
  rw [← h1, ← sub_mul, abs_mul, abs_of_pos hp, sub_sub_sub_cancel_right]
  exact mul_le_mul_of_nonneg_right h hp.le

/-- **C101**, 8-bit asymmetric: the element that is written stands for the sum of the contributions, limited to the range of the output, up to half a step and
a relative error of `2^-13` for each contribution, and what the format of the bias costs.  Partial: the conditions of `c65_sa8_partial`. -/
theorem c101_sa8_partial (m : Rnd) (full : Bool) (q : RnnSaQ) (as : List RnnArg) (bias dst : Buf) (tb tout : Tensor) (A : ∀ a ∈ as, a.Valid 8 8)
    (vb : tb.Valid bias) (vo : tout.Valid dst) (hb : ∀ o, InShape tb.shape [o] → |bias.get (tb.addr [o])| < 2 ^ 30 - 2 ^ 17) (tq : q.Typed)
    (hchk : chkRnnSa m q as tb tout = some .ok) (hn : ∀ a ∈ as, prod a.tin.shape ≤ 2 ^ 15) :
    ∃ dst' val, ∃ X : Nat → Int → Int, (∀ k (hk : k < as.length), as[k].tin.Flat as[k].src (X k)) ∧
      krnRnnSa m full q as bias tb tout dst = some (.ok, dst') ∧ tout.Writes val dst dst' ∧ ∀ o, InShape tout.shape [o] →
        (∀ k, |q.term as X o (bias.get (tb.addr [o])) k| + q.biasErr full (bias.get (tb.addr [o])) ≤ 2 ^ 28 * q.step) →
        |saNum q.qo 0 (val [o]) - limitQ (saNum q.qo 0 (-128)) (saNum q.qo 0 127) (∑ k, q.term as X o (bias.get (tb.addr [o])) k)| ≤
          (∑ k, (q.step / 2 + |q.term as X o (bias.get (tb.addr [o])) k| / 2 ^ 13)) + (1 + 1 / 2 ^ 13) * q.biasErr full (bias.get (tb.addr [o])) := by
  obtain ⟨c1, ⟨O1, O2⟩, hq⟩ := chkRnnSa_ok hchk
  obtain ⟨hlen, -, -⟩ := chkRnn_ok c1
  have hz := chkRnnSa_bias hchk
  obtain ⟨dst', val, X, hX, r1, r2, r3⟩ := c65_sa8_partial m full q as bias dst tb tout A vb vo hb tq hchk hn
  refine ⟨dst', val, X, hX, r1, r2, fun o ho hsm => ?_⟩
  obtain ⟨b', e, hb', he, h⟩ := r3 o ho
  generalize bias.get (tb.addr [o]) = b at hb' hsm ⊢
  have hs : 0 < q.step := scaleVal_pos O1
  have hi0 : 0 < q.inScale 0 := mul_pos (scaleVal_pos (hq 0 (by omega)).1) (scaleVal_pos (hq 0 (by omega)).2.2.1)
  have hberr := biasFor_num hb' hi0 hz
  have hb0 : 0 ≤ q.biasErr full b := (abs_nonneg _).trans hberr
  -- the contributions of the kernel, in numbers
  have hd : ∀ k : Fin as.length, e k * q.step = q.term as X o b k + if (k : Nat) = 0 then q.inScale 0 * b' - saNum q.qb 0 b else 0 := by
    intro k
    have e1 : e k * q.step = (as[k].dot (X k) ((q.qiAt k).zpAt 0) o + if (k : Nat) = 0 then b' else 0 : Int) * q.inScale k := by
      rw [he k k.2]
      unfold RnnSaQ.real RnnSaQ.inScale RnnSaQ.step
      rw [mul_assoc, div_mul_cancel₀ _ (scaleVal_pos O1).ne']
      rfl
    unfold RnnSaQ.term
    rw [e1, dotSumQ_eq (scaleVal ((q.qiAt k).scaleAt 0) ((q.qiAt k).fracAt 0)) (scaleVal ((q.qwAt k).scaleAt 0) ((q.qwAt k).fracAt 0))
      (X := fun i => X k i - (q.qiAt k).zpAt 0) (W := fun i => as[k].wts.get (as[k].tw.addr [i, o]))
      (fun i => by unfold saNum; push_cast; rfl) (fun i => by unfold saNum; rw [(hq k k.2).2.2.2]; simp)]
    rw [Int.cast_add, add_mul]
    by_cases h0 : (k : Nat) = 0
    · rw [if_pos h0, if_pos h0, if_pos h0]
      have e0 : q.inScale k = q.inScale 0 := by rw [h0]
      rw [← e0]
      unfold RnnSaQ.inScale RnnArg.dot
      ring
    · rw [if_neg h0, if_neg h0, if_neg h0]
      unfold RnnSaQ.inScale RnnArg.dot
      push_cast
      ring
  have habs : ∀ k : Fin as.length, |e k| * q.step ≤ |q.term as X o b k| + if (k : Nat) = 0 then q.biasErr full b else 0 := by
    intro k
    rw [show |e k| * q.step = |e k * q.step| by rw [abs_mul, abs_of_pos hs], hd k]
    refine (abs_add_le _ _).trans (add_le_add le_rfl ?_)
    split
    · exact hberr
    · rw [abs_zero]
  have hone : ∀ k : Nat, k < as.length → |e k| ≤ 2 ^ 28 := by
    intro k hk
    have h1 := habs ⟨k, hk⟩
    have h2 := hsm ⟨k, hk⟩
    have h3 : |e k| * q.step ≤ 2 ^ 28 * q.step := by
      refine h1.trans (le_trans ?_ h2)
      split
      · exact le_rfl
      · linarith
    exact le_of_mul_le_mul_right h3 hs
  have main := saNum_limit O1 (h hone)
  have h0sum : ∀ c : ℚ, (∑ k : Fin as.length, if (k : Nat) = 0 then c else 0) = c := by
    intro c
    rw [Finset.sum_eq_single (⟨0, by omega⟩ : Fin as.length)]
    · rw [if_pos rfl]
    · intro k _ hk
      rw [if_neg]
      intro h0
      exact hk (Fin.ext h0)
    · intro h; exact absurd (Finset.mem_univ _) h
  have esum : ((q.qo.zpAt 0 : ℚ) + (∑ k ∈ Finset.range as.length, e k) - q.qo.zpAt 0) * scaleVal (q.qo.scaleAt 0) (q.qo.fracAt 0) =
      (∑ k, q.term as X o b k) + (q.inScale 0 * b' - saNum q.qb 0 b) := by
    rw [add_sub_cancel_left, Finset.sum_range, Finset.sum_mul]
    conv_rhs => rw [← h0sum (q.inScale 0 * b' - saNum q.qb 0 b)]
    rw [← Finset.sum_add_distrib]
    exact Finset.sum_congr rfl fun k _ => hd k
  rw [esum] at main
  have hlip := limitQ_lip (saNum q.qo 0 (-128)) (saNum q.qo 0 127) ((∑ k, q.term as X o b k) + (q.inScale 0 * b' - saNum q.qb 0 b))
    (∑ k, q.term as X o b k)
  rw [add_sub_cancel_left] at hlip
  have hbound : (∑ k ∈ Finset.range as.length, (1 / 2 + |e k| / 2 ^ 13)) * scaleVal (q.qo.scaleAt 0) (q.qo.fracAt 0) ≤
      (∑ k, (q.step / 2 + |q.term as X o b k| / 2 ^ 13)) + 1 / 2 ^ 13 * q.biasErr full b := by
    rw [Finset.sum_range, Finset.sum_mul]
    conv_rhs => rw [← h0sum (1 / 2 ^ 13 * q.biasErr full b)]
    rw [← Finset.sum_add_distrib]
    refine Finset.sum_le_sum fun k _ => ?_
    have h1 := habs k
    change (1 / 2 + |e k| / 2 ^ 13) * q.step ≤ _
    have e1 : (1 / 2 + |e k| / 2 ^ 13) * q.step = q.step / 2 + |e k| * q.step / 2 ^ 13 := by ring
    rw [e1]
    by_cases h0 : (k : Nat) = 0
    · rw [if_pos h0] at h1 ⊢
      linarith
    · rw [if_neg h0] at h1 ⊢
      linarith
  have tri := abs_sub_le (saNum q.qo 0 (val [o]))
    (limitQ (saNum q.qo 0 (-128)) (saNum q.qo 0 127) ((∑ k, q.term as X o b k) + (q.inScale 0 * b' - saNum q.qb 0 b)))
    (limitQ (saNum q.qo 0 (-128)) (saNum q.qo 0 127) (∑ k, q.term as X o b k))
  linarith

/-! ## Instances

The hypotheses of the theorems are those of C65, met by the calls at the end of `Verif/Props/Rnn.lean`. -/

/-- The first element of the 16-bit call is -2049, which stands for -0.50024; the exact value is -0.50025. -/
example :
    let tin1 : Tensor := { dims := [⟨2, 1⟩], cap := 4, es := 2 }
    let tin2 : Tensor := { dims := [⟨1, 1⟩], cap := 2, es := 2 }
    let tw1 : Tensor := { dims := [⟨2, 2⟩, ⟨2, 1⟩], cap := 8, es := 2 }
    let tw2 : Tensor := { dims := [⟨1, 2⟩, ⟨2, 1⟩], cap := 4, es := 2 }
    let f : RnnFxQ := { fi := [15, 12], fw := [15, 14], fb := 15, fo := 12 }
    let as : List RnnArg := [⟨Buf.ofList [8192, -16384], tin1, Buf.ofList [32767, 5, 16384, -3], tw1, true⟩,
      ⟨Buf.ofList [4097], tin2, Buf.ofList [-16384, 8191], tw2, true⟩]
    let X : Nat → Int → Int := fun k i => ([[8192, -16384], [4097]].getD k []).getD i.toNat 0
    fxNum f.fo (-2049) = -2049 / 4096 ∧
    rnnReal as (fun k i => fxNum (f.fi.getD k 0) (X k i)) (fun k i => fxNum (f.fw.getD k 0) (as[k].wts.get (as[k].tw.addr [i, 0]))) (fxNum f.fb 16384) =
      -65569 / 131072 := by
  intro tin1 tin2 tw1 tw2 f as X
  refine ⟨by norm_num [fxNum, f], ?_⟩
  have e0 : prod as[(0 : Fin 2)].tin.shape = 2 := by decide
  have e1 : prod as[(1 : Fin 2)].tin.shape = 1 := by decide
  have w0 : as[(0 : Fin 2)].wts.get (as[(0 : Fin 2)].tw.addr [0, 0]) = 32767 := by decide
  have w1 : as[(0 : Fin 2)].wts.get (as[(0 : Fin 2)].tw.addr [1, 0]) = 16384 := by decide
  have w2 : as[(1 : Fin 2)].wts.get (as[(1 : Fin 2)].tw.addr [0, 0]) = -16384 := by decide
  have hl : as.length = 2 := rfl
  unfold rnnReal
  change (∑ k : Fin 2, _) + _ = _
  rw [Fin.sum_univ_two]
  unfold dotSumQ
  rw [e0, e1]
  simp only [Int.reduceToNat, Finset.sum_range_succ, Finset.sum_range_zero, Nat.cast_zero, Nat.cast_one, w0, w1, w2]
  norm_num [fxNum, f, X, hl]

/-- The contributions to the first element of the 8-bit call are 8.72 and -5.63, far below `2^28` steps of 1/16; their sum is 3.09,
and the element 39 stands for 3.06. -/
example :
    let tin1 : Tensor := { dims := [⟨2, 1⟩], cap := 2, es := 1 }
    let tin2 : Tensor := { dims := [⟨1, 1⟩], cap := 1, es := 1 }
    let tw1 : Tensor := { dims := [⟨2, 2⟩, ⟨2, 1⟩], cap := 4, es := 1 }
    let tw2 : Tensor := { dims := [⟨1, 2⟩, ⟨2, 1⟩], cap := 2, es := 1 }
    let q : RnnSaQ := ⟨[⟨-1, [3], [1], [4]⟩, ⟨-1, [-7], [3], [5]⟩], [⟨-1, [0], [1], [6]⟩, ⟨-1, [0], [5], [8]⟩], ⟨-1, [0], [1], [10]⟩, ⟨-1, [-10], [1], [4]⟩⟩
    let as : List RnnArg := [⟨Buf.ofList [100, -60], tin1, Buf.ofList [127, 5, 64, -3], tw1, true⟩,
      ⟨Buf.ofList [41], tin2, Buf.ofList [-64, 31], tw2, true⟩]
    let X : Nat → Int → Int := fun k i => ([[100, -60], [41]].getD k []).getD i.toNat 0
    q.biasErr true 640 = 0 ∧ q.step = 1 / 16 ∧ q.term as X 0 640 0 = 8927 / 1024 ∧ q.term as X 0 640 1 = -45 / 8 ∧ saNum q.qo 0 39 = 49 / 16 := by
  intro tin1 tin2 tw1 tw2 q as X
  have e0 : prod as[(0 : Fin 2)].tin.shape = 2 := by decide
  have e1 : prod as[(1 : Fin 2)].tin.shape = 1 := by decide
  have w0 : as[(0 : Fin 2)].wts.get (as[(0 : Fin 2)].tw.addr [0, 0]) = 127 := by decide
  have w1 : as[(0 : Fin 2)].wts.get (as[(0 : Fin 2)].tw.addr [1, 0]) = 64 := by decide
  have w2 : as[(1 : Fin 2)].wts.get (as[(1 : Fin 2)].tw.addr [0, 0]) = -64 := by decide
  have hl : as.length = 2 := rfl
  refine ⟨?_, ?_, ?_, ?_, ?_⟩
  · norm_num [RnnSaQ.biasErr, RnnSaQ.inScale, scaleVal, q, RnnSaQ.qiAt, RnnSaQ.qwAt, SaQ.scaleAt, SaQ.fracAt, SaQ.idx]
  · norm_num [RnnSaQ.step, scaleVal, q, SaQ.scaleAt, SaQ.fracAt, SaQ.idx]
  · change dotSumQ (prod as[(0 : Fin 2)].tin.shape) _ _ + _ = _
    unfold dotSumQ
    rw [e0]
    simp only [Int.reduceToNat, Finset.sum_range_succ, Finset.sum_range_zero, Nat.cast_zero, Nat.cast_one, Fin.val_zero, w0, w1]
    norm_num [saNum, scaleVal, q, X, RnnSaQ.qiAt, RnnSaQ.qwAt, SaQ.scaleAt, SaQ.fracAt, SaQ.zpAt, SaQ.idx, hl]
  · change dotSumQ (prod as[(1 : Fin 2)].tin.shape) _ _ + _ = _
    unfold dotSumQ
    rw [e1]
    simp only [Int.reduceToNat, Finset.sum_range_succ, Finset.sum_range_zero, Nat.cast_zero, w2]
    norm_num [saNum, scaleVal, q, X, RnnSaQ.qiAt, RnnSaQ.qwAt, SaQ.scaleAt, SaQ.fracAt, SaQ.zpAt, SaQ.idx, hl]
  · norm_num [saNum, scaleVal, q, SaQ.scaleAt, SaQ.fracAt, SaQ.zpAt, SaQ.idx]

end Mli
