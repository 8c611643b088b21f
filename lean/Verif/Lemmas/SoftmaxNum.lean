import Verif.Model.Softmax
import Verif.Spec.Softmax
import Verif.Props.LutReal
import Verif.Props.Rescale

/-! # Arithmetic of one softmax element -/

namespace Mli

open Spec

theorem expneg_small : expnegLut.Small := ⟨by decide, by decide⟩

theorem expneg_top : expnegLut.data.get 356 = 32767 ∧ expnegLut.data.get 357 = 32767 := by decide +kernel

theorem expneg_nonneg (i : Int) (h0 : 0 ≤ i) (h1 : i < 358) : 0 ≤ expnegLut.data.get i := by
  have := expneg_ok.2.2.le (i := 0) (j := i) (le_refl _) h0 (by simpa [expnegLut] using h1)
  have e : expnegLut.data.get 0 = 0 := by decide +kernel
  omega

theorem rnd_zero (m : Rnd) (n : Nat) : rnd m 0 n = 0 := by
  refine scaled_unique (rnd_scaled m 0 n) (scaled_zero (by omega) ?_ ?_) <;> have := two_pow_pos (n : Int).toNat <;> omega

/-- Interpolated lookup in the table of the exponential function: no negative result, and the largest one for input 0. -/
theorem expneg_interp (m : Rnd) (f x : Int) (hx : InRange 32 x) (hf : 5 < f) :
    ∃ e, lutInterp m expnegLut f x = some e ∧ 0 ≤ e ∧ e ≤ 32767 ∧ (x = 0 → e = 32767) := by
  obtain ⟨hl, hd, -⟩ := expneg_ok
  have hs : 0 < f - expnegLut.inFrac := by simp [expnegLut]; omega
  obtain ⟨h1, h2⟩ := lutInterp_smooth m expnegLut f x hx hl hd hs
  obtain ⟨r, h3, h4⟩ := c28_interpolate_in_table m expnegLut f x hx hl hs
  have e2 : hi 16 = 32767 := by decide
  refine ⟨r, h3, ?_, by have := h4.2; omega, ?_⟩
  · rw [h3] at h1
    obtain rfl := Option.some.inj h1
    generalize hi' : max 0 (min (expnegLut.length - 2) _) = i at *
    have hlen : expnegLut.length = 358 := rfl
    have a := expneg_nonneg i (by omega) (by omega)
    have b := expneg_nonneg (i + 1) (by omega) (by omega)
    unfold Between at h2
    omega
  · rintro rfl
    rw [h3] at h1
    rw [Option.some.inj h1]
    simp only [Int.zero_ediv, Int.zero_emod, mul_zero, rnd_zero, sub_zero, zero_add]
    exact expneg_top.1

/-- Interpolated result as an element of 16 bits. -/
theorem lutOutput_16 (m : Rnd) (l : Lut) {r : Int} (hr : InRange 16 r) : lutOutput m l (.fx 16) r = some r := by
  obtain ⟨q, h3, h4⟩ := lutOutput_fx m l 16 (Or.inr rfl) r hr
  have : q = r := scaled_unique h3 (by unfold Scaled; cases m <;> simp [RoundHalfUp, RoundHalfEven])
  rw [h4, this, clamp_of_inRange hr]

/-- An exponential of 16 bits, as softmax of fixed-point tensors computes it. -/
theorem exp_elem_raw (m : Rnd) (f v mx : Int) (hv : InRange 16 v) (hm : InRange 16 mx) (hle : v ≤ mx) (co : LutOut) :
    ∃ e, lutElem m expnegLut (.fxOff mx) co f v = lutOutput m expnegLut co e ∧ 0 ≤ e ∧ e ≤ 32767 ∧ (v = mx → e = 32767) ∧
      |(e : ℝ) - 2 ^ 15 * Real.exp (fxReal (v - mx) f)| ≤ 45 / 8 := by
  have e1 : lo 16 = -32768 := by decide
  have e2 : hi 16 = 32767 := by decide
  have e3 : lo 32 = -2147483648 := by decide
  have e4 : hi 32 = 2147483647 := by decide
  obtain ⟨v1, v2⟩ := hv
  obtain ⟨m1, m2⟩ := hm
  obtain ⟨hl, hd, hmono⟩ := expneg_ok
  have hx : InRange 32 (v - mx) := ⟨by omega, by omega⟩
  have hsub : subFx 32 v mx = v - mx := by
    rw [subFx_eq ⟨by omega, by omega⟩ ⟨by omega, by omega⟩, clamp_of_inRange hx]
  have hexp : expNeg (fxReal (v - mx) f) = Real.exp (fxReal (v - mx) f) := by
    apply expNeg_of_nonpos
    unfold fxReal
    apply div_nonpos_of_nonpos_of_nonneg _ (by positivity)
    have : v - mx ≤ 0 := by omega
    exact_mod_cast this
  have hF : expnegLut.inFrac = 5 := rfl
  have hL : expnegLut.length = 358 := rfl
  have hO : expnegLut.inOffset = 356 := rfl
  by_cases hs : 5 < f
  · obtain ⟨r, h1, h2⟩ := exp_approx.interp (by norm_num) m f (v - mx) hx hl hd (by omega)
      (Or.inr (by rw [abs_le]; constructor <;> omega))
    obtain ⟨r', h1', a, b, c⟩ := expneg_interp m f (v - mx) hx hs
    obtain rfl : r = r' := by rw [h1] at h1'; exact Option.some.inj h1'
    refine ⟨r, ?_, a, b, fun h => c (by omega), ?_⟩
    · unfold lutElem
      simp only []
      rw [interp_lutInterpolates (by simp only [lutFrac]; omega), if_pos rfl]
      simp only [lutFrac, lutInput, hsub, h1, Option.bind_some]
    · rw [hexp, hF] at h2
      norm_num at h2 ⊢; linarith
  · obtain ⟨r, h1, hr, h2⟩ := exp_approx.plain expneg_small f (v - mx) hx hl (by omega)
    have h3 := c28_plain_in_table expnegLut f (v - mx) hx (by omega) (by omega) hl.int hl.fits hl.offset
    rw [h1] at h3
    refine ⟨r, ?_, ?_, by have := hr.2; omega, ?_, ?_⟩
    · have hni : lutInterpolates expnegLut (.fxOff mx) f = false := by
        unfold lutInterpolates lutFrac minFx
        simp only [gt_iff_lt, decide_eq_false_iff_not]
        split <;> omega
      unfold lutElem
      simp only []
      rw [hni, if_neg (by simp)]
      simp only [lutFrac, lutInput0, hsub, h1, Option.bind_some]
    · rw [Option.some.inj h3]
      exact expneg_nonneg _ (by omega) (by omega)
    · rintro rfl
      rw [Option.some.inj h3, sub_self, Int.zero_mul, hL, hO, show clamp 32 0 = 0 by decide]
      exact expneg_top.1
    · rw [hexp] at h2
      norm_num at h2 ⊢; linarith

/-- An exponential, as softmax of 16-bit tensors computes it. -/
theorem exp_elem_fx (m : Rnd) (f v mx : Int) (hv : InRange 16 v) (hm : InRange 16 mx) (hle : v ≤ mx) :
    ∃ e, lutElem m expnegLut (.fxOff mx) (.fx 16) f v = some e ∧ 0 ≤ e ∧ e ≤ 32767 ∧ (v = mx → e = 32767) ∧
      |(e : ℝ) - 2 ^ 15 * Real.exp (fxReal (v - mx) f)| ≤ 45 / 8 := by
  have e1 : lo 16 = -32768 := by decide
  have e2 : hi 16 = 32767 := by decide
  obtain ⟨e, h1, h2, h3, h4⟩ := exp_elem_raw m f v mx hv hm hle (.fx 16)
  rw [lutOutput_16 m _ ⟨by omega, by omega⟩] at h1
  exact ⟨e, h1, h2, h3, h4⟩

/-- An exponential, as softmax of 8-bit tensors computes it. -/
theorem exp_elem_fx8 (m : Rnd) (f v mx : Int) (hv : InRange 8 v) (hm : InRange 8 mx) (hle : v ≤ mx) :
    ∃ e, lutElem m expnegLut (.fxOff mx) (.fx 8) f v = some e ∧ 0 ≤ e ∧ e ≤ 127 ∧ (v = mx → e = 127) := by
  have e1 : lo 16 = -32768 := by decide
  have e2 : hi 16 = 32767 := by decide
  have e3 : lo 8 = -128 := by decide
  have e4 : hi 8 = 127 := by decide
  obtain ⟨e, h1, h2, h3, h4, -⟩ := exp_elem_raw m f v mx (inRange_mono (by omega) hv) (inRange_mono (by omega) hm) hle (.fx 8)
  obtain ⟨q, h5, h6⟩ := lutOutput_fx m expnegLut 8 (Or.inl rfl) e ⟨by omega, by omega⟩
  have hq : q = rnd m e 8 := scaled_unique h5 (rnd_scaled m e 8)
  have h0 : 0 ≤ q := by
    have := rnd_mono m h2 8
    rw [rnd_zero] at this; omega
  rw [h6] at h1
  have := clamp_inRange 8 q
  refine ⟨_, h1, ?_, by have := this.2; omega, ?_⟩
  · unfold clamp; rw [e3, e4]; split <;> (try split) <;> omega
  · intro h
    rw [hq, h4 h]
    cases m <;> decide

/-- Larger inputs have larger exponentials. -/
theorem exp_elem_fx_mono (m : Rnd) (f v v' mx e e' : Int) (hv : InRange 16 v) (hv' : InRange 16 v') (hm : InRange 16 mx) (hle : v ≤ v')
    (h : lutElem m expnegLut (.fxOff mx) (.fx 16) f v = some e) (h' : lutElem m expnegLut (.fxOff mx) (.fx 16) f v' = some e') : e ≤ e' := by
  have e1 : lo 16 = -32768 := by decide
  have e2 : hi 16 = 32767 := by decide
  have e3 : lo 32 = -2147483648 := by decide
  have e4 : hi 32 = 2147483647 := by decide
  obtain ⟨v1, v2⟩ := hv
  obtain ⟨v3, v4⟩ := hv'
  obtain ⟨m1, m2⟩ := hm
  obtain ⟨hl, hd, hmono⟩ := expneg_ok
  have hx : InRange 32 (v - mx) := ⟨by omega, by omega⟩
  have hx' : InRange 32 (v' - mx) := ⟨by omega, by omega⟩
  have hsub : subFx 32 v mx = v - mx := by
    rw [subFx_eq ⟨by omega, by omega⟩ ⟨by omega, by omega⟩, clamp_of_inRange hx]
  have hsub' : subFx 32 v' mx = v' - mx := by
    rw [subFx_eq ⟨by omega, by omega⟩ ⟨by omega, by omega⟩, clamp_of_inRange hx']
  have hF : expnegLut.inFrac = 5 := rfl
  have hL : expnegLut.length = 358 := rfl
  have hO : expnegLut.inOffset = 356 := rfl
  by_cases hs : 5 < f
  · obtain ⟨r, r', h1, h2, h3⟩ := (c53_library_tables m f (v - mx) (v' - mx) hx hx' (by omega)).1 hs
    obtain ⟨r1, k1, k2⟩ := c28_interpolate_in_table m expnegLut f (v - mx) hx hl (by omega)
    obtain ⟨r2, k3, k4⟩ := c28_interpolate_in_table m expnegLut f (v' - mx) hx' hl (by omega)
    obtain rfl : r = r1 := by rw [h1] at k1; exact Option.some.inj k1
    obtain rfl : r' = r2 := by rw [h2] at k3; exact Option.some.inj k3
    unfold lutElem at h h'
    simp only [] at h h'
    rw [interp_lutInterpolates (by simp only [lutFrac]; omega), if_pos rfl] at h h'
    simp only [lutFrac, lutInput, hsub, hsub', h1, h2, Option.bind_some, lutOutput_16 m _ k2, lutOutput_16 m _ k4, Option.some.injEq] at h h'
    omega
  · have h1 := c28_plain_in_table expnegLut f (v - mx) hx (by omega) (by omega) hl.int hl.fits hl.offset
    have h2 := c28_plain_in_table expnegLut f (v' - mx) hx' (by omega) (by omega) hl.int hl.fits hl.offset
    have hni : lutInterpolates expnegLut (.fxOff mx) f = false := by
      unfold lutInterpolates lutFrac minFx
      simp only [gt_iff_lt, decide_eq_false_iff_not]
      split <;> omega
    have hmul : (v - mx) * 2 ^ (expnegLut.inFrac - f).toNat ≤ (v' - mx) * 2 ^ (expnegLut.inFrac - f).toNat :=
      Int.mul_le_mul_of_nonneg_right (by omega) (two_pow_pos _).le
    have hc := clamp_mono (w := 32) hmul
    unfold lutElem at h h'
    simp only [] at h h'
    rw [hni, if_neg (by simp)] at h h'
    simp only [lutFrac, lutInput0, hsub, hsub', h1, h2, Option.bind_some] at h h'
    rw [lutOutput_16 m _ (hl.entries _ (by omega) (by omega))] at h h'
    rw [← Option.some.inj h, ← Option.some.inj h']
    exact hmono.le (by omega) (by omega) (by omega)

theorem scaled_mono {m : Rnd} {x y n q r : Int} (h : x ≤ y) (hq : Scaled m x n q) (hr : Scaled m y n r) : q ≤ r := by
  by_cases hn : 0 ≤ n
  · obtain ⟨k, rfl⟩ : ∃ k : Nat, n = k := ⟨n.toNat, by omega⟩
    rw [scaled_unique hq (rnd_scaled m x k), scaled_unique hr (rnd_scaled m y k)]
    exact rnd_mono m h k
  · unfold Scaled at hq hr
    rw [if_neg hn] at hq hr
    rw [hq, hr]
    exact Int.mul_le_mul_of_nonneg_right h (two_pow_pos _).le

/-- Larger SA8 inputs have larger exponentials. -/
theorem exp_elem_sa_mono (m : Rnd) (sc sh v v' mx e e' : Int) (hv : InRange 8 v) (hv' : InRange 8 v') (hm : InRange 8 mx) (hsc : InRange 16 sc)
    (h0 : 0 ≤ sc) (hle : v ≤ v') (h : softmaxExpSa m expnegLut sc sh mx v = some e) (h' : softmaxExpSa m expnegLut sc sh mx v' = some e') : e ≤ e' := by
  have hF : lutFrac expnegLut (.sa mx sc sh) 0 = 13 := by
    show wrap 8 (15 - (7 - expnegLut.inFrac)) = 13
    decide
  obtain ⟨q, h1, h2⟩ := lutInput_sa m mx sc sh 13 v hv hm hsc
  obtain ⟨q', h3, h4⟩ := lutInput_sa m mx sc sh 13 v' hv' hm hsc
  have hq : q ≤ q' := scaled_mono (Int.mul_le_mul_of_nonneg_right (by omega) h0) h1 h3
  obtain ⟨r, r', k1, k2, k3⟩ := (c53_library_tables m 13 _ _ (clamp_inRange 32 q) (clamp_inRange 32 q') (clamp_mono hq)).1 (by omega)
  obtain ⟨r1, k4, k5⟩ := c28_interpolate_in_table m expnegLut 13 _ (clamp_inRange 32 q) expneg_ok.1 (by decide)
  obtain ⟨r2, k6, k7⟩ := c28_interpolate_in_table m expnegLut 13 _ (clamp_inRange 32 q') expneg_ok.1 (by decide)
  obtain rfl : r = r1 := by rw [k1] at k4; exact Option.some.inj k4
  obtain rfl : r' = r2 := by rw [k2] at k6; exact Option.some.inj k6
  unfold softmaxExpSa at h h'
  simp only [hF, h2, h4, k1, k2, Option.bind_some, lutOutput_16 m _ k5, lutOutput_16 m _ k7, Option.some.injEq] at h h'
  omega

/-- An exponential, as softmax of SA8 tensors computes it. -/
theorem exp_elem_sa (m : Rnd) (sc sh v mx : Int) (hv : InRange 8 v) (hm : InRange 8 mx) (hsc : InRange 16 sc) (h0 : 0 ≤ sc) (hle : v ≤ mx) :
    ∃ e, softmaxExpSa m expnegLut sc sh mx v = some e ∧ 0 ≤ e ∧ e ≤ 32767 ∧ (v = mx → e = 32767) ∧
      |(e : ℝ) - 2 ^ 15 * Real.exp (fxReal ((v - mx) * sc) sh)| ≤ 15 / 2 := by
  have e1 : lo 16 = -32768 := by decide
  have e2 : hi 16 = 32767 := by decide
  obtain ⟨hl, hd, hmono⟩ := expneg_ok
  have hF : lutFrac expnegLut (.sa mx sc sh) 0 = 13 := by
    show wrap 8 (15 - (7 - expnegLut.inFrac)) = 13
    decide
  obtain ⟨q, h1, h2⟩ := lutInput_sa m mx sc sh 13 v hv hm hsc
  obtain ⟨e, h3, a, b, c⟩ := expneg_interp m 13 (clamp 32 q) (clamp_inRange _ _) (by omega)
  obtain ⟨e', h3', ht⟩ := c29_interpolated m expnegLut 13 (clamp 32 q) (clamp_inRange _ _) hl hd (by decide)
  obtain rfl : e = e' := by rw [h3] at h3'; exact Option.some.inj h3'
  rw [show (min (13 - expnegLut.inFrac) 15).toNat = 8 from by decide,
    show (min (max (13 - expnegLut.inFrac - 15) 0) 15).toNat = 0 from by decide, pow_zero, Int.ediv_one] at ht
  have k := exp_approx.sa (by norm_num) expneg_small m hl _ sh q e h1 ht
  refine ⟨e, ?_, a, b, ?_, ?_⟩
  · unfold softmaxExpSa
    simp only [hF, h2, h3, Option.bind_some]
    exact lutOutput_16 m _ ⟨by omega, by omega⟩
  · rintro rfl
    apply c
    rw [sub_self, Int.zero_mul] at h1
    have : q = 0 := by
      by_cases hn : 0 ≤ sh - 13
      · refine scaled_unique h1 (scaled_zero hn ?_ ?_) <;> have := two_pow_pos (sh - 13).toNat <;> omega
      · unfold Scaled at h1; rw [if_neg hn, Int.zero_mul] at h1; exact h1
    rw [this]; decide
  · rw [expNeg_of_nonpos] at k
    · refine k.trans ?_
      simp only [expnegLut]; norm_num
    · unfold fxReal
      apply div_nonpos_of_nonpos_of_nonneg _ (by positivity)
      have : (v - mx) * sc ≤ 0 := Int.mul_nonpos_of_nonpos_of_nonneg (by omega) h0
      exact_mod_cast this

/-- The reciprocal: with `R = p.1` and `k = 16 - p.2`, `R * S` is nearly `2^(29+k)`. -/
theorem softmaxRecip_spec (m : Rnd) {S : Int} (h0 : 32767 ≤ S) (h1 : S ≤ 2147385345) :
    ∃ (R : Int) (k : Nat), softmaxRecip m 16 S = some (R, 16 - (k : Int)) ∧ k ≤ 16 ∧ 2 ^ (14 + k) ≤ S ∧ 0 ≤ R ∧ R ≤ 32767 ∧
      2 ^ (29 + k) - 49152 * 2 ^ k ≤ R * S ∧ R * S ≤ 2 ^ (29 + k) + 49152 * 2 ^ k := by
  have e1 : lo 16 = -32768 := by decide
  have e2 : hi 16 = 32767 := by decide
  have e3 : lo 32 = -2147483648 := by decide
  have e4 : hi 32 = 2147483647 := by decide
  have hS : InRange 32 S := ⟨by omega, by omega⟩
  obtain ⟨n, hn, h31, g1, g2⟩ := normFx_pos (by omega) hS
  have hn16 : n ≤ 16 := by
    by_contra hc
    have : (2 ^ 17 : Int) ≤ 2 ^ n := pow_le_pow_right₀ (by decide) (by omega)
    have : 32767 * 2 ^ 17 ≤ S * 2 ^ n := Int.mul_le_mul h0 this (by norm_num) (by omega)
    omega
  obtain ⟨k, hk⟩ : ∃ k : Nat, n + k = 16 := ⟨16 - n, by omega⟩
  have hP := two_pow_pos k
  have hk16 : (2 : Int) ^ k ≤ 2 ^ 16 := pow_le_pow_right₀ (by decide) (by omega)
  have hlow : 2 ^ 14 * 2 ^ k ≤ S := by
    have hN := two_pow_pos n
    have e : (2:Int) ^ 14 * 2 ^ k * 2 ^ n = 2 ^ 30 := by rw [mul_assoc, ← pow_add, show k + n = 16 by omega]; norm_num
    have : (2:Int) ^ 14 * 2 ^ k * 2 ^ n ≤ S * 2 ^ n := by rw [e]; exact g1
    exact le_of_mul_le_mul_right this hN
  have hup : S < 2 ^ 15 * 2 ^ k := by
    have hN := two_pow_pos n
    have e : (2:Int) ^ 15 * 2 ^ k * 2 ^ n = 2 ^ 31 := by rw [mul_assoc, ← pow_add, show k + n = 16 by omega]; norm_num
    have : S * 2 ^ n < (2:Int) ^ 15 * 2 ^ k * 2 ^ n := by rw [e]; omega
    exact lt_of_mul_lt_mul_right this hN.le
  have hsh : (16 : Int) - n = (k : Int) := by omega
  have hrnd : asrRndFx m 32 S (k : Int) = rnd m S k := by
    apply asrRnd_eq_rnd m (by omega) hS
    right; right
    have : (2 ^ (k - 1) : Int) ≤ 2 ^ 15 := pow_le_pow_right₀ (by decide) (by omega)
    omega
  obtain ⟨r1, r2⟩ := rnd_nearest m S k
  have hmnt : accCast16 m S (16 - (n : Int)) = clamp 16 (rnd m S k) := by rw [accCast16_eq m hS, hsh, hrnd]
  generalize rnd m S k = q at *
  have hq0 : 16384 ≤ q := by
    by_contra hc
    have : q * 2 ^ k ≤ 16383 * 2 ^ k := Int.mul_le_mul_of_nonneg_right (by omega) hP.le
    omega
  have hq1 : q ≤ 32768 := by
    by_contra hc
    have : 32769 * 2 ^ k ≤ q * 2 ^ k := Int.mul_le_mul_of_nonneg_right (by omega) hP.le
    omega
  obtain ⟨M, hM⟩ : ∃ M, clamp 16 q = M := ⟨_, rfl⟩
  have hMq : M = min q 32767 := by rw [← hM]; unfold clamp; rw [e1, e2]; split <;> (try split) <;> omega
  have hM0 : 16384 ≤ M := by omega
  have hM1 : M ≤ 32767 := by omega
  have hd1 : M * 2 ^ k - S ≤ 2 ^ k := by
    have : M * 2 ^ k ≤ q * 2 ^ k := Int.mul_le_mul_of_nonneg_right (by omega) hP.le
    omega
  have hd2 : S - M * 2 ^ k ≤ 2 ^ k := by
    rcases (by omega : M = q ∨ M = 32767) with h | h
    · rw [h]; omega
    · rw [h]; omega
  obtain ⟨R, hR⟩ : ∃ R, minFx ((2 ^ 29 : Int).tdiv M) 32767 = R := ⟨_, rfl⟩
  have htd : (2 ^ 29 : Int).tdiv M = 2 ^ 29 / M := by rw [Int.tdiv_eq_ediv_of_nonneg (by norm_num)]
  have hRq : R = min (2 ^ 29 / M) 32767 := by rw [← hR, htd]; unfold minFx; split <;> omega
  have hdm := Int.mul_ediv_add_emod (2 ^ 29) M
  have hmod := Int.emod_lt_of_pos (2 ^ 29) (show 0 < M by omega)
  have hmod0 := Int.emod_nonneg (2 ^ 29) (show M ≠ 0 by omega)
  generalize (2 ^ 29 : Int) / M = D at *
  generalize (2 ^ 29 : Int) % M = T at *
  have hD0 : 16384 ≤ D := by
    by_contra hc
    have : M * D ≤ 32767 * 16383 := by
      rcases Int.lt_or_le D 0 with h | h
      · have := Int.mul_nonpos_of_nonneg_of_nonpos (show 0 ≤ M by omega) h.le; omega
      · exact Int.mul_le_mul hM1 (by omega) h (by omega)
    omega
  have hD1 : D ≤ 32768 := by
    by_contra hc
    have : 16384 * 32769 ≤ M * D := Int.mul_le_mul hM0 (by omega) (by norm_num) (by omega)
    omega
  have hR0 : 16384 ≤ R := by omega
  have hR1 : R ≤ 32767 := by omega
  have hRM1 : R * M ≤ 2 ^ 29 := by
    have : M * R ≤ M * D := Int.mul_le_mul_of_nonneg_left (by omega) (by omega)
    rw [mul_comm]; omega
  have hRM2 : 2 ^ 29 - M ≤ R * M := by
    rcases (by omega : R = D ∨ (R = 32767 ∧ D = 32768)) with h | ⟨h, h'⟩
    · rw [h, mul_comm]; omega
    · have : M = 16384 := by
        by_contra hc
        have : 16385 * 32768 ≤ M * D := by rw [h']; exact Int.mul_le_mul_of_nonneg_right (by omega) (by norm_num)
        omega
      rw [h, this]; norm_num
  have hsum : M + R ≤ 49152 := by
    by_contra hc
    have h1 : 0 ≤ (M - 16384) * (32768 - M) := Int.mul_nonneg (by omega) (by omega)
    have h2 : M * (49153 - M) ≤ M * R := Int.mul_le_mul_of_nonneg_left (by omega) (by omega)
    nlinarith
  have hRr : InRange 16 R := ⟨by omega, by omega⟩
  refine ⟨R, k, ?_, by omega, by rw [pow_add]; exact hlow, by omega, hR1, ?_, ?_⟩
  · unfold softmaxRecip
    simp only [hn, hmnt]
    rw [if_neg (by norm_num : ¬ (16 = 8)), hM, if_neg (show ¬ M = 0 by omega), hR, wrap_of_inRange (by omega) hRr]
    congr 2; omega
  · rw [pow_add]
    have h1 : R * (M * 2 ^ k - 2 ^ k) ≤ R * S := Int.mul_le_mul_of_nonneg_left (by omega) (by omega)
    have h2 : (2 ^ 29 - M) * 2 ^ k ≤ R * M * 2 ^ k := Int.mul_le_mul_of_nonneg_right hRM2 hP.le
    have h3 : (M + R) * 2 ^ k ≤ 49152 * 2 ^ k := Int.mul_le_mul_of_nonneg_right hsum hP.le
    have e5 : R * (M * 2 ^ k - 2 ^ k) = R * M * 2 ^ k - R * 2 ^ k := by ring
    have e6 : (2 ^ 29 - M) * 2 ^ k = 2 ^ 29 * 2 ^ k - M * 2 ^ k := by ring
    have e7 : (M + R) * 2 ^ k = M * 2 ^ k + R * 2 ^ k := by ring
    omega
  · rw [pow_add]
    have h1 : R * S ≤ R * (M * 2 ^ k + 2 ^ k) := Int.mul_le_mul_of_nonneg_left (by omega) (by omega)
    have h2 : R * M * 2 ^ k ≤ 2 ^ 29 * 2 ^ k := Int.mul_le_mul_of_nonneg_right hRM1 hP.le
    have h3 : R * 2 ^ k ≤ 49152 * 2 ^ k := Int.mul_le_mul_of_nonneg_right (by omega) hP.le
    have e5 : R * (M * 2 ^ k + 2 ^ k) = R * M * 2 ^ k + R * 2 ^ k := by ring
    omega

/-- `R * e / 2^(14+k)` is nearly `2^15 * e / S`. -/
theorem recip_real {R S e : Int} {k : Nat} (hS : 2 ^ (14 + k) ≤ S) (he : 0 ≤ e)
    (h1 : 2 ^ (29 + k) - 49152 * 2 ^ k ≤ R * S) (h2 : R * S ≤ 2 ^ (29 + k) + 49152 * 2 ^ k) :
    |(R * e : ℝ) / 2 ^ (14 + k) - 2 ^ 15 * (e : ℝ) / S| ≤ 3 * (e : ℝ) / S := by
  have hP := two_pow_pos (14 + k)
  have hSp : 0 < S := by omega
  have hS' : (0:ℝ) < S := by exact_mod_cast hSp
  have he' : (0:ℝ) ≤ e := by exact_mod_cast he
  have hQ : (0:ℝ) < 2 ^ (14 + k) := by positivity
  have h1' : (2:ℝ) ^ (29 + k) - 49152 * 2 ^ k ≤ R * S := by exact_mod_cast h1
  have h2' : (R:ℝ) * S ≤ 2 ^ (29 + k) + 49152 * 2 ^ k := by exact_mod_cast h2
  have ea : (2:ℝ) ^ (29 + k) = 2 ^ 15 * 2 ^ (14 + k) := by rw [← pow_add]; congr 1; omega
  have eb : (49152:ℝ) * 2 ^ k = 3 * 2 ^ (14 + k) := by rw [pow_add]; norm_num; ring
  rw [ea, eb] at h1' h2'
  have ec : (R * e : ℝ) / 2 ^ (14 + k) - 2 ^ 15 * e / S = (R * S - 2 ^ 15 * 2 ^ (14 + k)) * e / (2 ^ (14 + k) * S) := by
    field_simp
  rw [ec, abs_div, abs_mul, abs_of_nonneg he', abs_of_pos (mul_pos hQ hS')]
  rw [div_le_div_iff₀ (mul_pos hQ hS') hS']
  have : |(R:ℝ) * S - 2 ^ 15 * 2 ^ (14 + k)| ≤ 3 * 2 ^ (14 + k) := by rw [abs_le]; constructor <;> linarith
  calc _ ≤ 3 * 2 ^ (14 + k) * (e : ℝ) * S := by gcongr
    _ = _ := by ring

/-- The last step of the 16-bit kernel. -/
theorem softmax_out_fx (m : Rnd) {R S e : Int} {k : Nat} (hk : k ≤ 16) (hS : 2 ^ (14 + k) ≤ S) (he : 0 ≤ e) (he' : e ≤ 32767)
    (hR : 0 ≤ R) (hR' : R ≤ 32767) (h1 : 2 ^ (29 + k) - 49152 * 2 ^ k ≤ R * S) (h2 : R * S ≤ 2 ^ (29 + k) + 49152 * 2 ^ k) :
    accCast16 m (R * e) (minFx (15 * 2 + (15 - (16 - k)) - 15) 31) = clamp 16 (rnd m (R * e) (14 + k)) ∧
      |((rnd m (R * e) (14 + k) : Int) : ℝ) - 2 ^ 15 * (e : ℝ) / S| ≤ 1 / 2 + 3 * (e : ℝ) / S := by
  have e3 : lo 32 = -2147483648 := by decide
  have e4 : hi 32 = 2147483647 := by decide
  have hp : 0 ≤ R * e := Int.mul_nonneg hR he
  have hp' : R * e ≤ 32767 * 32767 := Int.mul_le_mul hR' he' he (by omega)
  have hr : InRange 32 (R * e) := ⟨by omega, by omega⟩
  have hmin : minFx (15 * 2 + (15 - (16 - (k : Int))) - 15) 31 = ((14 + k : Nat) : Int) := by
    unfold minFx; push_cast; split <;> omega
  constructor
  · rw [accCast16_eq m hr, hmin, asrRnd_eq_rnd m (by omega) hr]
    right; right
    have : (2 ^ (14 + k - 1) : Int) ≤ 2 ^ 29 := pow_le_pow_right₀ (by decide) (by omega)
    omega
  · have a := scaled_real (rnd_scaled m (R * e) (14 + k))
    have b := recip_real hS he h1 h2
    unfold fxReal at a
    rw [zpow_natCast, Int.cast_mul] at a
    have := abs_add_le (((rnd m (R * e) (14 + k) : Int) : ℝ) - R * e / 2 ^ (14 + k)) ((R * e : ℝ) / 2 ^ (14 + k) - 2 ^ 15 * e / S)
    rw [sub_add_sub_cancel] at this
    exact this.trans (add_le_add a b)

/-- The last step of the SA8 kernel: the limit of the shift amount has no effect. -/
theorem softmax_out_sa (m : Rnd) {R S e : Int} {k : Nat} (hk : k ≤ 16) (hS : 2 ^ (14 + k) ≤ S) (he : 0 ≤ e) (he' : e ≤ 32767)
    (hR : 0 ≤ R) (hR' : R ≤ 32767) (h1 : 2 ^ (29 + k) - 49152 * 2 ^ k ≤ R * S) (h2 : R * S ≤ 2 ^ (29 + k) + 49152 * 2 ^ k) :
    ∃ n : Nat, asrRndFx m 32 (R * e) (minFx (15 * 2 + (15 - (16 - k)) - 8) 31) = rnd m (R * e) n ∧
      0 ≤ rnd m (R * e) n ∧ rnd m (R * e) n ≤ 32768 ∧ n = min (21 + k) 31 ∧
      |((rnd m (R * e) n : Int) : ℝ) - 2 ^ 8 * (e : ℝ) / S| ≤ 1 / 2 + 3 / 2 ^ 7 * (e : ℝ) / S := by
  have e3 : lo 32 = -2147483648 := by decide
  have e4 : hi 32 = 2147483647 := by decide
  have hp : 0 ≤ R * e := Int.mul_nonneg hR he
  have hp' : R * e ≤ 32767 * 32767 := Int.mul_le_mul hR' he' he (by omega)
  have hr : InRange 32 (R * e) := ⟨by omega, by omega⟩
  have hmin : minFx (15 * 2 + (15 - (16 - (k : Int))) - 8) 31 = ((min (21 + k) 31 : Nat) : Int) := by
    unfold minFx; push_cast; split <;> omega
  refine ⟨min (21 + k) 31, ?_, ?_, ?_, rfl, ?_⟩
  · rw [hmin, asrRnd_eq_rnd m (by omega) hr]
    right; right
    have : (2 ^ (min (21 + k) 31 - 1) : Int) ≤ 2 ^ 30 := pow_le_pow_right₀ (by decide) (by omega)
    omega
  · have := rnd_mono m hp (min (21 + k) 31)
    rwa [rnd_zero] at this
  · have hn := (rnd_nearest m (R * e) (min (21 + k) 31)).1
    have hn2 := (rnd_nearest m (R * e) (min (21 + k) 31)).2
    have : (2 ^ 21 : Int) ≤ 2 ^ (min (21 + k) 31) := pow_le_pow_right₀ (by decide) (by omega)
    generalize rnd m (R * e) (min (21 + k) 31) = q at *
    generalize (2 ^ (min (21 + k) 31) : Int) = P at *
    by_contra hc
    have : 32769 * P ≤ q * P := Int.mul_le_mul_of_nonneg_right (by omega) (by omega)
    omega
  · have a := scaled_real (rnd_scaled m (R * e) (min (21 + k) 31))
    have b := recip_real hS he h1 h2
    have hSp : 0 < S := by have := two_pow_pos (14 + k); omega
    have hS' : (0:ℝ) < S := by exact_mod_cast hSp
    have he'' : (0:ℝ) ≤ e := by exact_mod_cast he
    by_cases hk10 : k ≤ 10
    · rw [show min (21 + k) 31 = 21 + k by omega] at *
      unfold fxReal at a
      rw [zpow_natCast, Int.cast_mul] at a
      have c : |(R * e : ℝ) / 2 ^ (21 + k) - 2 ^ 8 * (e : ℝ) / S| ≤ 3 / 2 ^ 7 * (e : ℝ) / S := by
        have e1 : (R * e : ℝ) / 2 ^ (21 + k) - 2 ^ 8 * e / S = ((R * e : ℝ) / 2 ^ (14 + k) - 2 ^ 15 * e / S) / 2 ^ 7 := by
          rw [show 21 + k = (14 + k) + 7 by omega, pow_add _ (14 + k) 7]
          field_simp
        rw [e1, abs_div, abs_of_pos (by positivity : (0:ℝ) < 2 ^ 7), div_le_iff₀ (by positivity)]
        refine b.trans (le_of_eq ?_)
        field_simp
      have := abs_add_le (((rnd m (R * e) (21 + k) : Int) : ℝ) - R * e / 2 ^ (21 + k)) ((R * e : ℝ) / 2 ^ (21 + k) - 2 ^ 8 * e / S)
      rw [sub_add_sub_cancel] at this
      exact this.trans (add_le_add a c)
    · have hz : rnd m (R * e) (min (21 + k) 31) = 0 := by
        rw [show min (21 + k) 31 = 31 by omega]
        refine scaled_unique (rnd_scaled m (R * e) 31) (scaled_zero (by omega) ?_ ?_)
        · rw [Int.toNat_natCast]; norm_num; omega
        · rw [Int.toNat_natCast]; norm_num; omega
      rw [hz]
      have hS2 : (2:ℝ) ^ 25 ≤ S := by
        have h3 : (2 ^ 25 : Int) ≤ 2 ^ (14 + k) := pow_le_pow_right₀ (by decide) (by omega)
        have : (2 ^ 25 : Int) ≤ S := by omega
        exact_mod_cast this
      have he3 : (e : ℝ) ≤ 32767 := by exact_mod_cast he'
      have d : 2 ^ 8 * (e : ℝ) / S ≤ 1 / 2 := by
        rw [div_le_div_iff₀ hS' (by norm_num)]
        nlinarith
      have d2 : 0 ≤ 2 ^ 8 * (e : ℝ) / S := by positivity
      have d3 : 0 ≤ 3 / 2 ^ 7 * (e : ℝ) / S := by positivity
      rw [Int.cast_zero, zero_sub, abs_neg, abs_of_nonneg d2]
      linarith

/-- Quotients of sums: when every term is within `D` of `2^15` times a positive real and the sum is at least 32767, the quotient is accurate. -/
theorem quotient_real {α : Type} (L : List α) (E : α → Int) (x : α → ℝ) (D : ℝ) (hD : 0 ≤ D) (hx : ∀ a ∈ L, 0 < x a)
    (h : ∀ a ∈ L, |(E a : ℝ) - 2 ^ 15 * x a| ≤ D) (hS : 32767 ≤ (L.map E).sum) (i : α) (hi : i ∈ L) :
    |2 ^ 15 * (E i : ℝ) / ((L.map E).sum : Int) - 2 ^ 15 * (x i / (L.map x).sum)| ≤
      1.0001 * D * (1 + L.length * (x i / (L.map x).sum)) := by
  have hsum : |(((L.map E).sum : Int) : ℝ) - 2 ^ 15 * (L.map x).sum| ≤ L.length * D ∧ (x i ≤ (L.map x).sum) := by
    clear hS
    constructor
    · clear hi
      induction L with
      | nil => simp
      | cons a L ih =>
        have h1 := ih (fun b hb => hx b (by simp [hb])) (fun b hb => h b (by simp [hb]))
        have h2 := h a (by simp)
        simp only [List.map_cons, List.sum_cons, List.length_cons]
        rw [Int.cast_add, Nat.cast_add, Nat.cast_one]
        rw [abs_le] at *
        constructor <;> linarith [h1.1, h1.2, h2.1, h2.2]
    · exact List.single_le_sum (by
        intro y hy
        obtain ⟨b, hb, rfl⟩ := List.mem_map.1 hy
        exact (hx b hb).le) _ (List.mem_map.2 ⟨i, hi, rfl⟩)
  obtain ⟨hd, hxi⟩ := hsum
  have hei := h i hi
  have hxp := hx i hi
  have hX : 0 < (L.map x).sum := by linarith
  generalize (L.map x).sum = X at *
  have hS' : (32767:ℝ) ≤ ((L.map E).sum : Int) := by exact_mod_cast hS
  generalize (L.map E).sum = S at *
  have hSp : (0:ℝ) < S := by linarith
  generalize (L.length : ℝ) = n at *
  generalize (E i : ℝ) = e at *
  generalize x i = y at *
  have hn : 0 ≤ n * D := le_trans (abs_nonneg _) hd
  have e1 : 2 ^ 15 * e / (S:ℝ) - 2 ^ 15 * (y / X) = 2 ^ 15 * ((e - 2 ^ 15 * y) * X - y * (S - 2 ^ 15 * X)) / (S * X) := by
    field_simp; ring
  have e2 : |(e - 2 ^ 15 * y) * X - y * ((S:ℝ) - 2 ^ 15 * X)| ≤ D * X + y * (n * D) := by
    have t := abs_sub ((e - 2 ^ 15 * y) * X) (y * ((S:ℝ) - 2 ^ 15 * X))
    rw [abs_mul, abs_mul, abs_of_pos hX, abs_of_pos hxp] at t
    have : |e - 2 ^ 15 * y| * X ≤ D * X := by gcongr
    have : y * |(S:ℝ) - 2 ^ 15 * X| ≤ y * (n * D) := by gcongr
    linarith
  rw [e1, abs_div, abs_mul, abs_of_pos (mul_pos hSp hX), abs_of_pos (by positivity : (0:ℝ) < 2 ^ 15)]
  rw [div_le_iff₀ (mul_pos hSp hX)]
  have e3 : 1.0001 * D * (1 + n * (y / X)) * (S * X) = 1.0001 * S * (D * X + y * (n * D)) := by
    field_simp
  rw [e3]
  have hpos : 0 ≤ D * X + y * (n * D) := by positivity
  calc 2 ^ 15 * |(e - 2 ^ 15 * y) * X - y * ((S:ℝ) - 2 ^ 15 * X)| ≤ 2 ^ 15 * (D * X + y * (n * D)) := by gcongr
    _ ≤ 1.0001 * S * (D * X + y * (n * D)) := by
      apply mul_le_mul_of_nonneg_right _ hpos
      norm_num; linarith

/-- Subtracting a constant does not change the softmax. -/
theorem softmax_shift (L : List (List Int)) (x : List Int → ℝ) (c : ℝ) (is : List Int) :
    Real.exp (x is - c) / (L.map fun js => Real.exp (x js - c)).sum = Real.exp (x is) / (L.map fun js => Real.exp (x js)).sum := by
  have : (L.map fun js => Real.exp (x js - c)) = L.map fun js => (Real.exp c)⁻¹ * Real.exp (x js) := by
    apply List.map_congr_left; intro js _; rw [Real.exp_sub]; field_simp
  rw [this, List.sum_map_mul_left, Real.exp_sub]
  have := Real.exp_pos c
  field_simp

end Mli
