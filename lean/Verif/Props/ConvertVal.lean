import Verif.Lemmas.Slices
import Verif.Props.Quant

/-! # Values stored by the conversion of tensors -/

namespace Mli

open Spec

theorem requant_free (m : Rnd) (sI fI zi zi' sO fO zo zo' : Int) :
    (requantParams m sI fI zi sO fO zo).map (fun p => (p.1, p.2.1)) = (requantParams m sI fI zi' sO fO zo').map (fun p => (p.1, p.2.1)) := by
  simp only [requantParams, Option.bind_eq_bind, Option.pure_def]
  by_cases h : normFx 32 sI - normFx 16 sO < 0 ∨ 32 ≤ normFx 32 sI - normFx 16 sO
  · rw [if_pos h, if_pos h, Option.bind_none, Option.bind_none]
  · rw [if_neg h, if_neg h]
    by_cases h0 : sO = 0
    · simp only [if_pos h0, Option.bind_none]
    · simp only [if_neg h0, Option.bind_some]
      cases ckd 32 (sI * 2 ^ (normFx 32 sI - normFx 16 sO).toNat) <;> simp only [Option.bind_none, Option.bind_some, Option.map_none, Option.map_some]

/-- Parameters of a conversion between positive scales. -/
theorem requant_ok (m : Rnd) (sI fI zi sO fO zo : Int) (hI : 0 < sI) (hI2 : InRange 16 sI) (hO : 0 < sO) (hO2 : InRange 16 sO) :
    ∃ scale shift o, requantParams m sI fI zi sO fO zo = some (scale, shift, o) ∧ 2 ^ 14 ≤ scale ∧ scale ≤ 2 ^ 15 - 1 ∧
      RelErr (1 / 2 ^ 13) (scaleVal scale shift) (scaleVal sI fI / scaleVal sO fO) := by
  obtain ⟨scale, shift, o, h1, h2, h3, h4, -⟩ := c46_requant_params m sI fI 0 sO fO 0 hI hI2 hO hO2 (by decide) (by decide)
  have h := requant_free m sI fI zi 0 sO fO zo 0
  rw [h1] at h
  cases hc : requantParams m sI fI zi sO fO zo with
  | none => rw [hc] at h; simp at h
  | some p =>
    rw [hc] at h
    obtain ⟨a, b, c⟩ := p
    simp only [Option.map_some, Option.some.injEq, Prod.mk.injEq] at h
    exact ⟨a, b, c, rfl, by omega, by omega, by rw [h.1, h.2]; exact h4⟩

/-- Parameters of a conversion between fixed-point formats. -/
theorem requant_fx (m : Rnd) (fI fO : Int) : (requantParams m 1 fI 0 1 fO 0).map (fun p => (p.1, p.2.1)) = some (2 ^ 14, 14 + fI - fO) := by
  have e1 : normFx 32 1 - normFx 16 1 = 16 := by decide
  have e2 : normCastFx m 32 16 65536 = (16384, 2) := by cases m <;> decide
  have e3 : ckd 32 65536 = some 65536 := by decide
  unfold requantParams
  rw [e1]
  simp only [show ¬ ((16 : Int) < 0 ∨ 32 ≤ (16 : Int)) by omega, show ¬ (1 : Int) = 0 by omega, if_false, Option.bind_eq_bind, Option.bind_some,
    Option.pure_def, show (1 : Int) * 2 ^ (16 : Int).toNat = 65536 by decide, e3, show (65536 : Int).tdiv 1 = 65536 by decide, e2, Option.map_some]
  congr 2
  omega

/-- Shift of a product by any amount, with amounts above 31 replaced by 31. -/
theorem shift31 (m : Rnd) {p : Int} (hp : -(2 ^ 30 - 1) ≤ p ∧ p ≤ 2 ^ 30 - 1) (k : Int) :
    ∃ r, Scaled m p k r ∧ asrRndFx m 32 p (minFx k 31) = clamp 32 r := by
  have hr : InRange 32 p := ⟨by simp only [lo]; omega, by simp only [hi]; omega⟩
  have em : minFx k 31 = min k 31 := by unfold minFx; split <;> omega
  rw [em]
  rcases Int.lt_or_le k 0 with hk | hk
  · obtain ⟨n, rfl⟩ : ∃ n : Nat, k = -(n : Int) := ⟨(-k).toNat, by omega⟩
    refine ⟨p * 2 ^ n, ?_, ?_⟩
    · unfold Scaled; rw [if_neg (by omega)]; congr 2; omega
    · rw [show min (-(n : Int)) 31 = -(n : Int) by omega, asrRnd_neg (by omega) hr]
  · obtain ⟨n, rfl⟩ : ∃ n : Nat, k = (n : Int) := ⟨k.toNat, by omega⟩
    refine ⟨rnd m p n, rnd_scaled m p n, ?_⟩
    rcases Nat.lt_or_ge n 32 with hn | hn
    · rw [show min (n : Int) 31 = n by omega, ← asrRnd_eq_rnd m (w := 32) (by omega) hr n (Or.inr (Or.inr (by
        have : (2 : Int) ^ (n - 1) ≤ 2 ^ 30 := pow_le_pow_right₀ (by decide) (by omega)
        simp only [hi]; omega)))]
      exact (clamp_of_inRange (asrRnd_inRange m (by omega) hr _)).symm
    · rw [show min (n : Int) 31 = (31 : Nat) by omega, asrRnd_eq_rnd m (w := 32) (by omega) hr 31 (Or.inr (Or.inr (by simp only [hi]; omega)))]
      have h0 : Scaled m p (31 : Nat) 0 := scaled_zero (by omega) (by show -(2 ^ 31) < 2 * p; omega) (by show 2 * p < 2 ^ 31; omega)
      have h31 : (2 : Int) ^ 31 ≤ 2 ^ n := pow_le_pow_right₀ (by decide) (by omega)
      have h1 : Scaled m p n 0 := scaled_zero (by omega) (by rw [Int.toNat_natCast]; omega) (by rw [Int.toNat_natCast]; omega)
      rw [scaled_unique (rnd_scaled m p 31) h0, scaled_unique (rnd_scaled m p n) h1]
      decide

/-- The value stored with a 32-bit accumulator. -/
theorem calc_narrow (m : Rnd) {wo : Nat} (hw : 2 ≤ wo ∧ wo ≤ 16) {x zi scale zo : Int} (shift : Int) (hx : InRange 16 x) (hz : InRange 16 zi)
    (hd : InRange 16 (x - zi)) (hs : 0 ≤ scale ∧ scale ≤ 2 ^ 15 - 1) (ho : InRange 16 zo) :
    Rescaled m wo x zi scale shift zo (calcConvert m false wo zi scale (minFx shift 31) zo x) := by
  have hd1 := hd.1
  have hd2 := hd.2
  have ho1 := ho.1
  have ho2 := ho.2
  simp only [lo, hi] at hd1 hd2 ho1 ho2
  have hp : -(2 ^ 30 - 1) ≤ (x - zi) * scale ∧ (x - zi) * scale ≤ 2 ^ 30 - 1 := by
    have : |(x - zi) * scale| ≤ 2 ^ 15 * (2 ^ 15 - 1) := by
      rw [abs_mul]
      exact mul_le_mul (by rw [abs_le]; omega) (by rw [abs_le]; omega) (abs_nonneg _) (by decide)
    have := abs_le.1 this
    omega
  obtain ⟨r, h1, h2⟩ := shift31 m hp shift
  refine ⟨r, h1, ?_⟩
  have hr := clamp_inRange 32 r
  have ho32 : InRange 32 zo := inRange_mono (by omega) ho
  unfold calcConvert
  simp only [Bool.false_eq_true, if_false]
  rw [subFx_eq hx hz, clamp_of_inRange hd, h2, addFx_eq hr ho32, castFx_eq m (by omega) (by omega) (clamp_inRange _ _)]
  rw [show asrRndFx m 32 (clamp 32 (clamp 32 r + zo)) 0 = clamp 32 (clamp 32 r + zo) by
    have := asrRnd_neg (m := m) (w := 32) (by omega) (clamp_inRange 32 (clamp 32 r + zo)) 0
    simpa [clamp_of_inRange (clamp_inRange 32 (clamp 32 r + zo))] using this]
  rw [clamp_clamp (by omega)]
  have k1 : hi wo ≤ 2 ^ 15 - 1 := by
    simp only [hi]
    have : (2 : Int) ^ (wo - 1) ≤ 2 ^ 15 := pow_le_pow_right₀ (by decide) (by omega)
    omega
  have k2 : -(2 ^ 15) ≤ lo wo := by
    simp only [lo]
    have : (2 : Int) ^ (wo - 1) ≤ 2 ^ 15 := pow_le_pow_right₀ (by decide) (by omega)
    omega
  by_cases h : InRange 32 r
  · rw [clamp_of_inRange h]
  · by_cases hp : r < lo 32
    · rw [clamp_of_lt (le_of_lt hp), clamp_of_lt (x := lo 32 + zo) (by simp only [lo] at *; omega), clamp_of_lt (x := r + zo) (by simp only [lo] at *; omega)]
    · have hp2 : hi 32 < r := by
        by_contra hc; exact h ⟨by omega, by omega⟩
      rw [clamp_of_gt (le_of_lt hp2), clamp_of_gt (x := hi 32 + zo) (by simp only [hi] at *; omega), clamp_of_gt (x := r + zo) (by simp only [hi] at *; omega)]

/-- Mantissa and exponent of a number that is not 0. -/
theorem norm_mag {x : Int} (h0 : x ≠ 0) (hx : InRange 32 x) :
    ∃ n : Nat, normFx 32 x = n ∧ n ≤ 31 ∧ InRange 32 (x * 2 ^ n) ∧ 2 ^ 30 ≤ |x * 2 ^ n| := by
  obtain ⟨n, e, b, r, nr, -⟩ := normFx_spec 32 (by omega) x hx
  refine ⟨n, e, b, r, ?_⟩
  by_contra hc
  apply nr h0
  rw [pow_succ, ← Int.mul_assoc]
  have := abs_lt.1 (not_le.1 hc)
  constructor <;> simp only [lo, hi] <;> omega

theorem two_zpow_pos (k : Int) : (0 : ℚ) < (2 : ℚ) ^ k := by positivity

/-- The value stored with a 64-bit accumulator. -/
theorem calc_wide (m : Rnd) {wo : Nat} (hw : 2 ≤ wo ∧ wo ≤ 32) {x zi scale zo : Int} (shift : Int) (hx : InRange 32 x) (hz : InRange 16 zi)
    (hd : InRange 32 (x - zi)) (hs : 2 ^ 14 ≤ scale ∧ scale ≤ 2 ^ 15 - 1) (ho : InRange 16 zo) :
    ∃ r : Int, |(r : ℚ) - (x - zi : Int) * scaleVal scale shift| ≤ 1 / 2 + |(x - zi : Int) * scaleVal scale shift| / 2 ^ 28 ∧
      calcConvert m true wo zi scale (minFx shift 63) zo x = clamp wo (clamp 32 r + zo) := by
  have hz32 : InRange 32 zi := inRange_mono (by omega) hz
  have ho32 : InRange 32 zo := inRange_mono (by omega) ho
  have hs32 : InRange 32 scale := ⟨by simp only [lo]; omega, by simp only [hi]; omega⟩
  generalize hv : x - zi = v at *
  have em : minFx shift 63 = min shift 63 := by unfold minFx; split <;> omega
  have key : ∃ r : Int, |(r : ℚ) - v * scaleVal scale shift| ≤ 1 / 2 + |v * scaleVal scale shift| / 2 ^ 28 ∧
      asrRndFx m 32 (wrap 32 ((aslFx 32 v (normFx 32 v) * aslFx 32 scale (normFx 32 scale)) >>> 32))
        (min shift 63 + normFx 32 scale + normFx 32 v - 32) = clamp 32 r := by
    obtain ⟨sn, es, bs, s1, s2⟩ := normFx_pos (x := scale) (by omega) hs32
    have as : aslFx 32 scale (normFx 32 scale) = scale * 2 ^ sn := by
      rw [es, aslFx_nonneg (by omega) hs32, clamp_of_inRange ⟨by simp only [lo]; omega, by simp only [hi]; omega⟩]
    rw [as]
    by_cases h0 : v = 0
    · subst h0
      refine ⟨0, by simp, ?_⟩
      have : normFx 32 0 = 31 := by decide
      rw [this, show aslFx 32 0 31 = 0 by decide]
      simp only [Int.zero_mul]
      rw [show wrap 32 ((0 : Int) >>> 32) = 0 by decide]
      rcases Int.lt_or_le (min shift 63 + normFx 32 scale + 31 - 32) 0 with h | h
      · obtain ⟨n, hn⟩ : ∃ n : Nat, min shift 63 + normFx 32 scale + 31 - 32 = -(n : Int) := ⟨(-(min shift 63 + normFx 32 scale + 31 - 32)).toNat, by omega⟩
        rw [hn, asrRnd_neg (by omega) (by decide), Int.zero_mul]
      · obtain ⟨n, hn⟩ : ∃ n : Nat, min shift 63 + normFx 32 scale + 31 - 32 = n := ⟨(min shift 63 + normFx 32 scale + 31 - 32).toNat, by omega⟩
        rw [hn, asrRnd_eq_rnd m (by omega) (by decide) n (by
          by_cases hn : 32 ≤ n
          · omega
          · right; right
            have : (2 : Int) ^ (n - 1) ≤ 2 ^ 30 := pow_le_pow_right₀ (by decide) (by omega)
            simp only [hi]; omega)]
        have : Scaled m 0 n 0 := scaled_zero (by omega) (by have := two_pow_pos (n : Int).toNat; omega) (by have := two_pow_pos (n : Int).toNat; omega)
        rw [scaled_unique (rnd_scaled m 0 n) this]
        decide
    · obtain ⟨n, en, bn, r1, r2⟩ := norm_mag h0 hd
      have av : aslFx 32 v (normFx 32 v) = v * 2 ^ n := by
        rw [en, aslFx_nonneg (by omega) hd, clamp_of_inRange r1]
      rw [av, en, es]
      have ha1 : |v * 2 ^ n * (scale * 2 ^ sn)| ≤ 2 ^ 31 * (2 ^ 31 - 1) := by
        rw [abs_mul]
        have := r1.1; have := r1.2
        simp only [lo, hi] at *
        exact mul_le_mul (by rw [abs_le]; omega) (by rw [abs_le]; omega) (abs_nonneg _) (by decide)
      have ha2 : 2 ^ 30 * 2 ^ 30 ≤ |v * 2 ^ n * (scale * 2 ^ sn)| := by
        rw [abs_mul]
        exact mul_le_mul r2 (by rw [abs_of_nonneg (by omega)]; exact s1) (by decide) (abs_nonneg _)
      have hpos : (v * 2 ^ n * (scale * 2 ^ sn)) ≤ (2 ^ 31 - 1) * (2 ^ 31 - 1) := by
        rcases Int.lt_or_le v 0 with hv0 | hv0
        · have : v * 2 ^ n * (scale * 2 ^ sn) ≤ 0 := by
            have : 0 ≤ (-v) * 2 ^ n * (scale * 2 ^ sn) := by
              have : 0 ≤ -v := by omega
              have : 0 ≤ scale := by omega
              positivity
            have e : (-v) * 2 ^ n * (scale * 2 ^ sn) = -(v * 2 ^ n * (scale * 2 ^ sn)) := by ring
            omega
          omega
        · have h1 := r1.2
          simp only [hi] at h1
          exact mul_le_mul h1 s2 (by omega) (by decide)
      have eacc : ((v * 2 ^ n * (scale * 2 ^ sn) : Int) : ℚ) = v * scale * (2 : ℚ) ^ ((n : Int) + sn) := by
        push_cast
        rw [zpow_add₀ (by norm_num), zpow_natCast, zpow_natCast]
        ring
      generalize v * 2 ^ n * (scale * 2 ^ sn) = acc at *
      have ha1' := abs_le.1 ha1
      have hsh : acc >>> 32 = acc / 2 ^ 32 := by rw [Int.shiftRight_eq_div_pow]; rfl
      have hh : InRange 32 (acc / 2 ^ 32) := ⟨by simp only [lo]; omega, by simp only [hi]; omega⟩
      rw [hsh, wrap_of_inRange (by omega) hh]
      have hlt : acc / 2 ^ 32 ≤ 2 ^ 30 - 1 := by omega
      obtain ⟨r, hr1, hr2⟩ : ∃ r, Scaled m (acc / 2 ^ 32) (min shift 63 + sn + n - 32) r ∧
          asrRndFx m 32 (acc / 2 ^ 32) (min shift 63 + sn + n - 32) = clamp 32 r := by
        rcases Int.lt_or_le (min shift 63 + sn + n - 32) 0 with h | h
        · obtain ⟨k, hk⟩ : ∃ k : Nat, min shift 63 + (sn : Int) + n - 32 = -(k : Int) := ⟨(-(min shift 63 + (sn : Int) + n - 32)).toNat, by omega⟩
          rw [hk]
          refine ⟨_, ?_, asrRnd_neg (by omega) hh k⟩
          unfold Scaled; rw [if_neg (by omega)]; congr 2; omega
        · obtain ⟨k, hk⟩ : ∃ k : Nat, min shift 63 + (sn : Int) + n - 32 = k := ⟨(min shift 63 + (sn : Int) + n - 32).toNat, by omega⟩
          rw [hk]
          refine ⟨rnd m _ k, rnd_scaled m _ k, ?_⟩
          rw [← asrRnd_eq_rnd m (w := 32) (by omega) hh k (by
            by_cases hk : 32 ≤ k
            · omega
            · right; right
              have : (2 : Int) ^ (k - 1) ≤ 2 ^ 30 := pow_le_pow_right₀ (by decide) (by omega)
              simp only [hi]; omega)]
          exact (clamp_of_inRange (asrRnd_inRange m (by omega) hh _)).symm
      refine ⟨r, ?_, hr2⟩
      have he := scaled_err hr1
      -- the quotient
      have hq1 : ((acc / 2 ^ 32 : Int) : ℚ) * 2 ^ 32 ≤ acc := by
        have : (acc / 2 ^ 32) * 2 ^ 32 ≤ acc := by omega
        exact_mod_cast this
      have hq2 : (acc : ℚ) < ((acc / 2 ^ 32 : Int) : ℚ) * 2 ^ 32 + 2 ^ 32 := by
        have : acc < (acc / 2 ^ 32) * 2 ^ 32 + 2 ^ 32 := by omega
        exact_mod_cast this
      have ha2q : (2 : ℚ) ^ 60 ≤ |(acc : ℚ)| := by
        have : (2 : Int) ^ 60 ≤ |acc| := by omega
        exact_mod_cast this
      generalize acc / 2 ^ 32 = h at *
      have hm : ∀ s : Int, (acc : ℚ) / 2 ^ 32 * (2 : ℚ) ^ (-(s + sn + n - 32)) = v * (scale * (2 : ℚ) ^ (-s)) := by
        intro s
        rw [eacc, show -(s + (sn : Int) + n - 32) = -s + (32 - (n + sn)) by ring]
        generalize (n : Int) + sn = k
        have e : (2 : ℚ) ^ (-s + (32 - k)) = (2 : ℚ) ^ (-s) * (2 ^ 32 * ((2 : ℚ) ^ k)⁻¹) := by
          rw [zpow_add₀ (by norm_num), zpow_sub₀ (by norm_num), div_eq_mul_inv]
          norm_num
        rw [e]
        have : (2 : ℚ) ^ k ≠ 0 := by positivity
        field_simp
      have hmain : ∀ s : Int, |(h : ℚ) * (2 : ℚ) ^ (-(s + sn + n - 32)) - v * (scale * (2 : ℚ) ^ (-s))| ≤
          |v * (scale * (2 : ℚ) ^ (-s))| / 2 ^ 28 := by
        intro s
        rw [← hm s, ← sub_mul, abs_mul, abs_mul, mul_div_right_comm]
        refine mul_le_mul_of_nonneg_right ?_ (abs_nonneg _)
        have e1 : |(h : ℚ) - acc / 2 ^ 32| ≤ 1 := by
          rw [abs_le]
          constructor <;> linarith
        have e2 : 1 ≤ |(acc : ℚ) / 2 ^ 32| / 2 ^ 28 := by
          rw [abs_div, abs_of_pos (by positivity : (0 : ℚ) < 2 ^ 32)]
          rw [le_div_iff₀ (by positivity), le_div_iff₀ (by positivity)]
          linarith
        exact e1.trans e2
      by_cases h63 : shift ≤ 63
      · rw [show min shift 63 = shift by omega] at he
        have := hmain shift
        unfold scaleVal
        calc |(r : ℚ) - v * (scale * 2 ^ (-shift))| ≤ |(r : ℚ) - h * (2 : ℚ) ^ (-(shift + sn + n - 32))| +
              |(h : ℚ) * (2 : ℚ) ^ (-(shift + sn + n - 32)) - v * (scale * (2 : ℚ) ^ (-shift))| := abs_sub_le _ _ _
          _ ≤ _ := add_le_add he this
      · rw [show min shift 63 = 63 by omega] at he
        have h1 := hmain 63
        have hvs : |(v : ℚ) * scale| ≤ 2 ^ 46 := by
          have : |v * scale| ≤ 2 ^ 31 * 2 ^ 15 := by
            rw [abs_mul]
            have := hd.1; have := hd.2
            simp only [lo, hi] at *
            exact mul_le_mul (by rw [abs_le]; omega) (by rw [abs_le]; omega) (abs_nonneg _) (by decide)
          have : |v * scale| ≤ 2 ^ 46 := by omega
          exact_mod_cast this
        have hb : ∀ s : Int, 63 ≤ s → |(v : ℚ) * (scale * 2 ^ (-s))| ≤ 1 / 8 := by
          intro s hs
          rw [← mul_assoc, abs_mul, abs_of_pos (two_zpow_pos _)]
          have : (2 : ℚ) ^ (-s) ≤ (2 : ℚ) ^ (-63 : Int) := zpow_le_zpow_right₀ (by norm_num) (by omega)
          calc |(v : ℚ) * scale| * 2 ^ (-s) ≤ 2 ^ 46 * (2 : ℚ) ^ (-63 : Int) := mul_le_mul hvs this (by positivity) (by positivity)
            _ ≤ 1 / 8 := by norm_num
        have hb1 := hb 63 (by omega)
        have hb2 := hb shift (by omega)
        have hr0 : r = 0 := by
          have e : |(r : ℚ)| < 1 := by
            have a1 := abs_le.1 he
            have a2 := abs_le.1 h1
            have a3 := abs_le.1 hb1
            rw [abs_lt]
            constructor <;> linarith
          have : |r| < 1 := by exact_mod_cast e
          rw [abs_lt] at this
          omega
        subst hr0
        unfold scaleVal
        have := abs_nonneg ((v : ℚ) * (scale * 2 ^ (-shift)))
        rw [Int.cast_zero, zero_sub, abs_neg]
        have : 0 ≤ |(v : ℚ) * (scale * 2 ^ (-shift))| / 2 ^ 28 := by positivity
        linarith
  obtain ⟨r, k1, k2⟩ := key
  refine ⟨r, k1, ?_⟩
  unfold calcConvert
  simp only [if_true]
  rw [subFx_eq hx hz32, hv, clamp_of_inRange hd, em, k2, addFx_eq (clamp_inRange _ _) ho32, castFx_eq m (by omega) (by omega) (clamp_inRange _ _)]
  rw [show asrRndFx m 32 (clamp 32 (clamp 32 r + zo)) 0 = clamp 32 (clamp 32 r + zo) by
    have := asrRnd_neg (m := m) (w := 32) (by omega) (clamp_inRange 32 (clamp 32 r + zo)) 0
    simpa [clamp_of_inRange (clamp_inRange 32 (clamp 32 r + zo))] using this]
  rw [clamp_clamp (by omega)]

end Mli
