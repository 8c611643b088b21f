import Verif.Spec.Scale
import Verif.Model.Quant
import Verif.Props.Lut
import Verif.Lemmas.Round
import Mathlib.Tactic.Linarith
import Mathlib.Tactic.FieldSimp
import Mathlib.Tactic.Positivity
import Mathlib.Tactic.NormNum

/-!
# Accuracy of re-quantisation (C46)
-/

namespace Mli

open Spec

/-- Rounding to nearest, in rational numbers. -/
theorem scaled_err {m : Rnd} {x n r : Int} (h : Scaled m x n r) : |(r : ℚ) - x * (2 : ℚ) ^ (-n)| ≤ 1 / 2 := by
  unfold Scaled at h
  split at h
  · rename_i hn
    obtain ⟨k, rfl⟩ : ∃ k : Nat, n = k := ⟨n.toNat, by omega⟩
    have hb : -(2 ^ k : Int) ≤ 2 * (x - r * 2 ^ k) ∧ 2 * (x - r * 2 ^ k) ≤ 2 ^ k := by
      rw [Int.toNat_natCast] at h
      cases m
      · exact ⟨h.1, le_of_lt h.2⟩
      · exact ⟨h.1, h.2.1⟩
    have b1 : -(2 ^ k : ℚ) ≤ 2 * (x - r * 2 ^ k) := by exact_mod_cast hb.1
    have b2 : (2 * (x - r * 2 ^ k) : ℚ) ≤ 2 ^ k := by exact_mod_cast hb.2
    have hp : (0 : ℚ) < 2 ^ k := by positivity
    rw [zpow_neg, zpow_natCast, ← div_eq_mul_inv, abs_le]
    constructor
    · rw [le_sub_iff_add_le, ← sub_nonneg]
      have : (r : ℚ) - (-(1 / 2) + x / 2 ^ k) = (r * 2 ^ k - x + 2 ^ k / 2) / 2 ^ k := by field_simp; ring
      rw [this]; apply div_nonneg _ hp.le; linarith
    · rw [← sub_nonneg]
      have : (1 : ℚ) / 2 - (r - x / 2 ^ k) = (2 ^ k / 2 - (r * 2 ^ k - x)) / 2 ^ k := by field_simp
      rw [this]; apply div_nonneg _ hp.le; linarith
  · rename_i hn
    obtain ⟨k, rfl⟩ : ∃ k : Nat, n = -(k : Int) := ⟨(-n).toNat, by omega⟩
    rw [Int.neg_neg, Int.toNat_natCast] at h
    rw [Int.neg_neg, zpow_natCast, h]
    push_cast
    norm_num

/-- Rounded shift right, whatever the mode: off by at most one step. -/
theorem asrRnd_err (m : Rnd) {w : Nat} (hw : 2 ≤ w) {x : Int} (hx : InRange w x) {n : Nat} (hn : n < w) :
    |asrRndFx m w x n * 2 ^ n - x| ≤ 2 ^ n := by
  have hp := two_pow_pos n
  cases m
  · by_cases h : n = 0 ∨ w ≤ n ∨ x + 2 ^ (n - 1) ≤ hi w
    · obtain ⟨a, b⟩ := c04_round_half_up_partial w hw x hx n h
      rw [abs_le]; constructor <;> linarith
    · push Not at h
      obtain ⟨k, rfl⟩ : ∃ k, n = k + 1 := ⟨n - 1, by omega⟩
      rw [Nat.add_sub_cancel] at h
      rw [asrRnd_up_general hw hx k hn, clamp_of_gt (by omega)]
      have q0 : hi w / 2 ^ (k + 1) * 2 ^ (k + 1) ≤ hi w := Int.ediv_mul_le _ (by positivity)
      have q1 : hi w < (hi w / 2 ^ (k + 1) + 1) * 2 ^ (k + 1) := Int.lt_ediv_add_one_mul_self _ (by positivity)
      have hk : (2 : Int) ^ (k + 1) = 2 * 2 ^ k := by rw [pow_succ]; ring
      have := hx.2
      rw [Int.add_mul] at q1
      rw [abs_le]; constructor <;> omega
  · obtain ⟨a, b, -⟩ := c03_convergent_round_half_even w hw x hx n
    rw [abs_le]; constructor <;> linarith

/-- Normalisation of a positive 32-bit number. -/
theorem normFx_pos {x : Int} (h0 : 0 < x) (hx : InRange 32 x) :
    ∃ n : Nat, normFx 32 x = n ∧ n ≤ 31 ∧ 2 ^ 30 ≤ x * 2 ^ n ∧ x * 2 ^ n ≤ 2 ^ 31 - 1 := by
  obtain ⟨n, e, b, r, nr, -⟩ := normFx_spec 32 (by omega) x hx
  refine ⟨n, e, b, ?_, r.2⟩
  by_contra hc
  apply nr (by omega)
  rw [pow_succ, ← Int.mul_assoc]
  have : 0 < x * 2 ^ n := Int.mul_pos h0 (two_pow_pos _)
  constructor <;> simp only [lo, hi] <;> omega

/-- The normalised quotient of two scales: `N = sI * 2^k` is a 32-bit number and the quotient has at least 16 bits. -/
theorem ratio_core (m : Rnd) (sI fI sO fO : Int) (hO : 0 < sO) (k : Nat) {N : Int} (hN : sI * 2 ^ k = N)
    (hN2 : N ≤ 2 ^ 31 - 1) (s2 : 2 ^ 15 ≤ N / sO) :
    ∃ ratio, castFx m 32 16 (N.tdiv sO) (16 - normFx 32 (N.tdiv sO)) = ratio ∧ 2 ^ 14 ≤ ratio ∧ ratio ≤ 2 ^ 15 - 1 ∧
      RelErr (1 / 2 ^ 13) (scaleVal ratio (fI + k - fO - (16 - normFx 32 (N.tdiv sO)))) (scaleVal sI fI / scaleVal sO fO) := by
  have N0 : 0 < N := by
    by_contra hc
    have : N / sO ≤ 0 := Int.ediv_nonpos_of_nonpos_of_neg (by omega) (by omega)
    omega
  have hsu : N.tdiv sO = N / sO := Int.tdiv_eq_ediv_of_nonneg (by omega)
  rw [hsu]
  have s0 : N / sO * sO ≤ N := Int.ediv_mul_le _ (by omega)
  have s1 : N < (N / sO + 1) * sO := Int.lt_ediv_add_one_mul_self _ hO
  have s3 : N / sO ≤ N := Int.ediv_le_self _ (by omega)
  generalize hs : N / sO = su at *
  have hsr : InRange 32 su := by constructor <;> simp only [lo, hi] <;> omega
  obtain ⟨n2, e2, b2, t1, t2⟩ := normFx_pos (by omega) hsr
  have n2le : n2 ≤ 15 := by
    by_contra hc
    have : (2 : Int) ^ 16 ≤ 2 ^ n2 := pow_le_pow_right₀ (by decide) (by omega)
    have : 2 ^ 15 * 2 ^ 16 ≤ su * 2 ^ n2 := mul_le_mul s2 this (by decide) (by omega)
    omega
  obtain ⟨P, hP⟩ : ∃ P : Nat, P = 16 - n2 := ⟨_, rfl⟩
  have eP : (2 : Int) ^ P * 2 ^ n2 = 2 ^ 16 := by rw [← pow_add]; congr 1; omega
  have p0 := two_pow_pos n2
  have pP := two_pow_pos P
  -- bounds of the quotient in units of `2 ^ P`
  have u1 : 2 ^ 14 * 2 ^ P ≤ su := by
    have : 2 ^ 14 * 2 ^ P * 2 ^ n2 ≤ su * 2 ^ n2 := by rw [Int.mul_assoc, eP]; omega
    exact le_of_mul_le_mul_right this p0
  have u2 : su < 2 ^ 15 * 2 ^ P := by
    have : su * 2 ^ n2 < 2 ^ 15 * 2 ^ P * 2 ^ n2 := by rw [Int.mul_assoc, eP]; omega
    exact lt_of_mul_lt_mul_right this p0.le
  obtain ⟨r, hr, hc⟩ : ∃ r, Scaled m su (16 - n2) r ∧ castFx m 32 16 su (16 - n2) = clamp 16 r := by
    cases m
    · exact c05_cast_up_partial 32 16 (by omega) (by omega) su hsr _ (Or.inl (by omega))
    · exact c05_cast_convergent 32 16 (by omega) (by omega) su hsr _
  have hb : -(2 ^ P : Int) ≤ 2 * (su - r * 2 ^ P) ∧ 2 * (su - r * 2 ^ P) ≤ 2 ^ P := by
    unfold Scaled at hr
    rw [if_pos (by omega), show ((16 : Int) - n2).toNat = P by omega] at hr
    cases m
    · exact ⟨hr.1, le_of_lt hr.2⟩
    · exact ⟨hr.1, hr.2.1⟩
  have v1 : 2 ^ 14 ≤ r := by
    by_contra hc
    have : r * 2 ^ P ≤ (2 ^ 14 - 1) * 2 ^ P := Int.mul_le_mul_of_nonneg_right (by omega) pP.le
    rw [Int.sub_mul] at this
    omega
  have v2 : r ≤ 2 ^ 15 := by
    by_contra hc
    have : (2 ^ 15 + 1) * 2 ^ P ≤ r * 2 ^ P := Int.mul_le_mul_of_nonneg_right (by omega) pP.le
    rw [Int.add_mul] at this
    omega
  have w1 : 2 ^ 14 ≤ clamp 16 r ∧ clamp 16 r ≤ 2 ^ 15 - 1 ∧ |clamp 16 r * 2 ^ P - su| ≤ 2 ^ P := by
    by_cases h : r = 2 ^ 15
    · rw [h, show clamp 16 (2 ^ 15) = 2 ^ 15 - 1 by decide]
      rw [h] at hb
      refine ⟨by decide, by decide, ?_⟩
      rw [abs_le, Int.sub_mul]; constructor <;> omega
    · rw [clamp_of_inRange (by constructor <;> simp only [lo, hi] <;> omega)]
      refine ⟨v1, by omega, ?_⟩
      rw [abs_le]; constructor <;> omega
  generalize hrt : clamp 16 r = ratio at *
  rw [e2]
  refine ⟨ratio, hc, w1.1, w1.2.1, ?_⟩
  have hq0 : (0 : ℚ) < sO := by exact_mod_cast hO
  have hN' : (sI : ℚ) * 2 ^ k = N := by exact_mod_cast hN
  have two0 : (2 : ℚ) ≠ 0 := by norm_num
  have ea : scaleVal ratio (fI + k - fO - (16 - n2)) =
      (ratio * 2 ^ P) * ((2 : ℚ) ^ (-(k : Int)) * 2 ^ (fO - fI)) := by
    unfold scaleVal
    rw [mul_assoc, ← zpow_natCast, ← zpow_add₀ two0, ← zpow_add₀ two0]
    congr 2
    omega
  have eb : scaleVal sI fI / scaleVal sO fO = (N / sO) * ((2 : ℚ) ^ (-(k : Int)) * 2 ^ (fO - fI)) := by
    unfold scaleVal
    rw [← hN', zpow_sub₀ two0, zpow_neg, zpow_neg, zpow_neg, zpow_natCast]
    field_simp
  unfold RelErr
  rw [ea, eb, ← sub_mul]
  generalize (2 : ℚ) ^ (-(k : Int)) * 2 ^ (fO - fI) = t
  rw [abs_mul, abs_mul, ← mul_assoc]
  apply mul_le_mul_of_nonneg_right _ (abs_nonneg _)
  have hNpos : (0 : ℚ) < N / sO := div_pos (by exact_mod_cast (by omega : 0 < N)) hq0
  rw [abs_of_pos hNpos]
  have q1 : (su : ℚ) ≤ N / sO := by rw [le_div_iff₀ hq0]; exact_mod_cast s0
  have q2 : (N : ℚ) / sO ≤ su + 1 := by
    rw [div_le_iff₀ hq0]; exact_mod_cast le_of_lt s1
  have q3 : |(ratio : ℚ) * 2 ^ P - su| ≤ 2 ^ P := by exact_mod_cast w1.2.2
  have q4 : (2 ^ 14 : ℚ) * 2 ^ P ≤ su := by exact_mod_cast u1
  have q5 : (2 ^ 15 : ℚ) ≤ su := by exact_mod_cast s2
  rw [abs_le] at q3 ⊢
  norm_num at q4 q5 ⊢
  constructor <;> linarith

/-- C46, first part: for positive 16-bit scales the ratio of input and output scale used by the
kernels with weights is defined, is a 16-bit number with at least 15 significant bits, and is the ratio with a
relative error below `2^-13`. -/
theorem c46_in_to_out (m : Rnd) (sI fI sO fO : Int) (hI : 0 < sI) (hI2 : InRange 16 sI) (hO : 0 < sO) (hO2 : InRange 16 sO) :
    ∃ ratio shift, inToOut m sI fI sO fO = some (ratio, shift) ∧ 2 ^ 14 ≤ ratio ∧ ratio ≤ 2 ^ 15 - 1 ∧
      RelErr (1 / 2 ^ 13) (scaleVal ratio shift) (scaleVal sI fI / scaleVal sO fO) := by
  have hI3 : InRange 32 sI := inRange_mono (by omega) hI2
  have hO3 := hO2.2
  simp only [hi] at hO3
  obtain ⟨n1, e1, b1, hN1, hN2⟩ := normFx_pos hI hI3
  have r1 : InRange 32 (sI * 2 ^ n1) := by constructor <;> simp only [lo, hi] <;> omega
  have enc : normCastFx m 32 32 sI = (sI * 2 ^ n1, -(n1 : Int)) := by
    unfold normCastFx castFxSame
    simp only [if_true, e1]
    have : (((32 : Nat) : Int) - ((32 : Nat) : Int) - (n1 : Int)) = -(n1 : Int) := by omega
    rw [this, asrRnd_neg (by omega) hI3, clamp_of_inRange r1]
  have s2 : 2 ^ 15 ≤ sI * 2 ^ n1 / sO := by
    rw [Int.le_ediv_iff_mul_le hO]
    have : 2 ^ 15 * sO ≤ 2 ^ 15 * (2 ^ 15 - 1) := Int.mul_le_mul_of_nonneg_left (by omega) (by decide)
    omega
  obtain ⟨ratio, h1, h2, h3, h4⟩ := ratio_core m sI fI sO fO hO n1 rfl hN2 s2
  refine ⟨ratio, _, ?_, h2, h3, h4⟩
  unfold inToOut
  rw [if_neg (by omega), enc]
  simp only [h1, Option.some.injEq, Prod.mk.injEq, true_and]
  ring

example : (inToOut .convergent 20000 17 12345 9).map (fun r => decide (2 ^ 14 ≤ r.1 ∧ r.1 ≤ 2 ^ 15 - 1)) = some true := by decide +kernel

/-- C46: for positive 16-bit scales the parameters of a re-quantisation are defined, the
mantissa is a 16-bit number with at least 15 significant bits, mantissa and shift stand for the ratio of the scales with a
relative error below `2^-13`, and the offset is the output zero point minus the rescaled input zero point. -/
theorem c46_requant_params (m : Rnd) (sI fI zi sO fO zo : Int) (hI : 0 < sI) (hI2 : InRange 16 sI) (hO : 0 < sO) (hO2 : InRange 16 sO)
    (hzi : InRange 8 zi) (hzo : InRange 8 zo) :
    ∃ scale shift offset, requantParams m sI fI zi sO fO zo = some (scale, shift, offset) ∧ 2 ^ 14 ≤ scale ∧ scale ≤ 2 ^ 15 - 1 ∧
      RelErr (1 / 2 ^ 13) (scaleVal scale shift) (scaleVal sI fI / scaleVal sO fO) ∧
      ∃ v, Scaled m (scale * zi) shift v ∧ offset = clamp 16 (zo - clamp 16 v) := by
  have hI3 : InRange 32 sI := inRange_mono (by omega) hI2
  have hO3 := hO2.2
  have hI4 := hI2.2
  simp only [hi] at hO3 hI4
  obtain ⟨n1, e1, b1, hN1, hN2⟩ := normFx_pos hI hI3
  obtain ⟨n2, e2, b2, r2, nr2, -⟩ := normFx_spec 16 (by omega) sO hO2
  have r2' := r2.2
  simp only [hi] at r2'
  have h12 : n2 ≤ n1 := by
    by_contra hc
    have : sI * 2 ^ n1 ≤ sI * 2 ^ n2 := Int.mul_le_mul_of_nonneg_left (pow_le_pow_right₀ (by decide) (by omega)) (by omega)
    have hp : (2 : Int) ^ n2 ≤ 2 ^ 15 := pow_le_pow_right₀ (by decide) (by omega)
    have : (2 : Int) ^ n2 ≤ 2 ^ 14 := by
      by_contra hc2
      have : n2 = 15 := by
        by_contra h15
        exact hc2 (pow_le_pow_right₀ (by decide) (by omega))
      subst this
      omega
    have : sI * 2 ^ n2 ≤ 2 ^ 15 * 2 ^ 14 := mul_le_mul (by omega) this (by positivity) (by decide)
    omega
  obtain ⟨k, hk⟩ : ∃ k, n1 = k + n2 := ⟨n1 - n2, by omega⟩
  have hp2 := two_pow_pos n2
  rw [hk, pow_add, ← Int.mul_assoc] at hN1 hN2
  have hNk : sI * 2 ^ k ≤ 2 ^ 31 - 1 := by
    have : 0 ≤ sI * 2 ^ k := by positivity
    have : sI * 2 ^ k * 1 ≤ sI * 2 ^ k * 2 ^ n2 := Int.mul_le_mul_of_nonneg_left (by omega) this
    omega
  have s2 : 2 ^ 15 ≤ sI * 2 ^ k / sO := by
    rw [Int.le_ediv_iff_mul_le hO]
    have : 2 ^ 15 * sO * 2 ^ n2 ≤ sI * 2 ^ k * 2 ^ n2 := by
      rw [Int.mul_assoc]
      have : 2 ^ 15 * (sO * 2 ^ n2) ≤ 2 ^ 15 * (2 ^ 15 - 1) := Int.mul_le_mul_of_nonneg_left (by omega) (by decide)
      omega
    exact le_of_mul_le_mul_right this hp2
  obtain ⟨scale, h1, h2, h3, h4⟩ := ratio_core m sI fI sO fO hO k rfl hNk s2
  have hpos : 0 < sI * 2 ^ k := by positivity
  generalize hN : sI * 2 ^ k = N at *
  have er : requantParams m sI fI zi sO fO zo = some (scale, fI + k - fO - (16 - normFx 32 (N.tdiv sO)),
      subFx 16 zo (castFx m 32 16 (scale * zi) (fI + k - fO - (16 - normFx 32 (N.tdiv sO))))) := by
    have ek : normFx 32 sI - normFx 16 sO = k := by rw [e1, e2]; omega
    have ec : ckd 32 N = some N := ckd_some (by constructor <;> simp only [lo, hi] <;> omega)
    have enc : normCastFx m 32 16 (N.tdiv sO) = (scale, 16 - normFx 32 (N.tdiv sO)) := by
      unfold normCastFx
      simp only [show ¬ (32 : Nat) = 16 by decide, if_false]
      rw [show ((32 : Nat) : Int) - ((16 : Nat) : Int) - normFx 32 (N.tdiv sO) = 16 - normFx 32 (N.tdiv sO) by omega, h1]
    unfold requantParams
    rw [ek]
    simp only [show ¬ ((k : Int) < 0 ∨ 32 ≤ (k : Int)) by omega, show ¬ sO = 0 by omega, if_false, Int.toNat_natCast, hN, ec,
      enc, Option.bind_eq_bind, Option.bind_some, Option.pure_def]
    rw [show (k : Int) + (fI - fO) - (16 - normFx 32 (N.tdiv sO)) = fI + k - fO - (16 - normFx 32 (N.tdiv sO)) by ring]
  generalize fI + k - fO - (16 - normFx 32 (N.tdiv sO)) = sh at er h4
  refine ⟨scale, sh, _, er, h2, h3, h4, ?_⟩
  have hz1 := hzi.1
  have hz2 := hzi.2
  simp only [lo, hi] at hz1 hz2
  have hsz : |scale * zi| ≤ 2 ^ 15 * 2 ^ 7 := by
    rw [abs_mul]
    exact mul_le_mul (by rw [abs_le]; omega) (by rw [abs_le]; omega) (abs_nonneg _) (by decide)
  have hsz' := abs_le.1 hsz
  have hxr : InRange 32 (scale * zi) := by constructor <;> simp only [lo, hi] <;> omega
  obtain ⟨r, hr, hc⟩ : ∃ r, Scaled m (scale * zi) sh r ∧ castFx m 32 16 (scale * zi) sh = clamp 16 r := by
    cases m
    · refine c05_cast_up_partial 32 16 (by omega) (by omega) _ hxr _ ?_
      by_cases h : sh < 32
      · refine Or.inr (Or.inr ?_)
        have : (2 : Int) ^ (sh.toNat - 1) ≤ 2 ^ 30 := pow_le_pow_right₀ (by decide) (by omega)
        simp only [hi]; omega
      · exact Or.inr (Or.inl (by omega))
    · exact c05_cast_convergent 32 16 (by omega) (by omega) _ hxr _
  refine ⟨r, hr, ?_⟩
  rw [hc, subFx_eq (inRange_mono (by omega) hzo) (clamp_inRange _ _)]

example : (requantParams .convergent 20000 17 (-5) 12345 9 3).map (fun r => decide (2 ^ 14 ≤ r.1 ∧ r.1 ≤ 2 ^ 15 - 1)) = some true := by decide +kernel

/-! ## Conversion of the accumulator -/

/-- What the last steps of the conversion store for the scaled accumulator `x / 2^t`. -/
theorem store_s8 (m : Rnd) {x t zo : Int} (hx : |x| ≤ 2 ^ 61) (hz : InRange 8 zo) :
    ∃ v : Int, |(v : ℚ) - x * (2 : ℚ) ^ (-t)| ≤ 1 / 2 ∧
      castFx m 16 8 (addFx 16 (castFx m 64 16 x (min t 63)) zo) 0 = clamp 8 (v + zo) := by
  have hx' := abs_le.1 hx
  have hxr : InRange 64 x := by constructor <;> simp only [lo, hi] <;> omega
  obtain ⟨r, hr, hc⟩ : ∃ r, Scaled m x (min t 63) r ∧ castFx m 64 16 x (min t 63) = clamp 16 r := by
    cases m
    · refine c05_cast_up_partial 64 16 (by omega) (by omega) x hxr _ (Or.inr (Or.inr ?_))
      have : (2 : Int) ^ ((min t 63).toNat - 1) ≤ 2 ^ 62 := pow_le_pow_right₀ (by decide) (by omega)
      simp only [hi]; omega
    · exact c05_cast_convergent 64 16 (by omega) (by omega) x hxr _
  have he := scaled_err hr
  refine ⟨r, ?_, ?_⟩
  · by_cases h : t ≤ 63
    · rwa [min_eq_left h] at he
    · rw [min_eq_right (by omega)] at he
      have hxq : |(x : ℚ)| ≤ 2 ^ 61 := by exact_mod_cast hx
      have h63 : |(x : ℚ) * 2 ^ (-63 : Int)| ≤ 1 / 4 := by
        rw [abs_mul, abs_of_pos (show (0 : ℚ) < 2 ^ (-63 : Int) by positivity)]
        calc |(x : ℚ)| * 2 ^ (-63 : Int) ≤ 2 ^ 61 * 2 ^ (-63 : Int) := by gcongr
          _ = 1 / 4 := by norm_num
      have hr0 : r = 0 := by
        have a1 := abs_le.1 he
        have a2 := abs_le.1 h63
        have b1 : (r : ℚ) < 1 := by linarith
        have b2 : (-1 : ℚ) < r := by linarith
        have c1 : r < 1 := by exact_mod_cast b1
        have c2 : -1 < r := by exact_mod_cast b2
        omega
      rw [hr0, Int.cast_zero, zero_sub, abs_neg, abs_mul, abs_of_pos (show (0 : ℚ) < 2 ^ (-t) by positivity)]
      have hle : (2 : ℚ) ^ (-t) ≤ 2 ^ (-63 : Int) := zpow_le_zpow_right₀ (by norm_num) (by omega)
      calc |(x : ℚ)| * 2 ^ (-t) ≤ 2 ^ 61 * 2 ^ (-63 : Int) := by gcongr
        _ ≤ 1 / 2 := by norm_num
  · rw [hc, addFx_eq (clamp_inRange _ _) (inRange_mono (by omega) hz), castFx_eq m (by omega) (by omega) (clamp_inRange _ _)]
    have e0 : asrRndFx m 16 (clamp 16 (clamp 16 r + zo)) 0 = clamp 16 (clamp 16 r + zo) := by
      unfold asrRndFx; rfl
    rw [e0]
    obtain ⟨z1, z2⟩ := hz
    have a1 : lo 8 = -128 := by decide
    have a2 : hi 8 = 127 := by decide
    have a3 : lo 16 = -32768 := by decide
    have a4 : hi 16 = 32767 := by decide
    unfold clamp
    rw [a1] at z1 ⊢; rw [a2] at z2 ⊢; rw [a3, a4]
    by_cases g1 : r < -32768
    · simp only [g1, if_true]; split <;> split <;> split <;> (try split) <;> omega
    · by_cases g2 : 32767 < r
      · simp only [g1, g2, if_true, if_false]; split <;> split <;> split <;> (try split) <;> omega
      · simp only [g1, g2, if_false]; repeat' split
        all_goals omega

theorem clamp8_cast (v : Int) : ((clamp 8 v : Int) : ℚ) = limitQ (-128) 127 v := by
  have a1 : lo 8 = -128 := by decide
  have a2 : hi 8 = 127 := by decide
  have : clamp 8 v = max (-128) (min 127 v) := by
    unfold clamp; rw [a1, a2]; split <;> (try split) <;> omega
  rw [this]
  unfold limitQ
  push_cast
  rfl

theorem limitQ_sub (l h x y : ℚ) : |limitQ l h x - limitQ l h y| ≤ |x - y| := by
  have h1 : ∀ a b c : ℚ, |max a b - max a c| ≤ |b - c| := by
    intro a b c
    rcases le_total b c with h | h
    · rw [abs_of_nonpos (by linarith : b - c ≤ 0), abs_le]
      constructor <;> rcases max_cases a b with ⟨e, _⟩ | ⟨e, _⟩ <;> rcases max_cases a c with ⟨f, _⟩ | ⟨f, _⟩ <;> rw [e, f] <;> linarith
    · rw [abs_of_nonneg (by linarith : 0 ≤ b - c), abs_le]
      constructor <;> rcases max_cases a b with ⟨e, _⟩ | ⟨e, _⟩ <;> rcases max_cases a c with ⟨f, _⟩ | ⟨f, _⟩ <;> rw [e, f] <;> linarith
  have h2 : ∀ a b c : ℚ, |min a b - min a c| ≤ |b - c| := by
    intro a b c
    rcases le_total b c with h | h
    · rw [abs_of_nonpos (by linarith : b - c ≤ 0), abs_le]
      constructor <;> rcases min_cases a b with ⟨e, _⟩ | ⟨e, _⟩ <;> rcases min_cases a c with ⟨f, _⟩ | ⟨f, _⟩ <;> rw [e, f] <;> linarith
    · rw [abs_of_nonneg (by linarith : 0 ≤ b - c), abs_le]
      constructor <;> rcases min_cases a b with ⟨e, _⟩ | ⟨e, _⟩ <;> rcases min_cases a c with ⟨f, _⟩ | ⟨f, _⟩ <;> rw [e, f] <;> linarith
  unfold limitQ
  exact (h1 _ _ _).trans (h2 _ _ _)

/-- If the scaled accumulator is close to `E`, the stored value is close to `zo + E`. -/
theorem store_close {v zo : Int} {X E : ℚ} (hz : InRange 8 zo) (hv : |(v : ℚ) - X| ≤ 1 / 2)
    (hE : |X - E| ≤ |E| / 4096 + 1 / 128) :
    |((clamp 8 (v + zo) : Int) : ℚ) - limitQ (-128) 127 (zo + E)| ≤ 3 / 5 := by
  rw [clamp8_cast]
  have z1 : (-128 : ℚ) ≤ zo := by exact_mod_cast hz.1
  have z2 : (zo : ℚ) ≤ 127 := by exact_mod_cast hz.2
  have hv := abs_le.1 hv
  have hE' := abs_le.1 hE
  push_cast
  by_cases h1 : E ≤ 300
  · by_cases h2 : -300 ≤ E
    · refine (limitQ_sub _ _ _ _).trans ?_
      have : |E| ≤ 300 := abs_le.2 ⟨h2, h1⟩
      rw [abs_le]
      constructor <;> linarith
    · have e : |E| = -E := abs_of_neg (by linarith)
      rw [e] at hE'
      have : limitQ (-128) 127 (v + zo) = -128 ∧ limitQ (-128) 127 (zo + E) = -128 := by
        unfold limitQ
        constructor <;> rw [min_eq_right (by linarith), max_eq_left (by linarith)]
      rw [this.1, this.2]; norm_num
  · have e : |E| = E := abs_of_pos (by linarith)
    rw [e] at hE'
    have : limitQ (-128) 127 (v + zo) = 127 ∧ limitQ (-128) 127 (zo + E) = 127 := by
      unfold limitQ
      constructor <;> rw [min_eq_left (by linarith), max_eq_right (by norm_num)]
    rw [this.1, this.2]; norm_num

/-- If the scaled accumulator and `E` are both beyond the range, so is the stored value. -/
theorem store_far {v zo : Int} {X E : ℚ} (hz : InRange 8 zo) (hv : |(v : ℚ) - X| ≤ 1 / 2)
    (hE : (255 + 1 / 2 ≤ X ∧ 255 + 1 / 2 ≤ E) ∨ (X ≤ -255 - 1 / 2 ∧ E ≤ -255 - 1 / 2)) :
    ((clamp 8 (v + zo) : Int) : ℚ) = limitQ (-128) 127 (zo + E) := by
  rw [clamp8_cast]
  have z1 : (-128 : ℚ) ≤ zo := by exact_mod_cast hz.1
  have z2 : (zo : ℚ) ≤ 127 := by exact_mod_cast hz.2
  have hv := abs_le.1 hv
  push_cast
  unfold limitQ
  rcases hE with ⟨a, b⟩ | ⟨a, b⟩
  · rw [min_eq_left (by linarith), min_eq_left (by linarith)]
  · rw [min_eq_right (by linarith), min_eq_right (by linarith), max_eq_left (by linarith), max_eq_left (by linarith)]

theorem scaleVal_pos {s f : Int} (h : 0 < s) : 0 < scaleVal s f :=
  mul_pos (by exact_mod_cast h) (by positivity)

/-- C46, second part, for builds with `FULL_ACCU`: the stored value is within 3/5 of an output step of the
saturated real result, for every accumulator value. -/
theorem c46_result_cast_full (m : Rnd) (sI fI sW fW sO fO zo acc : Int) (hI : 0 < sI ∧ InRange 16 sI) (hW : 0 < sW ∧ InRange 16 sW)
    (hO : 0 < sO ∧ InRange 16 sO) (hz : InRange 8 zo) (hacc : InRange 32 acc) :
    ∃ rt, inToOut m sI fI sO fO = some rt ∧
      |((resultCastS8 m true (adjustQuant true rt.1 rt.2 sW fW).1 (adjustQuant true rt.1 rt.2 sW fW).2 zo acc : Int) : ℚ) -
        limitQ (-128) 127 (zo + acc * (scaleVal sI fI * scaleVal sW fW / scaleVal sO fO))| ≤ 3 / 5 := by
  obtain ⟨ratio, shift, h1, h2, h3, h4⟩ := c46_in_to_out m sI fI sO fO hI.1 hI.2 hO.1 hO.2
  refine ⟨(ratio, shift), h1, ?_⟩
  have w2 := hW.2.2
  simp only [hi] at w2
  obtain ⟨a1, a2⟩ := hacc
  simp only [lo, hi] at a1 a2
  have hmul : |acc * (ratio * sW)| ≤ 2 ^ 61 := by
    rw [abs_mul]
    have m1 : |ratio * sW| ≤ 2 ^ 15 * 2 ^ 15 := by
      rw [abs_mul, abs_of_pos hW.1, abs_of_pos (by omega : 0 < ratio)]
      exact mul_le_mul (by omega) (by omega) (by omega) (by decide)
    have m2 : |acc| ≤ 2 ^ 31 := by rw [abs_le]; omega
    calc |acc| * |ratio * sW| ≤ 2 ^ 31 * (2 ^ 15 * 2 ^ 15) := mul_le_mul m2 m1 (abs_nonneg _) (by decide)
      _ ≤ 2 ^ 61 := by decide
  obtain ⟨v, v1, v2⟩ := store_s8 m (t := shift + fW) hmul hz
  simp only [resultCastS8, adjustQuant, if_true, Int.sub_zero]
  rw [v2]
  apply store_close hz v1
  have p1 := scaleVal_pos (f := fI) hI.1
  have p2 := scaleVal_pos (f := fW) hW.1
  have p3 := scaleVal_pos (f := fO) hO.1
  have e1 : ((acc * (ratio * sW) : Int) : ℚ) * 2 ^ (-(shift + fW)) = acc * scaleVal sW fW * scaleVal ratio shift := by
    unfold scaleVal
    push_cast
    rw [show -(shift + fW) = -shift + -fW by ring, zpow_add₀ (by norm_num)]
    ring
  have e2 : (acc : ℚ) * (scaleVal sI fI * scaleVal sW fW / scaleVal sO fO) =
      acc * scaleVal sW fW * (scaleVal sI fI / scaleVal sO fO) := by ring
  rw [e1, e2, ← mul_sub, abs_mul, abs_mul _ (scaleVal sI fI / scaleVal sO fO)]
  have := mul_le_mul_of_nonneg_left h4 (abs_nonneg ((acc : ℚ) * scaleVal sW fW))
  have n1 : 0 ≤ |(acc : ℚ) * scaleVal sW fW| * |scaleVal sI fI / scaleVal sO fO| := by positivity
  refine this.trans ?_
  generalize |(acc : ℚ) * scaleVal sW fW| = u at n1 ⊢
  generalize |scaleVal sI fI / scaleVal sO fO| = y at n1 ⊢
  rw [show u * (1 / 2 ^ 13 * y) = u * y / 8192 by ring]
  linarith

/-- The 16-bit output multiplier of the default build. -/
theorem outMul16 (m : Rnd) (ratio shift sW fW : Int) (h1 : 2 ^ 14 ≤ ratio) (h2 : ratio ≤ 2 ^ 15 - 1) (hW : 0 < sW ∧ InRange 16 sW) :
    ∃ q sh, asrRndFx m 32 (adjustQuant false ratio shift sW fW).1 16 = q ∧ (adjustQuant false ratio shift sW fW).2 - 16 = sh ∧
      2 ^ 14 ≤ q ∧ q ≤ 2 ^ 15 ∧ RelErr (1 / 2 ^ 14) (scaleVal q sh) (scaleVal ratio shift * scaleVal sW fW) := by
  have w2 := hW.2.2
  simp only [hi] at w2
  have m0 : 0 < ratio * sW := Int.mul_pos (by omega) hW.1
  have m1 : ratio * sW ≤ (2 ^ 15 - 1) * (2 ^ 15 - 1) := mul_le_mul h2 (by omega) (by omega) (by decide)
  have mr : InRange 32 (ratio * sW) := by constructor <;> simp only [lo, hi] <;> omega
  obtain ⟨n, e, b, l, u⟩ := normFx_pos m0 mr
  have nr : InRange 32 (ratio * sW * 2 ^ n) := by constructor <;> simp only [lo, hi] <;> omega
  refine ⟨_, _, rfl, rfl, ?_⟩
  simp only [adjustQuant, e, Int.toNat_natCast, Bool.false_eq_true, if_false]
  rw [wrap_of_inRange (by omega) nr]
  have he := asrRnd_err m (by omega) nr (show 16 < 32 by omega)
  have hm := asrRnd_mono m (w := 32) (by omega) (x := 2 ^ 30) (by decide) nr 16 l
  rw [show asrRndFx m 32 (2 ^ 30) 16 = 2 ^ 14 by cases m <;> decide] at hm
  rw [Nat.cast_ofNat] at he
  generalize asrRndFx m 32 (ratio * sW * 2 ^ n) 16 = q at he hm ⊢
  have he' := abs_le.1 he
  refine ⟨hm, by omega, ?_⟩
  have e1 : scaleVal ratio shift * scaleVal sW fW = (ratio * sW * 2 ^ n : ℚ) * (2 ^ (-(n : Int)) * 2 ^ (-(shift + fW))) := by
    unfold scaleVal
    rw [show -(shift + fW) = -shift + -fW by ring, zpow_add₀ (by norm_num), zpow_neg 2 (n : Int), zpow_natCast]
    field_simp
  have e2 : scaleVal q (shift + fW + n - 16) = (q * 2 ^ 16 : ℚ) * (2 ^ (-(n : Int)) * 2 ^ (-(shift + fW))) := by
    unfold scaleVal
    rw [mul_assoc, ← zpow_natCast (2 : ℚ) 16, ← zpow_add₀ (by norm_num), ← zpow_add₀ (by norm_num)]
    congr 2
    push_cast
    ring
  unfold RelErr
  rw [e1, e2, ← sub_mul]
  generalize (2 : ℚ) ^ (-(n : Int)) * 2 ^ (-(shift + fW)) = t
  rw [abs_mul, abs_mul, ← mul_assoc]
  apply mul_le_mul_of_nonneg_right _ (abs_nonneg _)
  have q1 : |(q * 2 ^ 16 : ℚ) - ratio * sW * 2 ^ n| ≤ 2 ^ 16 := by exact_mod_cast he
  have q2 : (2 ^ 30 : ℚ) ≤ ratio * sW * 2 ^ n := by exact_mod_cast l
  rw [abs_of_pos (lt_of_lt_of_le (by norm_num) q2)]
  refine q1.trans ?_
  norm_num at q2 ⊢
  linarith

/-- C46, second part, for the default build: the stored value is within 3/5 of an output step of the
saturated real result, for every accumulator value of 24 bits. -/
theorem c46_result_cast_partial (m : Rnd) (sI fI sW fW sO fO zo acc : Int) (hI : 0 < sI ∧ InRange 16 sI) (hW : 0 < sW ∧ InRange 16 sW)
    (hO : 0 < sO ∧ InRange 16 sO) (hz : InRange 8 zo) (hacc : |acc| < 2 ^ 23 - 2 ^ 7) :
    ∃ rt, inToOut m sI fI sO fO = some rt ∧
      |((resultCastS8 m false (adjustQuant false rt.1 rt.2 sW fW).1 (adjustQuant false rt.1 rt.2 sW fW).2 zo acc : Int) : ℚ) -
        limitQ (-128) 127 (zo + acc * (scaleVal sI fI * scaleVal sW fW / scaleVal sO fO))| ≤ 3 / 5 := by
  obtain ⟨ratio, shift, h1, h2, h3, h4⟩ := c46_in_to_out m sI fI sO fO hI.1 hI.2 hO.1 hO.2
  refine ⟨(ratio, shift), h1, ?_⟩
  obtain ⟨q, sh, eq, es, q1, q2, h5⟩ := outMul16 m ratio shift sW fW h2 h3 hW
  have hacc' := abs_lt.1 hacc
  have hr32 : InRange 32 acc := by constructor <;> simp only [lo, hi] <;> omega
  simp only [resultCastS8, Bool.false_eq_true, if_false, eq, es]
  obtain ⟨pre, hpre⟩ : ∃ pre : Nat, minFx (maxFx (sh - 21) 0) 8 = pre ∧ pre ≤ 8 ∧ (pre < 8 → sh - pre ≤ 21) ∧ (1 ≤ pre → 21 + pre ≤ sh) := by
    unfold minFx maxFx
    split <;> split <;> refine ⟨_, (Int.toNat_of_nonneg (by omega)).symm, ?_, ?_, ?_⟩ <;> omega
  obtain ⟨ep, p8, pt, ps⟩ := hpre
  rw [ep]
  -- the accumulator shifted by `pre`
  have ha : |asrRndFx m 32 acc pre * 2 ^ pre - acc| * 2 ≤ 2 ^ pre ∧ (pre = 0 → asrRndFx m 32 acc pre = acc) := by
    have hp2 : (2 : Int) ^ (pre - 1) ≤ 2 ^ 7 := pow_le_pow_right₀ (by decide) (by omega)
    refine ⟨?_, fun e => by subst e; rfl⟩
    cases m
    · obtain ⟨a, b⟩ := c04_round_half_up_partial 32 (by omega) acc hr32 pre (Or.inr (Or.inr (by simp only [hi]; omega)))
      have : |asrRndFx .up 32 acc pre * 2 ^ pre - acc| * 2 = |2 * (acc - asrRndFx .up 32 acc pre * 2 ^ pre)| := by
        rw [abs_mul, abs_sub_comm, mul_comm]; rfl
      rw [this, abs_le]; omega
    · obtain ⟨a, b, -⟩ := c03_convergent_round_half_even 32 (by omega) acc hr32 pre
      have : |asrRndFx .convergent 32 acc pre * 2 ^ pre - acc| * 2 = |2 * (acc - asrRndFx .convergent 32 acc pre * 2 ^ pre)| := by
        rw [abs_mul, abs_sub_comm, mul_comm]; rfl
      rw [this, abs_le]; omega
  have har := asrRnd_inRange m (w := 32) (by omega) hr32 pre
  generalize asrRndFx m 32 acc pre = a0 at ha har ⊢
  rw [show satFx 32 a0 16 = clamp 16 a0 from satFx_eq (wi := 32) (wo := 16) (by omega) (by omega) har]
  have hcl := clamp_inRange 16 a0
  have hmul : |clamp 16 a0 * q| ≤ 2 ^ 61 := by
    rw [abs_mul, abs_of_pos (by omega : 0 < q)]
    have m2 : |clamp 16 a0| ≤ 2 ^ 15 := by
      obtain ⟨c1, c2⟩ := hcl
      simp only [lo, hi] at c1 c2
      rw [abs_le]; omega
    calc |clamp 16 a0| * q ≤ 2 ^ 15 * 2 ^ 15 := mul_le_mul m2 q2 (by omega) (by decide)
      _ ≤ 2 ^ 61 := by decide
  obtain ⟨v, v1, v2⟩ := store_s8 m (t := sh - pre) hmul hz
  rw [v2]
  have P1 := scaleVal_pos (f := fI) hI.1
  have P2 := scaleVal_pos (f := fW) hW.1
  have P3 := scaleVal_pos (f := fO) hO.1
  have P4 : 0 < scaleVal sI fI * scaleVal sW fW / scaleVal sO fO := by positivity
  have e4 : scaleVal sI fI * scaleVal sW fW / scaleVal sO fO = scaleVal sW fW * (scaleVal sI fI / scaleVal sO fO) := by ring
  generalize hM : scaleVal sI fI * scaleVal sW fW / scaleVal sO fO = M at P4 e4 ⊢
  -- the multiplier against the exact scale
  have hMq : |scaleVal q sh - M| ≤ M / 5000 := by
    unfold RelErr at h4 h5
    rw [abs_of_pos (div_pos P1 P3)] at h4
    have s1 : |scaleVal ratio shift * scaleVal sW fW - M| ≤ 1 / 2 ^ 13 * M := by
      rw [e4, mul_comm (scaleVal sW fW), ← sub_mul, abs_mul, abs_of_pos P2]
      calc _ ≤ (1 / 2 ^ 13 * (scaleVal sI fI / scaleVal sO fO)) * scaleVal sW fW := mul_le_mul_of_nonneg_right h4 P2.le
        _ = _ := by ring
    have P5 : 0 < scaleVal ratio shift * scaleVal sW fW := mul_pos (scaleVal_pos (by omega)) P2
    rw [abs_of_pos P5] at h5
    rw [abs_le] at *
    norm_num at *
    constructor <;> linarith
  have e5 : ∀ a : Int, ((a * q : Int) : ℚ) * 2 ^ (-(sh - pre)) = (a * 2 ^ pre : ℚ) * scaleVal q sh := by
    intro a
    unfold scaleVal
    rw [show -(sh - (pre : Int)) = (pre : Int) + -sh by ring, zpow_add₀ (by norm_num), zpow_natCast]
    push_cast; ring
  have Pq : 0 < scaleVal q sh := scaleVal_pos (by omega)
  -- the shifted accumulator against the exact one
  have hC : |(a0 * 2 ^ pre : ℚ) * scaleVal q sh - acc * M| ≤ |(acc : ℚ) * M| / 5000 + 1 / 128 := by
    have d1 : |(a0 * 2 ^ pre : ℚ) - acc| * scaleVal q sh ≤ 1 / 128 := by
      by_cases h0 : pre = 0
      · rw [ha.2 h0, h0]; norm_num
      · have g1 : |(a0 * 2 ^ pre : ℚ) - acc| * 2 ≤ 2 ^ pre := by exact_mod_cast ha.1
        have g2 : scaleVal q sh ≤ 2 ^ 15 * 2 ^ (-(21 + pre : Int)) := by
          unfold scaleVal
          have : (2 : ℚ) ^ (-sh) ≤ 2 ^ (-(21 + pre : Int)) := zpow_le_zpow_right₀ (by norm_num) (by have := ps (by omega); omega)
          have gq : (q : ℚ) ≤ 2 ^ 15 := by exact_mod_cast q2
          exact mul_le_mul gq this (by positivity) (by positivity)
        calc |(a0 * 2 ^ pre : ℚ) - acc| * scaleVal q sh ≤ (2 ^ pre / 2) * (2 ^ 15 * 2 ^ (-(21 + pre : Int))) :=
              mul_le_mul (by linarith) g2 Pq.le (by positivity)
          _ = 1 / 128 := by
              rw [neg_add, zpow_add₀ (by norm_num), zpow_neg 2 (pre : Int), zpow_natCast]
              field_simp
              norm_num
    have : (a0 * 2 ^ pre : ℚ) * scaleVal q sh - acc * M = ((a0 * 2 ^ pre : ℚ) - acc) * scaleVal q sh + acc * (scaleVal q sh - M) := by ring
    rw [this]
    refine (abs_add_le _ _).trans ?_
    rw [abs_mul _ (scaleVal q sh), abs_of_pos Pq, abs_mul (acc : ℚ) _, abs_mul (acc : ℚ) M, abs_of_pos P4]
    have := mul_le_mul_of_nonneg_left hMq (abs_nonneg (acc : ℚ))
    have e6 : |(acc : ℚ)| * (M / 5000) = |(acc : ℚ)| * M / 5000 := by ring
    linarith
  by_cases hcle : clamp 16 a0 = a0
  · rw [hcle, e5] at v1
    apply store_close hz v1
    refine hC.trans ?_
    have := abs_nonneg ((acc : ℚ) * M)
    linarith
  · -- saturated to 16 bits: the result is beyond the range of the output
    have hp7 : pre < 8 := by
      by_contra hc
      have : pre = 8 := by omega
      subst this
      apply hcle
      apply clamp_of_inRange
      have := ha.1
      have h1 := abs_le.1 (show |a0 * 2 ^ 8 - acc| ≤ 128 by omega)
      constructor <;> simp only [lo, hi] <;> omega
    have ht := pt hp7
    have hbig : ∀ a : Int, 32767 ≤ a → 255 + 9 / 10 ≤ (a * 2 ^ pre : ℚ) * scaleVal q sh := by
      intro a hle
      rw [← e5]
      have g1 : (2 : ℚ) ^ (-21 : Int) ≤ 2 ^ (-(sh - pre)) := zpow_le_zpow_right₀ (by norm_num) (by omega)
      have g2 : (32767 * 2 ^ 14 : ℚ) ≤ ((a * q : Int) : ℚ) := by
        have : 32767 * 2 ^ 14 ≤ a * q := mul_le_mul hle q1 (by decide) (by omega)
        exact_mod_cast this
      calc (255 + 9 / 10 : ℚ) ≤ (32767 * 2 ^ 14) * 2 ^ (-21 : Int) := by norm_num
        _ ≤ _ := mul_le_mul g2 g1 (by positivity) (le_trans (by norm_num) g2)
    rw [e5] at v1
    have hC' := abs_le.1 hC
    rw [store_far hz v1 (E := acc * M)]
    · norm_num
    · have l16 : lo 16 = -32768 := by decide
      have h16 : hi 16 = 32767 := by decide
      by_cases hs : hi 16 < a0
      · left
        rw [clamp_of_gt hs.le]
        have b1 := hbig (hi 16) (by omega)
        have b2 := hbig a0 (by omega)
        refine ⟨by linarith, ?_⟩
        rcases abs_cases ((acc : ℚ) * M) with ⟨e, _⟩ | ⟨e, _⟩ <;> rw [e] at hC' <;> linarith
      · have hs2 : a0 < lo 16 := by
          by_contra hc
          exact hcle (clamp_of_inRange ⟨by omega, by omega⟩)
        right
        rw [clamp_of_lt hs2.le]
        have b1 := hbig (-lo 16) (by omega)
        have b2 := hbig (-a0) (by omega)
        push_cast at b1 b2
        refine ⟨by linarith, ?_⟩
        rcases abs_cases ((acc : ℚ) * M) with ⟨e, _⟩ | ⟨e, _⟩ <;> rw [e] at hC' <;> linarith

/-- In the default build the theorem fails beyond 24 bits: here the real result is
`-128 + 2^24 * 2^-16 = 128`, the stored value is 0. -/
theorem c46_result_cast_violated :
    ∃ rt, inToOut .convergent 1 8 1 0 = some rt ∧
      resultCastS8 .convergent false (adjustQuant false rt.1 rt.2 1 8).1 (adjustQuant false rt.1 rt.2 1 8).2 (-128) (2 ^ 24) = 0 ∧
      limitQ (-128) 127 (((-128 : Int) : ℚ) + ((2 ^ 24 : Int) : ℚ) * (scaleVal 1 8 * scaleVal 1 8 / scaleVal 1 0)) = 127 := by
  refine ⟨(16384, 22), by decide +kernel, by decide +kernel, ?_⟩
  unfold scaleVal limitQ
  norm_num

example : |(1234567 : Int)| < 2 ^ 23 - 2 ^ 7 ∧ InRange 8 (-3) ∧ (0 < (12345 : Int) ∧ InRange 16 12345) ∧
    (inToOut .up 12345 20 30000 12).map (fun rt => resultCastS8 .up false (adjustQuant false rt.1 rt.2 20000 15).1
      (adjustQuant false rt.1 rt.2 20000 15).2 (-3) (-12345)) = some (-15) := by decide +kernel

/-! ## Bias -/

/-- The bias of SA8 kernels is added to the accumulator with saturation: exactly in
builds with `FULL_ACCU`, with its 16 most significant bits in the default build. -/
theorem c46_bias (full : Bool) {b acc : Int} (hb : InRange 32 b) (ha : InRange 32 acc) :
    ∃ b', biasS8 full b acc = clamp 32 (acc + b') ∧ (full = true → b' = b) ∧ |b' - b| * 2 ^ 14 ≤ |b| ∧ (|b| < 2 ^ 15 → b' = b) := by
  cases full
  · obtain ⟨n, e, n31, r, nr, nz⟩ := normFx_spec 32 (by omega) b hb
    obtain ⟨s, hs⟩ : ∃ s : Nat, maxFx (16 - normFx 32 b) 0 = s ∧ (s = 0 ∨ s + n = 16) := by
      unfold maxFx
      split
      · exact ⟨(16 - normFx 32 b).toNat, by omega, by omega⟩
      · exact ⟨0, rfl, Or.inl rfl⟩
    have hp := two_pow_pos s
    have q0 : b / 2 ^ s * 2 ^ s ≤ b := Int.ediv_mul_le _ (by omega)
    have q1 : b < (b / 2 ^ s + 1) * 2 ^ s := Int.lt_ediv_add_one_mul_self _ hp
    rw [Int.add_mul] at q1
    have rq : InRange 32 (b / 2 ^ s * 2 ^ s) := by
      obtain ⟨b1, b2⟩ := hb
      refine ⟨?_, by omega⟩
      have : lo 32 = lo 32 / 2 ^ s * 2 ^ s := by
        have d : (2 : Int) ^ s ∣ lo 32 := by
          rw [show lo 32 = -2 ^ 31 by decide]
          exact (pow_dvd_pow 2 (by omega)).neg_right
        exact (Int.ediv_mul_cancel d).symm
      rw [this]
      exact Int.mul_le_mul_of_nonneg_right (Int.ediv_le_ediv hp b1) hp.le
    have rs : InRange 32 (b / 2 ^ s) := by
      obtain ⟨b1, b2⟩ := hb
      simp only [lo, hi] at b1 b2
      constructor <;> simp only [lo, hi]
      · rw [Int.le_ediv_iff_mul_le hp]
        have : -2 ^ (32 - 1) * 2 ^ s ≤ -2 ^ (32 - 1) * (1 : Int) := Int.mul_le_mul_of_nonpos_left (by decide) (by omega)
        omega
      · have : b / 2 ^ s < 2 ^ 31 := by
          rw [Int.ediv_lt_iff_lt_mul hp]
          have : (2 : Int) ^ 31 * 1 ≤ 2 ^ 31 * 2 ^ s := Int.mul_le_mul_of_nonneg_left (by omega) (by decide)
          omega
        omega
    have eb : biasS8 false b acc = clamp 32 (acc + b / 2 ^ s * 2 ^ s) := by
      unfold biasS8
      simp only [Bool.false_eq_true, if_false, hs.1, Int.toNat_natCast]
      rw [Int.shiftRight_eq_div_pow, show ((2 ^ s : Nat) : Int) = 2 ^ s by push_cast; rfl,
        aslFx_nonneg (by omega) rs, clamp_of_inRange rq, addFx_eq ha rq]
    have big : 0 < s → 2 ^ 14 * 2 ^ s ≤ |b| := by
      intro h0
      have hb0 : b ≠ 0 := by intro h; have := nz h; omega
      have e1 : (2 : Int) ^ s * 2 ^ n = 2 ^ 16 := by rw [← pow_add]; congr 1; omega
      by_contra hc
      apply nr hb0
      have p0 := two_pow_pos n
      have : |b * 2 ^ (n + 1)| < 2 ^ 31 := by
        rw [abs_mul, abs_of_pos (two_pow_pos _), pow_succ]
        have : |b| * 2 ^ n < 2 ^ 14 * 2 ^ s * 2 ^ n := Int.mul_lt_mul_of_pos_right (by omega) p0
        rw [Int.mul_assoc, e1] at this
        rw [← Int.mul_assoc]; omega
      have := abs_lt.1 this
      constructor <;> simp only [lo, hi] <;> omega
    refine ⟨b / 2 ^ s * 2 ^ s, eb, by simp, ?_, ?_⟩
    · by_cases h0 : s = 0
      · subst h0; simp
      · have := big (by omega)
        have : |b / 2 ^ s * 2 ^ s - b| ≤ 2 ^ s := by rw [abs_le]; omega
        have := Int.mul_le_mul_of_nonneg_right this (show (0 : Int) ≤ 2 ^ 14 by decide)
        rw [Int.mul_comm (2 ^ s)] at this
        omega
    · intro hlt
      by_cases h0 : s = 0
      · subst h0; simp
      · have := big (by omega)
        have : (2 : Int) ^ 1 ≤ 2 ^ s := pow_le_pow_right₀ (by decide) (by omega)
        omega
  · refine ⟨b, ?_, fun _ => rfl, by simp, fun _ => rfl⟩
    unfold biasS8
    simp only [if_true]
    exact addFx_eq ha hb

example : biasS8 false 1234567 1000 = 1000 + 1234560 ∧ |(1234560 - 1234567 : Int)| * 2 ^ 14 ≤ |(1234567 : Int)| ∧
    biasS8 false (2 ^ 31 - 1) (2 ^ 20) = 2 ^ 31 - 1 := by decide +kernel

end Mli
