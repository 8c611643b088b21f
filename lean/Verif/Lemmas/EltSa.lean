import Verif.Model.Eltwise
import Verif.Spec.EltSa
import Verif.Lemmas.Leaky

/-! # Elements of the SA8 element-wise kernels -/

namespace Mli

open Spec

/-- The scale and shift after the shift has been limited to `[-31, u]`. -/
inductive Limited (u sc p : Int) : Int → Int → Prop
  | same (h1 : -31 ≤ p) (h2 : p ≤ u) : Limited u sc p sc p
  | small {sc' : Int} (h : u < p) (h0 : 0 ≤ sc') (h1 : sc' ≤ 2 ^ 14) : Limited u sc p sc' u
  | big (h : p < -31) : Limited u sc p (2 ^ 15 - 1) (-31)

theorem asrRnd16_le (m : Rnd) {x : Int} (h0 : 0 ≤ x) (hx : x ≤ 2 ^ 15 - 1) {k : Int} (hk : 1 ≤ k) :
    0 ≤ asrRndFx m 16 x k ∧ asrRndFx m 16 x k ≤ 2 ^ 14 := by
  have r1 : InRange 16 x := ⟨by simp only [lo]; omega, by simp only [hi]; omega⟩
  have r2 : InRange 16 (2 ^ 15 - 1) := by decide
  have a := asrRnd_mono m (w := 16) (by omega) (show InRange 16 0 by decide) r1 k h0
  have b := asrRnd_mono m (w := 16) (by omega) r1 r2 k hx
  have c : 0 ≤ asrRndFx m 16 0 k ∧ asrRndFx m 16 (2 ^ 15 - 1) k ≤ 2 ^ 14 := by
    by_cases h : 15 < k
    · unfold asrRndFx
      rw [if_neg (by omega), if_neg (by omega), if_pos (by push_cast; omega), if_neg (by omega), if_neg (by omega), if_pos (by push_cast; omega)]
      decide
    · have : ∀ j : Fin 15, 0 ≤ asrRndFx m 16 0 ((j : Nat) + 1) ∧ asrRndFx m 16 (2 ^ 15 - 1) ((j : Nat) + 1) ≤ 2 ^ 14 := by
        cases m <;> decide
      have := this ⟨(k - 1).toNat, by omega⟩
      simp only at this
      rwa [show (((k - 1).toNat : Nat) : Int) + 1 = k by omega] at this
  omega

theorem limited (m : Rnd) {u sc : Int} (hu : 0 ≤ u) (h1 : 2 ^ 14 ≤ sc) (h2 : sc ≤ 2 ^ 15 - 1) (p : Int) :
    Limited u sc p (asrRndFx m 16 sc (max (p - u) 0 + min (31 + p) 0)) (p - (max (p - u) 0 + min (31 + p) 0)) := by
  rcases lt_or_ge p (-31) with h | h
  · rw [show max (p - u) 0 + min (31 + p) 0 = -(((-31 - p).toNat : Nat) : Int) by omega]
    have hr : InRange 16 sc := ⟨by simp only [lo]; omega, by simp only [hi]; omega⟩
    rw [asrRnd_neg (by omega) hr]
    obtain ⟨n, hn⟩ : ∃ n : Nat, (-31 - p).toNat = n + 1 := ⟨(-31 - p).toNat - 1, by omega⟩
    have e : clamp 16 (sc * 2 ^ (-31 - p).toNat) = 2 ^ 15 - 1 := by
      rw [hn, clamp_of_gt]
      · simp only [hi]
      have h2 : (2 : Int) ^ 1 ≤ 2 ^ (n + 1) := pow_le_pow_right₀ (by decide) (by omega)
      have : 2 ^ 14 * 2 ^ 1 ≤ sc * 2 ^ (n + 1) := mul_le_mul h1 h2 (by decide) (by omega)
      simp only [Spec.hi]; omega
    rw [e, show p - -(((-31 - p).toNat : Nat) : Int) = -31 by omega]
    exact .big h
  · rcases lt_or_ge u p with h' | h'
    · have hb := asrRnd16_le m (x := sc) (by omega) h2 (k := max (p - u) 0 + min (31 + p) 0) (by omega)
      generalize asrRndFx m 16 sc (max (p - u) 0 + min (31 + p) 0) = s at *
      rw [show p - (max (p - u) 0 + min (31 + p) 0) = u by omega]
      exact .small h' hb.1 hb.2
    · rw [show max (p - u) 0 + min (31 + p) 0 = 0 by omega]
      have : asrRndFx m 16 sc 0 = sc := by unfold asrRndFx; simp
      rw [this, Int.sub_zero]
      exact .same h h'

/-- The normalised ratio of a positive scale (or product of scales) and the output scale. -/
theorem eltRatio (m : Rnd) {s so : Int} (f fo : Int) (h0 : 0 < s) (h1 : s ≤ 2 ^ 30) (ho : 0 < so) (ho2 : so ≤ 2 ^ 15 - 1) :
    ∃ k n2 : Int, (normCastFx m 32 32 s).2 = -k ∧ (normCastFx m 32 16 ((normCastFx m 32 32 s).1.tdiv so)).2 = n2 ∧
      2 ^ 14 ≤ (normCastFx m 32 16 ((normCastFx m 32 32 s).1.tdiv so)).1 ∧
      (normCastFx m 32 16 ((normCastFx m 32 32 s).1.tdiv so)).1 ≤ 2 ^ 15 - 1 ∧
      RelErr (1 / 2 ^ 13) (scaleVal (normCastFx m 32 16 ((normCastFx m 32 32 s).1.tdiv so)).1 (f + k - fo - n2))
        (scaleVal s f / scaleVal so fo) := by
  have hr : InRange 32 s := ⟨by simp only [lo]; omega, by simp only [hi]; omega⟩
  obtain ⟨k, hk, -, hin, hmag⟩ := norm_mag (by omega : s ≠ 0) hr
  have hpos : 0 < s * 2 ^ k := mul_pos h0 (two_pow_pos k)
  rw [abs_of_pos hpos] at hmag
  have e2 : (normCastFx m 32 32 s).2 = -(k : Int) := by unfold normCastFx; simp only [hk]; omega
  have e1 : (normCastFx m 32 32 s).1 = s * 2 ^ k := by
    unfold normCastFx
    simp only [hk, if_true]
    unfold castFxSame
    rw [show (((32 : Nat) : Int) - ((32 : Nat) : Int) - (k : Int)) = -(k : Int) by omega, asrRnd_neg (by omega) hr, clamp_of_inRange hin]
  have hle := hin.2
  simp only [hi] at hle
  have hdiv : 2 ^ 15 ≤ s * 2 ^ k / so := by
    rw [Int.le_ediv_iff_mul_le ho]
    have : (2 : Int) ^ 15 * so ≤ 2 ^ 15 * 2 ^ 15 := mul_le_mul_of_nonneg_left (by omega) (by decide)
    omega
  obtain ⟨ratio, r1, r2, r3, r4⟩ := ratio_core m s f so fo ho k rfl hle hdiv
  refine ⟨k, _, e2, rfl, ?_⟩
  rw [e1]
  have e3 : (normCastFx m 32 16 ((s * 2 ^ k).tdiv so)).1 = ratio := by
    unfold normCastFx
    simp only [show ¬ (32 = 16) by decide, if_false]
    rw [← r1]
    congr 1
  have e4 : (normCastFx m 32 16 ((s * 2 ^ k).tdiv so)).2 = 16 - normFx 32 ((s * 2 ^ k).tdiv so) := by
    unfold normCastFx
    simp only
    omega
  rw [e3, e4]
  exact ⟨r2, r3, r4⟩

/-- Rounding a 32-bit number, adding the zero point in 16 bits and limiting to 8 bits. -/
theorem eltSaOut_eq (m : Rnd) (r : Int) {zo : Int} (hz : InRange 8 zo) : eltSaOut m (clamp 16 r) zo = clamp 8 (r + zo) := by
  have ho1 := hz.1
  have ho2 := hz.2
  simp only [lo, hi] at ho1 ho2
  unfold eltSaOut
  rw [addFx_eq (clamp_inRange _ _) (inRange_mono (by omega) hz), castFx_eq m (by omega) (by omega) (clamp_inRange _ _)]
  rw [show asrRndFx m 16 (clamp 16 (clamp 16 r + zo)) 0 = clamp 16 (clamp 16 r + zo) by unfold asrRndFx; simp]
  rw [clamp_clamp (by omega)]
  unfold clamp
  simp only [lo, hi]
  norm_num
  split <;> split <;> (try split) <;> (try split) <;> omega

theorem castOut_eq (m : Rnd) {p : Int} (hp : -(2 ^ 30 - 1) ≤ p ∧ p ≤ 2 ^ 30 - 1) (k : Int) {zo : Int} (hz : InRange 8 zo) :
    ∃ r, Scaled m p k r ∧ eltSaOut m (castFx m 32 16 p k) zo = clamp 8 (r + zo) := by
  obtain ⟨r, r1, r2⟩ := shiftAny m hp k
  refine ⟨r, r1, ?_⟩
  rw [castFx_eq m (by omega) (by omega) ⟨by simp only [lo]; omega, by simp only [hi]; omega⟩, r2, clamp_clamp (by omega)]
  exact eltSaOut_eq m r hz

theorem store_near {r zo : Int} {E e : ℚ} (h : |(r : ℚ) - E| ≤ e) : |((clamp 8 (r + zo) : Int) : ℚ) - limitQ (-128) 127 (zo + E)| ≤ e := by
  rw [clamp8_cast]
  have := limitQ_sub (-128) 127 ((r + zo : Int) : ℚ) (zo + E)
  have e : ((r + zo : Int) : ℚ) - (zo + E) = r - E := by push_cast; ring
  rw [e] at this
  linarith

theorem zpow_le {a b : Int} (h : a ≤ b) : (2 : ℚ) ^ a ≤ (2 : ℚ) ^ b := zpow_le_zpow_right₀ (by norm_num) h

/-- The ratio of the scales when the shift is above its limit. -/
theorem ratio_small {sc p u : Int} {ρ : ℚ} (h2 : sc ≤ 2 ^ 15 - 1) (hρ : 0 < ρ) (rel : RelErr (1 / 2 ^ 13) (scaleVal sc p) ρ)
    (h : u < p) : ρ * 8191 ≤ 8192 * (2 ^ 14 * (2 : ℚ) ^ (-u)) := by
  unfold RelErr at rel
  rw [abs_of_pos hρ] at rel
  have r := (abs_le.1 rel).1
  have h3 : scaleVal sc p ≤ 2 ^ 14 * (2 : ℚ) ^ (-u) := by
    unfold scaleVal
    have e : (2 : ℚ) ^ (-u) = 2 * (2 : ℚ) ^ (-(u + 1)) := by
      rw [show -u = 1 + -(u + 1) by ring, zpow_add₀ (by norm_num), zpow_one]
    have h4 := zpow_le (show -p ≤ -(u + 1) by omega)
    have h5 : (sc : ℚ) ≤ 2 ^ 15 := by exact_mod_cast (by omega : sc ≤ 2 ^ 15)
    have h6 : (0 : ℚ) < (2 : ℚ) ^ (-p) := two_zpow_pos _
    rw [e]
    nlinarith
  norm_num at r h3 ⊢
  linarith

/-- The ratio of the scales when the shift is below its limit. -/
theorem ratio_big {sc p : Int} {ρ : ℚ} (h1 : 2 ^ 14 ≤ sc) (hρ : 0 < ρ) (rel : RelErr (1 / 2 ^ 13) (scaleVal sc p) ρ)
    (h : p < -31) : 2 ^ 40 ≤ ρ := by
  unfold RelErr at rel
  rw [abs_of_pos hρ] at rel
  have r := (abs_le.1 rel).2
  have h3 : (2 : ℚ) ^ 14 * 2 ^ 32 ≤ scaleVal sc p := by
    unfold scaleVal
    have h4 := zpow_le (show 32 ≤ -p by omega)
    have h5 : (2 : ℚ) ^ 14 ≤ sc := by exact_mod_cast h1
    have e : (2 : ℚ) ^ (32 : Int) = 2 ^ 32 := by norm_num
    rw [e] at h4
    exact mul_le_mul h5 h4 (by norm_num) (by linarith [show (0 : ℚ) < 2 ^ 14 by norm_num])
  norm_num at r h3 ⊢
  linarith

/-- A number of absolute value below 1/2 is rounded to 0. -/
theorem round_zero {r : Int} {X : ℚ} (h : |(r : ℚ) - X| ≤ 1 / 2) (hX : |X| < 1 / 2) : r = 0 := by
  have a := abs_le.1 h
  have b := abs_lt.1 hX
  have c : (r : ℚ) < 1 := by linarith
  have d : (-1 : ℚ) < r := by linarith
  have c' : r < 1 := by exact_mod_cast c
  have d' : -1 < r := by exact_mod_cast d
  omega

/-- Multiples of the output scale that are far from 0. -/
theorem far_of {d : Int} {X ρ : ℚ} (hd : d ≠ 0) (hX : 2 ^ 40 ≤ X) (hρ : 2 ^ 40 ≤ ρ) :
    (255 + 1 / 2 ≤ (d : ℚ) * X ∧ 255 + 1 / 2 ≤ d * ρ) ∨ ((d : ℚ) * X ≤ -255 - 1 / 2 ∧ d * ρ ≤ -255 - 1 / 2) := by
  norm_num at hX hρ
  rcases lt_or_gt_of_ne hd with h | h
  · right
    have : (d : ℚ) ≤ -1 := by exact_mod_cast (by omega : d ≤ -1)
    constructor <;> nlinarith
  · left
    have : (1 : ℚ) ≤ d := by exact_mod_cast (by omega : 1 ≤ d)
    constructor <;> nlinarith

/-- MAX and MIN: one difference, scaled. -/
theorem store_scaled (m : Rnd) {sc p sc' p' d zo : Int} {ρ : ℚ} (h1 : 2 ^ 14 ≤ sc) (h2 : sc ≤ 2 ^ 15 - 1) (hρ : 0 < ρ)
    (rel : RelErr (1 / 2 ^ 13) (scaleVal sc p) ρ) (hl : Limited 23 sc p sc' p') (hd : -255 ≤ d ∧ d ≤ 255) (hz : InRange 8 zo) :
    |((eltSaOut m (castFx m 32 16 (d * sc') p') zo : Int) : ℚ) - limitQ (-128) 127 (zo + d * ρ)| ≤ 3 / 5 := by
  have hsc : 0 ≤ sc' ∧ sc' ≤ 2 ^ 15 - 1 := by cases hl <;> omega
  have hb : -(2 ^ 30 - 1) ≤ d * sc' ∧ d * sc' ≤ 2 ^ 30 - 1 := by
    have : |d * sc'| ≤ 255 * 2 ^ 15 := by
      rw [abs_mul]
      exact mul_le_mul (by rw [abs_le]; omega) (by rw [abs_le]; omega) (abs_nonneg _) (by decide)
    have := abs_le.1 this
    omega
  obtain ⟨r, r1, r2⟩ := castOut_eq m hb p' hz
  rw [r2]
  have he := scaled_err r1
  have ex : ((d * sc' : Int) : ℚ) * (2 : ℚ) ^ (-p') = d * scaleVal sc' p' := by unfold scaleVal; push_cast; ring
  rw [ex] at he
  have hdq : |(d : ℚ)| ≤ 255 := by rw [abs_le]; exact ⟨by exact_mod_cast hd.1, by exact_mod_cast hd.2⟩
  cases hl with
  | same _ _ =>
    refine store_close hz he ?_
    have := rel.mul d
    unfold RelErr at this
    have := abs_nonneg ((d : ℚ) * ρ)
    norm_num at *
    linarith
  | small hu a b =>
    have hs := ratio_small h2 hρ rel hu
    have a' : (0 : ℚ) ≤ sc' := by exact_mod_cast a
    have b' : (sc' : ℚ) ≤ 2 ^ 14 := by exact_mod_cast b
    have hX : |(d : ℚ) * scaleVal sc' 23| < 1 / 2 := by
      rw [abs_mul]
      have : |scaleVal sc' 23| ≤ 2 ^ 14 / 2 ^ 23 := by
        unfold scaleVal
        rw [abs_of_nonneg (mul_nonneg a' (le_of_lt (two_zpow_pos _)))]
        norm_num at b' ⊢
        linarith
      have := mul_le_mul hdq this (abs_nonneg _) (by norm_num)
      norm_num at this ⊢
      linarith
    rw [round_zero he hX]
    refine store_near ?_
    have : |(d : ℚ) * ρ| ≤ 255 * ρ := by rw [abs_mul, abs_of_pos hρ]; exact mul_le_mul_of_nonneg_right hdq (le_of_lt hρ)
    rw [Int.cast_zero, zero_sub, abs_neg]
    norm_num at hs
    linarith
  | big hp =>
    have hb := ratio_big h1 hρ rel hp
    by_cases h0 : d = 0
    · subst h0
      rw [Int.cast_zero, zero_mul] at he
      rw [round_zero he (by norm_num)]
      exact store_near (by norm_num)
    · rw [store_far hz he (far_of h0 (by unfold scaleVal; norm_num) hb), sub_self, abs_zero]
      norm_num

/-- ADD and SUB: the contribution of one operand, before the operation. -/
theorem term_scaled (m : Rnd) {sc p sc' p' d : Int} {ρ : ℚ} (h1 : 2 ^ 14 ≤ sc) (h2 : sc ≤ 2 ^ 15 - 1) (hρ : 0 < ρ)
    (rel : RelErr (1 / 2 ^ 13) (scaleVal sc p) ρ) (hl : Limited 23 sc p sc' p') (hd : -255 ≤ d ∧ d ≤ 255)
    (hsm : |(d : ℚ) * ρ| < 2 ^ 21) :
    InRange 30 (asrRndFx m 32 (d * sc') p') ∧ |((asrRndFx m 32 (d * sc') p' : Int) : ℚ) - d * ρ| ≤ 1 / 2 + |(d : ℚ) * ρ| / 8192 := by
  have hsc : 0 ≤ sc' ∧ sc' ≤ 2 ^ 15 - 1 := by cases hl <;> omega
  have hb : -(2 ^ 30 - 1) ≤ d * sc' ∧ d * sc' ≤ 2 ^ 30 - 1 := by
    have : |d * sc'| ≤ 255 * 2 ^ 15 := by
      rw [abs_mul]
      exact mul_le_mul (by rw [abs_le]; omega) (by rw [abs_le]; omega) (abs_nonneg _) (by decide)
    have := abs_le.1 this
    omega
  obtain ⟨r, r1, r2⟩ := shiftAny m hb p'
  have he := scaled_err r1
  have ex : ((d * sc' : Int) : ℚ) * (2 : ℚ) ^ (-p') = d * scaleVal sc' p' := by unfold scaleVal; push_cast; ring
  rw [ex] at he
  have hdq : |(d : ℚ)| ≤ 255 := by rw [abs_le]; exact ⟨by exact_mod_cast hd.1, by exact_mod_cast hd.2⟩
  suffices h : |(r : ℚ) - d * ρ| ≤ 1 / 2 + |(d : ℚ) * ρ| / 8192 by
    have hr : InRange 30 r := by
      have ha := abs_le.1 h
      have hb := abs_lt.1 hsm
      have x1 : (r : ℚ) ≤ 2 ^ 28 := by norm_num at *; linarith
      have x2 : -(2 ^ 28 : ℚ) ≤ r := by norm_num at *; linarith
      have x1' : r ≤ 2 ^ 28 := by exact_mod_cast x1
      have x2' : -(2 ^ 28) ≤ r := by exact_mod_cast x2
      exact ⟨by simp only [lo]; omega, by simp only [hi]; omega⟩
    rw [r2, clamp_of_inRange (inRange_mono (by omega) hr)]
    exact ⟨hr, h⟩
  cases hl with
  | same _ _ =>
    have h3 := rel.mul d
    unfold RelErr at h3
    have := abs_sub_le (r : ℚ) (d * scaleVal sc p) (d * ρ)
    norm_num at *
    linarith
  | small hu a b =>
    have hs := ratio_small h2 hρ rel hu
    have a' : (0 : ℚ) ≤ sc' := by exact_mod_cast a
    have b' : (sc' : ℚ) ≤ 2 ^ 14 := by exact_mod_cast b
    have hX : |(d : ℚ) * scaleVal sc' 23| < 1 / 2 := by
      rw [abs_mul]
      have : |scaleVal sc' 23| ≤ 2 ^ 14 / 2 ^ 23 := by
        unfold scaleVal
        rw [abs_of_nonneg (mul_nonneg a' (le_of_lt (two_zpow_pos _)))]
        norm_num at b' ⊢
        linarith
      have := mul_le_mul hdq this (abs_nonneg _) (by norm_num)
      norm_num at this ⊢
      linarith
    rw [round_zero he hX]
    have : |(d : ℚ) * ρ| ≤ 255 * ρ := by rw [abs_mul, abs_of_pos hρ]; exact mul_le_mul_of_nonneg_right hdq (le_of_lt hρ)
    have := abs_nonneg ((d : ℚ) * ρ)
    rw [Int.cast_zero, zero_sub, abs_neg]
    norm_num at hs
    linarith
  | big hp =>
    have hb := ratio_big h1 hρ rel hp
    by_cases h0 : d = 0
    · subst h0
      rw [Int.cast_zero, zero_mul] at he
      rw [round_zero he (by norm_num)]
      norm_num
    · exfalso
      have : (1 : ℚ) ≤ |(d : ℚ)| := by exact_mod_cast Int.one_le_abs h0
      rw [abs_mul, abs_of_pos hρ] at hsm
      norm_num at hb hsm
      nlinarith

/-- The sum or difference of two rounded contributions. -/
theorem sum_store (m : Rnd) {sg t1 t2 zo : Int} {E1 E2 : ℚ} (hsg : sg = 1 ∨ sg = -1) (hz : InRange 8 zo)
    (ht : |E1| + |E2| < 2 ^ 21 → (InRange 30 t1 ∧ |(t1 : ℚ) - E1| ≤ 1 / 2 + |E1| / 8192) ∧ (InRange 30 t2 ∧ |(t2 : ℚ) - E2| ≤ 1 / 2 + |E2| / 8192))
    (h1 : InRange 32 t1) (h2 : InRange 32 t2) :
    |((eltSaOut m (castFx m 64 16 (if sg = 1 then addFx 32 t1 t2 else subFx 32 t1 t2) 0) zo : Int) : ℚ) -
      limitQ (-128) 127 (zo + (E1 + sg * E2))| ≤ 1 + (|E1| + |E2|) / 8192 := by
  have e0 : (if sg = 1 then addFx 32 t1 t2 else subFx 32 t1 t2) = clamp 32 (t1 + sg * t2) := by
    rcases hsg with rfl | rfl
    · rw [if_pos rfl, addFx_eq h1 h2, Int.one_mul]
    · rw [if_neg (by decide), subFx_eq h1 h2]; congr 1; omega
  have hc := clamp_inRange 32 (t1 + sg * t2)
  rw [e0, castFx_eq m (by omega) (by omega) (inRange_mono (by omega) hc),
    show asrRndFx m 64 (clamp 32 (t1 + sg * t2)) 0 = clamp 32 (t1 + sg * t2) by unfold asrRndFx; simp, clamp_clamp (by omega), eltSaOut_eq m _ hz]
  by_cases hs : |E1| + |E2| < 2 ^ 21
  · obtain ⟨⟨-, a1⟩, -, a2⟩ := ht hs
    refine store_near ?_
    have b2 : |(sg : ℚ) * t2 - sg * E2| ≤ 1 / 2 + |E2| / 8192 := by
      rw [← mul_sub, abs_mul]
      rcases hsg with rfl | rfl <;> simpa using a2
    have e : ((t1 + sg * t2 : Int) : ℚ) - (E1 + sg * E2) = (t1 - E1) + (sg * t2 - sg * E2) := by push_cast; ring
    rw [e]
    have := abs_add_le ((t1 : ℚ) - E1) (sg * t2 - sg * E2)
    linarith
  · have b1 := clamp_inRange 8 (t1 + sg * t2 + zo)
    have c1 : (-128 : ℚ) ≤ (clamp 8 (t1 + sg * t2 + zo) : Int) := by exact_mod_cast b1.1
    have c2 : ((clamp 8 (t1 + sg * t2 + zo) : Int) : ℚ) ≤ 127 := by exact_mod_cast b1.2
    have d1 : (-128 : ℚ) ≤ limitQ (-128) 127 (zo + (E1 + sg * E2)) := le_max_left _ _
    have d2 : limitQ (-128) 127 (zo + (E1 + sg * E2)) ≤ 127 := max_le (by norm_num) (min_le_left _ _)
    rw [abs_le]
    norm_num at hs
    constructor <;> linarith

/-- MUL: the product of two differences, scaled. -/
theorem mul_store (m : Rnd) {sc p sc' p' a zo : Int} {ρ : ℚ} (h1 : 2 ^ 14 ≤ sc) (h2 : sc ≤ 2 ^ 15 - 1) (hρ : 0 < ρ)
    (rel : RelErr (1 / 2 ^ 13) (scaleVal sc p) ρ) (hl : Limited 31 sc p sc' p') (ha : -65025 ≤ a ∧ a ≤ 65025) (hz : InRange 8 zo) :
    |((eltSaOut m (castFx m 32 16 (castFx m 32 16 a (minFx (maxFx (p' - (32 - 8 - 3)) 0) 3) * sc')
        (p' - minFx (maxFx (p' - (32 - 8 - 3)) 0) 3)) zo : Int) : ℚ) - limitQ (-128) 127 (zo + a * ρ)| ≤ 3 / 5 := by
  have hsc : 0 ≤ sc' ∧ sc' ≤ 2 ^ 15 - 1 := by cases hl <;> omega
  obtain ⟨q, hq⟩ : ∃ q : Nat, minFx (maxFx (p' - (32 - 8 - 3)) 0) 3 = (q : Int) :=
    ⟨(minFx (maxFx (p' - (32 - 8 - 3)) 0) 3).toNat, by unfold minFx maxFx; split <;> split <;> omega⟩
  have hq' : (q : Int) = min (max (p' - 21) 0) 3 := by
    rw [← hq]; unfold minFx maxFx; split <;> split <;> omega
  rw [hq]
  have ha32 : InRange 32 a := ⟨by simp only [lo]; omega, by simp only [hi]; omega⟩
  obtain ⟨r0, s0, e0⟩ := shiftAny m (p := a) (by omega) (q : Int)
  have er : castFx m 32 16 a q = clamp 16 r0 := by
    rw [castFx_eq m (by omega) (by omega) ha32, e0, clamp_clamp (by omega)]
  rw [er]
  have hc := clamp_inRange 16 r0
  have hc1 := hc.1
  have hc2 := hc.2
  simp only [lo, hi] at hc1 hc2
  have hb : -(2 ^ 30 - 1) ≤ clamp 16 r0 * sc' ∧ clamp 16 r0 * sc' ≤ 2 ^ 30 - 1 := by
    have : |clamp 16 r0 * sc'| ≤ 2 ^ 15 * (2 ^ 15 - 1) := by
      rw [abs_mul]
      exact mul_le_mul (by rw [abs_le]; omega) (by rw [abs_le]; omega) (abs_nonneg _) (by decide)
    have := abs_le.1 this
    omega
  obtain ⟨r, r1, r2⟩ := castOut_eq m hb (p' - q) hz
  rw [r2]
  have he := scaled_err r1
  have ex : ((clamp 16 r0 * sc' : Int) : ℚ) * (2 : ℚ) ^ (-(p' - (q : Int))) = clamp 16 r0 * scaleVal sc' (p' - q) := by
    unfold scaleVal; push_cast; ring
  rw [ex] at he
  have he0 := scaled_err s0
  have haq : |(a : ℚ)| ≤ 65025 := by rw [abs_le]; exact ⟨by exact_mod_cast ha.1, by exact_mod_cast ha.2⟩
  -- no shift before the multiplication
  have q0 : (q : Int) = 0 → r0 = a := by
    intro h
    rw [h, neg_zero, zpow_zero, mul_one] at he0
    have h3 := abs_le.1 he0
    have c : ((r0 - a : Int) : ℚ) < 1 := by push_cast; linarith
    have d : (-1 : ℚ) < ((r0 - a : Int) : ℚ) := by push_cast; linarith
    have c' : r0 - a < 1 := by exact_mod_cast c
    have d' : -1 < r0 - a := by exact_mod_cast d
    omega
  -- with a shift nothing is saturated
  have q1 : 1 ≤ (q : Int) → clamp 16 r0 = r0 := by
    intro h
    have h3 := abs_le.1 he0
    have h4 := zpow_le (show -(q : Int) ≤ -1 by omega)
    have h5 : |(a : ℚ) * (2 : ℚ) ^ (-(q : Int))| ≤ 65025 * (1 / 2) := by
      rw [abs_mul, abs_of_pos (two_zpow_pos _)]
      exact mul_le_mul haq (by norm_num at h4 ⊢; exact h4) (le_of_lt (two_zpow_pos _)) (by norm_num)
    have h6 := abs_le.1 h5
    have c : (r0 : ℚ) < 32767 := by linarith
    have d : (-32767 : ℚ) < r0 := by linarith
    have c' : r0 < 32767 := by exact_mod_cast c
    have d' : -32767 < r0 := by exact_mod_cast d
    exact clamp_of_inRange ⟨by simp only [lo]; omega, by simp only [hi]; omega⟩
  cases hl with
  | same p1 p2 =>
    have hrel := rel.mul a
    unfold RelErr at hrel
    have habs := abs_nonneg ((a : ℚ) * ρ)
    by_cases hp : p ≤ 21
    · have hq0 : (q : Int) = 0 := by omega
      rw [q0 hq0, hq0, Int.sub_zero] at he
      rw [q0 hq0, hq0, Int.sub_zero] at r1
      by_cases hin : InRange 16 a
      · rw [clamp_of_inRange hin] at he
        refine store_close hz he ?_
        norm_num at hrel ⊢
        rw [abs_mul] at habs
        linarith
      · have hlow : (2 : ℚ) ^ 14 / 2 ^ 21 ≤ scaleVal sc p := by
          unfold scaleVal
          have h4 := zpow_le (show -21 ≤ -p by omega)
          have h5 : (2 : ℚ) ^ 14 ≤ sc := by exact_mod_cast h1
          have e : (2 : ℚ) ^ (-21 : Int) = 1 / 2 ^ 21 := by norm_num
          rw [e] at h4
          have := mul_le_mul h5 h4 (by norm_num) (by linarith [show (0 : ℚ) < 2 ^ 14 by norm_num])
          rwa [mul_one_div] at this
        have hρ2 : (999 / 1000 : ℚ) / 128 ≤ ρ := by
          unfold RelErr at rel
          rw [abs_of_pos hρ] at rel
          have := (abs_le.1 rel).2
          norm_num at this hlow ⊢
          linarith
        have hlow2 : (1 : ℚ) / 128 ≤ scaleVal sc p := by norm_num at hlow ⊢; linarith
        rw [store_far hz he (E := a * ρ), sub_self, abs_zero]
        · norm_num
        rcases lt_or_ge a (lo 16) with h | h
        · right
          rw [clamp_of_lt (le_of_lt h)]
          simp only [lo] at h ⊢
          have : (a : ℚ) ≤ -32768 := by exact_mod_cast (by omega : a ≤ -32768)
          push_cast
          constructor <;> norm_num at * <;> nlinarith
        · left
          have h' : hi 16 < a := by
            by_contra hc
            exact hin ⟨h, by omega⟩
          rw [clamp_of_gt (le_of_lt h')]
          simp only [hi] at h' ⊢
          have : (32768 : ℚ) ≤ a := by exact_mod_cast (by omega : 32768 ≤ a)
          push_cast
          constructor <;> norm_num at * <;> nlinarith
    · have hq1 : 1 ≤ (q : Int) := by omega
      rw [q1 hq1] at he
      refine store_close hz he ?_
      have e : scaleVal sc (p - q) = (2 : ℚ) ^ (q : Int) * scaleVal sc p := by
        unfold scaleVal
        rw [show -(p - (q : Int)) = (q : Int) + -p by ring, zpow_add₀ (by norm_num)]
        ring
      have e2 : (r0 : ℚ) * scaleVal sc (p - q) - a * scaleVal sc p = (r0 - a * (2 : ℚ) ^ (-(q : Int))) * scaleVal sc (p - q) := by
        rw [sub_mul, mul_assoc (a : ℚ), e, ← mul_assoc ((2 : ℚ) ^ (-(q : Int))), ← zpow_add₀ (by norm_num), neg_add_cancel, zpow_zero, one_mul]
      have h3 : scaleVal sc (p - q) ≤ 2 ^ 15 / 2 ^ 21 := by
        unfold scaleVal
        have h4 := zpow_le (show -(p - (q : Int)) ≤ -21 by omega)
        have h5 : (sc : ℚ) ≤ 2 ^ 15 := by exact_mod_cast (by omega : sc ≤ 2 ^ 15)
        have e : (2 : ℚ) ^ (-21 : Int) = 1 / 2 ^ 21 := by norm_num
        rw [e] at h4
        have := mul_le_mul h5 h4 (le_of_lt (two_zpow_pos _)) (by norm_num)
        rwa [mul_one_div] at this
      have h0 : 0 ≤ scaleVal sc (p - q) := le_of_lt (scaleVal_pos (by omega))
      have h6 : |(r0 : ℚ) * scaleVal sc (p - q) - a * scaleVal sc p| ≤ 1 / 128 := by
        rw [e2, abs_mul, abs_of_nonneg h0]
        have := mul_le_mul he0 h3 h0 (by norm_num)
        norm_num at this ⊢
        linarith
      have := abs_sub_le ((r0 : ℚ) * scaleVal sc (p - q)) (a * scaleVal sc p) (a * ρ)
      norm_num at hrel ⊢
      rw [abs_mul] at habs
      linarith
  | small hu a0 b0 =>
    have hs := ratio_small h2 hρ rel hu
    have hq3 : (q : Int) = 3 := by omega
    rw [hq3] at he0
    rw [q1 (by omega), hq3] at he
    have a' : (0 : ℚ) ≤ sc' := by exact_mod_cast a0
    have b' : (sc' : ℚ) ≤ 2 ^ 14 := by exact_mod_cast b0
    have hr0 : |(r0 : ℚ)| ≤ 8129 := by
      have h3 := abs_le.1 he0
      have h4 := abs_le.1 haq
      norm_num at h3
      rw [abs_le]
      constructor <;> linarith
    have hX : |(r0 : ℚ) * scaleVal sc' (31 - 3)| < 1 / 2 := by
      rw [abs_mul]
      have : |scaleVal sc' (31 - 3)| ≤ 2 ^ 14 / 2 ^ 28 := by
        unfold scaleVal
        rw [abs_of_nonneg (mul_nonneg a' (le_of_lt (two_zpow_pos _)))]
        norm_num at b' ⊢
        linarith
      have := mul_le_mul hr0 this (abs_nonneg _) (by norm_num)
      norm_num at this ⊢
      linarith
    rw [round_zero he hX]
    refine store_near ?_
    have : |(a : ℚ) * ρ| ≤ 65025 * ρ := by rw [abs_mul, abs_of_pos hρ]; exact mul_le_mul_of_nonneg_right haq (le_of_lt hρ)
    rw [Int.cast_zero, zero_sub, abs_neg]
    norm_num at hs
    linarith
  | big hp =>
    have hb := ratio_big h1 hρ rel hp
    have hq0 : (q : Int) = 0 := by omega
    rw [q0 hq0, hq0, Int.sub_zero] at he
    have hsv : scaleVal (2 ^ 15 - 1) (-31) = 32767 * 2 ^ 31 := by unfold scaleVal; norm_num
    by_cases h0 : a = 0
    · subst h0
      rw [show clamp 16 0 = 0 by decide, Int.cast_zero, zero_mul] at he
      rw [round_zero he (by norm_num)]
      exact store_near (by norm_num)
    · rw [store_far hz he (E := a * ρ), sub_self, abs_zero]
      · norm_num
      rw [hsv]
      norm_num at hb
      rcases lt_or_gt_of_ne h0 with h | h
      · right
        have x1 : (a : ℚ) ≤ -1 := by exact_mod_cast (by omega : a ≤ -1)
        have x2 : ((clamp 16 a : Int) : ℚ) ≤ -1 := by
          have : clamp 16 a ≤ clamp 16 (-1) := clamp_mono (by omega)
          rw [show clamp 16 (-1) = -1 by decide] at this
          exact_mod_cast this
        constructor
        · norm_num; linarith
        · nlinarith
      · left
        have x1 : (1 : ℚ) ≤ a := by exact_mod_cast (by omega : 1 ≤ a)
        have x2 : (1 : ℚ) ≤ ((clamp 16 a : Int) : ℚ) := by
          have : clamp 16 1 ≤ clamp 16 a := clamp_mono (by omega)
          rw [show clamp 16 1 = 1 by decide] at this
          exact_mod_cast this
        constructor
        · norm_num; linarith
        · nlinarith

theorem limited_nonneg {u sc p sc' p' : Int} (hl : Limited u sc p sc' p') (h1 : 2 ^ 14 ≤ sc) : 0 ≤ sc' := by cases hl <;> omega

theorem limited_mul {u sc p sc' p' d : Int} (hl : Limited u sc p sc' p') (h1 : 2 ^ 14 ≤ sc) (h2 : sc ≤ 2 ^ 15 - 1) (hd : -255 ≤ d ∧ d ≤ 255) :
    InRange 32 (d * sc') := by
  have hsc : 0 ≤ sc' ∧ sc' ≤ 2 ^ 15 - 1 := by cases hl <;> omega
  have : |d * sc'| ≤ 255 * 2 ^ 15 := by
    rw [abs_mul]
    exact mul_le_mul (by rw [abs_le]; omega) (by rw [abs_le]; omega) (abs_nonneg _) (by decide)
  have := abs_le.1 this
  exact ⟨by simp only [lo]; omega, by simp only [hi]; omega⟩

end Mli
