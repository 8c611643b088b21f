import Verif.Model.Float
import Mathlib.Tactic.Linarith
import Mathlib.Tactic.Ring
import Mathlib.Tactic.NormNum
import Mathlib.Tactic.Positivity
import Mathlib.Tactic.FieldSimp
import Mathlib.Algebra.Order.Field.Power

/-! # Rounding to single precision -/

namespace Mli

open Spec

/-! ## Rounding to an integer -/

theorem rne_cases (x : ℚ) : ((rne x = ⌊x⌋ ∧ x - ⌊x⌋ ≤ 1 / 2) ∨ (rne x = ⌊x⌋ + 1 ∧ 1 / 2 ≤ x - ⌊x⌋)) := by
  unfold rne
  by_cases h1 : x - ⌊x⌋ < 1 / 2
  · simp only [h1, if_true, true_and]; left; exact h1.le
  · by_cases h2 : 1 / 2 < x - ⌊x⌋
    · simp only [h1, h2, if_true, if_false, true_and]; right; exact h2.le
    · simp only [h1, h2, if_false]
      push Not at h1 h2
      by_cases h3 : ⌊x⌋ % 2 = 0
      · simp only [h3, if_true]; left; exact ⟨trivial, h2⟩
      · simp only [h3, if_false]; right; exact ⟨trivial, h1⟩

theorem rne_near (x : ℚ) (z : Int) : |(rne x : ℚ) - x| ≤ |(z : ℚ) - x| := by
  have f1 := Int.floor_le x
  have f2 := Int.lt_floor_add_one x
  have hz : (z : ℚ) ≤ ⌊x⌋ ∨ (⌊x⌋ : ℚ) + 1 ≤ z := by
    rcases lt_or_ge ⌊x⌋ z with h | h
    · right; exact_mod_cast h
    · left; exact_mod_cast h
  rcases rne_cases x with ⟨e, h⟩ | ⟨e, h⟩ <;> rw [e] <;> push_cast <;> rcases hz with hz | hz
  · rw [abs_of_nonpos (by linarith), abs_of_nonpos (by linarith)]; linarith
  · rw [abs_of_nonpos (by linarith), abs_of_nonneg (by linarith)]; linarith
  · rw [abs_of_nonneg (by linarith), abs_of_nonpos (by linarith)]; linarith
  · rw [abs_of_nonneg (by linarith), abs_of_nonneg (by linarith)]; linarith

theorem rne_half (x : ℚ) : |(rne x : ℚ) - x| ≤ 1 / 2 := by
  have f1 := Int.floor_le x
  have f2 := Int.lt_floor_add_one x
  rcases rne_cases x with ⟨e, h⟩ | ⟨e, h⟩ <;> rw [e] <;> push_cast <;> rw [abs_le] <;> constructor <;> linarith

theorem rne_int (z : Int) : rne (z : ℚ) = z := by
  have := rne_near z z
  rw [sub_self, abs_zero] at this
  have h := abs_nonpos_iff.1 this
  exact_mod_cast sub_eq_zero.1 h

theorem rne_le {x : ℚ} {z : Int} (h : x ≤ z) : rne x ≤ z := by
  have f1 := Int.floor_le x
  rcases rne_cases x with ⟨e, -⟩ | ⟨e, h'⟩ <;> rw [e]
  · have : (⌊x⌋ : ℚ) ≤ z := by linarith
    exact_mod_cast this
  · have : (⌊x⌋ : ℚ) < z := by linarith
    have : ⌊x⌋ < z := by exact_mod_cast this
    omega

theorem le_rne {x : ℚ} {z : Int} (h : (z : ℚ) ≤ x) : z ≤ rne x := by
  have := Int.le_floor.2 h
  rcases rne_cases x with ⟨e, -⟩ | ⟨e, h'⟩ <;> rw [e] <;> omega

/-! ## The exponent -/

theorem two_pos' (e : Int) : (0 : ℚ) < 2 ^ e := by positivity

theorem two_add (a b : Int) : (2 : ℚ) ^ (a + b) = 2 ^ a * 2 ^ b := zpow_add₀ (by norm_num) a b

theorem two_sub (a b : Int) : (2 : ℚ) ^ (a - b) * 2 ^ b = 2 ^ a := by
  rw [← two_add]; congr 1; omega

theorem two_le {a b : Int} (h : a ≤ b) : (2 : ℚ) ^ a ≤ 2 ^ b := zpow_le_zpow_right₀ (by norm_num) h

theorem two_lt {a b : Int} (h : a < b) : (2 : ℚ) ^ a < 2 ^ b := zpow_lt_zpow_right₀ (by norm_num) h

theorem lt_of_two_lt {a b : Int} (h : (2 : ℚ) ^ a < 2 ^ b) : a < b := by
  by_contra hc
  have := two_le (Int.not_lt.1 hc)
  linarith

theorem flog_spec {q : ℚ} (h : 0 < q) : (2 : ℚ) ^ flog q ≤ q ∧ q < 2 ^ (flog q + 1) := by
  have hn : 0 < q.num := Rat.num_pos.2 h
  have hd := q.den_pos
  have n1 : (2 : ℚ) ^ (Nat.log2 q.num.toNat : Int) ≤ q.num := by
    have := Nat.log2_self_le (n := q.num.toNat) (by omega)
    have : ((2 ^ q.num.toNat.log2 : Nat) : Int) ≤ q.num := by omega
    rw [zpow_natCast]
    exact_mod_cast this
  have n2 : (q.num : ℚ) < 2 ^ ((Nat.log2 q.num.toNat : Int) + 1) := by
    have := Nat.lt_log2_self (n := q.num.toNat)
    have : q.num < ((2 ^ (q.num.toNat.log2 + 1) : Nat) : Int) := by omega
    rw [← Nat.cast_succ, zpow_natCast]
    exact_mod_cast this
  have d1 : (2 : ℚ) ^ (Nat.log2 q.den : Int) ≤ q.den := by
    have := Nat.log2_self_le (n := q.den) (by omega)
    rw [zpow_natCast]
    exact_mod_cast this
  have d2 : (q.den : ℚ) < 2 ^ ((Nat.log2 q.den : Int) + 1) := by
    have := Nat.lt_log2_self (n := q.den)
    rw [← Nat.cast_succ, zpow_natCast]
    exact_mod_cast this
  have hq : q * q.den = q.num := Rat.mul_den_eq_num q
  have hdq : (0 : ℚ) < q.den := by exact_mod_cast hd
  set a : Int := (Nat.log2 q.num.toNat : Int)
  set b : Int := (Nat.log2 q.den : Int)
  have hlow : (2 : ℚ) ^ (a - b - 1) < q := by
    have e : (2 : ℚ) ^ (a - b - 1) * 2 ^ (b + 1) = 2 ^ a := by rw [← two_add]; congr 1; omega
    have := two_pos' (a - b - 1)
    by_contra hc
    push Not at hc
    nlinarith
  have hhigh : q < 2 ^ (a - b + 1) := by
    have e : (2 : ℚ) ^ (a - b + 1) * 2 ^ b = 2 ^ (a + 1) := by rw [← two_add]; congr 1; omega
    have := two_pos' (a - b + 1)
    by_contra hc
    push Not at hc
    nlinarith
  unfold flog
  show (2 : ℚ) ^ (if (2 : ℚ) ^ (a - b) ≤ q then a - b else a - b - 1) ≤ q ∧ q < 2 ^ ((if (2 : ℚ) ^ (a - b) ≤ q then a - b else a - b - 1) + 1)
  by_cases hc : (2 : ℚ) ^ (a - b) ≤ q
  · rw [if_pos hc]; exact ⟨hc, hhigh⟩
  · rw [if_neg hc]; refine ⟨hlow.le, ?_⟩
    rw [show a - b - 1 + 1 = a - b by omega]; exact not_le.1 hc

theorem flog_lt {q : ℚ} (h : 0 < q) {e : Int} (hq : q < 2 ^ e) : flog q < e :=
  lt_of_two_lt (lt_of_le_of_lt (flog_spec h).1 hq)

theorem le_flog {q : ℚ} (h : 0 < q) {e : Int} (hq : 2 ^ e ≤ q) : e ≤ flog q := by
  have := lt_of_two_lt (lt_of_le_of_lt hq (flog_spec h).2)
  omega

/-! ## Encoding -/

/-- The exponent of the unit: mantissas are multiples of `2^(fexp q - 23)`. -/
def fexp (q : ℚ) : Int := max (flog q) (-126)

def fman (q : ℚ) : Int := rne (q * 2 ^ (23 - fexp q))

theorem encMag_eq {q : ℚ} (h : 0 < q) : encMag q = min (255 * 2 ^ 23) ((fexp q + 126) * 2 ^ 23 + fman q) := by
  unfold encMag
  rw [if_neg (not_le.2 h)]
  rfl

theorem fman_bounds {q : ℚ} (h : 0 < q) : 0 ≤ fman q ∧ fman q ≤ 2 ^ 24 ∧ (fexp q = flog q → 2 ^ 23 ≤ fman q) := by
  obtain ⟨s1, s2⟩ := flog_spec h
  have hp := two_pos' (23 - fexp q)
  have hk : flog q ≤ fexp q := le_max_left _ _
  refine ⟨le_rne (by push_cast; positivity), rne_le ?_, fun he => le_rne ?_⟩
  · have h1 : q < 2 ^ (fexp q + 1) := lt_of_lt_of_le s2 (two_le (by omega))
    have h2 : (2 : ℚ) ^ (fexp q + 1) * 2 ^ (23 - fexp q) = 2 ^ (24 : Int) := by rw [← two_add]; congr 1; omega
    have h3 : (2 : ℚ) ^ (24 : Int) = ((2 ^ 24 : Int) : ℚ) := by norm_num
    rw [← h3, ← h2]
    exact mul_le_mul_of_nonneg_right h1.le hp.le
  · have h2 : (2 : ℚ) ^ flog q * 2 ^ (23 - fexp q) = 2 ^ (23 : Int) := by rw [← two_add]; congr 1; omega
    have h3 : (2 : ℚ) ^ (23 : Int) = ((2 ^ 23 : Int) : ℚ) := by norm_num
    rw [← h3, ← h2]
    exact mul_le_mul_of_nonneg_right s1 hp.le

theorem magVal_enc {k n : Int} (hk : -126 ≤ k) (h0 : 0 ≤ n) (h1 : n ≤ 2 ^ 24) (h2 : k = -126 ∨ 2 ^ 23 ≤ n) :
    magVal ((k + 126) * 2 ^ 23 + n) = n * 2 ^ (k - 23) := by
  unfold magVal
  rcases lt_or_ge n (2 ^ 23) with h | h
  · have hk' : k = -126 := by omega
    subst hk'
    rw [if_pos (by omega)]
    norm_num
  · rcases lt_or_ge n (2 ^ 24) with h' | h'
    · rw [if_neg (by omega), show ((k + 126) * 2 ^ 23 + n) / 2 ^ 23 - 150 = k - 23 by omega,
        show 2 ^ 23 + ((k + 126) * 2 ^ 23 + n) % 2 ^ 23 = n by omega]
    · have hn : n = 2 ^ 24 := by omega
      subst hn
      rw [if_neg (by omega), show ((k + 126) * 2 ^ 23 + 2 ^ 24) / 2 ^ 23 - 150 = (k - 23) + 1 by omega,
        show 2 ^ 23 + ((k + 126) * 2 ^ 23 + 2 ^ 24) % 2 ^ 23 = (2 ^ 23 : Int) by omega, two_add]
      push_cast
      ring

/-- The number `q ≥ 0` rounded to single precision, without the limit of the exponent. -/
def flAbs (q : ℚ) : ℚ := if q ≤ 0 then 0 else fman q * 2 ^ (fexp q - 23)

theorem encMag_bounds (q : ℚ) : 0 ≤ encMag q ∧ encMag q ≤ 255 * 2 ^ 23 := by
  by_cases h : 0 < q
  · rw [encMag_eq h]
    have := (fman_bounds h).1
    have : -126 ≤ fexp q := le_max_right _ _
    omega
  · unfold encMag; rw [if_pos (not_lt.1 h)]; omega

theorem encMag_finite {q : ℚ} (h : q ≤ maxFloat) : encMag q < 255 * 2 ^ 23 := by
  by_cases hq : 0 < q
  · rw [encMag_eq hq]
    obtain ⟨b1, b2, b3⟩ := fman_bounds hq
    have e128 : maxFloat < 2 ^ (128 : Int) := by unfold maxFloat; norm_num
    have hl : flog q < 128 := flog_lt hq (lt_of_le_of_lt h e128)
    have hf : fexp q ≤ 127 := max_le (by omega) (by omega)
    rcases lt_or_ge (fexp q) 127 with hlt | hge
    · omega
    · have hf' : fexp q = 127 := by omega
      have : fman q ≤ 2 ^ 24 - 1 := by
        unfold fman
        rw [hf']
        refine rne_le ?_
        have : q * 2 ^ (23 - 127 : Int) ≤ maxFloat * 2 ^ (23 - 127 : Int) := mul_le_mul_of_nonneg_right h (two_pos' _).le
        refine le_trans this ?_
        unfold maxFloat
        norm_num
      omega
  · unfold encMag; rw [if_pos (not_lt.1 hq)]; omega

theorem magVal_encMag {q : ℚ} (h : encMag q < 255 * 2 ^ 23) : magVal (encMag q) = flAbs q := by
  unfold flAbs
  by_cases hq : 0 < q
  · rw [if_neg (not_le.2 hq)]
    rw [encMag_eq hq] at h ⊢
    obtain ⟨b1, b2, b3⟩ := fman_bounds hq
    have hk : -126 ≤ fexp q := le_max_right _ _
    rw [min_eq_right (by omega)]
    refine magVal_enc hk b1 b2 ?_
    rcases le_total (flog q) (-126) with h' | h'
    · left; exact max_eq_right h'
    · right; exact b3 (max_eq_left h')
  · rw [if_pos (not_lt.1 hq)]
    unfold encMag
    rw [if_pos (not_lt.1 hq)]
    norm_num [magVal]

/-- A number rounded to single precision. -/
def fl (q : ℚ) : ℚ := if q < 0 then -flAbs (-q) else flAbs q

theorem f32_ofRat (neg : Bool) (q : ℚ) : f32neg (ofRat neg q) = neg ∧ f32mag (ofRat neg q) = encMag |q| ∧ 0 ≤ ofRat neg q ∧ ofRat neg q < 2 ^ 32 := by
  have := encMag_bounds |q|
  unfold f32neg f32mag ofRat
  cases neg
  · refine ⟨?_, ?_, ?_, ?_⟩
    · rw [decide_eq_false_iff_not]; simp only [Bool.false_eq_true, if_false]; omega
    · simp only [Bool.false_eq_true, if_false]; omega
    · simp only [Bool.false_eq_true, if_false]; omega
    · simp only [Bool.false_eq_true, if_false]; omega
  · refine ⟨?_, ?_, ?_, ?_⟩
    · rw [decide_eq_true_iff]; simp only [if_true]; omega
    · simp only [if_true]; omega
    · simp only [if_true]; omega
    · simp only [if_true]; omega

theorem flAbs_zero : flAbs 0 = 0 := by unfold flAbs; rw [if_pos le_rfl]

/-- The value of a rounded number. -/
theorem val_ofRat {neg : Bool} {q : ℚ} (h : |q| ≤ maxFloat) (hn : q ≠ 0 → neg = decide (q < 0)) : f32val (ofRat neg q) = some (fl q) := by
  obtain ⟨e1, e2, -⟩ := f32_ofRat neg q
  have hf := encMag_finite h
  unfold f32val
  rw [e1, e2, if_neg (by omega), magVal_encMag hf]
  by_cases h0 : q = 0
  · subst h0
    unfold fl
    simp [flAbs_zero]
  · rw [hn h0]
    unfold fl
    by_cases hq : q < 0
    · rw [decide_eq_true hq, if_pos rfl, if_pos hq, abs_of_neg hq]
    · rw [decide_eq_false hq, if_neg (by simp), if_neg hq, abs_of_nonneg (not_lt.1 hq)]

/-! ## Error -/

theorem flAbs_err {q : ℚ} (h : 0 < q) : |flAbs q - q| ≤ 2 ^ (fexp q - 24) := by
  unfold flAbs
  rw [if_neg (not_le.2 h)]
  have hp := two_pos' (fexp q - 23)
  have e : (2 : ℚ) ^ (23 - fexp q) * 2 ^ (fexp q - 23) = 1 := by rw [← two_add]; norm_num
  have e2 : (fman q : ℚ) * 2 ^ (fexp q - 23) - q = (fman q - q * 2 ^ (23 - fexp q)) * 2 ^ (fexp q - 23) := by
    rw [sub_mul, mul_assoc, e, mul_one]
  rw [e2, abs_mul, abs_of_pos hp]
  have := mul_le_mul_of_nonneg_right (rne_half (q * 2 ^ (23 - fexp q))) hp.le
  refine le_trans this (le_of_eq ?_)
  rw [show fexp q - 23 = (fexp q - 24) + 1 by omega, two_add, zpow_one]
  ring

theorem flAbs_rel {q : ℚ} (h : 0 ≤ q) : |flAbs q - q| ≤ q / 2 ^ 24 + 1 / 2 ^ 150 ∧ ((2 : ℚ) ^ (-126 : Int) ≤ q → |flAbs q - q| ≤ q / 2 ^ 24) := by
  rcases h.eq_or_lt with h | h
  · rw [← h, flAbs_zero, sub_self, abs_zero]
    constructor
    · positivity
    · intro _; norm_num
  have := flAbs_err h
  obtain ⟨s1, -⟩ := flog_spec h
  have n : ∀ e : Int, (2 : ℚ) ^ (e - 24) = 2 ^ e / 2 ^ 24 := by
    intro e
    have := two_sub e 24
    rw [eq_div_iff (by norm_num), ← this]
    norm_num
  constructor
  · rcases le_total (flog q) (-126) with h' | h'
    · have he : fexp q = -126 := max_eq_right h'
      rw [he] at this
      have e : (2 : ℚ) ^ (-126 - 24 : Int) = 1 / 2 ^ 150 := by norm_num
      rw [e] at this
      have : 0 < q / 2 ^ 24 := by positivity
      linarith
    · have he : fexp q = flog q := max_eq_left h'
      rw [he, n] at this
      have h2 : (0 : ℚ) < 1 / 2 ^ 150 := by positivity
      have : (2 : ℚ) ^ flog q / 2 ^ 24 ≤ q / 2 ^ 24 := by gcongr
      linarith
  · intro h'
    have he : fexp q = flog q := max_eq_left (le_flog h h')
    rw [he, n] at this
    have : (2 : ℚ) ^ flog q / 2 ^ 24 ≤ q / 2 ^ 24 := by gcongr
    linarith

theorem flAbs_nonneg (q : ℚ) : 0 ≤ flAbs q := by
  unfold flAbs
  split
  · exact le_rfl
  · next h =>
    have := (fman_bounds (not_le.1 h)).1
    have : (0 : ℚ) ≤ fman q := by exact_mod_cast this
    have := two_pos' (fexp q - 23)
    positivity

/-- Relative error `2^-24`, plus an absolute error for the smallest numbers. -/
theorem fl_err (q : ℚ) : |fl q - q| ≤ |q| / 2 ^ 24 + 1 / 2 ^ 150 := by
  unfold fl
  split
  · next h =>
    have := (flAbs_rel (q := -q) (by linarith)).1
    rw [abs_of_neg h]
    rw [show -flAbs (-q) - q = -(flAbs (-q) - -q) by ring, abs_neg]
    exact this
  · next h =>
    rw [abs_of_nonneg (not_lt.1 h)]
    exact (flAbs_rel (not_lt.1 h)).1

theorem fl_rel {q : ℚ} (hq : (2 : ℚ) ^ (-126 : Int) ≤ |q|) : |fl q - q| ≤ |q| / 2 ^ 24 := by
  unfold fl
  split
  · next h =>
    rw [abs_of_neg h] at hq ⊢
    rw [show -flAbs (-q) - q = -(flAbs (-q) - -q) by ring, abs_neg]
    exact (flAbs_rel (q := -q) (by linarith)).2 hq
  · next h =>
    rw [abs_of_nonneg (not_lt.1 h)] at hq ⊢
    exact (flAbs_rel (not_lt.1 h)).2 hq

theorem fl_sign (q : ℚ) : (0 ≤ q → 0 ≤ fl q) ∧ (q ≤ 0 → fl q ≤ 0) := by
  unfold fl
  constructor
  · intro h; rw [if_neg (not_lt.2 h)]; exact flAbs_nonneg _
  · intro h
    rcases h.lt_or_eq with h | h
    · rw [if_pos h]; have := flAbs_nonneg (-q); linarith
    · rw [h, if_neg (lt_irrefl _), flAbs_zero]

/-! ## Exact numbers -/

theorem flAbs_exact {a : Int} {b : Int} (h0 : 0 ≤ a) (h1 : a ≤ 2 ^ 24) (hb : -149 ≤ b) : flAbs (a * 2 ^ b) = a * 2 ^ b := by
  rcases h0.eq_or_lt with h | h
  · rw [← h]; norm_num [flAbs_zero]
  have hq : (0 : ℚ) < a * 2 ^ b := by
    have : (0 : ℚ) < a := by exact_mod_cast h
    have := two_pos' b
    positivity
  have key : ∃ n : Int, (a : ℚ) * 2 ^ b * 2 ^ (23 - fexp (a * 2 ^ b)) = n := by
    by_cases hc : fexp (a * 2 ^ b) - 23 ≤ b
    · refine ⟨a * 2 ^ (b + 23 - fexp (a * 2 ^ b)).toNat, ?_⟩
      rw [mul_assoc, ← two_add]
      push_cast
      rw [← zpow_natCast, Int.toNat_of_nonneg (by omega)]
      congr 2
      omega
    · -- then `a = 2^24`
      have hk : fexp (a * 2 ^ b) = flog (a * 2 ^ b) := by
        unfold fexp
        unfold fexp at hc
        rcases max_choice (flog ((a : ℚ) * 2 ^ b)) (-126) with h | h
        · exact h
        · rw [h] at hc; omega
      have h2 := (flog_spec hq).1
      have h3 : (a : ℚ) ≤ 2 ^ (24 : Int) := by
        have : (a : ℚ) ≤ ((2 ^ 24 : Int) : ℚ) := by exact_mod_cast h1
        refine le_trans this ?_
        norm_num
      have h4 : (a : ℚ) * 2 ^ b ≤ 2 ^ (24 + b) := by
        rw [two_add]
        exact mul_le_mul_of_nonneg_right h3 (two_pos' b).le
      have h5 : flog (a * 2 ^ b) = 24 + b := by
        have : (2 : ℚ) ^ flog (a * 2 ^ b) < 2 ^ (24 + b + 1) := by
          refine lt_of_le_of_lt (le_trans h2 h4) (two_lt (by omega))
        have := lt_of_two_lt this
        omega
      rw [h5] at h2
      have h6 : (a : ℚ) * 2 ^ b = 2 ^ (24 + b) := le_antisymm h4 h2
      refine ⟨2 ^ 23, ?_⟩
      rw [hk, h5, h6, ← two_add, show 24 + b + (23 - (24 + b)) = 23 by omega]
      norm_num
  obtain ⟨n, hn⟩ := key
  unfold flAbs fman
  rw [if_neg (not_le.2 hq), hn, rne_int, ← hn, mul_assoc, ← two_add]
  rw [show 23 - fexp ((a : ℚ) * 2 ^ b) + (fexp ((a : ℚ) * 2 ^ b) - 23) = 0 by omega]
  norm_num

theorem fl_exact {a : Int} {b : Int} (h1 : |a| ≤ 2 ^ 24) (hb : -149 ≤ b) : fl (a * 2 ^ b) = a * 2 ^ b := by
  have hp := two_pos' b
  unfold fl
  rcases lt_or_ge a 0 with h | h
  · have : (a : ℚ) < 0 := by exact_mod_cast h
    rw [if_pos (mul_neg_of_neg_of_pos this hp)]
    rw [abs_of_neg h] at h1
    have := flAbs_exact (a := -a) (b := b) (by omega) h1 hb
    push_cast at this
    rw [show -((a : ℚ) * 2 ^ b) = -a * 2 ^ b by ring, this]
    ring
  · have : (0 : ℚ) ≤ a := by exact_mod_cast h
    rw [if_neg (not_lt.2 (by positivity))]
    rw [abs_of_nonneg h] at h1
    exact flAbs_exact h h1 hb

theorem fl_int {a : Int} (h : |a| ≤ 2 ^ 24) : fl (a : ℚ) = a := by
  have := fl_exact (b := 0) h (by omega)
  simpa using this

/-! ## Nearest -/

theorem magVal_form {m : Int} (h0 : 0 ≤ m) : ∃ (n e : Int), magVal m = n * 2 ^ e ∧ 0 ≤ n ∧ n < 2 ^ 24 ∧ -149 ≤ e ∧ (e = -149 ∨ 2 ^ 23 ≤ n) := by
  unfold magVal
  by_cases h : m / 2 ^ 23 = 0
  · rw [if_pos h]
    exact ⟨m, -149, rfl, h0, by omega, le_rfl, Or.inl rfl⟩
  · rw [if_neg h]
    exact ⟨2 ^ 23 + m % 2 ^ 23, m / 2 ^ 23 - 150, rfl, by omega, by omega, by omega, Or.inr (by omega)⟩

theorem magVal_nonneg {m : Int} (h0 : 0 ≤ m) : 0 ≤ magVal m := by
  obtain ⟨n, e, h, hn, -⟩ := magVal_form h0
  rw [h]
  have : (0 : ℚ) ≤ n := by exact_mod_cast hn
  have := two_pos' e
  positivity

/-- Among the numbers `x` of single precision, the rounded number is closest. -/
theorem flAbs_nearest {q : ℚ} (hq : 0 ≤ q) {m : Int} (h0 : 0 ≤ m) : |flAbs q - q| ≤ |magVal m - q| := by
  rcases hq.eq_or_lt with hq | hq
  · rw [← hq, flAbs_zero, sub_self, abs_zero]; exact abs_nonneg _
  have hp := two_pos' (fexp q - 23)
  have grid : ∀ z : Int, |flAbs q - q| ≤ |(z : ℚ) * 2 ^ (fexp q - 23) - q| := by
    intro z
    have e : (2 : ℚ) ^ (23 - fexp q) * 2 ^ (fexp q - 23) = 1 := by rw [← two_add]; norm_num
    have e2 : ∀ y : ℚ, y * 2 ^ (fexp q - 23) - q = (y - q * 2 ^ (23 - fexp q)) * 2 ^ (fexp q - 23) := by
      intro y
      rw [sub_mul, mul_assoc, e, mul_one]
    unfold flAbs
    rw [if_neg (not_le.2 hq), e2, e2, abs_mul, abs_mul]
    exact mul_le_mul_of_nonneg_right (rne_near _ _) (abs_nonneg _)
  obtain ⟨n, e, hm, n0, n1, he, hne⟩ := magVal_form h0
  by_cases hg : fexp q - 23 ≤ e
  · -- on the grid
    have := grid (n * 2 ^ (e - (fexp q - 23)).toNat)
    rw [hm]
    convert this using 3
    push_cast
    rw [← zpow_natCast, Int.toNat_of_nonneg (by omega), mul_assoc, two_sub]
  · -- below `2^fexp`
    have hk : fexp q = flog q := by
      unfold fexp
      unfold fexp at hg
      rcases max_choice (flog q) (-126) with h | h
      · exact h
      · rw [h] at hg; omega
    have s1 := (flog_spec hq).1
    have h2 : magVal m ≤ 2 ^ flog q := by
      rw [hm]
      have : (n : ℚ) ≤ 2 ^ (24 : Int) := by
        have : (n : ℚ) ≤ ((2 ^ 24 : Int) : ℚ) := by exact_mod_cast n1.le
        refine le_trans this ?_
        norm_num
      have h3 : (n : ℚ) * 2 ^ e ≤ 2 ^ (24 + e) := by
        rw [two_add]
        exact mul_le_mul_of_nonneg_right this (two_pos' e).le
      exact le_trans h3 (two_le (by omega))
    have h3 := grid (2 ^ 23)
    have e3 : ((2 ^ 23 : Int) : ℚ) * 2 ^ (fexp q - 23) = 2 ^ flog q := by
      have : ((2 ^ 23 : Int) : ℚ) = 2 ^ (23 : Int) := by norm_num
      rw [this, ← two_add, hk]
      congr 1; omega
    rw [e3, abs_of_nonpos (a := 2 ^ flog q - q) (by linarith)] at h3
    rw [abs_of_nonpos (a := magVal m - q) (by linarith)]
    linarith

/-- Rounding gives the nearest number. -/
theorem nearest_ofRat {neg : Bool} {q : ℚ} (h : |q| ≤ maxFloat) (hn : q ≠ 0 → neg = decide (q < 0)) : NearestFloat (ofRat neg q) q := by
  refine ⟨fl q, val_ofRat h hn, fun b x hb0 _ hx => ?_⟩
  unfold f32val at hx
  split at hx
  · cases hx
  have hm : 0 ≤ f32mag b := by unfold f32mag; omega
  have hv := magVal_nonneg hm
  have key : ∀ p : ℚ, 0 ≤ p → ∀ s : ℚ, s = magVal (f32mag b) ∨ s = -magVal (f32mag b) → |flAbs p - p| ≤ |s - p| := by
    intro p hp s hs
    rcases hs with hs | hs
    · rw [hs]; exact flAbs_nearest hp hm
    · have := flAbs_nearest hp (m := 0) le_rfl
      have z : magVal 0 = 0 := by norm_num [magVal]
      rw [z] at this
      refine le_trans this ?_
      rw [hs, abs_of_nonpos (by linarith), abs_of_nonpos (by linarith)]
      linarith
  have hx' : x = magVal (f32mag b) ∨ x = -magVal (f32mag b) := by
    have := Option.some.inj hx
    split at this
    · right; exact this.symm
    · left; exact this.symm
  unfold fl
  split
  · next hq =>
    have := key (-q) (by linarith) (-x) (by rcases hx' with h | h <;> rw [h] <;> simp)
    rw [show -flAbs (-q) - q = -(flAbs (-q) - -q) by ring, abs_neg, show x - q = -(-x - -q) by ring, abs_neg]
    exact this
  · next hq => exact key q (not_lt.1 hq) x hx'

end Mli
