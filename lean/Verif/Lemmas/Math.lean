import Verif.Model.Math
import Mathlib.Tactic.Ring
import Mathlib.Tactic.Linarith

/-! # Closed forms of the fixed-point primitives (helper lemmas) -/

namespace Mli

open Spec

theorem two_pow_pos (n : Nat) : (0 : Int) < 2 ^ n := Int.pow_pos (by decide)

theorem lo_eq (w : Nat) : lo w = -(2 ^ (w - 1) : Int) := rfl
theorem hi_eq (w : Nat) : hi w = (2 ^ (w - 1) : Int) - 1 := rfl

theorem lo_neg (w : Nat) : lo w < 0 := by have := two_pow_pos (w-1); rw [lo_eq]; omega
theorem hi_nonneg (w : Nat) : 0 ≤ hi w := by have := two_pow_pos (w-1); rw [hi_eq]; omega
theorem lo_le_hi (w : Nat) : lo w ≤ hi w := by have := lo_neg w; have := hi_nonneg w; omega

theorem clamp_of_inRange {w : Nat} {x : Int} (h : InRange w x) : clamp w x = x := by
  unfold clamp; obtain ⟨h1, h2⟩ := h
  split
  · omega
  · split <;> omega

theorem clamp_inRange (w : Nat) (x : Int) : InRange w (clamp w x) := by
  have := lo_le_hi w
  unfold clamp InRange; split
  · omega
  · split <;> omega

theorem clamp_of_lt {w : Nat} {x : Int} (h : x ≤ lo w) : clamp w x = lo w := by
  have := lo_le_hi w
  unfold clamp; split
  · rfl
  · split <;> omega

theorem clamp_of_gt {w : Nat} {x : Int} (h : hi w ≤ x) : clamp w x = hi w := by
  have := lo_le_hi w
  unfold clamp; split
  · omega
  · split <;> omega

theorem clamp_mono {w : Nat} {x y : Int} (h : x ≤ y) : clamp w x ≤ clamp w y := by
  have := lo_le_hi w
  unfold clamp; split <;> split <;> (try split) <;> (try split) <;> omega

theorem two_pow_split {w : Nat} (hw : 1 ≤ w) : (2 ^ w : Int) = 2 * 2 ^ (w - 1) := by
  obtain ⟨k, rfl⟩ : ∃ k, w = k + 1 := ⟨w - 1, by omega⟩
  simp only [Nat.add_sub_cancel, pow_succ]; ring

theorem wrap_of_inRange {w : Nat} (hw : 1 ≤ w) {x : Int} (h : InRange w x) : wrap w x = x := by
  unfold wrap
  rw [BitVec.toInt_ofInt]
  obtain ⟨h1, h2⟩ := h
  rw [lo_eq] at h1; rw [hi_eq] at h2
  have := two_pow_split hw
  apply Int.bmod_eq_of_le
  · push_cast; omega
  · push_cast; omega

theorem wrap_inRange {w : Nat} (x : Int) : InRange w (wrap w x) := by
  have h1 := BitVec.le_toInt (BitVec.ofInt w x)
  have h2 := BitVec.toInt_lt (x := BitVec.ofInt w x)
  unfold InRange wrap lo hi
  constructor
  · exact h1
  · omega

/-- `wrap` keeps the value modulo `2^w`. -/
theorem wrap_emod (w : Nat) (x : Int) : (wrap w x) % (2 ^ w : Int) = x % (2 ^ w : Int) := by
  unfold wrap; rw [BitVec.toInt_ofInt]
  have := Int.bmod_emod (x := x) (m := 2 ^ w)
  push_cast at this; exact this

/-! ## shifts -/

theorem shr_eq (x : Int) (n : Nat) : x >>> n = x / 2 ^ n := by
  rw [Int.shiftRight_eq_div_pow]; push_cast; rfl

theorem div_pow_eq_zero_iff (x : Int) (n : Nat) : x / 2 ^ n = 0 ↔ 0 ≤ x ∧ x < 2 ^ n := by
  have hp := two_pow_pos n
  constructor
  · intro h
    have h1 := Int.mul_ediv_self_le (x := x) (k := 2 ^ n) (by omega)
    have h2 := Int.lt_mul_ediv_self_add (x := x) (k := 2 ^ n) hp
    rw [h] at h1 h2; omega
  · rintro ⟨h1, h2⟩; exact Int.ediv_eq_zero_of_lt h1 h2

theorem div_pow_eq_neg_one_iff (x : Int) (n : Nat) : x / 2 ^ n = -1 ↔ -(2 ^ n) ≤ x ∧ x < 0 := by
  have hp := two_pow_pos n
  have h1 := Int.mul_ediv_self_le (x := x) (k := 2 ^ n) (by omega)
  have h2 := Int.lt_mul_ediv_self_add (x := x) (k := 2 ^ n) hp
  constructor
  · intro h
    rw [h] at h1 h2; omega
  · rintro ⟨h3, h4⟩
    have a : x / 2 ^ n < 0 := Int.ediv_neg_of_neg_of_pos h4 hp
    have b : -1 ≤ x / 2 ^ n := by
      rw [Int.le_ediv_iff_mul_le hp]; omega
    omega

theorem inRange_div {w : Nat} {x : Int} (h : InRange w x) (n : Nat) : InRange w (x / 2 ^ n) := by
  obtain ⟨h1, h2⟩ := h
  have hp := two_pow_pos n
  constructor
  · rw [Int.le_ediv_iff_mul_le hp]
    have := lo_neg w
    nlinarith
  · have := hi_nonneg w
    have : x / 2 ^ n < hi w + 1 := by
      rw [Int.ediv_lt_iff_lt_mul hp]; nlinarith
    omega

theorem limitFx_neg {w : Nat} {s : Int} (h : s < 0) : limitFx w s = lo w := by simp [limitFx, h]
theorem limitFx_nonneg {w : Nat} {s : Int} (h : 0 ≤ s) : limitFx w s = hi w := by
  simp [limitFx]; omega

theorem pow_sub_mul {w k : Nat} (hk : k ≤ w - 1) : (2 ^ (w - 1 - k) : Int) * 2 ^ k = 2 ^ (w - 1) := by
  rw [← pow_add]; congr 1; omega

theorem clamp_mul_big {w k : Nat} {x : Int} (h : InRange w x) (hk : w ≤ k) :
    clamp w (x * 2 ^ k) = if x ≠ 0 then limitFx w x else 0 := by
  have hp := two_pow_pos (w - 1)
  have hk2 : (2 ^ (w - 1) : Int) ≤ 2 ^ k := by
    apply pow_le_pow_right₀ (by decide); omega
  split
  · rename_i hx
    by_cases hneg : x < 0
    · rw [limitFx_neg hneg, clamp_of_lt]; rw [lo_eq]; nlinarith
    · rw [limitFx_nonneg (by omega), clamp_of_gt]; rw [hi_eq]
      have : 1 ≤ x := by omega
      nlinarith
  · rename_i hx
    have : x = 0 := by omega
    subst this
    rw [Int.zero_mul]; exact clamp_of_inRange h

/-- Left shift by a non-negative amount. -/
theorem aslFx_nonneg {w : Nat} (hw : 1 ≤ w) {x : Int} (h : InRange w x) (k : Nat) :
    aslFx w x k = clamp w (x * 2 ^ k) := by
  unfold aslFx
  have hneg : ¬ ((k : Int) < 0) := by omega
  rw [if_neg hneg]
  split
  · rename_i hk
    rw [clamp_mul_big h (by omega)]
  · rename_i hk
    have hk' : k ≤ w - 1 := by omega
    have hcast : (((w : Int) - 1) - (k : Int)).toNat = w - 1 - k := by omega
    simp only [hcast, shr_eq, Int.toNat_natCast]
    have hpk := two_pow_pos k
    have hpw := two_pow_pos (w - 1 - k)
    have hmul := pow_sub_mul hk'
    split
    · rename_i hh
      rw [div_pow_eq_zero_iff, div_pow_eq_neg_one_iff] at hh
      have hin : InRange w (x * 2 ^ k) := by
        unfold InRange; rw [lo_eq, hi_eq, ← hmul]
        rcases hh with ⟨a, b⟩ | ⟨a, b⟩
        · constructor
          · nlinarith
          · have : x + 1 ≤ 2 ^ (w - 1 - k) := by omega
            nlinarith
        · constructor
          · nlinarith
          · have : x ≤ -1 := by omega
            nlinarith
      rw [wrap_of_inRange hw hin, clamp_of_inRange hin]
    · rename_i hh
      rw [div_pow_eq_zero_iff, div_pow_eq_neg_one_iff] at hh
      by_cases hx : x < 0
      · have hx2 : x < -(2 ^ (w - 1 - k)) := by
          by_contra hc; exact hh (Or.inr ⟨by omega, hx⟩)
        have hd : x / 2 ^ (w - 1 - k) < 0 := Int.ediv_neg_of_neg_of_pos hx hpw
        rw [limitFx_neg hd, clamp_of_lt]
        rw [lo_eq, ← hmul]; nlinarith
      · have hx2 : 2 ^ (w - 1 - k) ≤ x := by
          by_contra hc; exact hh (Or.inl ⟨by omega, by omega⟩)
        have hd : 0 ≤ x / 2 ^ (w - 1 - k) := Int.ediv_nonneg (by omega) (by omega)
        rw [limitFx_nonneg hd, clamp_of_gt]
        rw [hi_eq, ← hmul]; nlinarith

theorem asrPosFx_eq {w : Nat} (hw : 1 ≤ w) {x : Int} (h : InRange w x) (k : Nat) :
    asrPosFx w x k = x / 2 ^ k := by
  unfold asrPosFx
  obtain ⟨h1, h2⟩ := h
  split
  · have hk2 : (2 ^ (w - 1) : Int) ≤ 2 ^ k := by
      apply pow_le_pow_right₀ (by decide); omega
    rw [lo_eq] at h1; rw [hi_eq] at h2
    split
    · symm; rw [div_pow_eq_neg_one_iff]; omega
    · symm; rw [div_pow_eq_zero_iff]; omega
  · rw [shr_eq, Int.toNat_natCast]

/-- Right shift by a non-negative amount. -/
theorem asrFx_nonneg {w : Nat} (hw : 1 ≤ w) {x : Int} (h : InRange w x) (k : Nat) :
    asrFx w x k = x / 2 ^ k := by
  have := asrPosFx_eq hw h k
  unfold asrPosFx at this
  unfold asrFx
  split
  · rename_i hk; rw [if_pos hk] at this; exact this
  · rename_i hk; rw [if_neg hk] at this
    rw [if_neg (by omega)]; exact this

theorem aslFx_neg {w : Nat} (hw : 1 ≤ w) {x : Int} (h : InRange w x) (k : Nat) (hk : 0 < k) :
    aslFx w x (-(k : Int)) = x / 2 ^ k := by
  unfold aslFx
  rw [if_pos (by omega), Int.neg_neg]; exact asrPosFx_eq hw h k

theorem asrFx_neg {w : Nat} (hw : 1 ≤ w) {x : Int} (h : InRange w x) (k : Nat) :
    asrFx w x (-(k : Int)) = clamp w (x * 2 ^ k) := by
  by_cases hk : k = 0
  · subst hk
    have := asrFx_nonneg hw h 0
    simp only [Nat.cast_zero, neg_zero, pow_zero, mul_one] at this ⊢
    rw [this, clamp_of_inRange h]; simp
  · unfold asrFx
    rw [if_neg (by omega), if_pos (by omega), Int.neg_neg]
    exact aslFx_nonneg hw h k

/-! ## add / sub -/

theorem addFx_eq {w : Nat} {x y : Int} (hx : InRange w x) (hy : InRange w y) :
    addFx w x y = clamp w (x + y) := by
  obtain ⟨a, b⟩ := hx; obtain ⟨c, d⟩ := hy
  have := lo_le_hi w
  unfold addFx clamp
  split
  · split <;> (try split) <;> omega
  · split <;> split <;> (try split) <;> omega

theorem subFx_eq {w : Nat} {x y : Int} (hx : InRange w x) (hy : InRange w y) :
    subFx w x y = clamp w (x - y) := by
  obtain ⟨a, b⟩ := hx; obtain ⟨c, d⟩ := hy
  have := lo_le_hi w
  unfold subFx clamp
  split
  · split <;> (try split) <;> omega
  · split <;> split <;> (try split) <;> omega

theorem ckd_some {w : Nat} {x : Int} (h : InRange w x) : ckd w x = some x := by simp [ckd, h]

theorem addFx?_eq {w : Nat} {x y : Int} (hx : InRange w x) (hy : InRange w y) :
    addFx? w x y = some (addFx w x y) := by
  obtain ⟨a, b⟩ := hx; obtain ⟨c, d⟩ := hy
  have h1 := lo_neg w; have h2 := hi_nonneg w
  have h3 : lo w = - hi w - 1 := by rw [lo_eq, hi_eq]; omega
  unfold addFx? addFx
  by_cases hpos : y > 0
  · have hn : ¬ y < 0 := by omega
    rw [ckd_some (x := hi w - y) ⟨by omega, by omega⟩]
    by_cases hx : x > hi w - y
    · simp [hpos, hx]
    · have : InRange w (x + y) := ⟨by omega, by omega⟩
      simp [hpos, hx, hn, ckd_some this]
  · by_cases hneg : y < 0
    · rw [ckd_some (x := lo w - y) ⟨by omega, by omega⟩]
      by_cases hx : x < lo w - y
      · simp [hpos, hx, hneg]
      · have : InRange w (x + y) := ⟨by omega, by omega⟩
        simp [hpos, hx, hneg, ckd_some this]
    · have : InRange w (x + y) := ⟨by omega, by omega⟩
      simp [hpos, hneg, ckd_some this]

theorem subFx?_eq {w : Nat} {x y : Int} (hx : InRange w x) (hy : InRange w y) :
    subFx? w x y = some (subFx w x y) := by
  obtain ⟨a, b⟩ := hx; obtain ⟨c, d⟩ := hy
  have h1 := lo_neg w; have h2 := hi_nonneg w
  have h3 : lo w = - hi w - 1 := by rw [lo_eq, hi_eq]; omega
  unfold subFx? subFx
  by_cases hneg : y < 0
  · have hn : ¬ y > 0 := by omega
    rw [ckd_some (x := hi w + y) ⟨by omega, by omega⟩]
    by_cases hx : x > hi w + y
    · simp [hneg, hx]
    · have : InRange w (x - y) := ⟨by omega, by omega⟩
      simp [hneg, hx, hn, ckd_some this]
  · by_cases hpos : y > 0
    · rw [ckd_some (x := lo w + y) ⟨by omega, by omega⟩]
      by_cases hx : x < lo w + y
      · simp [hpos, hx, hneg]
      · have : InRange w (x - y) := ⟨by omega, by omega⟩
        simp [hpos, hx, hneg, ckd_some this]
    · have : InRange w (x - y) := ⟨by omega, by omega⟩
      simp [hpos, hneg, ckd_some this]

theorem addFx_inRange {w : Nat} {x y : Int} (hx : InRange w x) (hy : InRange w y) :
    InRange w (addFx w x y) := by rw [addFx_eq hx hy]; exact clamp_inRange _ _

/-! ## bit tests -/

theorem toNat_ofInt_emod (w : Nat) (x : Int) : ((BitVec.ofInt w x).toNat : Int) = x % 2 ^ w := by
  have := two_pow_pos w
  rw [BitVec.toNat_ofInt]
  have h := Int.emod_nonneg x (b := 2 ^ w) (by omega)
  push_cast
  omega

theorem cand_ne_zero (w : Nat) (x y : Int) :
    cand w x y ≠ 0 ↔ ((BitVec.ofInt w x).toNat &&& (BitVec.ofInt w y).toNat) ≠ 0 := by
  unfold cand
  rw [← BitVec.toNat_and]
  constructor
  · intro h hc; apply h
    have : (BitVec.ofInt w x &&& BitVec.ofInt w y) = 0#w := BitVec.eq_of_toNat_eq (by simpa using hc)
    rw [this]; simp
  · intro h hc; apply h
    have : (BitVec.ofInt w x &&& BitVec.ofInt w y) = 0#w := BitVec.eq_of_toInt_eq (by simpa using hc)
    rw [this]; simp

theorem cand_low_ne_zero {w k : Nat} (hk : k ≤ w) (x : Int) :
    cand w x (2 ^ k - 1) ≠ 0 ↔ x % 2 ^ k ≠ 0 := by
  rw [cand_ne_zero]
  have hpk := two_pow_pos k
  have hy : (BitVec.ofInt w (2 ^ k - 1)).toNat = 2 ^ k - 1 := by
    have h1 := toNat_ofInt_emod w (2 ^ k - 1)
    have h2 : (2 ^ k : Int) ≤ 2 ^ w := pow_le_pow_right₀ (by decide) hk
    rw [Int.emod_eq_of_lt (by omega) (by omega)] at h1
    have h3 : ((2 ^ k : Nat) : Int) = 2 ^ k := by push_cast; rfl
    omega
  rw [hy, Nat.and_two_pow_sub_one_eq_mod]
  have h1 := toNat_ofInt_emod w x
  have h4 : (((BitVec.ofInt w x).toNat % 2 ^ k : Nat) : Int) = x % 2 ^ k := by
    push_cast; rw [h1]
    exact Int.emod_emod_of_dvd _ (pow_dvd_pow 2 hk)
  omega

theorem cand_bit_ne_zero {w k : Nat} (hk : k < w) (x : Int) :
    cand w x (2 ^ k) ≠ 0 ↔ x / 2 ^ k % 2 = 1 := by
  rw [cand_ne_zero]
  have hpk := two_pow_pos k
  have hy : (BitVec.ofInt w (2 ^ k)).toNat = 2 ^ k := by
    have h1 := toNat_ofInt_emod w (2 ^ k)
    have h2 : (2 ^ k : Int) < 2 ^ w := pow_lt_pow_right₀ (by decide) hk
    rw [Int.emod_eq_of_lt (by omega) (by omega)] at h1
    have h3 : ((2 ^ k : Nat) : Int) = 2 ^ k := by push_cast; rfl
    omega
  rw [hy]
  have h1 := toNat_ofInt_emod w x
  have h5 : ((BitVec.ofInt w x).toNat.testBit k = true) ↔ x / 2 ^ k % 2 = 1 := by
    rw [Nat.testBit_eq_decide_div_mod_eq, decide_eq_true_iff]
    have h4 : (((BitVec.ofInt w x).toNat / 2 ^ k % 2 : Nat) : Int) = x / 2 ^ k % 2 := by
      push_cast; rw [h1]
      obtain ⟨j, rfl⟩ : ∃ j, w = k + (j + 1) := ⟨w - k - 1, by omega⟩
      have e : (2 : Int) ^ (k + (j + 1)) = 2 ^ k * (2 * 2 ^ j) := by
        rw [pow_add, pow_succ]; ring
      rw [e, Int.emod_def x, Int.sub_eq_add_neg]
      have : -(2 ^ k * (2 * 2 ^ j) * (x / (2 ^ k * (2 * 2 ^ j)))) = 2 ^ k * (2 * (- (2 ^ j * (x / (2 ^ k * (2 * 2 ^ j)))))) := by ring
      rw [this, Int.add_mul_ediv_left _ _ (by omega), Int.add_mul_emod_self_left]
    omega
  rw [← h5]
  generalize (BitVec.ofInt w x).toNat = n
  constructor
  · intro h
    by_contra hc
    apply h
    apply Nat.eq_of_testBit_eq
    intro i
    rw [Nat.testBit_and, Nat.testBit_two_pow, Nat.zero_testBit]
    by_cases hi : k = i
    · subst hi; simp at hc; simp [hc]
    · simp [hi]
  · intro h hc
    have : (n &&& 2 ^ k).testBit k = true := by rw [Nat.testBit_and, h, Nat.testBit_two_pow]; simp
    rw [hc, Nat.zero_testBit] at this
    exact absurd this (by decide)

theorem cand_one_ne_zero {w : Nat} (hw : 1 ≤ w) (x : Int) : cand w x 1 ≠ 0 ↔ x % 2 = 1 := by
  have := cand_bit_ne_zero (w := w) (k := 0) (by omega) x
  simpa using this

/-! ## rounding -/

/-- Arithmetic closed form of round-half-even division by `2^(k+1)`. -/
def rhe (x : Int) (n : Nat) : Int :=
  match n with
  | 0 => x
  | k + 1 =>
    if x / 2 ^ k % 2 = 1 ∧ (x / 2 ^ (k + 1) % 2 = 1 ∨ x % 2 ^ k ≠ 0) then x / 2 ^ (k + 1) + 1
    else x / 2 ^ (k + 1)

theorem div_mod_parts (x : Int) (k : Nat) :
    x = (x / 2 ^ (k + 1)) * (2 * 2 ^ k) + (x / 2 ^ k % 2) * 2 ^ k + x % 2 ^ k ∧
    0 ≤ x % 2 ^ k ∧ x % 2 ^ k < 2 ^ k := by
  have hp := two_pow_pos k
  have h1 := Int.emod_nonneg x (b := 2 ^ k) (by omega)
  have h2 := Int.emod_lt_of_pos x hp
  have h3 := Int.mul_ediv_add_emod x (2 ^ k)
  have h4 := Int.mul_ediv_add_emod (x / 2 ^ k) 2
  have h5 : x / 2 ^ k / 2 = x / 2 ^ (k + 1) := by
    rw [Int.ediv_ediv_of_nonneg (by omega)]; rw [pow_succ]
  rw [h5] at h4
  refine ⟨?_, h1, h2⟩
  generalize x / 2 ^ (k + 1) = q at h4 ⊢
  generalize x / 2 ^ k % 2 = b at h4 ⊢
  generalize x % 2 ^ k = r at h3 ⊢
  generalize x / 2 ^ k = t at h3 h4 ⊢
  generalize (2:Int) ^ k = P at h3 ⊢
  subst h4
  linarith [h3, (by ring : P * (2 * q + b) = q * (2 * P) + b * P)]

theorem rhe_spec_aux {x q b r P : Int} (h : x = q * (2 * P) + b * P + r) (h1 : 0 ≤ r) (h2 : r < P)
    (hb : b = 0 ∨ b = 1) (v : Int)
    (hv : (b = 1 ∧ (q % 2 = 1 ∨ r ≠ 0) → v = q + 1) ∧ (¬ (b = 1 ∧ (q % 2 = 1 ∨ r ≠ 0)) → v = q)) :
    RoundHalfEven x (2 * P) v := by
  unfold RoundHalfEven
  have hx1 : x - q * (2 * P) = b * P + r := by linarith
  have hx2 : x - (q + 1) * (2 * P) = b * P + r - 2 * P := by linarith
  obtain ⟨hv1, hv2⟩ := hv
  rcases hb with rfl | rfl
  · rw [hv2 (by simp), hx1]
    refine ⟨by omega, by omega, ?_⟩
    intro hc; omega
  · by_cases hc : q % 2 = 1 ∨ r ≠ 0
    · rw [hv1 ⟨rfl, hc⟩, hx2]
      refine ⟨by omega, by omega, ?_⟩
      intro hd; omega
    · rw [hv2 (by simpa using hc), hx1]
      refine ⟨by omega, by omega, ?_⟩
      intro hd; omega

theorem rhe_spec (x : Int) (n : Nat) : RoundHalfEven x (2 ^ n) (rhe x n) := by
  cases n with
  | zero => simp [rhe, RoundHalfEven]
  | succ k =>
    obtain ⟨h, h1, h2⟩ := div_mod_parts x k
    have hb : x / 2 ^ k % 2 = 0 ∨ x / 2 ^ k % 2 = 1 := by omega
    have e : (2 : Int) ^ (k + 1) = 2 * 2 ^ k := by rw [pow_succ]; ring
    rw [show ((2 : Int) ^ (k + 1)) = 2 * 2 ^ k from e]
    apply rhe_spec_aux h h1 h2 hb
    unfold rhe
    exact ⟨fun hc => if_pos hc, fun hc => if_neg hc⟩

/-- The specification determines the rounded value. -/
theorem RoundHalfEven.unique {x d r s : Int} (hd : 0 < d) (h1 : RoundHalfEven x d r)
    (h2 : RoundHalfEven x d s) : r = s := by
  obtain ⟨a1, a2, a3⟩ := h1
  obtain ⟨b1, b2, b3⟩ := h2
  rcases lt_trichotomy r s with h | h | h
  · have hs : s = r + 1 ∨ r + 2 ≤ s := by omega
    rcases hs with rfl | hs
    · have e : x - (r + 1) * d = x - r * d - d := by ring
      rw [e] at b1 b2 b3
      have : r % 2 = 0 := a3 (by omega)
      have : (r + 1) % 2 = 0 := b3 (by omega)
      omega
    · exfalso; nlinarith
  · exact h
  · have hs : r = s + 1 ∨ s + 2 ≤ r := by omega
    rcases hs with rfl | hs
    · have e : x - (s + 1) * d = x - s * d - d := by ring
      rw [e] at a1 a2 a3
      have : s % 2 = 0 := b3 (by omega)
      have : (s + 1) % 2 = 0 := a3 (by omega)
      omega
    · exfalso; nlinarith

theorem RoundHalfUp.unique {x d r s : Int} (hd : 0 < d) (h1 : RoundHalfUp x d r)
    (h2 : RoundHalfUp x d s) : r = s := by
  obtain ⟨a1, a2⟩ := h1
  obtain ⟨b1, b2⟩ := h2
  rcases lt_trichotomy r s with h | h | h
  · exfalso; nlinarith
  · exact h
  · exfalso; nlinarith

/-- Closed form of round-half-up division by `2^n`. -/
def rhu (x : Int) (n : Nat) : Int :=
  match n with
  | 0 => x
  | k + 1 => (x + 2 ^ k) / 2 ^ (k + 1)

theorem rhu_spec (x : Int) (n : Nat) : RoundHalfUp x (2 ^ n) (rhu x n) := by
  cases n with
  | zero => simp [rhu, RoundHalfUp]
  | succ k =>
    have hp := two_pow_pos k
    have e : (2 : Int) ^ (k + 1) = 2 * 2 ^ k := by rw [pow_succ]; ring
    show RoundHalfUp x _ ((x + 2 ^ k) / 2 ^ (k + 1))
    unfold RoundHalfUp
    rw [e]
    have h1 := Int.mul_ediv_add_emod (x + 2 ^ k) (2 * 2 ^ k)
    have h2 := Int.emod_nonneg (x + 2 ^ k) (b := 2 * 2 ^ k) (by omega)
    have h3 := Int.emod_lt_of_pos (x + 2 ^ k) (b := 2 * 2 ^ k) (by omega)
    generalize (x + 2 ^ k) / (2 * 2 ^ k) = q at h1 ⊢
    generalize (x + 2 ^ k) % (2 * 2 ^ k) = r at h1 h2 h3
    generalize (2:Int) ^ k = P at hp h1 h2 h3 ⊢
    have : q * (2 * P) = 2 * P * q := by ring
    rw [this]
    omega

theorem rhe_inRange {w : Nat} {x : Int} (h : InRange w x) (n : Nat) : InRange w (rhe x n) := by
  cases n with
  | zero => exact h
  | succ k =>
    have hp := two_pow_pos k
    obtain ⟨s1, s2, _⟩ := rhe_spec x (k + 1)
    have e : (2 : Int) ^ (k + 1) = 2 * 2 ^ k := by rw [pow_succ]; ring
    rw [e] at s1 s2
    generalize rhe x (k + 1) = r at s1 s2 ⊢
    obtain ⟨a, b⟩ := h
    have h1 := lo_neg w; have h2 := hi_nonneg w
    generalize (2:Int) ^ k = P at s1 s2 hp
    have h3 : lo w = - hi w - 1 := by rw [lo_eq, hi_eq]; omega
    rw [h3] at a
    unfold InRange; rw [h3]
    generalize hi w = H at a b h2 ⊢
    constructor
    · by_contra hc
      have : r ≤ -H - 2 := by omega
      nlinarith
    · by_contra hc
      have : H + 1 ≤ r := by omega
      rcases Int.lt_or_eq_of_le h2 with h0 | h0
      · nlinarith
      · subst h0
        nlinarith

theorem rhu_inRange {w : Nat} (hw : 2 ≤ w) {x : Int} (h : InRange w x) (n : Nat) : InRange w (rhu x n) := by
  cases n with
  | zero => exact h
  | succ k =>
    have hp := two_pow_pos k
    obtain ⟨s1, s2⟩ := rhu_spec x (k + 1)
    have e : (2 : Int) ^ (k + 1) = 2 * 2 ^ k := by rw [pow_succ]; ring
    rw [e] at s1 s2
    generalize rhu x (k + 1) = r at s1 s2 ⊢
    obtain ⟨a, b⟩ := h
    have h2 : 1 ≤ hi w := by
      rw [hi_eq]
      have : (2:Int)^1 ≤ 2 ^ (w-1) := pow_le_pow_right₀ (by decide) (by omega)
      omega
    have h3 : lo w = - hi w - 1 := by rw [lo_eq, hi_eq]; omega
    rw [h3] at a
    unfold InRange; rw [h3]
    generalize (2:Int) ^ k = P at s1 s2 hp
    generalize hi w = H at a b h2 ⊢
    constructor
    · by_contra hc
      have : r ≤ -H - 2 := by omega
      nlinarith
    · by_contra hc
      have : H + 1 ≤ r := by omega
      nlinarith

theorem rhe_small {w : Nat} (hw : 1 ≤ w) {x : Int} (h : InRange w x) {n : Nat} (hn : w ≤ n) : rhe x n = 0 := by
  apply RoundHalfEven.unique (two_pow_pos n) (rhe_spec x n)
  obtain ⟨a, b⟩ := h
  have h1 : (2 ^ w : Int) ≤ 2 ^ n := pow_le_pow_right₀ (by decide) hn
  have h2 := two_pow_split hw
  rw [lo_eq] at a; rw [hi_eq] at b
  refine ⟨?_, ?_, ?_⟩
  · omega
  · omega
  · intro _; rfl

theorem rhu_small {w : Nat} (hw : 1 ≤ w) {x : Int} (h : InRange w x) {n : Nat} (hn : w ≤ n) : rhu x n = 0 := by
  apply RoundHalfUp.unique (two_pow_pos n) (rhu_spec x n)
  obtain ⟨a, b⟩ := h
  have h1 : (2 ^ w : Int) ≤ 2 ^ n := pow_le_pow_right₀ (by decide) hn
  have h2 := two_pow_split hw
  rw [lo_eq] at a; rw [hi_eq] at b
  refine ⟨?_, ?_⟩
  · omega
  · omega

theorem inRange_one {w : Nat} (hw : 2 ≤ w) : InRange w 1 := by
  have h1 := lo_neg w
  refine ⟨by omega, ?_⟩
  rw [hi_eq]
  have : (2:Int)^1 ≤ 2 ^ (w-1) := pow_le_pow_right₀ (by decide) (by omega)
  omega

theorem asrRnd_convergent_nonneg {w : Nat} (hw : 2 ≤ w) {x : Int} (h : InRange w x) (n : Nat) :
    asrRndFx .convergent w x n = rhe x n := by
  unfold asrRndFx
  rw [if_neg (by omega)]
  split
  · rename_i h0; have : n = 0 := by omega
    subst this; rfl
  · split
    · rename_i h1 h2; rw [rhe_small (by omega) h (by omega)]
    · rename_i h1 h2
      obtain ⟨k, rfl⟩ : ∃ k, n = k + 1 := ⟨n - 1, by omega⟩
      have e : ((k + 1 : Nat) : Int).toNat - 1 = k := by omega
      simp only [e]
      have hr := asrFx_nonneg (by omega) h (k + 1)
      simp only [hr, cand_bit_ne_zero (show k < w by omega), cand_one_ne_zero (show 1 ≤ w by omega),
        cand_low_ne_zero (show k ≤ w by omega)]
      simp only [rhe]
      split
      · rename_i hc
        rw [addFx_eq (inRange_div h _) (inRange_one hw)]
        have := rhe_inRange h (k + 1)
        simp only [rhe] at this; rw [if_pos hc] at this
        exact clamp_of_inRange this
      · rfl

theorem asrRnd_up_nonneg {w : Nat} (hw : 2 ≤ w) {x : Int} (h : InRange w x) (n : Nat)
    (hx : n = 0 ∨ (w : Int) - 1 < n ∨ x ≤ hi w - 2 ^ (n - 1)) :
    asrRndFx .up w x n = rhu x n := by
  unfold asrRndFx
  rw [if_neg (by omega)]
  split
  · rename_i h0; have : n = 0 := by omega
    subst this; rfl
  · split
    · rename_i h1 h2; rw [rhu_small (by omega) h (by omega)]
    · rename_i h1 h2
      obtain ⟨k, rfl⟩ : ∃ k, n = k + 1 := ⟨n - 1, by omega⟩
      have e : ((k + 1 : Nat) : Int).toNat - 1 = k := by omega
      simp only [e]
      have hx' : x ≤ hi w - 2 ^ k := by
        rcases hx with hx | hx | hx
        · omega
        · omega
        · simpa using hx
      have hp := two_pow_pos k
      obtain ⟨a, b⟩ := h
      have hh : (2:Int)^k ≤ hi w := by
        rw [hi_eq]
        have : (2:Int)^(k+1) ≤ 2 ^ (w-1) := pow_le_pow_right₀ (by decide) (by omega)
        have e : (2 : Int) ^ (k + 1) = 2 * 2 ^ k := by rw [pow_succ]; ring
        omega
      have hl := lo_neg w
      have hin : InRange w (x + 2 ^ k) := ⟨by omega, by omega⟩
      rw [addFx_eq ⟨a, b⟩ ⟨by omega, hh⟩, clamp_of_inRange hin, asrFx_nonneg (by omega) hin]
      rfl

theorem asrRnd_neg {m : Rnd} {w : Nat} (hw : 1 ≤ w) {x : Int} (h : InRange w x) (n : Nat) :
    asrRndFx m w x (-(n : Int)) = clamp w (x * 2 ^ n) := by
  by_cases h0 : n = 0
  · subst h0; simp [asrRndFx, clamp_of_inRange h]
  · unfold asrRndFx
    rw [if_pos (by omega), Int.neg_neg]
    exact aslFx_nonneg hw h n

/-! ## monotonicity -/

theorem RoundHalfEven.mono {x y d r s : Int} (hd : 0 < d) (h1 : RoundHalfEven x d r)
    (h2 : RoundHalfEven y d s) (h : x ≤ y) : r ≤ s := by
  by_contra hc
  obtain ⟨a1, a2, a3⟩ := h1
  obtain ⟨b1, b2, b3⟩ := h2
  have hs : r = s + 1 ∨ s + 2 ≤ r := by omega
  rcases hs with rfl | hs
  · have e : x - (s + 1) * d = x - s * d - d := by ring
    rw [e] at a1 a2 a3
    have : s % 2 = 0 := b3 (by omega)
    have : (s + 1) % 2 = 0 := a3 (by omega)
    omega
  · nlinarith

theorem rhe_mono {x y : Int} (h : x ≤ y) (n : Nat) : rhe x n ≤ rhe y n :=
  RoundHalfEven.mono (two_pow_pos n) (rhe_spec x n) (rhe_spec y n) h

theorem div_mono {x y : Int} (h : x ≤ y) (n : Nat) : x / 2 ^ n ≤ y / 2 ^ n :=
  Int.ediv_le_ediv (two_pow_pos n) h

/-- General closed form of the round-up right shift, including the saturation of the sum. -/
theorem asrRnd_up_general {w : Nat} (hw : 2 ≤ w) {x : Int} (h : InRange w x) (k : Nat)
    (hk : k + 1 < w) : asrRndFx .up w x ((k + 1 : Nat) : Int) = clamp w (x + 2 ^ k) / 2 ^ (k + 1) := by
  unfold asrRndFx
  rw [if_neg (by omega), if_neg (by omega), if_neg (by omega)]
  have e : ((k + 1 : Nat) : Int).toNat - 1 = k := by omega
  simp only [e]
  have hh : InRange w ((2:Int) ^ k) := by
    have hp := two_pow_pos k
    have hl := lo_neg w
    refine ⟨by omega, ?_⟩
    rw [hi_eq]
    have : (2:Int)^(k+1) ≤ 2 ^ (w-1) := pow_le_pow_right₀ (by decide) (by omega)
    have e : (2 : Int) ^ (k + 1) = 2 * 2 ^ k := by rw [pow_succ]; ring
    omega
  rw [addFx_eq h hh, asrFx_nonneg (by omega) (clamp_inRange _ _)]

theorem asrRnd_inRange (m : Rnd) {w : Nat} (hw : 2 ≤ w) {x : Int} (h : InRange w x) (n : Int) :
    InRange w (asrRndFx m w x n) := by
  rcases Int.lt_or_le n 0 with hn | hn
  · obtain ⟨k, rfl⟩ : ∃ k : Nat, n = -(k : Int) := ⟨(-n).toNat, by omega⟩
    rw [asrRnd_neg (by omega) h]; exact clamp_inRange _ _
  · obtain ⟨k, rfl⟩ : ∃ k : Nat, n = (k : Int) := ⟨n.toNat, by omega⟩
    cases m with
    | convergent => rw [asrRnd_convergent_nonneg hw h]; exact rhe_inRange h _
    | up =>
      by_cases hk : k = 0 ∨ w ≤ k
      · rw [asrRnd_up_nonneg hw h k (by omega)]; exact rhu_inRange hw h _
      · obtain ⟨j, rfl⟩ : ∃ j, k = j + 1 := ⟨k - 1, by omega⟩
        rw [asrRnd_up_general hw h j (by omega)]
        exact inRange_div (clamp_inRange _ _) _

theorem asrRnd_mono (m : Rnd) {w : Nat} (hw : 2 ≤ w) {x y : Int} (hx : InRange w x) (hy : InRange w y)
    (n : Int) (h : x ≤ y) : asrRndFx m w x n ≤ asrRndFx m w y n := by
  rcases Int.lt_or_le n 0 with hn | hn
  · obtain ⟨k, rfl⟩ : ∃ k : Nat, n = -(k : Int) := ⟨(-n).toNat, by omega⟩
    rw [asrRnd_neg (by omega) hx, asrRnd_neg (by omega) hy]
    apply clamp_mono
    exact Int.mul_le_mul_of_nonneg_right h (le_of_lt (two_pow_pos k))
  · obtain ⟨k, rfl⟩ : ∃ k : Nat, n = (k : Int) := ⟨n.toNat, by omega⟩
    cases m with
    | convergent =>
      rw [asrRnd_convergent_nonneg hw hx, asrRnd_convergent_nonneg hw hy]; exact rhe_mono h k
    | up =>
      by_cases hk : k = 0 ∨ w ≤ k
      · rw [asrRnd_up_nonneg hw hx k (by omega), asrRnd_up_nonneg hw hy k (by omega)]
        rcases hk with rfl | hk
        · exact h
        · rw [rhu_small (by omega) hx hk, rhu_small (by omega) hy hk]
      · obtain ⟨j, rfl⟩ : ∃ j, k = j + 1 := ⟨k - 1, by omega⟩
        rw [asrRnd_up_general hw hx j (by omega), asrRnd_up_general hw hy j (by omega)]
        exact div_mono (clamp_mono (by omega)) _

/-! ## saturation to a narrower width -/

theorem mul_pow_div (x : Int) (n : Nat) : x * 2 ^ n / 2 ^ n = x :=
  Int.mul_ediv_cancel _ (by have := two_pow_pos n; omega)

theorem satFx_eq {wi wo : Nat} (ho : 1 ≤ wo) (hio : wo ≤ wi) {x : Int} (h : InRange wi x) :
    satFx wi x (wi - wo) = clamp wo x := by
  unfold satFx
  rw [aslFx_nonneg (by omega) h, asrFx_nonneg (by omega) (clamp_inRange _ _)]
  have hp := two_pow_pos (wi - wo)
  have e : (2 : Int) ^ (wi - 1) = 2 ^ (wo - 1) * 2 ^ (wi - wo) := by rw [← pow_add]; congr 1; omega
  by_cases h1 : x < lo wo
  · have h2 : x * 2 ^ (wi - wo) ≤ lo wi := by
      rw [lo_eq] at h1 ⊢; rw [e]; nlinarith
    rw [clamp_of_lt h2, clamp_of_lt (by omega), lo_eq, lo_eq, e]
    have : -(2 ^ (wo - 1) * 2 ^ (wi - wo) : Int) = (-2 ^ (wo - 1)) * 2 ^ (wi - wo) := by ring
    rw [this, mul_pow_div]
  · by_cases h3 : hi wo < x
    · have h2 : hi wi ≤ x * 2 ^ (wi - wo) := by
        rw [hi_eq] at h3 ⊢; rw [e]
        have : 2 ^ (wo - 1) ≤ x := by omega
        nlinarith
      rw [clamp_of_gt h2, clamp_of_gt (by omega), hi_eq, hi_eq, e]
      have : (2 ^ (wo - 1) * 2 ^ (wi - wo) - 1 : Int)
          = (2 ^ (wi - wo) - 1) + (2 ^ (wo - 1) - 1) * 2 ^ (wi - wo) := by ring
      rw [this, Int.add_mul_ediv_right _ _ (by omega), Int.ediv_eq_zero_of_lt (by omega) (by omega)]
      ring
    · have hin : InRange wo x := ⟨by omega, by omega⟩
      have h2 : InRange wi (x * 2 ^ (wi - wo)) := by
        obtain ⟨a, b⟩ := hin
        unfold InRange; rw [lo_eq] at a ⊢; rw [hi_eq] at b ⊢; rw [e]
        constructor
        · nlinarith
        · have : x + 1 ≤ 2 ^ (wo - 1) := by omega
          nlinarith
      rw [clamp_of_inRange h2, clamp_of_inRange hin, mul_pow_div]

theorem castFx_eq (m : Rnd) {wi wo : Nat} (ho : 2 ≤ wo) (hio : wo ≤ wi) {x : Int} (h : InRange wi x)
    (s : Int) : castFx m wi wo x s = clamp wo (asrRndFx m wi x s) := by
  unfold castFx
  rw [satFx_eq (by omega) hio (asrRnd_inRange m (by omega) h s)]
  exact wrap_of_inRange (by omega) (clamp_inRange _ _)

theorem accCast8_eq (m : Rnd) {x : Int} (h : InRange 32 x) (s : Int) :
    accCast8 m x s = clamp 8 (asrRndFx m 32 x s) := by
  have hr := asrRnd_inRange m (w := 32) (by omega) h s
  have := satFx_eq (wi := 32) (wo := 8) (by omega) (by omega) hr
  unfold satFx at this
  rw [asrFx_nonneg (by omega) (by rw [aslFx_nonneg (by omega) hr]; exact clamp_inRange _ _)] at this
  unfold accCast8
  simp only [shr_eq]
  have e : ((32 - 8 : Nat) : Int) = 24 := rfl
  rw [e] at this
  rw [this]
  exact wrap_of_inRange (by omega) (clamp_inRange _ _)

theorem accCast16_eq (m : Rnd) {x : Int} (h : InRange 32 x) (s : Int) :
    accCast16 m x s = clamp 16 (asrRndFx m 32 x s) := by
  have hr := asrRnd_inRange m (w := 32) (by omega) h s
  have := satFx_eq (wi := 32) (wo := 16) (by omega) (by omega) hr
  unfold satFx at this
  have e : ((32 - 16 : Nat) : Int) = 16 := rfl
  rw [e] at this
  unfold accCast16
  simp only []
  rw [this]
  have h16 := clamp_inRange 16 (asrRndFx m 32 x s)
  have h32 : InRange 32 (clamp 16 (asrRndFx m 32 x s)) := by
    obtain ⟨a, b⟩ := h16
    have e1 : lo 16 = -32768 := by decide
    have e2 : hi 16 = 32767 := by decide
    have e3 : lo 32 = -2147483648 := by decide
    have e4 : hi 32 = 2147483647 := by decide
    unfold InRange; omega
  have := satFx_eq (wi := 32) (wo := 16) (by omega) (by omega) h32
  rw [show (32 - 16 : Nat) = 16 from rfl] at this
  rw [this, clamp_of_inRange h16]
  exact wrap_of_inRange (by omega) h16

end Mli
