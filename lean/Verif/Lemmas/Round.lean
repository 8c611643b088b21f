import Verif.Lemmas.Math
import Verif.Spec.Lut

/-! # Rounding, both modes together -/

namespace Mli

open Spec

/-- `x / 2^n` rounded by the mode's rule. -/
def rnd (m : Rnd) (x : Int) (n : Nat) : Int :=
  match m with
  | .up => rhu x n
  | .convergent => rhe x n

theorem rnd_scaled (m : Rnd) (x : Int) (n : Nat) : Scaled m x n (rnd m x n) := by
  unfold Scaled
  rw [if_pos (by omega), Int.toNat_natCast]
  cases m
  · exact rhu_spec x n
  · exact rhe_spec x n

theorem scaled_nearest {m : Rnd} {x : Int} {n : Nat} {r : Int} (h : Scaled m x n r) : Nearest x (2 ^ n) r := by
  unfold Scaled at h
  rw [if_pos (by omega), Int.toNat_natCast] at h
  cases m
  · exact ⟨h.1, by have := h.2; omega⟩
  · exact ⟨h.1, h.2.1⟩

theorem scaled_unique {m : Rnd} {x n r s : Int} (h1 : Scaled m x n r) (h2 : Scaled m x n s) : r = s := by
  unfold Scaled at h1 h2
  split at h1
  · rename_i hn
    rw [if_pos hn] at h2
    cases m
    · exact RoundHalfUp.unique (two_pow_pos _) h1 h2
    · exact RoundHalfEven.unique (two_pow_pos _) h1 h2
  · rename_i hn; rw [if_neg hn] at h2; omega

theorem rnd_nearest (m : Rnd) (x : Int) (n : Nat) : Nearest x (2 ^ n) (rnd m x n) :=
  scaled_nearest (rnd_scaled m x n)

theorem rnd_mono (m : Rnd) {x y : Int} (h : x ≤ y) (n : Nat) : rnd m x n ≤ rnd m y n := by
  cases m
  · have hx := rhu_spec x n; have hy := rhu_spec y n
    have hp := two_pow_pos n
    unfold RoundHalfUp at hx hy
    show rhu x n ≤ rhu y n
    generalize rhu x n = a at *
    generalize rhu y n = b at *
    generalize (2 ^ n : Int) = d at *
    by_contra hc
    have : (b + 1) * d ≤ a * d := Int.mul_le_mul_of_nonneg_right (by omega) (by omega)
    have e : (b + 1) * d = b * d + d := by ring
    omega
  · exact rhe_mono h n

/-- The rounding shift is exact rounding when adding the rounding offset cannot saturate. -/
theorem asrRnd_eq_rnd (m : Rnd) {w : Nat} (hw : 2 ≤ w) {x : Int} (h : InRange w x) (n : Nat)
    (hx : n = 0 ∨ w ≤ n ∨ x ≤ hi w - 2 ^ (n - 1)) : asrRndFx m w x n = rnd m x n := by
  cases m
  · exact asrRnd_up_nonneg hw h n (by omega)
  · exact asrRnd_convergent_nonneg hw h n

/-- Rounding a fraction of `d` gives a value between 0 and `d`. -/
theorem nearest_frac {d t q : Int} {n : Nat} (h : Nearest (d * t) (2 ^ n) q) (h0 : 0 ≤ t) (h1 : t < 2 ^ n) :
    (0 ≤ d → 0 ≤ q ∧ q ≤ d) ∧ (d ≤ 0 → d ≤ q ∧ q ≤ 0) := by
  have hp := two_pow_pos n
  obtain ⟨a, b⟩ := h
  generalize (2 ^ n : Int) = P at *
  constructor
  · intro hd
    have p1 : 0 ≤ d * t := Int.mul_nonneg hd h0
    have p2 : d * t ≤ d * P := Int.mul_le_mul_of_nonneg_left (by omega) hd
    constructor
    · by_contra hc
      have : q * P ≤ (-1) * P := Int.mul_le_mul_of_nonneg_right (by omega) (by omega)
      omega
    · by_contra hc
      have : (d + 1) * P ≤ q * P := Int.mul_le_mul_of_nonneg_right (by omega) (by omega)
      have e : (d + 1) * P = d * P + P := by ring
      omega
  · intro hd
    have p1 : d * t ≤ 0 := Int.mul_nonpos_of_nonpos_of_nonneg hd h0
    have p2 : d * P ≤ d * t := Int.mul_le_mul_of_nonpos_left hd (by omega)
    constructor
    · by_contra hc
      have : q * P ≤ (d - 1) * P := Int.mul_le_mul_of_nonneg_right (by omega) (by omega)
      have e : (d - 1) * P = d * P - P := by ring
      omega
    · by_contra hc
      have : 1 * P ≤ q * P := Int.mul_le_mul_of_nonneg_right (by omega) (by omega)
      omega

theorem cand_low_eq {w k : Nat} (hk : k < w) (x : Int) : cand w x (2 ^ k - 1) = x % 2 ^ k := by
  have hpk := two_pow_pos k
  have h2 : (2 * 2 ^ k : Int) ≤ 2 ^ w := by
    have : (2 ^ (k + 1) : Int) ≤ 2 ^ w := pow_le_pow_right₀ (by decide) hk
    rw [pow_succ] at this; omega
  have hy : (BitVec.ofInt w (2 ^ k - 1)).toNat = 2 ^ k - 1 := by
    have h1 := toNat_ofInt_emod w (2 ^ k - 1)
    rw [Int.emod_eq_of_lt (by omega) (by omega)] at h1
    have h3 : ((2 ^ k : Nat) : Int) = 2 ^ k := by push_cast; rfl
    omega
  have h1 := toNat_ofInt_emod w x
  have h4 : (((BitVec.ofInt w x).toNat % 2 ^ k : Nat) : Int) = x % 2 ^ k := by
    push_cast; rw [h1]
    exact Int.emod_emod_of_dvd _ (pow_dvd_pow 2 (by omega))
  have hm := Int.emod_lt_of_pos x hpk
  have hn := Int.emod_nonneg x (show (2 ^ k : Int) ≠ 0 by omega)
  unfold cand
  rw [BitVec.toInt_eq_toNat_cond, BitVec.toNat_and, hy, Nat.and_two_pow_sub_one_eq_mod, if_pos, h4]
  have h5 : ((2 ^ w : Nat) : Int) = 2 ^ w := by push_cast; rfl
  have : ((2 * ((BitVec.ofInt w x).toNat % 2 ^ k) : Nat) : Int) < ((2 ^ w : Nat) : Int) := by
    rw [h5]; push_cast at h4 ⊢; omega
  exact_mod_cast this

end Mli
