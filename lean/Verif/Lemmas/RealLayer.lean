import Verif.Spec.RealLayer
import Verif.Props.Relu
import Verif.Props.Quant
import Mathlib.Algebra.Order.Group.MinMax
import Mathlib.Tactic.Linarith
import Mathlib.Tactic.Ring
import Mathlib.Tactic.FieldSimp
import Mathlib.Algebra.BigOperators.Ring.Finset

/-! # From integer sums to real numbers -/

namespace Mli

open Spec

/-! ## Limits -/

theorem limitQ_lip (a b x y : ℚ) : |limitQ a b x - limitQ a b y| ≤ |x - y| := by
  unfold limitQ
  refine (abs_max_sub_max_le_max _ _ _ _).trans ?_
  rw [sub_self, abs_zero, max_eq_right (abs_nonneg _)]
  refine (abs_min_sub_min_le_max _ _ _ _).trans ?_
  rw [sub_self, abs_zero, max_eq_right (abs_nonneg _)]

theorem reluQ_lip (ty : ReluType) (x y : ℚ) : |reluQ ty x - reluQ ty y| ≤ |x - y| := by
  unfold reluQ
  cases ty
  · exact le_refl _
  · rw [max_comm 0 x, max_comm 0 y]; exact abs_max_sub_max_le_abs _ _ _
  · exact limitQ_lip _ _ _ _
  · exact limitQ_lip _ _ _ _

theorem limitQ_affine {z s : ℚ} (hs : 0 < s) (a b x : ℚ) : (limitQ a b x - z) * s = limitQ ((a - z) * s) ((b - z) * s) ((x - z) * s) := by
  unfold limitQ
  have mono : Monotone fun t : ℚ => (t - z) * s := fun u v h => by
    have : (u - z) * s ≤ (v - z) * s := mul_le_mul_of_nonneg_right (by linarith) hs.le
    exact this
  rw [← mono.map_min, ← mono.map_max]

/-- `y` is the integer nearest to `v` in the interval `[A, B]`; `v` is within `e` of `u`.  Then `y` is within one of `u` limited to the interval,
and within `e` if the ends of the interval are integers. -/
theorem nearest_limit {A B u e : ℚ} {S : Int → Prop} {v y : Int} (hS : ∀ x : Int, S x ↔ A ≤ x ∧ (x : ℚ) ≤ B) (hn : NearestIn S v y)
    (hv : |(v : ℚ) - u| ≤ e) (he : e < 1) : |(y : ℚ) - limitQ A B u| ≤ e ∨ ((¬ ∃ n : Int, (n : ℚ) = A) ∨ ¬ ∃ n : Int, (n : ℚ) = B) ∧
      |(y : ℚ) - limitQ A B u| ≤ 1 := by
  obtain ⟨y1, y2⟩ := hn
  obtain ⟨yA, yB⟩ := (hS y).1 y1
  have hv' := abs_le.1 hv
  by_cases hA : A ≤ v
  · by_cases hB : (v : ℚ) ≤ B
    · left
      have e1 : y = v := by
        have := y2 v ((hS v).2 ⟨hA, hB⟩)
        rw [sub_self, abs_zero] at this
        have := abs_nonpos_iff.1 this
        omega
      subst e1
      have e2 : (y : ℚ) = limitQ A B y := by unfold limitQ; rw [min_eq_right hB, max_eq_right hA]
      conv_lhs => rw [e2]
      exact (limitQ_lip _ _ _ _).trans hv
    · have hB := not_le.1 hB
      have hvy : y < v := by exact_mod_cast lt_of_le_of_lt yB hB
      have hy1 : B < (y : ℚ) + 1 := by
        by_contra hc
        have := y2 (y + 1) ((hS _).2 ⟨by push_cast; linarith, by push_cast; linarith⟩)
        rw [abs_of_pos (by omega), abs_of_nonneg (by omega)] at this
        omega
      have hv1 : (y : ℚ) + 1 ≤ v := by exact_mod_cast hvy
      have hu : (y : ℚ) ≤ u := by linarith
      have l1 : (y : ℚ) ≤ limitQ A B u := by unfold limitQ; exact le_max_of_le_right (le_min yB hu)
      have l2 : limitQ A B u ≤ B := by unfold limitQ; exact max_le (by linarith) (min_le_left _ _)
      by_cases hI : ∃ n : Int, (n : ℚ) = B
      · obtain ⟨n, rfl⟩ := hI
        have : y = n := by
          have a : y ≤ n := by exact_mod_cast yB
          have b : n < y + 1 := by exact_mod_cast hy1
          omega
        subst this
        left
        rw [abs_le]; constructor <;> linarith [abs_nonneg ((v : ℚ) - u)]
      · right
        refine ⟨.inr hI, ?_⟩
        rw [abs_le]; constructor <;> linarith
  · have hA := not_le.1 hA
    have hvy : v < y := by exact_mod_cast lt_of_lt_of_le hA yA
    have hy1 : (y : ℚ) - 1 < A := by
      by_contra hc
      have := y2 (y - 1) ((hS _).2 ⟨by push_cast; linarith, by push_cast; linarith⟩)
      rw [abs_of_neg (by omega), abs_of_nonpos (by omega)] at this
      omega
    have hv1 : (v : ℚ) + 1 ≤ y := by exact_mod_cast hvy
    have hu : u ≤ (y : ℚ) := by linarith
    have l1 : limitQ A B u ≤ y := by unfold limitQ; exact max_le yA ((min_le_right _ _).trans hu)
    have l2 : A ≤ limitQ A B u := by unfold limitQ; exact le_max_left _ _
    by_cases hI : ∃ n : Int, (n : ℚ) = A
    · obtain ⟨n, rfl⟩ := hI
      have : y = n := by
        have a : n ≤ y := by exact_mod_cast yA
        have b : y - 1 < n := by exact_mod_cast hy1
        omega
      subst this
      left
      rw [abs_le]; constructor <;> linarith [abs_nonneg ((v : ℚ) - u)]
    · right
      refine ⟨.inl hI, ?_⟩
      rw [abs_le]; constructor <;> linarith

theorem two_zpow_toNat (b : Int) : (2 : ℚ) ^ b.toNat * (2 : ℚ) ^ (-b) = (2 : ℚ) ^ (-b).toNat := by
  rw [← zpow_natCast, ← zpow_natCast, ← zpow_add₀ (by norm_num)]
  congr 1
  omega

theorem realLe_num {z s b x c : Int} : RealLe z s b x c ↔ ((x - z : Int) : ℚ) * scaleVal s b ≤ c := by
  unfold RealLe scaleVal
  have h1 := two_zpow_toNat b
  have h2 : (0 : ℚ) < 2 ^ b.toNat := by positivity
  rw [← mul_le_mul_iff_of_pos_right h2]
  have e : ((x - z : Int) : ℚ) * (s * (2 : ℚ) ^ (-b)) * 2 ^ b.toNat = ((x - z : Int) : ℚ) * s * 2 ^ (-b).toNat := by
    rw [← h1]; ring
  rw [e]
  constructor <;> intro h <;> exact_mod_cast h

theorem realGe_num {z s b x c : Int} : RealGe z s b x c ↔ (c : ℚ) ≤ ((x - z : Int) : ℚ) * scaleVal s b := by
  unfold RealGe scaleVal
  have h1 := two_zpow_toNat b
  have h2 : (0 : ℚ) < 2 ^ b.toNat := by positivity
  rw [← mul_le_mul_iff_of_pos_right h2 (b := (c : ℚ))]
  have e : ((x - z : Int) : ℚ) * (s * (2 : ℚ) ^ (-b)) * 2 ^ b.toNat = ((x - z : Int) : ℚ) * s * 2 ^ (-b).toNat := by
    rw [← h1]; ring
  rw [e]
  constructor <;> intro h <;> exact_mod_cast h

theorem limitQ_mem {a b x : ℚ} (h : a ≤ b) : a ≤ limitQ a b x ∧ limitQ a b x ≤ b := by
  unfold limitQ
  exact ⟨le_max_left _ _, max_le h (min_le_left _ _)⟩

theorem limitQ_inter {L H A B u : ℚ} (h1 : L ≤ u) (h2 : u ≤ H) (h3 : L ≤ B) : limitQ (max L A) (min H B) u = limitQ A B u := by
  unfold limitQ
  have e : min (min H B) u = min B u := by rw [min_comm H B, min_assoc, min_eq_right h2]
  rw [e, max_comm L A, max_assoc, max_eq_right (le_min h3 h1)]

/-- The value that a kernel limits by its built-in ReLU, in real numbers. -/
theorem relu_real {w : Nat} (ty : ReluType) {z s b v y : Int} {t e : ℚ} (hz : InRange w z) (hs : 0 < s)
    (hn : NearestIn (ty.Admissible w z s b) v y) (hv : |(v : ℚ) - limitQ (lo w) (hi w) t| ≤ e) (he : e < 1) :
    |(y - z) * scaleVal s b - reluQ ty (limitQ ((lo w - z) * scaleVal s b) ((hi w - z) * scaleVal s b) ((t - z) * scaleVal s b))| ≤
      reluErr e ty * scaleVal s b := by
  have hp : 0 < scaleVal s b := scaleVal_pos hs
  generalize hσ : scaleVal s b = σ at hp ⊢
  have z1 : ((lo w : Int) : ℚ) ≤ z := by exact_mod_cast hz.1
  have z2 : (z : ℚ) ≤ ((hi w : Int) : ℚ) := by exact_mod_cast hz.2
  have hu := limitQ_mem (x := t) (z1.trans z2)
  have ge : ∀ (c x : Int), RealGe z s b x c ↔ (z : ℚ) + c / σ ≤ x := by
    intro c x
    rw [realGe_num, hσ, ← div_le_iff₀ hp]
    push_cast
    constructor <;> intro h <;> linarith
  have le : ∀ (c x : Int), RealLe z s b x c ↔ (x : ℚ) ≤ z + c / σ := by
    intro c x
    rw [realLe_num, hσ, ← le_div_iff₀ hp]
    push_cast
    constructor <;> intro h <;> linarith
  have rng : ∀ x : Int, InRange w x ↔ ((lo w : Int) : ℚ) ≤ x ∧ (x : ℚ) ≤ ((hi w : Int) : ℚ) := by
    intro x
    unfold InRange
    constructor
    · rintro ⟨h1, h2⟩; exact ⟨by exact_mod_cast h1, by exact_mod_cast h2⟩
    · rintro ⟨h1, h2⟩; exact ⟨by exact_mod_cast h1, by exact_mod_cast h2⟩
  rw [← limitQ_affine hp]
  generalize limitQ (lo w) (hi w) t = u at hu hv ⊢
  -- the interval `[A, B]` in steps
  have main : ∀ (A B : ℚ), ((lo w : Int) : ℚ) ≤ B → (∀ x : Int, ty.Admissible w z s b x ↔ max ((lo w : Int) : ℚ) A ≤ x ∧ (x : ℚ) ≤ min ((hi w : Int) : ℚ) B) →
      |(y - z) * σ - limitQ ((A - z) * σ) ((B - z) * σ) ((u - z) * σ)| ≤ 1 * σ ∧
      ((∃ n : Int, (n : ℚ) = max ((lo w : Int) : ℚ) A) → (∃ n : Int, (n : ℚ) = min ((hi w : Int) : ℚ) B) →
        |(y - z) * σ - limitQ ((A - z) * σ) ((B - z) * σ) ((u - z) * σ)| ≤ e * σ) := by
    intro A B hB hS
    have h := nearest_limit hS hn hv he
    rw [limitQ_inter hu.1 hu.2 hB] at h
    rw [← limitQ_affine hp, ← sub_mul, show ((y : ℚ) - z - (limitQ A B u - z)) = y - limitQ A B u by ring, abs_mul, abs_of_pos hp]
    constructor
    · refine mul_le_mul_of_nonneg_right ?_ hp.le
      rcases h with h | ⟨-, h⟩
      · linarith
      · exact h
    · intro i1 i2
      refine mul_le_mul_of_nonneg_right ?_ hp.le
      rcases h with h | ⟨h | h, -⟩
      · exact h
      · exact absurd i1 h
      · exact absurd i2 h
  have rw1 : ∀ c : ℚ, ((z : ℚ) + c / σ - z) * σ = c := by
    intro c
    rw [add_sub_cancel_left, div_mul_cancel₀ _ hp.ne']
  cases ty
  · have h := (main (lo w) (hi w) (z1.trans z2) (fun x => by
      rw [max_self, min_self]; unfold ReluType.Admissible; rw [rng]; simp)).2 ⟨lo w, by rw [max_self]⟩ ⟨hi w, by rw [min_self]⟩
    rw [← limitQ_affine hp] at h
    have e1 : limitQ (lo w) (hi w) u = u := by unfold limitQ; rw [min_eq_right hu.2, max_eq_right hu.1]
    rw [e1] at h
    exact h
  · have h := (main z (hi w) (z1.trans z2) (fun x => by
      rw [min_self, max_eq_right z1]; unfold ReluType.Admissible
      simp only []
      rw [rng, show (0 : Int) = ((0 : Int)) from rfl, ge]
      simp only [Int.cast_zero, zero_div, add_zero]
      constructor
      · rintro ⟨⟨a, b⟩, c⟩; exact ⟨c, b⟩
      · rintro ⟨a, b⟩; exact ⟨⟨z1.trans a, b⟩, a⟩)).2 ⟨z, by rw [max_eq_right z1]⟩ ⟨hi w, by rw [min_self]⟩
    have e1 : limitQ (((z : ℚ) - z) * σ) ((((hi w : Int) : ℚ) - z) * σ) ((u - z) * σ) = reluQ .gen ((u - z) * σ) := by
      unfold limitQ reluQ
      rw [sub_self, zero_mul, min_eq_right (mul_le_mul_of_nonneg_right (by linarith) hp.le)]
    rw [e1] at h
    exact h
  case six =>
    have h6 : (0 : ℚ) ≤ 6 / σ := by positivity
    have h := (main z (z + 6 / σ) (by linarith) (fun x => by
      unfold ReluType.Admissible
      simp only []
      rw [rng, ge, le, max_eq_right z1, le_min_iff]
      simp only [Int.cast_zero, zero_div, add_zero, Int.cast_ofNat]
      constructor
      · rintro ⟨⟨a, b⟩, c, d⟩; exact ⟨c, b, d⟩
      · rintro ⟨a, b, c⟩; exact ⟨⟨z1.trans a, b⟩, a, c⟩)).1
    rw [sub_self, zero_mul, rw1] at h
    exact h
  case one =>
    have h6 : (0 : ℚ) ≤ 1 / σ := by positivity
    have h := (main (z + (-1) / σ) (z + 1 / σ) (by linarith) (fun x => by
      unfold ReluType.Admissible
      simp only []
      rw [rng, ge, le, max_le_iff, le_min_iff]
      simp only [Int.cast_neg, Int.cast_one]
      constructor
      · rintro ⟨⟨a, b⟩, c, d⟩; exact ⟨⟨a, c⟩, b, d⟩
      · rintro ⟨⟨a, b⟩, c, d⟩; exact ⟨⟨a, c⟩, b, d⟩)).1
    rw [rw1, rw1] at h
    exact h

end Mli
