import Mathlib.Analysis.Convex.Deriv
import Mathlib.Analysis.SpecialFunctions.Sigmoid
import Mathlib.Analysis.SpecialFunctions.Trigonometric.DerivHyp
import Mathlib.Analysis.Calculus.MeanValue
import Mathlib.Tactic.Linarith
import Mathlib.Tactic.Positivity

/-!
# Chords and slopes of the exponential, sigmoid and hyperbolic tangent
-/

namespace Mli

open Real Set

/-- A chord stays within `M * h^2 / 8` of a function whose second derivative is at most `M`. -/
theorem chord_error {g : ℝ → ℝ} {M : ℝ} {D : Set ℝ} (c1 : ConvexOn ℝ D (fun x => M / 2 * x ^ 2 + g x))
    (c2 : ConvexOn ℝ D (fun x => M / 2 * x ^ 2 - g x)) (hM : 0 ≤ M) {a h t : ℝ} (ha : a ∈ D) (hb : a + h ∈ D) (t0 : 0 ≤ t) (t1 : t ≤ 1) :
    |g (a + t * h) - ((1 - t) * g a + t * g (a + h))| ≤ M * h ^ 2 / 8 := by
  have e : (1 - t) • a + t • (a + h) = a + t * h := by simp only [smul_eq_mul]; ring
  have h1 := c1.2 ha hb (show 0 ≤ 1 - t by linarith) t0 (by ring)
  have h2 := c2.2 ha hb (show 0 ≤ 1 - t by linarith) t0 (by ring)
  rw [e] at h1 h2
  simp only [smul_eq_mul] at h1 h2
  have k : M / 2 * (t * (1 - t) * h ^ 2) ≤ M * h ^ 2 / 8 := by
    have : t * (1 - t) ≤ 1 / 4 := by nlinarith [sq_nonneg (t - 1 / 2)]
    have := mul_le_mul_of_nonneg_left this (show 0 ≤ M / 2 * h ^ 2 by positivity)
    nlinarith
  rw [abs_le]
  constructor <;> nlinarith

theorem convex_add {g g1 g2 : ℝ → ℝ} {M : ℝ} {D : Set ℝ} (hD : Convex ℝ D) (d1 : ∀ x, HasDerivAt g (g1 x) x) (d2 : ∀ x, HasDerivAt g1 (g2 x) x)
    (hb : ∀ x ∈ D, -M ≤ g2 x) : ConvexOn ℝ D (fun x => M / 2 * x ^ 2 + g x) := by
  have e1 : ∀ x, HasDerivAt (fun x => M / 2 * x ^ 2 + g x) (M * x + g1 x) x := by
    intro x
    have := ((hasDerivAt_pow 2 x).const_mul (M / 2)).add (d1 x)
    refine this.congr_deriv ?_
    push_cast; ring
  have e2 : ∀ x, HasDerivAt (fun x => M * x + g1 x) (M + g2 x) x := by
    intro x
    have := ((hasDerivAt_id x).const_mul M).add (d2 x)
    refine this.congr_deriv ?_
    ring
  have hd : deriv (fun x => M / 2 * x ^ 2 + g x) = fun x => M * x + g1 x := funext fun x => (e1 x).deriv
  have hd2 : ∀ x, (deriv^[2] (fun x => M / 2 * x ^ 2 + g x)) x = M + g2 x := by
    intro x
    show deriv (deriv _) x = _
    rw [hd]; exact (e2 x).deriv
  refine convexOn_of_deriv2_nonneg' hD (fun x _ => (e1 x).differentiableAt.differentiableWithinAt) ?_ ?_
  · rw [hd]; exact fun x _ => (e2 x).differentiableAt.differentiableWithinAt
  · intro x hx
    rw [hd2]; linarith [hb x hx]

theorem chord_deriv {g g1 g2 : ℝ → ℝ} {M : ℝ} {D : Set ℝ} (hD : Convex ℝ D) (d1 : ∀ x, HasDerivAt g (g1 x) x) (d2 : ∀ x, HasDerivAt g1 (g2 x) x)
    (hb : ∀ x ∈ D, |g2 x| ≤ M) (hM : 0 ≤ M) {a h t : ℝ} (ha : a ∈ D) (hab : a + h ∈ D) (t0 : 0 ≤ t) (t1 : t ≤ 1) :
    |g (a + t * h) - ((1 - t) * g a + t * g (a + h))| ≤ M * h ^ 2 / 8 := by
  refine chord_error (convex_add hD d1 d2 fun x hx => (abs_le.1 (hb x hx)).1) ?_ hM ha hab t0 t1
  have := convex_add (g := fun x => -g x) (g1 := fun x => -g1 x) (g2 := fun x => -g2 x) (M := M) hD (fun x => (d1 x).neg) (fun x => (d2 x).neg)
    (fun x hx => by linarith [(abs_le.1 (hb x hx)).2])
  simpa only [sub_eq_add_neg] using this

theorem lip_deriv {g g1 : ℝ → ℝ} {L : ℝ} {D : Set ℝ} (hD : Convex ℝ D) (d1 : ∀ x, HasDerivAt g (g1 x) x) (hb : ∀ x ∈ D, |g1 x| ≤ L)
    {a b : ℝ} (ha : a ∈ D) (hb' : b ∈ D) : |g b - g a| ≤ L * |b - a| := by
  have := hD.norm_image_sub_le_of_norm_hasDerivWithin_le (f := g) (f' := g1) (C := L) (fun x _ => (d1 x).hasDerivWithinAt)
    (fun x hx => by simpa using hb x hx) ha hb'
  simpa using this

/-! ## exponential -/

theorem exp_chord {a h t : ℝ} (ha : a ≤ 0) (hb : a + h ≤ 0) (t0 : 0 ≤ t) (t1 : t ≤ 1) :
    |exp (a + t * h) - ((1 - t) * exp a + t * exp (a + h))| ≤ h ^ 2 / 8 := by
  have := chord_deriv (M := 1) (convex_Iic (0 : ℝ)) hasDerivAt_exp hasDerivAt_exp
    (fun x hx => by rw [abs_of_pos (exp_pos x)]; exact exp_le_one_iff.2 hx) (by norm_num) ha hb t0 t1
  linarith

theorem exp_lip {a b : ℝ} (ha : a ≤ 0) (hb : b ≤ 0) : |exp b - exp a| ≤ |b - a| := by
  have := lip_deriv (L := 1) (convex_Iic (0 : ℝ)) hasDerivAt_exp
    (fun x hx => by rw [abs_of_pos (exp_pos x)]; exact exp_le_one_iff.2 hx) ha hb
  linarith

/-! ## sigmoid -/

theorem sigmoid_deriv2 (x : ℝ) : HasDerivAt (fun x => sigmoid x * (1 - sigmoid x))
    (sigmoid x * (1 - sigmoid x) * (1 - 2 * sigmoid x)) x := by
  have := (hasDerivAt_sigmoid x).mul ((hasDerivAt_sigmoid x).const_sub 1)
  refine this.congr_deriv ?_
  ring

theorem sigmoid_bend (x : ℝ) : |sigmoid x * (1 - sigmoid x) * (1 - 2 * sigmoid x)| ≤ 1 / 10 := by
  have h0 := sigmoid_pos x
  have h1 := sigmoid_lt_one x
  generalize sigmoid x = s at *
  rw [abs_le]
  constructor <;> nlinarith [mul_pos h0 (sub_pos.2 h1), mul_nonneg h0.le (sq_nonneg (s - 79 / 100)), mul_nonneg (sub_pos.2 h1).le (sq_nonneg (s - 79 / 100)),
    mul_nonneg h0.le (sq_nonneg (s - 21 / 100)), mul_nonneg (sub_pos.2 h1).le (sq_nonneg (s - 21 / 100))]

theorem sigmoid_slope (x : ℝ) : |sigmoid x * (1 - sigmoid x)| ≤ 1 / 4 := by
  have h0 := sigmoid_pos x
  have h1 := sigmoid_lt_one x
  rw [abs_le]
  constructor <;> nlinarith [sq_nonneg (sigmoid x - 1 / 2)]

theorem sigmoid_chord (a h : ℝ) {t : ℝ} (t0 : 0 ≤ t) (t1 : t ≤ 1) :
    |sigmoid (a + t * h) - ((1 - t) * sigmoid a + t * sigmoid (a + h))| ≤ h ^ 2 / 80 := by
  have := chord_deriv (M := 1 / 10) convex_univ hasDerivAt_sigmoid sigmoid_deriv2
    (fun x _ => sigmoid_bend x) (by norm_num) (mem_univ a) (mem_univ (a + h)) t0 t1
  linarith

theorem sigmoid_lip (a b : ℝ) : |sigmoid b - sigmoid a| ≤ |b - a| / 4 := by
  have := lip_deriv (L := 1 / 4) convex_univ hasDerivAt_sigmoid (fun x _ => sigmoid_slope x) (mem_univ a) (mem_univ b)
  linarith

/-! ## hyperbolic tangent -/

theorem tanh_eq_sigmoid (x : ℝ) : tanh x = 2 * sigmoid (2 * x) - 1 := by
  rw [tanh_eq_sinh_div_cosh, sinh_eq, cosh_eq, sigmoid_def]
  have h0 := exp_pos x
  have h1 : exp (-x) = (exp x)⁻¹ := exp_neg x
  have h2 : exp (-(2 * x)) = (exp x)⁻¹ * (exp x)⁻¹ := by
    rw [← h1, ← exp_add]; congr 1; ring
  rw [h1, h2]
  field_simp
  ring

theorem tanh_chord (a h : ℝ) {t : ℝ} (t0 : 0 ≤ t) (t1 : t ≤ 1) :
    |tanh (a + t * h) - ((1 - t) * tanh a + t * tanh (a + h))| ≤ h ^ 2 / 10 := by
  have := sigmoid_chord (2 * a) (2 * h) t0 t1
  simp only [tanh_eq_sigmoid]
  rw [show 2 * (a + t * h) = 2 * a + t * (2 * h) by ring, show 2 * (a + h) = 2 * a + 2 * h by ring]
  rw [abs_le] at this ⊢
  constructor <;> nlinarith [this.1, this.2]

theorem tanh_lip (a b : ℝ) : |tanh b - tanh a| ≤ |b - a| := by
  have := sigmoid_lip (2 * a) (2 * b)
  rw [show 2 * b - 2 * a = 2 * (b - a) by ring, abs_mul, abs_of_pos (by norm_num : (0:ℝ) < 2)] at this
  simp only [tanh_eq_sigmoid]
  rw [show 2 * sigmoid (2 * b) - 1 - (2 * sigmoid (2 * a) - 1) = 2 * (sigmoid (2 * b) - sigmoid (2 * a)) by ring, abs_mul,
    abs_of_pos (by norm_num : (0:ℝ) < 2)]
  linarith

end Mli
