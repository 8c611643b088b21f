import Verif.Props.AvePool
import Verif.Props.EltSa
import Verif.Spec.AvePool

/-! # C60: average pooling of SA8 tensors -/

namespace Mli

open Spec

/-- Normalization of a positive number to `b` bits. -/
theorem normCast_pos (m : Rnd) {b : Nat} (hb : 2 ≤ b) (hb2 : b < 32) {x : Int} (h0 : 0 < x) (hx : InRange 32 x) :
    2 ^ (b - 2) ≤ (normCastFx m 32 b x).1 ∧ (normCastFx m 32 b x).1 ≤ 2 ^ (b - 1) - 1 ∧
      RelErr (1 / 2 ^ (b - 1)) (scaleVal (normCastFx m 32 b x).1 (-(normCastFx m 32 b x).2)) x := by
  obtain ⟨r, hr, hv⟩ := c07_norm_cast_value m 32 b hb hb2 x hx
  obtain ⟨k, hk, -, n1, n2⟩ := normFx_pos h0 hx
  have hs : (normCastFx m 32 b x).2 = 32 - (b : Int) - (k : Int) := by unfold normCastFx; simp only [hk]; omega
  rw [hs] at hr
  rw [hv, hs]
  have he := scaled_err hr
  generalize hX : (x : ℚ) * (2 : ℚ) ^ (-(32 - (b : Int) - (k : Int))) = X at he
  have hX2 : X * 2 ^ (32 - b) = ((x * 2 ^ k : Int) : ℚ) := by
    rw [← hX, show -(32 - (b : Int) - (k : Int)) = (k : Int) - ((32 - b : Nat) : Int) by omega, zpow_sub₀ (by norm_num), zpow_natCast, zpow_natCast]
    push_cast
    field_simp
  have hP : (0 : ℚ) < 2 ^ (32 - b) := by positivity
  have e30 : (2 : ℚ) ^ 30 = 2 ^ (b - 2) * 2 ^ (32 - b) := by rw [← pow_add]; congr 1; omega
  have e31 : (2 : ℚ) ^ 31 = 2 ^ (b - 1) * 2 ^ (32 - b) := by rw [← pow_add]; congr 1; omega
  have b1 : (2 : ℚ) ^ (b - 2) ≤ X := by
    refine le_of_mul_le_mul_right ?_ hP
    rw [← e30, hX2]; exact_mod_cast n1
  have b2 : X < (2 : ℚ) ^ (b - 1) := by
    refine lt_of_mul_lt_mul_right ?_ (le_of_lt hP)
    rw [← e31, hX2]
    have : x * 2 ^ k < 2 ^ 31 := by omega
    exact_mod_cast this
  have hp2 : (2 : ℚ) ^ (b - 1) = 2 * 2 ^ (b - 2) := by rw [← pow_succ']; congr 1; omega
  have hp2z : (2 : Int) ^ (b - 1) = 2 * 2 ^ (b - 2) := by rw [← pow_succ']; congr 1; omega
  have ha := abs_le.1 he
  have hr1 : 2 ^ (b - 2) ≤ r := by
    have : ((2 ^ (b - 2) - 1 : Int) : ℚ) < r := by push_cast; linarith
    have : 2 ^ (b - 2) - 1 < r := by exact_mod_cast this
    omega
  have hr2 : r ≤ 2 ^ (b - 1) := by
    have : (r : ℚ) < ((2 ^ (b - 1) + 1 : Int) : ℚ) := by push_cast; linarith
    have : r < 2 ^ (b - 1) + 1 := by exact_mod_cast this
    omega
  have hpos := two_pow_pos (b - 2)
  have hxe : (x : ℚ) = (2 : ℚ) ^ (32 - (b : Int) - (k : Int)) * X := by
    rw [← hX, mul_left_comm, ← zpow_add₀ (by norm_num)]; simp
  have hXp : 0 < X := lt_of_lt_of_le (by positivity) b1
  have hfin : ∀ c : Int, |(c : ℚ) - X| ≤ 1 / 2 ^ (b - 1) * X → RelErr (1 / 2 ^ (b - 1)) (scaleVal c (-(32 - (b : Int) - (k : Int)))) x := by
    intro c hc
    unfold RelErr scaleVal
    rw [neg_neg, hxe, mul_comm (c : ℚ), ← mul_sub, abs_mul, abs_mul, abs_of_pos hXp]
    have := mul_le_mul_of_nonneg_left hc (abs_nonneg ((2 : ℚ) ^ (32 - (b : Int) - (k : Int))))
    linarith
  have hPb : (0 : ℚ) < 2 ^ (b - 1) := by positivity
  have hd : 1 / 2 ^ (b - 1) * X = X / 2 ^ (b - 1) := by ring
  rcases eq_or_lt_of_le hr2 with h | h
  · have hc : clamp b r = 2 ^ (b - 1) - 1 := by
      unfold clamp; simp only [lo, hi]
      rw [h]; omega
    rw [hc]
    refine ⟨by omega, by omega, hfin _ ?_⟩
    have e : (r : ℚ) = 2 ^ (b - 1) := by rw [h]; push_cast; rfl
    rw [e] at ha
    have g : 1 - (2 ^ (b - 1) - X) ≤ X / 2 ^ (b - 1) := by
      rw [le_div_iff₀ hPb]
      have : (1 : ℚ) ≤ 2 ^ (b - 1) := one_le_pow₀ (by norm_num)
      nlinarith
    rw [hd]
    push_cast
    rw [abs_le]
    constructor <;> linarith
  · have hc : clamp b r = r := clamp_of_inRange ⟨by simp only [lo]; omega, by simp only [hi]; omega⟩
    rw [hc]
    refine ⟨hr1, by omega, hfin _ ?_⟩
    have g : 1 / 2 ≤ X / 2 ^ (b - 1) := by rw [le_div_iff₀ hPb]; linarith
    rw [hd]
    linarith

/-- The multiplier of the SA8 kernels. -/
theorem msSa_rel (m : Rnd) {b : Nat} (hb : b = 8 ∨ b = 16) {scale shift D : Int} {ρ : ℚ} (h1 : 2 ^ 14 ≤ scale) (h2 : scale ≤ 2 ^ 15 - 1)
    (hρ : 0 < ρ) (rel : RelErr (1 / 2 ^ 13) (scaleVal scale shift) ρ) (hD1 : 1 ≤ D) (hD2 : D ≤ 65025) :
    2 ^ (b - 2) ≤ (msSa m b scale shift D).1 ∧ (msSa m b scale shift D).1 ≤ 2 ^ (b - 1) - 1 ∧
      RelErr (1 / 2 ^ (b - 1) + 1 / 2 ^ 12) (scaleVal (msSa m b scale shift D).1 (msSa m b scale shift D).2) (ρ / D) := by
  obtain ⟨s, hs, r1, r2, r3, r4⟩ := c49_multiplier D hD1 (by omega)
  unfold msSa
  simp only []
  rw [hs]
  generalize (mulShift D).1 = mr at *
  have hx0 : 0 < scale * mr := mul_pos (by omega) (by omega)
  have hx : InRange 32 (scale * mr) := by
    have : scale * mr ≤ 2 ^ 15 * 2 ^ 15 := mul_le_mul (by omega) (by omega) (by omega) (by decide)
    exact ⟨by simp only [lo]; omega, by simp only [hi]; omega⟩
  obtain ⟨n1, n2, n3⟩ := normCast_pos m (b := b) (by omega) (by omega) hx0 hx
  refine ⟨n1, n2, ?_⟩
  generalize (normCastFx m 32 b (scale * mr)).1 = mul at *
  generalize (normCastFx m 32 b (scale * mr)).2 = t at *
  have hDq : (0 : ℚ) < D := by exact_mod_cast hD1
  have hPs : (0 : ℚ) < 2 ^ s := by positivity
  have s1 := n3.mul ((2 : ℚ) ^ (-(shift + s)))
  have e1 : (2 : ℚ) ^ (-(shift + s)) * scaleVal mul (-t) = scaleVal mul (shift + s - t) := by
    unfold scaleVal
    rw [show -(shift + (s : Int) - t) = -(shift + s) + t by ring, neg_neg, zpow_add₀ (by norm_num) (-(shift + (s : Int))) t]
    ring
  have e2 : (2 : ℚ) ^ (-(shift + s)) * ((scale * mr : Int) : ℚ) = scaleVal mr s * scaleVal scale shift := by
    unfold scaleVal
    rw [neg_add, zpow_add₀ (by norm_num)]
    push_cast
    ring
  rw [e1, e2] at s1
  have s2 : RelErr (1 / 2 ^ 14) (scaleVal mr s) (1 / D) := by
    unfold RelErr scaleVal
    rw [zpow_neg, zpow_natCast, abs_of_pos (show (0 : ℚ) < 1 / D by positivity)]
    have g3 : (D : ℚ) * mr ≤ 2 ^ s := by exact_mod_cast r3
    have g4 : (2 : ℚ) ^ s < D * (mr + 1) := by exact_mod_cast r4
    have g1 : (2 : ℚ) ^ 14 ≤ mr := by exact_mod_cast r1
    have e : (mr : ℚ) * (2 ^ s)⁻¹ - 1 / D = -((2 ^ s - D * mr) / (2 ^ s * D)) := by field_simp; ring
    rw [e, abs_neg, abs_of_nonneg (div_nonneg (by linarith) (by positivity)), div_le_iff₀ (by positivity)]
    have e' : (1 : ℚ) / 2 ^ 14 * (1 / D) * (2 ^ s * D) = 2 ^ s / 2 ^ 14 := by field_simp
    rw [e', le_div_iff₀ (by norm_num)]
    have : (D : ℚ) * 2 ^ 14 ≤ D * mr := mul_le_mul_of_nonneg_left g1 (le_of_lt hDq)
    linarith
  have s3 := (s2.mul (scaleVal scale shift)).trans (rel.mul (1 / D)|> fun h => by
    rw [mul_comm (1 / (D : ℚ)) (scaleVal scale shift)] at h; exact h) (by positivity)
  rw [mul_comm (scaleVal scale shift) (scaleVal mr s)] at s3
  have s4 := s1.trans s3 (by positivity)
  rw [show (1 : ℚ) / D * ρ = ρ / D by ring] at s4
  refine s4.mono ?_
  rcases hb with rfl | rfl <;> norm_num

/-- What is stored for a window of `D` elements of sum `S`. -/
def avgSaOut (m : Rnd) (b : Nat) (scale shift offset D S : Int) : Int :=
  wrap 8 (satFx 32 (asrRndFx m 32 (aslFx 32 (wrap 16 offset) (msSa m b scale shift D).2 + (msSa m b scale shift D).1 * S)
    (msSa m b scale shift D).2) (32 - 8))

/-- The window operation of the SA8 kernels: window sum `S` of `D` elements. -/
theorem avgSa_spec (m : Rnd) {b : Nat} (hb : b = 8 ∨ b = 16) {scale shift offset zi zo v0 D S : Int} {ρ : ℚ}
    (h1 : 2 ^ 14 ≤ scale) (h2 : scale ≤ 2 ^ 15 - 1) (hρ : 0 < ρ) (hρm : ρ ≤ avgMaxRatio b) (rel : RelErr (1 / 2 ^ 13) (scaleVal scale shift) ρ)
    (hzi : InRange 8 zi) (hzo : InRange 8 zo) (hv0 : Scaled m (scale * zi) shift v0) (hoff : offset = clamp 16 (zo - clamp 16 v0))
    (src : Buf) (q rs cs : Int) (R C : Nat)
    (hD : (R : Int) * C = D) (hD1 : 1 ≤ D) (hD2 : D ≤ 65025) (hfit : D * (131 / ρ + 258) ≤ 2 ^ (32 - b))
    (hS : ((rect q rs cs R C).map src.get).sum = S)
    (hin : ∀ a ∈ rect q rs cs R C, (0 ≤ a ∧ a < src.size) ∧ InRange 8 (src.get a)) :
    avgOp m 8 32 offset (msSa m b scale shift) src q R C rs cs = some (avgSaOut m b scale shift offset D S) ∧
    |((avgSaOut m b scale shift offset D S : Int) : ℚ) - limitQ (-128) 127 (zo + ρ * ((S : ℚ) / D - zi))| ≤ avgErr b ρ zi S D := by
  obtain ⟨m1, m2, m3⟩ := msSa_rel m hb h1 h2 hρ rel hD1 hD2
  have hρ2 : ρ ≤ 254 := by
    refine le_trans hρm ?_
    unfold avgMaxRatio
    split <;> norm_num
  unfold avgSaOut avgOp
  rw [hD]
  simp only []
  generalize (msSa m b scale shift D).1 = mul at *
  generalize (msSa m b scale shift D).2 = sh at *
  have hDq : (0 : ℚ) < D := by exact_mod_cast hD1
  -- the offset
  have z1 := hzi.1
  have z2 := hzi.2
  have z3 := hzo.1
  have z4 := hzo.2
  simp only [lo, hi] at z1 z2 z3 z4
  norm_num at z1 z2 z3 z4
  have hzq : |(zi : ℚ)| ≤ 128 := by
    rw [abs_le]
    exact ⟨by exact_mod_cast (by omega : -128 ≤ zi), by exact_mod_cast (by omega : zi ≤ 128)⟩
  have ev := scaled_err hv0
  rw [Int.cast_mul, mul_right_comm, show (scale : ℚ) * (2 : ℚ) ^ (-shift) = scaleVal scale shift from rfl] at ev
  have erel : |scaleVal scale shift * zi - ρ * zi| ≤ ρ * |(zi : ℚ)| / 2 ^ 13 := by
    rw [← sub_mul, abs_mul]
    unfold RelErr at rel
    rw [abs_of_pos hρ] at rel
    have := mul_le_mul_of_nonneg_right rel (abs_nonneg (zi : ℚ))
    linarith
  have ev2 : |(v0 : ℚ) - ρ * zi| ≤ 1 / 2 + ρ * |(zi : ℚ)| / 2 ^ 13 := by
    have := abs_sub_le (v0 : ℚ) (scaleVal scale shift * zi) (ρ * zi)
    linarith
  have hρz : ρ * |(zi : ℚ)| ≤ ρ * 128 := mul_le_mul_of_nonneg_left hzq (le_of_lt hρ)
  have hρza : |ρ * (zi : ℚ)| ≤ ρ * 128 := by rw [abs_mul, abs_of_pos hρ]; exact hρz
  have vb : |(v0 : ℚ)| ≤ 1 / 2 + ρ * 128 + ρ / 64 := by
    have := abs_sub_le (v0 : ℚ) (ρ * zi) 0
    rw [sub_zero, sub_zero] at this
    have t : ρ * |(zi : ℚ)| / 2 ^ 13 ≤ ρ * 128 / 2 ^ 13 := by linarith
    have t2 : ρ * 128 / 2 ^ 13 = ρ / 64 := by ring
    linarith
  have vb' := abs_le.1 vb
  have v1 : -32520 ≤ v0 := by
    have : (-32520 : ℚ) ≤ v0 := by linarith
    exact_mod_cast this
  have v2 : v0 ≤ 32520 := by
    have : (v0 : ℚ) ≤ 32520 := by linarith
    exact_mod_cast this
  have ho : offset = zo - v0 := by
    rw [hoff, clamp_of_inRange (w := 16) (x := v0) ⟨by simp only [lo]; omega, by simp only [hi]; omega⟩,
      clamp_of_inRange ⟨by simp only [lo]; omega, by simp only [hi]; omega⟩]
  have hor : InRange 16 offset := ⟨by simp only [lo]; omega, by simp only [hi]; omega⟩
  have hob : |(offset : ℚ)| ≤ 128 + 1 / 2 + ρ * 128 + ρ / 64 := by
    rw [ho, Int.cast_sub]
    have t := abs_sub (zo : ℚ) v0
    have : |(zo : ℚ)| ≤ 128 := by
      rw [abs_le]
      exact ⟨by exact_mod_cast (by omega : -128 ≤ zo), by exact_mod_cast (by omega : zo ≤ 128)⟩
    linarith
  -- the multiplier
  have he : (1 : ℚ) / 2 ^ (b - 1) + 1 / 2 ^ 12 ≤ 33 / 4096 := by rcases hb with rfl | rfl <;> norm_num
  have m3' := m3.mono he
  unfold RelErr at m3'
  rw [abs_of_pos (div_pos hρ hDq)] at m3'
  have hP : (0 : ℚ) < (2 : ℚ) ^ sh := by positivity
  have hV : scaleVal mul sh * (2 : ℚ) ^ sh = mul := by
    unfold scaleVal
    rw [mul_assoc, ← zpow_add₀ (by norm_num)]; simp
  have hmq : (64 : ℚ) ≤ mul ∧ 4129 / 4096 * (ρ / 2) < mul := by
    rcases hb with rfl | rfl
    · have : (64 : ℚ) ≤ mul := by exact_mod_cast (by omega : 64 ≤ mul)
      unfold avgMaxRatio at hρm
      rw [if_pos rfl] at hρm
      exact ⟨this, by linarith⟩
    · have : (16384 : ℚ) ≤ mul := by exact_mod_cast (by omega : 16384 ≤ mul)
      exact ⟨by linarith, by linarith⟩
  obtain ⟨hmq, hmρ⟩ := hmq
  obtain ⟨q1, q2⟩ := abs_le.1 m3'
  have g1 : 4063 / 4096 * (ρ * (2 : ℚ) ^ sh) ≤ mul * D := by
    have : 4063 / 4096 * (ρ / D) ≤ scaleVal mul sh := by linarith
    have := mul_le_mul_of_nonneg_right this (le_of_lt (mul_pos hP hDq))
    have e' : scaleVal mul sh * ((2 : ℚ) ^ sh * D) = mul * D := by rw [← mul_assoc, hV]
    have e : 4063 / 4096 * (ρ / D) * ((2 : ℚ) ^ sh * D) = 4063 / 4096 * (ρ * (2 : ℚ) ^ sh) := by field_simp
    linarith
  have g2 : mul * D ≤ 4129 / 4096 * (ρ * (2 : ℚ) ^ sh) := by
    have : scaleVal mul sh ≤ 4129 / 4096 * (ρ / D) := by linarith
    have := mul_le_mul_of_nonneg_right this (le_of_lt (mul_pos hP hDq))
    have e' : scaleVal mul sh * ((2 : ℚ) ^ sh * D) = mul * D := by rw [← mul_assoc, hV]
    have e : 4129 / 4096 * (ρ / D) * ((2 : ℚ) ^ sh * D) = 4129 / 4096 * (ρ * (2 : ℚ) ^ sh) := by field_simp
    linarith
  have hsh : 0 ≤ sh := by
    by_contra hc
    have : (2 : ℚ) ^ sh ≤ 2 ^ (-1 : Int) := zpow_le (by omega)
    have t : ρ * (2 : ℚ) ^ sh ≤ ρ * 2 ^ (-1 : Int) := mul_le_mul_of_nonneg_left this (le_of_lt hρ)
    have t2 : (mul : ℚ) * 1 ≤ mul * D := mul_le_mul_of_nonneg_left (by exact_mod_cast hD1) (by linarith)
    rw [zpow_neg_one] at t
    linarith
  obtain ⟨k, rfl⟩ : ∃ k : Nat, sh = k := ⟨sh.toNat, by omega⟩
  rw [zpow_natCast] at g1 g2 hP hV
  -- the accumulator fits
  have g3 : 4063 / 4096 * (2 : ℚ) ^ k ≤ mul * D / ρ := by
    rw [le_div_iff₀ hρ]; linarith
  have hfit2 : (mul : ℚ) * D * (131 / ρ + 258) ≤ 2 ^ 31 - 258 := by
    have t1 : (mul : ℚ) ≤ 2 ^ (b - 1) - 1 := by exact_mod_cast m2
    have tD : (1 : ℚ) ≤ D := by exact_mod_cast hD1
    have t0 : 0 ≤ 131 / ρ := by positivity
    have t2 : (258 : ℚ) ≤ D * (131 / ρ + 258) := by nlinarith
    have t3 : (mul : ℚ) * (D * (131 / ρ + 258)) ≤ (2 ^ (b - 1) - 1) * (D * (131 / ρ + 258)) :=
      mul_le_mul_of_nonneg_right t1 (by linarith)
    have t4 : (2 : ℚ) ^ (b - 1) * (D * (131 / ρ + 258)) ≤ 2 ^ (b - 1) * 2 ^ (32 - b) := mul_le_mul_of_nonneg_left hfit (by positivity)
    have t5 : (2 : ℚ) ^ (b - 1) * 2 ^ (32 - b) = 2 ^ 31 := by rw [← pow_add]; congr 1; omega
    rw [t5] at t4
    linarith
  have hfit3 : 131 * (mul * D / ρ) + 258 * (mul * D) ≤ (2 : ℚ) ^ 31 - 258 := by
    have e : (mul : ℚ) * D * (131 / ρ + 258) = 131 * (mul * D / ρ) + 258 * (mul * D) := by ring
    linarith
  have hoP : |(offset : ℚ) * 2 ^ k| ≤ (128 + 1 / 2) * 2 ^ k + (128 + 1 / 64) * (ρ * 2 ^ k) := by
    rw [abs_mul, abs_of_pos hP]
    have := mul_le_mul_of_nonneg_right hob (le_of_lt hP)
    linarith
  have hmD : (0 : ℚ) ≤ mul * D := mul_nonneg (by linarith) (le_of_lt hDq)
  have hmDr : (0 : ℚ) ≤ mul * D / ρ := div_nonneg hmD (le_of_lt hρ)
  have hacc : |(offset : ℚ) * 2 ^ k| + mul * D * 128 + 2 ^ k / 2 ≤ 2 ^ 31 - 258 := by linarith
  have hI : |offset * 2 ^ k| + mul * (128 * D) + 2 ^ (k - 1) ≤ 2 ^ 31 - 257 := by
    have t : ((2 ^ (k - 1) : Int) : ℚ) ≤ 2 ^ k / 2 + 1 / 2 := by
      push_cast
      rcases k with _ | k
      · norm_num
      · rw [Nat.add_sub_cancel, pow_succ]; linarith
    have : ((|offset * 2 ^ k| + mul * (128 * D) + 2 ^ (k - 1) : Int) : ℚ) ≤ ((2 ^ 31 - 257 : Int) : ℚ) := by
      push_cast at t ⊢
      linarith
    exact_mod_cast this
  obtain ⟨a1, a2⟩ := abs_le.1 (le_refl |offset * 2 ^ k|)
  have hmul0 : 0 ≤ mul := by
    have : (0 : ℚ) ≤ mul := by linarith
    exact_mod_cast this
  have hmD' : 0 ≤ mul * (128 * D) := mul_nonneg hmul0 (by omega)
  have hk1 := two_pow_pos (k - 1)
  have easl : aslFx 32 (wrap 16 offset) k = offset * 2 ^ k := by
    rw [wrap_of_inRange (by omega) hor, aslFx_nonneg (by omega) (inRange_mono (by omega) hor),
      clamp_of_inRange ⟨by simp only [lo]; omega, by simp only [hi]; omega⟩]
  rw [easl]
  have hSb : -128 * D ≤ S ∧ S ≤ 127 * D := by
    have := sum_bounds (l := (rect q rs cs R C).map src.get) (a := -128) (b := 127) (by
      intro x hx
      obtain ⟨a, ha, rfl⟩ := List.mem_map.1 hx
      have := (hin a ha).2
      exact ⟨this.1, this.2⟩)
    rw [List.length_map, rect_length, hS] at this
    push_cast at this
    rw [hD] at this
    exact this
  have hw : winAcc 32 mul (offset * 2 ^ k) src q R C rs cs = some (offset * 2 ^ k + mul * S) := by
    rw [← hS]
    refine winAcc_spec 32 mul _ (-128) 127 src q rs cs R C hmul0 hin (by decide) (by decide) ?_ ?_
    · rw [hD]
      have : mul * (-128 * D) = -(mul * (128 * D)) := by ring
      simp only [lo]; omega
    · rw [hD]
      have : mul * (127 * D) ≤ mul * (128 * D) := mul_le_mul_of_nonneg_left (by omega) hmul0
      simp only [hi]; omega
  rw [hw, Option.bind_some]
  refine ⟨rfl, ?_⟩
  have s1 : mul * (-128 * D) ≤ mul * S := mul_le_mul_of_nonneg_left hSb.1 hmul0
  have s2 : mul * S ≤ mul * (128 * D) := mul_le_mul_of_nonneg_left (by omega) hmul0
  have s3 : mul * (-128 * D) = -(mul * (128 * D)) := by ring
  obtain ⟨v, w1, w2⟩ := avg_store m (w := 8) (aw := 32) (by omega) (by omega) (x := offset * 2 ^ k + mul * S) (s := k)
    ⟨by simp only [lo]; omega, by simp only [hi]; omega⟩ (fun _ => Or.inr (Or.inr (by
      rw [Int.toNat_natCast]; simp only [hi]; omega)))
  rw [w2]
  have ew := scaled_err w1
  rw [zpow_neg, zpow_natCast] at ew
  have hVk : scaleVal mul (k : Int) = mul * (2 ^ k)⁻¹ := by unfold scaleVal; rw [zpow_neg, zpow_natCast]
  have e1 : ((offset * 2 ^ k + mul * S : Int) : ℚ) * (2 ^ k)⁻¹ = offset + scaleVal mul k * S := by
    rw [hVk]; push_cast; field_simp
  rw [e1] at ew
  unfold RelErr at m3
  rw [abs_of_pos (div_pos hρ hDq)] at m3
  have e2 : |scaleVal mul k * S - ρ * (S / D)| ≤ ρ * (|(S : ℚ) / D| * (1 / 2 ^ (b - 1) + 1 / 2 ^ 12)) := by
    have t : scaleVal mul k * S - ρ * (S / D) = (scaleVal mul k - ρ / D) * S := by field_simp
    rw [t, abs_mul]
    have := mul_le_mul_of_nonneg_right m3 (abs_nonneg (S : ℚ))
    rw [abs_div, abs_of_pos hDq]
    have t2 : ρ * (|(S : ℚ)| / D * (1 / 2 ^ (b - 1) + 1 / 2 ^ 12)) = (1 / 2 ^ (b - 1) + 1 / 2 ^ 12) * (ρ / D) * |(S : ℚ)| := by field_simp
    rw [t2]
    exact this
  have e3 : |(offset : ℚ) - (zo - ρ * zi)| ≤ 1 / 2 + ρ * |(zi : ℚ)| / 2 ^ 13 := by
    rw [ho, Int.cast_sub, show (zo : ℚ) - v0 - (zo - ρ * zi) = -(v0 - ρ * zi) by ring, abs_neg]
    exact ev2
  have e4 : |(v : ℚ) - (zo + ρ * ((S : ℚ) / D - zi))| ≤ avgErr b ρ zi S D := by
    have t : (v : ℚ) - (zo + ρ * ((S : ℚ) / D - zi)) =
        (v - (offset + scaleVal mul k * S)) + ((scaleVal mul k * S - ρ * (S / D)) + (offset - (zo - ρ * zi))) := by ring
    rw [t]
    have t1 := abs_add_le ((v : ℚ) - (offset + scaleVal mul k * S)) ((scaleVal mul k * S - ρ * (S / D)) + (offset - (zo - ρ * zi)))
    have t2 := abs_add_le (scaleVal mul k * S - ρ * ((S : ℚ) / D)) ((offset : ℚ) - (zo - ρ * zi))
    unfold avgErr
    linarith
  have := store_near (zo := 0) e4
  rw [add_zero, Int.cast_zero, zero_add] at this
  exact this

theorem chkAveQuant_ok {tin tout : Tensor} {qi qo : SaQ} (h : chkAveQuant tin tout qi qo = .ok) :
    (qi.dim < 0 ∧ qo.dim < 0) ∧ (0 < qi.scaleAt 0 ∧ InRange 8 (qi.zpAt 0)) ∧ 0 < qo.scaleAt 0 ∧ InRange 8 (qo.zpAt 0) := by
  unfold chkAveQuant at h
  by_cases h1 : qi.dim < 0 ∧ qo.dim < 0
  swap
  · rw [if_pos h1] at h; cases h
  rw [if_neg (not_not.2 h1)] at h
  by_cases h2 : chkQuant tin qi 7 = .ok
  swap
  · rw [if_pos h2] at h; exact absurd h h2
  rw [if_neg (not_not.2 h2)] at h
  have c1 := chkQuant_ok h2 (k := 0) (Or.inl h1.1)
  have c2 := chkQuant_ok h (k := 0) (Or.inl h1.2)
  simp only [show ¬ 7 = 0 by decide, if_false] at c1 c2
  exact ⟨h1, ⟨c1.1, c1.2.1, c1.2.2⟩, c2.1, c2.2.1, c2.2.2⟩

/-- C60.  For every shape, strides, window geometry, zero points and scales of accepted SA8 tensors, every element of the output of average
pooling is the mean of the real numbers that the elements in its window stand for (padding excluded), in the format of the
output, limited to 8 bits, within the error `avgErr`.  Nothing else is written.  `b` is the width of the multiplier: 8, or 16 with the build
option `AVEPOOL_16BIT_MUL`.

Missing: geometries outside of `PoolGeo` (see C34); windows so large, or input scales so small against that of the output, that the
32-bit accumulator may overflow (`c60_accumulator_violated`); input scales of more than 126 output scales, 254 with
`AVEPOOL_16BIT_MUL` (`c60_ratio_violated`, `c60_offset_violated`).  The error is more than that of a rounding (`c60_constant_violated`). -/
theorem c60_avepool_sa8_partial (m : Rnd) (b : Nat) (hb : b = 8 ∨ b = 16) (qi qo : SaQ) (tin tout : Tensor) (g : Geo) (src dst : Buf)
    (ih iw ic oh ow : Int) (hv : tin.Valid src) (ho : tout.Valid dst) (hchk : chkPool tin g tout = some .ok)
    (hq : chkAveQuant tin tout qi qo = .ok) (hti : qi.Typed) (hto : qo.Typed)
    (hg : PoolGeo tin g tout ih iw ic oh ow) (hr : ∀ is, InShape tin.shape is → InRange 8 (src.get (tin.addr is)))
    (hρ : scaleVal (qi.scaleAt 0) (qi.fracAt 0) / scaleVal (qo.scaleAt 0) (qo.fracAt 0) ≤ avgMaxRatio b)
    (hfit : (g.kh * g.kw : ℚ) * (131 / (scaleVal (qi.scaleAt 0) (qi.fracAt 0) / scaleVal (qo.scaleAt 0) (qo.fracAt 0)) + 258) ≤ 2 ^ (32 - b)) :
    ∃ dst' val, krnAvepoolSa8 m b qi qo src tin g tout dst = some (.ok, dst') ∧ tout.Writes val dst dst' ∧
      ∀ y x c, InShape tout.shape [y, x, c] →
        let D := windowCount ih iw g.kh g.kw g.sh g.sw g.pt g.pl y x
        let S := windowSum (fun r q => src.get (tin.addr [r, q, c])) ih iw g.kh g.kw g.sh g.sw g.pt g.pl y x
        InRange 8 (val [y, x, c]) ∧ SaClose (avgErr b (scaleVal (qi.scaleAt 0) (qi.fracAt 0) / scaleVal (qo.scaleAt 0) (qo.fracAt 0)) (qi.zpAt 0) S D)
          (qo.zpAt 0) (qo.scaleAt 0) (qo.fracAt 0) (saMean (qi.zpAt 0) (qi.scaleAt 0) (qi.fracAt 0) S D) (val [y, x, c]) := by
  obtain ⟨-, ⟨pi, zi⟩, po, zo⟩ := chkAveQuant_ok hq
  have pρ := div_pos (scaleVal_pos (f := qi.fracAt 0) pi) (scaleVal_pos (f := qo.fracAt 0) po)
  obtain ⟨scale, shift, offset, hp, p1, p2, p3, v0, p4, p5⟩ := c46_requant_params m (qi.scaleAt 0) (qi.fracAt 0) (qi.zpAt 0) (qo.scaleAt 0)
    (qo.fracAt 0) (qo.zpAt 0) pi (hti.scaleAt 0) po (hto.scaleAt 0) zi zo
  obtain ⟨d1, d2, d3, d4, d5, d6, e1, e2, u1, u2, e3, -⟩ := chkPool_ok hchk
  obtain ⟨ii, hii⟩ : ∃ ii, prvHwc tin = some ii := by simp [prvHwc, e1]
  have hkk : g.kh * g.kw ≤ 65025 := by
    have h1 := hg.h.bytes.1
    have h2 := hg.w.bytes.1
    nlinarith
  let D := fun y x => windowCount ih iw g.kh g.kw g.sh g.sw g.pt g.pl y x
  let S := fun y x c => windowSum (fun r q => src.get (tin.addr [r, q, c])) ih iw g.kh g.kw g.sh g.sw g.pt g.pl y x
  let val : List Int → Int := fun is =>
    avgSaOut m b scale shift offset (D (is.getD 0 0) (is.getD 1 0)) (S (is.getD 0 0) (is.getD 1 0) (is.getD 2 0))
  have key : ∀ y x c, InShape tout.shape [y, x, c] → ∀ (q rs cs : Int) (R C : Nat),
      (rect q rs cs R C).Perm (winRect g ii (y, x, c)) →
      avgOp m 8 32 offset (msSa m b scale shift) src q R C rs cs = some (val [y, x, c]) ∧
      1 ≤ D y x ∧ |((val [y, x, c] : Int) : ℚ) - limitQ (-128) 127 (qo.zpAt 0 +
        scaleVal (qi.scaleAt 0) (qi.fracAt 0) / scaleVal (qo.scaleAt 0) (qo.fracAt 0) * ((S y x c : ℚ) / D y x - qi.zpAt 0))| ≤
        avgErr b (scaleVal (qi.scaleAt 0) (qi.fracAt 0) / scaleVal (qo.scaleAt 0) (qo.fracAt 0)) (qi.zpAt 0) (S y x c) (D y x) := by
    intro y x c hs q rs cs R C hp
    obtain ⟨⟨f1, f2⟩, f3⟩ := window_facts hv ho hchk hg hii hr hs
    obtain ⟨g1, g2, g3⟩ := f3 q rs cs R C hp
    have hf : (D y x : ℚ) * (131 / (scaleVal (qi.scaleAt 0) (qi.fracAt 0) / scaleVal (qo.scaleAt 0) (qo.fracAt 0)) + 258) ≤ 2 ^ (32 - b) := by
      refine le_trans (mul_le_mul_of_nonneg_right ?_ (by positivity)) hfit
      exact_mod_cast f2
    obtain ⟨k1, k2⟩ := avgSa_spec m hb p1 p2 pρ hρ p3 zi zo p4 p5 src q rs cs R C g1 f1 (le_trans f2 hkk) hf g2 g3
    exact ⟨k1, f1, k2⟩
  obtain ⟨dst', r1, r2⟩ := poolHwc_run (avgOp m 8 32 offset (msSa m b scale shift)) val tin tout g src dst ii ih iw ic oh ow hv ho
    hchk hg hii (fun y x c hs q rs cs R C _ _ _ hp => (key y x c hs q rs cs R C hp).1)
  refine ⟨dst', val, ?_, r2, fun y x c hs => ?_⟩
  · unfold krnAvepoolSa8
    rw [hchk, Option.bind_some, if_neg (by decide), if_neg (not_not.2 hq), hp, Option.bind_some, r1, Option.map_some]
  · obtain ⟨-, k1, k2⟩ := key y x c hs _ _ _ _ _ (List.Perm.refl _)
    have hDq : (0 : ℚ) < D y x := by exact_mod_cast k1
    simp only []
    unfold SaClose saMean
    have e : ((S y x c : ℚ) - D y x * qi.zpAt 0) / D y x * scaleVal (qi.scaleAt 0) (qi.fracAt 0) / scaleVal (qo.scaleAt 0) (qo.fracAt 0) =
        scaleVal (qi.scaleAt 0) (qi.fracAt 0) / scaleVal (qo.scaleAt 0) (qo.fracAt 0) * ((S y x c : ℚ) / D y x - qi.zpAt 0) := by
      rw [sub_div, mul_div_cancel_left₀ _ (ne_of_gt hDq)]; ring
    rw [← e] at k2
    exact ⟨wrap_inRange _, k2⟩

/-- C60, status: success means that the tensors were accepted; any other status leaves the output unchanged. -/
theorem c60_status (m : Rnd) (b : Nat) (qi qo : SaQ) (src : Buf) (tin : Tensor) (g : Geo) (tout : Tensor) (dst dst' : Buf) (s : Status)
    (h : krnAvepoolSa8 m b qi qo src tin g tout dst = some (s, dst')) :
    (s = .ok → chkPool tin g tout = some .ok ∧ chkAveQuant tin tout qi qo = .ok) ∧ (s ≠ .ok → dst' = dst) := by
  unfold krnAvepoolSa8 at h
  obtain ⟨c, hc, h⟩ := Option.bind_eq_some_iff.1 h
  by_cases h1 : c = .ok
  swap
  · rw [if_pos h1] at h; simp only [Option.some.injEq, Prod.mk.injEq] at h
    exact ⟨fun e => absurd (h.1.trans e) h1, fun _ => h.2.symm⟩
  rw [if_neg (not_not.2 h1)] at h
  by_cases h3 : chkAveQuant tin tout qi qo = .ok
  swap
  · rw [if_pos h3] at h; simp only [Option.some.injEq, Prod.mk.injEq] at h
    exact ⟨fun e => absurd (h.1.trans e) h3, fun _ => h.2.symm⟩
  rw [if_neg (not_not.2 h3)] at h
  obtain ⟨p, -, h⟩ := Option.bind_eq_some_iff.1 h
  simp only [Option.map_eq_some_iff, Prod.mk.injEq] at h
  obtain ⟨_, -, e, -⟩ := h
  exact ⟨fun _ => ⟨by rw [hc, h1], h3⟩, fun hn => absurd e.symm hn⟩

/-- With the 8-bit multiplier of the default build, the mean of 29 elements equal to 120 is stored as 121, although input and output have
the same scale and zero point. -/
theorem c60_constant_violated :
    ∃ (tin tout : Tensor) (g : Geo) (q : SaQ) (src dst : Buf), tin.Valid src ∧ tout.Valid dst ∧ q.Typed ∧
      chkPool tin g tout = some .ok ∧ chkAveQuant tin tout q q = .ok ∧ PoolGeo tin g tout 29 1 1 1 1 ∧ (∀ a, src.get a = 120) ∧
      ∀ m, (krnAvepoolSa8 m 8 q q src tin g tout dst).map (fun p => (p.1, p.2.toList)) = some (.ok, [121]) := by
  refine ⟨{ dims := [⟨29, 1⟩, ⟨1, 1⟩, ⟨1, 1⟩], cap := 29, es := 1 }, { dims := [⟨1, 1⟩, ⟨1, 1⟩, ⟨1, 1⟩], cap := 1, es := 1 },
    { kh := 29, kw := 1, sh := 1, sw := 1, pt := 0, pb := 0, pl := 0, pr := 0 }, ⟨-1, [0], [16384], [14]⟩,
    ⟨29, fun _ => 120⟩, Buf.ofList [0],
    ⟨by decide, by decide, by decide, by decide⟩, ⟨by decide, by decide, by decide, by decide⟩, by decide, by decide, by decide,
    ⟨by decide, by decide, ⟨by decide, by decide, by decide, by decide⟩, ⟨by decide, by decide, by decide, by decide⟩⟩,
    fun a => rfl, ?_⟩
  intro m
  cases m <;> decide +kernel

/-- If the scale of the output is much larger than that of the input, its zero point alone fills the accumulator: a window of 3 by 3 elements
overflows it. -/
theorem c60_accumulator_violated :
    ∃ (tin tout : Tensor) (g : Geo) (qi qo : SaQ) (src dst : Buf), tin.Valid src ∧ tout.Valid dst ∧ qi.Typed ∧ qo.Typed ∧
      chkPool tin g tout = some .ok ∧ chkAveQuant tin tout qi qo = .ok ∧ PoolGeo tin g tout 3 3 1 1 1 ∧ (∀ a, src.get a = 120) ∧
      ∀ m, krnAvepoolSa8 m 8 qi qo src tin g tout dst = none := by
  refine ⟨{ dims := [⟨3, 3⟩, ⟨3, 1⟩, ⟨1, 1⟩], cap := 9, es := 1 }, { dims := [⟨1, 1⟩, ⟨1, 1⟩, ⟨1, 1⟩], cap := 1, es := 1 },
    { kh := 3, kw := 3, sh := 1, sw := 1, pt := 0, pb := 0, pl := 0, pr := 0 }, ⟨-1, [0], [16384], [29]⟩, ⟨-1, [100], [16384], [14]⟩,
    ⟨9, fun _ => 120⟩, Buf.ofList [0],
    ⟨by decide, by decide, by decide, by decide⟩, ⟨by decide, by decide, by decide, by decide⟩, by decide, by decide, by decide, by decide,
    ⟨by decide, by decide, ⟨by decide, by decide, by decide, by decide⟩, ⟨by decide, by decide, by decide, by decide⟩⟩,
    fun a => rfl, ?_⟩
  intro m
  cases m <;> decide +kernel

/-- With an input scale of 129.5 output scales, a 1 by 1 window over the element 0 (input zero point 1, output zero point 127) should give
127 - 129.5 = -2.5; -4 is stored with the 8-bit multiplier, further away than the bound allows. -/
theorem c60_ratio_violated :
    ∃ (tin tout : Tensor) (g : Geo) (qi qo : SaQ) (src dst : Buf), tin.Valid src ∧ tout.Valid dst ∧ qi.Typed ∧ qo.Typed ∧
      chkPool tin g tout = some .ok ∧ chkAveQuant tin tout qi qo = .ok ∧ PoolGeo tin g tout 1 1 1 1 1 ∧ (∀ a, src.get a = 0) ∧
      (∀ m, (krnAvepoolSa8 m 8 qi qo src tin g tout dst).map (fun p => (p.1, p.2.toList)) = some (.ok, [-4])) ∧
      ¬ SaClose (avgErr 8 (scaleVal (qi.scaleAt 0) (qi.fracAt 0) / scaleVal (qo.scaleAt 0) (qo.fracAt 0)) (qi.zpAt 0) 0 1)
          (qo.zpAt 0) (qo.scaleAt 0) (qo.fracAt 0) (saMean (qi.zpAt 0) (qi.scaleAt 0) (qi.fracAt 0) 0 1) (-4) := by
  refine ⟨{ dims := [⟨1, 1⟩, ⟨1, 1⟩, ⟨1, 1⟩], cap := 1, es := 1 }, { dims := [⟨1, 1⟩, ⟨1, 1⟩, ⟨1, 1⟩], cap := 1, es := 1 },
    { kh := 1, kw := 1, sh := 1, sw := 1, pt := 0, pb := 0, pl := 0, pr := 0 }, ⟨-1, [1], [259], [0]⟩, ⟨-1, [127], [2], [0]⟩,
    ⟨1, fun _ => 0⟩, Buf.ofList [0],
    ⟨by decide, by decide, by decide, by decide⟩, ⟨by decide, by decide, by decide, by decide⟩, by decide, by decide, by decide, by decide,
    ⟨by decide, by decide, ⟨by decide, by decide, by decide, by decide⟩, ⟨by decide, by decide, by decide, by decide⟩⟩,
    fun a => rfl, ?_, ?_⟩
  · intro m
    cases m <;> decide +kernel
  · have : SaQ.scaleAt ⟨-1, [1], [259], [0]⟩ 0 = 259 ∧ SaQ.fracAt ⟨-1, [1], [259], [0]⟩ 0 = 0 ∧ SaQ.zpAt ⟨-1, [1], [259], [0]⟩ 0 = 1 ∧
        SaQ.scaleAt ⟨-1, [127], [2], [0]⟩ 0 = 2 ∧ SaQ.fracAt ⟨-1, [127], [2], [0]⟩ 0 = 0 ∧ SaQ.zpAt ⟨-1, [127], [2], [0]⟩ 0 = 127 := by decide
    obtain ⟨e1, e2, e3, e4, e5, e6⟩ := this
    rw [e1, e2, e3, e4, e5, e6]
    unfold SaClose saMean avgErr limitQ scaleVal
    norm_num [abs_of_neg]

/-- With an input scale of 1024 output scales, the zero point of the input does not fit the 16-bit offset: a window over the element 100, which
is the zero point of the input and stands for 0, gives 127 instead of the zero point 5 of the output, for either width of the multiplier. -/
theorem c60_offset_violated :
    ∃ (tin tout : Tensor) (g : Geo) (qi qo : SaQ) (src dst : Buf), tin.Valid src ∧ tout.Valid dst ∧ qi.Typed ∧ qo.Typed ∧
      chkPool tin g tout = some .ok ∧ chkAveQuant tin tout qi qo = .ok ∧ PoolGeo tin g tout 1 1 1 1 1 ∧
      qi.zpAt 0 = 100 ∧ qo.zpAt 0 = 5 ∧ (∀ a, src.get a = 100) ∧
      ∀ m b, b = 8 ∨ b = 16 → (krnAvepoolSa8 m b qi qo src tin g tout dst).map (fun p => (p.1, p.2.toList)) = some (.ok, [127]) := by
  refine ⟨{ dims := [⟨1, 1⟩, ⟨1, 1⟩, ⟨1, 1⟩], cap := 1, es := 1 }, { dims := [⟨1, 1⟩, ⟨1, 1⟩, ⟨1, 1⟩], cap := 1, es := 1 },
    { kh := 1, kw := 1, sh := 1, sw := 1, pt := 0, pb := 0, pl := 0, pr := 0 }, ⟨-1, [100], [1024], [0]⟩, ⟨-1, [5], [1], [0]⟩,
    ⟨1, fun _ => 100⟩, Buf.ofList [0],
    ⟨by decide, by decide, by decide, by decide⟩, ⟨by decide, by decide, by decide, by decide⟩, by decide, by decide, by decide, by decide,
    ⟨by decide, by decide, ⟨by decide, by decide, by decide, by decide⟩, ⟨by decide, by decide, by decide, by decide⟩⟩,
    by decide, by decide, fun a => rfl, ?_⟩
  intro m b hb
  rcases hb with rfl | rfl <;> cases m <;> decide +kernel

/-! ## The hypotheses are met -/

def exApIn : Tensor := { dims := [⟨3, 8⟩, ⟨4, 2⟩, ⟨2, 1⟩], cap := 24, es := 1 }
def exApOut : Tensor := { dims := [⟨2, 8⟩, ⟨3, 2⟩, ⟨2, 1⟩], cap := 16, es := 1, base := 1 }
def exApGeo : Geo := { kh := 3, kw := 2, sh := 2, sw := 2, pt := 1, pb := 1, pl := 1, pr := 1 }
def exApSrc : Buf := Buf.ofList [1, -1, 2, -2, 3, -3, 4, -4, 5, -5, 16, -6, 7, -7, 8, -8, 9, -9, 10, -10, 11, -11, 12, -12]
def exApDst : Buf := Buf.ofList (List.replicate 17 99)
def exApQi : SaQ := ⟨-1, [-3], [30000], [15]⟩
def exApQo : SaQ := ⟨-1, [7], [20000], [16]⟩

/-- 3 by 4 plane, two channels, 3 by 2 windows, stride 2, padding on all sides, both widths of the multiplier. -/
example : ∀ m b, b = 8 ∨ b = 16 → ∃ dst' val, krnAvepoolSa8 m b exApQi exApQo exApSrc exApIn exApGeo exApOut exApDst = some (.ok, dst') ∧
    exApOut.Writes val exApDst dst' := by
  intro m b hb
  have hh : exApIn.Holds exApSrc 8 := holds_ofList (by decide) _
  obtain ⟨dst', val, h1, h2, -⟩ := c60_avepool_sa8_partial m b hb exApQi exApQo exApIn exApOut exApGeo exApSrc exApDst 3 4 2 2 3
    ⟨by decide, by decide, by decide, by decide⟩ ⟨by decide, by decide, by decide, by decide⟩ (by decide) (by decide) (by decide) (by decide)
    ⟨by decide, by decide, ⟨by decide, by decide, by decide, by decide⟩, ⟨by decide, by decide, by decide, by decide⟩⟩
    (fun is his => hh is his)
    (by
      have : exApQi.scaleAt 0 = 30000 ∧ exApQi.fracAt 0 = 15 ∧ exApQo.scaleAt 0 = 20000 ∧ exApQo.fracAt 0 = 16 := by decide
      obtain ⟨e1, e2, e3, e4⟩ := this
      rw [e1, e2, e3, e4]; unfold scaleVal avgMaxRatio
      rcases hb with rfl | rfl <;> norm_num [zpow_neg])
    (by
      have : exApQi.scaleAt 0 = 30000 ∧ exApQi.fracAt 0 = 15 ∧ exApQo.scaleAt 0 = 20000 ∧ exApQo.fracAt 0 = 16 := by decide
      obtain ⟨e1, e2, e3, e4⟩ := this
      rw [e1, e2, e3, e4]; unfold scaleVal exApGeo
      rcases hb with rfl | rfl <;> norm_num [zpow_neg])
  exact ⟨dst', val, h1, h2⟩

example : (krnAvepoolSa8 .convergent 8 exApQi exApQo exApSrc exApIn exApGeo exApOut exApDst).map (fun p => (p.1, p.2.toList)) =
    some (.ok, [99, 25, 7, 37, 2, 34, -2, 99, 99, 37, -5, 49, -10, 46, -14, 99, 99]) := by decide +kernel

/-- A refused call: quantization parameters per channel. -/
example : (krnAvepoolSa8 .convergent 8 ⟨2, [0, 0], [30000, 30000], [15, 15]⟩ exApQo exApSrc exApIn exApGeo exApOut exApDst).map
    (fun p => (p.1, p.2.toList)) = some (.incompatibleTensors, exApDst.toList) := by decide +kernel

end Mli
