import Verif.Model.L2Norm
import Verif.Props.LutReal
import Verif.Lemmas.Leaky
import Verif.Lemmas.AxisRun

/-! # Numerical part of the L2 normalisation -/

namespace Mli

open Spec

/-- The inequalities for one segment of the table of `1/sqrt`, from entry `A` to entry `B`; `x` is the argument at its start. -/
def invsqrtSeg (A B x : Nat) : Bool :=
  (List.range 256).all fun r =>
    decide ((2 * (256 * A - (A - B) * r) + 256) ^ 2 * (x + r + 1) * 10 ^ 14 ≤ (10 ^ 7 + 1800) ^ 2 * 2 ^ 60) &&
    decide (2 * (10 ^ 7 - 1800) ^ 2 * 2 ^ 60 ≤ (2 * (256 * A - (A - B) * r) - 256) ^ 2 * (2 * (x + r) - 1) * 10 ^ 14)

set_option maxRecDepth 8000 in
theorem invsqrt_segs : ∀ i : Fin 96, invsqrtSeg (invsqrtTable.getD i 0).toNat (invsqrtTable.getD (i + 1) 0).toNat (8192 + 256 * i) = true := by
  decide +kernel

theorem invsqrt_entries : ∀ i : Fin 96, invsqrtLut.data.get i = ((invsqrtTable.getD i 0).toNat : Int) ∧
    invsqrtLut.data.get ((i : Int) + 1) = ((invsqrtTable.getD (i + 1) 0).toNat : Int) ∧
    (invsqrtTable.getD (i + 1) 0).toNat ≤ (invsqrtTable.getD i 0).toNat ∧ (invsqrtTable.getD i 0).toNat ≤ (invsqrtTable.getD (i + 1) 0).toNat + 400 ∧
    (invsqrtTable.getD i 0).toNat ≤ 23170 ∧ 11585 ≤ (invsqrtTable.getD (i + 1) 0).toNat := by
  decide +kernel

theorem invsqrt_ok : invsqrtLut.Ok where
  two := by decide
  int := by decide
  fits := by decide
  entries := by
    have h : ∀ i : Fin 97, InRange 16 (invsqrtLut.data.get i) := by decide +kernel
    intro i h0 h1
    have h1' : i < 97 := h1
    have := h ⟨i.toNat, by omega⟩
    simp only [Int.toNat_of_nonneg h0] at this
    exact this
  offset := by decide

/-- The interpolated reciprocal square root: `2^21 / sqrt x`, relative error `0.00018`, also at `x + 1` and `x - 1/2`. -/
theorem invsqrt_interp (m : Rnd) {x : Int} (h0 : 8192 ≤ x) (h1 : x ≤ 32767) :
    ∃ L, lutInterp m invsqrtLut 8 x = some L ∧ 0 < L ∧ L ≤ 23170 ∧
      L ^ 2 * (x + 1) * 10 ^ 14 ≤ (10 ^ 7 + 1800) ^ 2 * 2 ^ 42 ∧ 2 * (10 ^ 7 - 1800) ^ 2 * 2 ^ 42 ≤ L ^ 2 * (2 * x - 1) * 10 ^ 14 := by
  have e1 : lo 16 = -32768 := by decide
  have e2 : hi 16 = 32767 := by decide
  have e3 : lo 32 = -2147483648 := by decide
  have e4 : hi 32 = 2147483647 := by decide
  obtain ⟨i, hi⟩ : ∃ i : Fin 96, (i : Int) = x / 256 - 32 := ⟨⟨(x / 256 - 32).toNat, by omega⟩, by simp only; omega⟩
  obtain ⟨r, hr⟩ : ∃ r : Nat, (r : Int) = x % 256 := ⟨(x % 256).toNat, by omega⟩
  have hr256 : r < 256 := by omega
  have hx : x = 8192 + 256 * (i : Int) + r := by omega
  have h := lutInterp_eq m invsqrtLut 8 x ⟨by omega, by omega⟩ invsqrt_ok (by decide)
  have ei : max 0 (min (invsqrtLut.length - 2) (x / 2 ^ (min (max ((8 : Int) - invsqrtLut.inFrac - 15) 0) 15).toNat /
      2 ^ (min ((8 : Int) - invsqrtLut.inFrac) 15).toNat + invsqrtLut.inOffset)) = (i : Int) := by
    show max 0 (min (95 : Int) (x / 2 ^ 0 / 2 ^ 8 + -32)) = _
    omega
  have er : x / 2 ^ (min (max ((8 : Int) - invsqrtLut.inFrac - 15) 0) 15).toNat % 2 ^ (min ((8 : Int) - invsqrtLut.inFrac) 15).toNat = r := by
    show x / 2 ^ 0 % 2 ^ 8 = _
    omega
  have es : (min ((8 : Int) - invsqrtLut.inFrac) 15).toNat = 8 := rfl
  simp only [ei, er] at h
  rw [es] at h
  obtain ⟨a1, a2, a3, a4, a5, a6⟩ := invsqrt_entries i
  have hseg := invsqrt_segs i
  unfold invsqrtSeg at hseg
  have hP := List.all_eq_true.1 hseg r (List.mem_range.2 hr256)
  simp only [Bool.and_eq_true, decide_eq_true_eq] at hP
  obtain ⟨p1, p2⟩ := hP
  rw [a1, a2] at h
  generalize (invsqrtTable.getD (↑i) 0).toNat = A at *
  generalize (invsqrtTable.getD (↑i + 1) 0).toNat = B at *
  obtain ⟨D, hD⟩ : ∃ D : Nat, A = B + D := ⟨A - B, by omega⟩
  have hDi : ((A : Int) - B) = D := by omega
  have hDn : A - B = D := by omega
  rw [hDn] at p1 p2
  have hDr : D * r ≤ 400 * 255 := Nat.mul_le_mul (by omega) (by omega)
  have hDr2 : D * r ≤ D * 256 := Nat.mul_le_mul (le_refl _) (by omega)
  obtain ⟨n1, n2⟩ := rnd_nearest m ((D : Int) * r) 8
  rw [hDi, wrap_of_inRange (by omega) (show InRange 16 (D : Int) from ⟨by omega, by omega⟩)] at h
  generalize rnd m ((D : Int) * r) 8 = q at *
  have hDrI : ((D * r : Nat) : Int) = (D : Int) * r := by push_cast; ring
  rw [← hDrI] at n1 n2
  generalize hg : D * r = Dr at *
  have hq : 0 ≤ q ∧ q ≤ 400 := by constructor <;> omega
  rw [clamp_of_inRange ⟨by omega, by omega⟩, wrap_of_inRange (by omega) ⟨by omega, by omega⟩] at h
  have hqD : q ≤ D := by omega
  obtain ⟨L, hL⟩ : ∃ L : Nat, (A : Int) - q = L := ⟨((A : Int) - q).toNat, by omega⟩
  refine ⟨L, by rw [← hL]; exact h, by omega, by omega, ?_, ?_⟩
  · have hx1 : x + 1 = ((8192 + 256 * (i : Nat) + r + 1 : Nat) : Int) := by push_cast; omega
    rw [hx1]
    generalize 8192 + 256 * (i : Nat) + r + 1 = y at *
    have hb : 512 * L ≤ 2 * (256 * A - Dr) + 256 := by omega
    have h2 : (512 * L) ^ 2 * y * 10 ^ 14 ≤ (10 ^ 7 + 1800) ^ 2 * 2 ^ 60 :=
      le_trans (Nat.mul_le_mul_right _ (Nat.mul_le_mul_right _ (Nat.pow_le_pow_left hb 2))) p1
    have h3 : 2 ^ 18 * (L ^ 2 * y * 10 ^ 14) ≤ 2 ^ 18 * ((10 ^ 7 + 1800) ^ 2 * 2 ^ 42) := by
      have ea : 2 ^ 18 * (L ^ 2 * y * 10 ^ 14) = (512 * L) ^ 2 * y * 10 ^ 14 := by ring
      rw [ea]; exact h2
    have h4 := Nat.le_of_mul_le_mul_left h3 (by norm_num)
    exact_mod_cast h4
  · have hx1 : 2 * x - 1 = ((2 * (8192 + 256 * (i : Nat) + r) - 1 : Nat) : Int) := by push_cast; omega
    rw [hx1]
    generalize 2 * (8192 + 256 * (i : Nat) + r) - 1 = y at *
    have hb : 2 * (256 * A - Dr) - 256 ≤ 512 * L := by omega
    have h2 : 2 * (10 ^ 7 - 1800) ^ 2 * 2 ^ 60 ≤ (512 * L) ^ 2 * y * 10 ^ 14 :=
      le_trans p2 (Nat.mul_le_mul_right _ (Nat.mul_le_mul_right _ (Nat.pow_le_pow_left hb 2)))
    have h3 : 2 ^ 18 * (2 * (10 ^ 7 - 1800) ^ 2 * 2 ^ 42) ≤ 2 ^ 18 * (L ^ 2 * y * 10 ^ 14) := by
      have ea : 2 ^ 18 * (L ^ 2 * y * 10 ^ 14) = (512 * L) ^ 2 * y * 10 ^ 14 := by ring
      rw [ea]; exact h2
    have h4 := Nat.le_of_mul_le_mul_left h3 (by norm_num)
    have h5 : ((2 * (10 ^ 7 - 1800) ^ 2 * 2 ^ 42 : Nat) : Int) ≤ ((L ^ 2 * y * 10 ^ 14 : Nat) : Int) := by exact_mod_cast h4
    push_cast at h5
    exact h5

theorem l2Shift_even : ∀ n : Fin 64,
    (if cand 32 ((8 - 2) * 8 - (n : Int)) 1 = 1 then (8 - 2) * 8 - (n : Int) + 1 else (8 - 2) * 8 - (n : Int)) = 2 * ((49 - (n : Int)) / 2) := by
  decide +kernel

/-- The mantissa and the shift of the sum of squares. -/
theorem l2NormalizeSum_spec (m : Rnd) {T : Int} (h0 : 0 < T) (h1 : T ≤ 2 ^ 62) :
    ∃ x h : Int, l2NormalizeSum m T = (x, 2 * h) ∧ 8192 ≤ x ∧ x ≤ 32767 ∧ -7 ≤ h ∧ h ≤ 24 ∧
      ((x : ℝ) - 1 / 2) * (2 : ℝ) ^ (2 * h) ≤ T ∧ (T : ℝ) ≤ (x + 1) * (2 : ℝ) ^ (2 * h) := by
  have e1 : lo 16 = -32768 := by decide
  have e2 : hi 16 = 32767 := by decide
  have e3 : lo 64 = -2 ^ 63 := by decide
  have e4 : hi 64 = 2 ^ 63 - 1 := by decide
  have hT : InRange 64 T := ⟨by omega, by omega⟩
  obtain ⟨n, e, b, rg, nr, -⟩ := normFx_spec 64 (by omega) T hT
  have g2 : T * 2 ^ n ≤ 2 ^ 63 - 1 := by have := rg.2; omega
  have g1 : 2 ^ 62 ≤ T * 2 ^ n := by
    by_contra hc
    apply nr (by omega)
    rw [pow_succ, ← Int.mul_assoc]
    have : 0 < T * 2 ^ n := Int.mul_pos h0 (two_pow_pos _)
    constructor <;> omega
  have hn62 : n ≤ 62 := by
    by_contra hc
    have : (2 ^ 63 : Int) ≤ 2 ^ n := pow_le_pow_right₀ (by decide) (by omega)
    have : 1 * 2 ^ 63 ≤ T * 2 ^ n := Int.mul_le_mul h0 this (by norm_num) (by omega)
    omega
  have hsh := l2Shift_even ⟨n, by omega⟩
  unfold l2NormalizeSum
  simp only [e] at hsh ⊢
  rw [hsh, castFx_eq m (by omega) (by omega) hT]
  obtain ⟨h, hh⟩ : ∃ h : Int, (49 - (n : Int)) / 2 = h := ⟨_, rfl⟩
  rw [hh]
  have hN := two_pow_pos n
  refine ⟨clamp 16 (asrRndFx m 64 T (2 * h)), h, rfl, ?_⟩
  rcases Int.lt_or_le 0 h with hp | hp
  · obtain ⟨k, hk⟩ : ∃ k : Nat, 2 * h = (k : Int) := ⟨(2 * h).toNat, by omega⟩
    have hk1 : (2 ^ (k - 1) : Int) ≤ 2 ^ 47 := pow_le_pow_right₀ (by decide) (by omega)
    have hP := two_pow_pos k
    rw [hk, asrRnd_eq_rnd m (by omega) hT k (Or.inr (Or.inr (by omega)))]
    obtain ⟨r1, r2⟩ := rnd_nearest m T k
    have hlow : 2 ^ 13 * 2 ^ k ≤ T := by
      have ee : (2:Int) ^ 13 * 2 ^ k * 2 ^ n ≤ 2 ^ 62 := by
        rw [← pow_add, ← pow_add]; exact pow_le_pow_right₀ (by decide) (by omega)
      exact le_of_mul_le_mul_right (ee.trans g1) hN
    have hup : T < 2 ^ 15 * 2 ^ k := by
      have ee : (2:Int) ^ 63 ≤ 2 ^ 15 * 2 ^ k * 2 ^ n := by
        rw [← pow_add, ← pow_add]; exact pow_le_pow_right₀ (by decide) (by omega)
      exact lt_of_mul_lt_mul_right (lt_of_le_of_lt g2 (by omega)) hN.le
    generalize rnd m T k = q at *
    have hq0 : 8192 ≤ q := by
      by_contra hc
      have : q * 2 ^ k ≤ 8191 * 2 ^ k := Int.mul_le_mul_of_nonneg_right (by omega) hP.le
      omega
    have hq1 : q ≤ 32768 := by
      by_contra hc
      have : 32769 * 2 ^ k ≤ q * 2 ^ k := Int.mul_le_mul_of_nonneg_right (by omega) hP.le
      omega
    obtain ⟨M, hM⟩ : ∃ M, clamp 16 q = M := ⟨_, rfl⟩
    have hMq : M = min q 32767 := by rw [← hM]; unfold clamp; rw [e1, e2]; split <;> (try split) <;> omega
    rw [hM]
    have hM1 : M ≤ q := by omega
    have hM2 : q ≤ 32767 ∨ M = 32767 := by omega
    refine ⟨by omega, by omega, by omega, by omega, ?_, ?_⟩
    · rw [zpow_natCast]
      have : (2 * M - 1) * 2 ^ k ≤ 2 * T := by
        have : (2 * M - 1) * 2 ^ k ≤ (2 * q - 1) * 2 ^ k := Int.mul_le_mul_of_nonneg_right (by omega) hP.le
        have e5 : (2 * q - 1) * 2 ^ k = 2 * (q * 2 ^ k) - 2 ^ k := by ring
        omega
      have : ((2 * M - 1 : Int) : ℝ) * 2 ^ k ≤ 2 * T := by exact_mod_cast this
      push_cast at this
      linarith
    · rw [zpow_natCast]
      have : T ≤ (M + 1) * 2 ^ k := by
        rcases hM2 with h | h
        · have : M = q := by omega
          subst this
          have e5 : (M + 1) * 2 ^ k = M * 2 ^ k + 2 ^ k := by ring
          omega
        · rw [h]; omega
      exact_mod_cast this
  · obtain ⟨j, hj⟩ : ∃ j : Nat, 2 * h = -(j : Int) := ⟨(-(2 * h)).toNat, by omega⟩
    have hJ := two_pow_pos j
    rw [hj, asrRnd_neg (by omega) hT j]
    have hup : T * 2 ^ j < 2 ^ 15 := by
      have ee : T * 2 ^ j * 2 ^ 48 ≤ T * 2 ^ n := by
        rw [mul_assoc, ← pow_add]
        exact Int.mul_le_mul_of_nonneg_left (pow_le_pow_right₀ (by decide) (by omega)) h0.le
      omega
    have hlow : 2 ^ 13 ≤ T * 2 ^ j := by
      have ee : T * 2 ^ n ≤ T * 2 ^ j * 2 ^ 49 := by
        rw [mul_assoc, ← pow_add]
        exact Int.mul_le_mul_of_nonneg_left (pow_le_pow_right₀ (by decide) (by omega)) h0.le
      omega
    rw [clamp_of_inRange (w := 64) ⟨by omega, by omega⟩, clamp_of_inRange ⟨by omega, by omega⟩]
    have hJr : (0:ℝ) < 2 ^ j := by positivity
    have ez : (2:ℝ) ^ (-(j:Int)) = (2 ^ j)⁻¹ := by rw [zpow_neg, zpow_natCast]
    have eT : ((T * 2 ^ j : Int) : ℝ) * (2 ^ j)⁻¹ = T := by push_cast; field_simp
    refine ⟨by omega, by omega, by omega, by omega, ?_, ?_⟩
    · rw [ez, sub_mul, eT]
      have : (0:ℝ) < (2 ^ j)⁻¹ := by positivity
      linarith
    · rw [ez, add_mul, eT]
      have : (0:ℝ) < (2 ^ j)⁻¹ := by positivity
      linarith

theorem l2NormalizeSum_zero (m : Rnd) : l2NormalizeSum m 0 = (0, -14) := by
  cases m <;> decide +kernel

theorem invsqrt_zero (m : Rnd) : lutInterp m invsqrtLut 8 0 = some 23170 := by
  cases m <;> decide +kernel

/-- The factor against the exact reciprocal square root. -/
theorem l2_factor {L x h T : Int} (hT : 0 < T) (hL : 0 < L) (h1 : L ^ 2 * (x + 1) * 10 ^ 14 ≤ (10 ^ 7 + 1800) ^ 2 * 2 ^ 42)
    (h2 : 2 * (10 ^ 7 - 1800) ^ 2 * 2 ^ 42 ≤ L ^ 2 * (2 * x - 1) * 10 ^ 14)
    (g1 : ((x : ℝ) - 1 / 2) * (2 : ℝ) ^ (2 * h) ≤ T) (g2 : (T : ℝ) ≤ (x + 1) * (2 : ℝ) ^ (2 * h)) :
    |(L : ℝ) * (2 : ℝ) ^ (-(21 + h)) - 1 / Real.sqrt T| ≤ 0.00018 * (1 / Real.sqrt T) := by
  have hTr : (0:ℝ) < T := by exact_mod_cast hT
  have hLr : (0:ℝ) < L := by exact_mod_cast hL
  set s := Real.sqrt T with hs
  have hs0 : 0 < s := Real.sqrt_pos.2 hTr
  have hs2 : s ^ 2 = T := Real.sq_sqrt hTr.le
  obtain ⟨z, hz⟩ : ∃ z : ℝ, (2:ℝ) ^ h = z := ⟨_, rfl⟩
  have hz0 : 0 < z := by rw [← hz]; positivity
  have ez2 : (2:ℝ) ^ (2 * h) = z ^ 2 := by rw [mul_comm, zpow_mul, hz]; rfl
  have ezn : (2:ℝ) ^ (-(21 + h)) = (2 ^ 21 * z)⁻¹ := by
    rw [zpow_neg, zpow_add₀ (by norm_num), hz]; norm_num
  rw [ez2] at g1 g2
  rw [ezn]
  have h1' : (L:ℝ) ^ 2 * (x + 1) * 10 ^ 14 ≤ (10 ^ 7 + 1800) ^ 2 * 2 ^ 42 := by exact_mod_cast h1
  have h2' : 2 * ((10:ℝ) ^ 7 - 1800) ^ 2 * 2 ^ 42 ≤ (L:ℝ) ^ 2 * (2 * x - 1) * 10 ^ 14 := by exact_mod_cast h2
  -- L * s / (2^21 z)
  have hL2 : (0:ℝ) ≤ (L:ℝ) ^ 2 := by positivity
  have u1 : (L * s) ^ 2 ≤ ((1 + 0.00018) * (2 ^ 21 * z)) ^ 2 := by
    rw [mul_pow, hs2]
    calc (L:ℝ) ^ 2 * T ≤ (L:ℝ) ^ 2 * ((x + 1) * z ^ 2) := mul_le_mul_of_nonneg_left g2 hL2
      _ = ((L:ℝ) ^ 2 * (x + 1) * 10 ^ 14) * (z ^ 2 / 10 ^ 14) := by ring
      _ ≤ ((10 ^ 7 + 1800) ^ 2 * 2 ^ 42) * (z ^ 2 / 10 ^ 14) := mul_le_mul_of_nonneg_right h1' (by positivity)
      _ = _ := by ring
  have u2 : ((1 - 0.00018) * (2 ^ 21 * z)) ^ 2 ≤ (L * s) ^ 2 := by
    rw [mul_pow (L:ℝ) s, hs2]
    calc ((1 - 0.00018) * ((2:ℝ) ^ 21 * z)) ^ 2 = (2 * ((10:ℝ) ^ 7 - 1800) ^ 2 * 2 ^ 42) * (z ^ 2 / (2 * 10 ^ 14)) := by ring
      _ ≤ ((L:ℝ) ^ 2 * (2 * x - 1) * 10 ^ 14) * (z ^ 2 / (2 * 10 ^ 14)) := mul_le_mul_of_nonneg_right h2' (by positivity)
      _ = (L:ℝ) ^ 2 * ((x - 1 / 2) * z ^ 2) := by ring
      _ ≤ _ := mul_le_mul_of_nonneg_left g1 hL2
  have v1 := abs_le_of_sq_le_sq u1 (by positivity)
  have v2 := abs_le_of_sq_le_sq u2 (by positivity)
  have w1 : L * s ≤ (1 + 0.00018) * (2 ^ 21 * z) := (le_abs_self _).trans v1
  have w2 : (1 - 0.00018) * (2 ^ 21 * z) ≤ L * s := (le_abs_self _).trans v2
  have e : (L:ℝ) * (2 ^ 21 * z)⁻¹ - 1 / s = (L * s - 2 ^ 21 * z) * ((2 ^ 21 * z)⁻¹ * s⁻¹) := by field_simp
  rw [e, abs_mul, abs_of_pos (by positivity : (0:ℝ) < (2 ^ 21 * z)⁻¹ * s⁻¹)]
  have hab : |(L:ℝ) * s - 2 ^ 21 * z| ≤ 0.00018 * (2 ^ 21 * z) := by rw [abs_le]; constructor <;> linarith
  calc |(L:ℝ) * s - 2 ^ 21 * z| * ((2 ^ 21 * z)⁻¹ * s⁻¹) ≤ 0.00018 * (2 ^ 21 * z) * ((2 ^ 21 * z)⁻¹ * s⁻¹) :=
        mul_le_mul_of_nonneg_right hab (by positivity)
    _ = 0.00018 * (1 / s) := by field_simp

/-- The element that is stored, for a slice whose sum of squares is `T`. -/
theorem l2_elem (m : Rnd) (w : Nat) (hw : w = 8 ∨ w = 16) (o T u : Int) (h0 : 0 ≤ T) (h1 : T ≤ 2 ^ 62) (hu : InRange 16 u)
    (hz : T = 0 → u = 0) :
    ∃ L, (lutInterp m invsqrtLut 8 (l2NormalizeSum m T).1).bind (lutOutput m invsqrtLut (.fx 16)) = some L ∧
      ∃ r, (if w = 8 then accCast8 m (L * u) (17 + ((l2NormalizeSum m T).2 + 8) / 2 - o)
          else accCast16 m (L * u) (17 + ((l2NormalizeSum m T).2 + 8) / 2 - o)) = r ∧
        |(r : ℝ) - limitReal w ((2 : ℝ) ^ o * (u / Real.sqrt T))| ≤ 1 / 2 + 0.00018 * 2 ^ o * |u / Real.sqrt T| := by
  have e1 : lo 16 = -32768 := by decide
  have e2 : hi 16 = 32767 := by decide
  have e3 : lo 32 = -2147483648 := by decide
  have e4 : hi 32 = 2147483647 := by decide
  obtain ⟨u1, u2⟩ := hu
  -- the product
  have hprod : ∀ L : Int, 0 < L → L ≤ 23170 → -(2 ^ 30 - 1) ≤ L * u ∧ L * u ≤ 2 ^ 30 - 1 := by
    intro L l1 l2
    constructor <;> nlinarith
  have hcast : ∀ p s : Int, -(2 ^ 30 - 1) ≤ p ∧ p ≤ 2 ^ 30 - 1 →
      ∃ q, Scaled m p s q ∧ (if w = 8 then accCast8 m p s else accCast16 m p s) = clamp w q := by
    intro p s hp
    obtain ⟨q, q1, q2⟩ := shiftAny m hp s
    have hr : InRange 32 p := ⟨by omega, by omega⟩
    refine ⟨q, q1, ?_⟩
    rcases hw with rfl | rfl
    · rw [if_pos rfl, accCast8_eq m hr, q2]; exact clamp_clamp (by omega) _
    · rw [if_neg (by omega), accCast16_eq m hr, q2]; exact clamp_clamp (by omega) _
  have hout : ∀ L : Int, 0 < L → L ≤ 23170 → lutOutput m invsqrtLut (.fx 16) L = some L := by
    intro L l1 l2
    unfold lutOutput castFxSame asrRndFx
    simp
  rcases Int.lt_or_eq_of_le h0 with hT | hT
  · obtain ⟨x, h, n1, n2, n3, n4, n5, n6, n7⟩ := l2NormalizeSum_spec m hT h1
    obtain ⟨L, i1, i2, i3, i4, i5⟩ := invsqrt_interp m n2 n3
    rw [n1]
    simp only
    refine ⟨L, by rw [i1, Option.bind_some]; exact hout L i2 i3, ?_⟩
    obtain ⟨q, q1, q2⟩ := hcast (L * u) (17 + (2 * h + 8) / 2 - o) (hprod L i2 i3)
    refine ⟨_, q2, ?_⟩
    have hs := scaled_real q1
    have hf := l2_factor hT i2 i4 i5 n6 n7
    rw [clamp_limitReal]
    refine (limitReal_lip w _ _).trans ?_
    have e5 : fxReal (L * u) (17 + (2 * h + 8) / 2 - o) = 2 ^ o * (u * (L * (2:ℝ) ^ (-(21 + h)))) := by
      unfold fxReal
      have : 17 + (2 * h + 8) / 2 - o = (21 + h) - o := by omega
      rw [this, zpow_sub₀ (by norm_num), zpow_neg]
      push_cast
      field_simp
    rw [e5] at hs
    have e6 : (2:ℝ) ^ o * (u * (L * (2:ℝ) ^ (-(21 + h)))) - 2 ^ o * (u / Real.sqrt T) =
        2 ^ o * (u * (L * (2:ℝ) ^ (-(21 + h)) - 1 / Real.sqrt T)) := by ring
    have hb : |(2:ℝ) ^ o * (u * (L * (2:ℝ) ^ (-(21 + h)))) - 2 ^ o * (u / Real.sqrt T)| ≤ 0.00018 * 2 ^ o * |u / Real.sqrt T| := by
      rw [e6, abs_mul, abs_mul, abs_of_pos (by positivity : (0:ℝ) < 2 ^ o)]
      have e7 : |(u:ℝ) / Real.sqrt T| = |(u:ℝ)| * (1 / Real.sqrt T) := by
        rw [abs_div, abs_of_nonneg (Real.sqrt_nonneg _)]; ring
      rw [e7]
      calc (2:ℝ) ^ o * (|(u:ℝ)| * |(L:ℝ) * (2:ℝ) ^ (-(21 + h)) - 1 / Real.sqrt T|)
          ≤ (2:ℝ) ^ o * (|(u:ℝ)| * (0.00018 * (1 / Real.sqrt T))) := by gcongr
        _ = _ := by ring
    have := abs_add_le ((q : ℝ) - 2 ^ o * (u * (L * (2:ℝ) ^ (-(21 + h))))) (2 ^ o * (u * (L * (2:ℝ) ^ (-(21 + h)))) - 2 ^ o * (u / Real.sqrt T))
    rw [sub_add_sub_cancel] at this
    exact this.trans (add_le_add hs hb)
  · subst hT
    have hu0 := hz rfl
    subst hu0
    rw [l2NormalizeSum_zero]
    simp only
    refine ⟨23170, by rw [invsqrt_zero, Option.bind_some]; exact hout _ (by norm_num) (by norm_num), ?_⟩
    obtain ⟨q, q1, q2⟩ := hcast (23170 * 0) (17 + (-14 + 8) / 2 - o) (by constructor <;> norm_num)
    refine ⟨_, q2, ?_⟩
    have hs := scaled_real q1
    rw [clamp_limitReal]
    refine (limitReal_lip w _ _).trans ?_
    simp only [fxReal, Int.mul_zero, Int.cast_zero, zero_div, mul_zero, abs_zero, add_zero, sub_zero] at hs ⊢
    exact hs

end Mli
