import Verif.Model.LeakyRelu
import Verif.Spec.LeakyRelu
import Verif.Props.Convert
import Verif.Props.ConvSa8

/-! # Elements of the leaky ReLU -/

namespace Mli

open Spec

/-- Shift of a product by any amount in 32 bits. -/
theorem shiftAny (m : Rnd) {p : Int} (hp : -(2 ^ 30 - 1) ≤ p ∧ p ≤ 2 ^ 30 - 1) (k : Int) :
    ∃ r, Scaled m p k r ∧ asrRndFx m 32 p k = clamp 32 r := by
  have hr : InRange 32 p := ⟨by simp only [lo]; omega, by simp only [hi]; omega⟩
  rcases Int.lt_or_le k 0 with hk | hk
  · obtain ⟨n, rfl⟩ : ∃ n : Nat, k = -(n : Int) := ⟨(-k).toNat, by omega⟩
    refine ⟨p * 2 ^ n, ?_, asrRnd_neg (by omega) hr n⟩
    unfold Scaled; rw [if_neg (by omega)]; congr 2; omega
  · obtain ⟨n, rfl⟩ : ∃ n : Nat, k = (n : Int) := ⟨k.toNat, by omega⟩
    refine ⟨rnd m p n, rnd_scaled m p n, ?_⟩
    rw [← asrRnd_eq_rnd m (w := 32) (by omega) hr n (by
      by_cases hn : 32 ≤ n
      · omega
      · right; right
        have : (2 : Int) ^ (n - 1) ≤ 2 ^ 30 := pow_le_pow_right₀ (by decide) (by omega)
        simp only [hi]; omega)]
    exact (clamp_of_inRange (asrRnd_inRange m (by omega) hr _)).symm

/-- The same for products of 16-bit numbers with amounts above 31 replaced by 31: one case is rounded down instead of up. -/
theorem shift31_top (m : Rnd) {p : Int} (hp : -(2 ^ 30 - 1) ≤ p ∧ p ≤ 2 ^ 30) (k : Int) (hx : m = .up → ¬ (p = 2 ^ 30 ∧ k = 31)) :
    ∃ r, Scaled m p k r ∧ asrRndFx m 32 p (minFx k 31) = clamp 32 r := by
  by_cases h : p ≤ 2 ^ 30 - 1
  · exact shift31 m ⟨hp.1, h⟩ k
  · obtain rfl : p = 2 ^ 30 := by omega
    have hr : InRange 32 (2 ^ 30) := by decide
    have em : minFx k 31 = min k 31 := by unfold minFx; split <;> omega
    rw [em]
    rcases Int.lt_or_le k 0 with hk | hk
    · obtain ⟨n, rfl⟩ : ∃ n : Nat, k = -(n : Int) := ⟨(-k).toNat, by omega⟩
      refine ⟨2 ^ 30 * 2 ^ n, ?_, ?_⟩
      · unfold Scaled; rw [if_neg (by omega)]; congr 2; omega
      · rw [show min (-(n : Int)) 31 = -(n : Int) by omega, asrRnd_neg (by omega) hr]
    · obtain ⟨n, rfl⟩ : ∃ n : Nat, k = (n : Int) := ⟨k.toNat, by omega⟩
      refine ⟨rnd m (2 ^ 30) n, rnd_scaled m (2 ^ 30) n, ?_⟩
      rcases Nat.lt_trichotomy n 31 with hn | rfl | hn
      · rw [show min (n : Int) 31 = n by omega, ← asrRnd_eq_rnd m (w := 32) (by omega) hr n (Or.inr (Or.inr (by
          have : (2 : Int) ^ (n - 1) ≤ 2 ^ 29 := pow_le_pow_right₀ (by decide) (by omega)
          simp only [hi]; omega)))]
        exact (clamp_of_inRange (asrRnd_inRange m (by omega) hr _)).symm
      · cases m
        · exact absurd ⟨rfl, rfl⟩ (hx rfl)
        · have h0 : Scaled .convergent (2 ^ 30) (31 : Nat) 0 := by
            unfold Scaled; rw [if_pos (by omega)]; unfold RoundHalfEven; decide
          rw [scaled_unique (rnd_scaled .convergent (2 ^ 30) 31) h0]
          decide
      · rw [show min (n : Int) 31 = 31 by omega]
        have h31 : (2 : Int) ^ 32 ≤ 2 ^ n := pow_le_pow_right₀ (by decide) (by omega)
        have h1 : Scaled m (2 ^ 30) n 0 := scaled_zero (by omega) (by rw [Int.toNat_natCast]; omega) (by rw [Int.toNat_natCast]; omega)
        rw [scaled_unique (rnd_scaled m (2 ^ 30) n) h1]
        cases m <;> decide

/-- The one product that is rounded wrongly (16 bits, rounding up). -/
def LeakyTie (m : Rnd) (w : Nat) (a f x : Int) : Prop := m = .up ∧ w = 16 ∧ x = -2 ^ 15 ∧ 0 ≤ f ∧ 2 * (x * a) = 2 ^ f.toNat

theorem leakyFx_core (m : Rnd) {w : Nat} (hw : w = 8 ∨ w = 16) {x a f : Int} {n : Nat} (hx : InRange w x) (ha : InRange w (a * 2 ^ n))
    (hn : w = 8 → n = 0) (ht : ¬ LeakyTie m w a f x) : LeakyFx m w a f x (leakyFx m w (a * 2 ^ n) (f + n) x) := by
  have hx1 := hx.1
  have hx2 := hx.2
  have h0 : InRange w 0 := by rcases hw with rfl | rfl <;> decide
  unfold LeakyFx leakyFx
  simp only
  have hp32 : -(2 ^ 30 - 1) ≤ minFx 0 x * (a * 2 ^ n) ∧ minFx 0 x * (a * 2 ^ n) ≤ 2 ^ 30 ∧
      (w = 8 → minFx 0 x * (a * 2 ^ n) < 2 ^ 30) := by
    have ha1 := ha.1
    have ha2 := ha.2
    generalize a * 2 ^ n = b at *
    have hm : minFx 0 x ≤ 0 ∧ lo w ≤ minFx 0 x := by
      have := h0.1
      unfold minFx; split <;> omega
    generalize minFx 0 x = y at *
    have e1 : 0 ≤ (-y) * (b - lo w) := Int.mul_nonneg (by omega) (by omega)
    have e2 : 0 ≤ (-y) * (Spec.hi w - b) := Int.mul_nonneg (by omega) (by omega)
    rcases hw with rfl | rfl
    · rw [show lo 8 = -128 by decide, show Spec.hi 8 = 127 by decide] at *
      exact ⟨by nlinarith, by nlinarith, fun _ => by nlinarith⟩
    · rw [show lo 16 = -32768 by decide, show Spec.hi 16 = 32767 by decide] at *
      exact ⟨by nlinarith, by nlinarith, fun h => by omega⟩
  have hr32 : InRange 32 (minFx 0 x * (a * 2 ^ n)) := ⟨by simp only [lo]; omega, by simp only [Spec.hi]; omega⟩
  have hcast : (if w = 8 then accCast8 m (minFx 0 x * (a * 2 ^ n)) (minFx (f + n) 31) else accCast16 m (minFx 0 x * (a * 2 ^ n)) (minFx (f + n) 31)) =
      clamp w (asrRndFx m 32 (minFx 0 x * (a * 2 ^ n)) (minFx (f + n) 31)) := by
    rcases hw with rfl | rfl
    · rw [if_pos rfl, accCast8_eq m hr32]
    · rw [if_neg (by decide), accCast16_eq m hr32]
  rw [hcast]
  by_cases h : 0 ≤ x
  · rw [if_pos h]
    have e1 : minFx 0 x = 0 := by unfold minFx; split <;> omega
    have e2 : maxFx 0 x = x := by unfold maxFx; split <;> omega
    rw [e1, e2, Int.zero_mul]
    obtain ⟨r, r1, r2⟩ := shift31 m (p := 0) (by decide) (f + n)
    have hz : Scaled m 0 (f + n) 0 := by
      by_cases hk : 0 ≤ f + n
      · exact scaled_zero hk (by have := two_pow_pos (f + n).toNat; omega) (by have := two_pow_pos (f + n).toNat; omega)
      · unfold Scaled; rw [if_neg hk, Int.zero_mul]
    rw [r2, scaled_unique r1 hz, show clamp 32 0 = 0 by decide, clamp_of_inRange h0, addFx_eq hx h0, Int.add_zero, clamp_of_inRange hx]
  · rw [if_neg h]
    have e1 : minFx 0 x = x := by unfold minFx; split <;> omega
    have e2 : maxFx 0 x = 0 := by unfold maxFx; split <;> omega
    rw [e1] at hp32
    rw [e1, e2]
    obtain ⟨r, r1, r2⟩ := shift31_top m ⟨hp32.1, hp32.2.1⟩ (f + n) (by
      rintro rfl ⟨e, k⟩
      have hw16 : w = 16 := by
        rcases hw with h8 | h16
        · have := hp32.2.2 h8; omega
        · exact h16
      subst hw16
      apply ht
      have hxv : x = -2 ^ 15 := by
        have ha1 := ha.1
        simp only [lo] at ha1 hx1
        by_contra hc
        have hc : -32767 ≤ x := by norm_num at hx1 hc; omega
        have ha1 : -32768 ≤ a * 2 ^ n := by norm_num at ha1; omega
        have e : x * (a * 2 ^ n) = 1073741824 := by rw [e]; decide
        generalize a * 2 ^ n = b at *
        have : 0 ≤ (-x) * (b + 32768) := Int.mul_nonneg (by omega) (by omega)
        nlinarith
      have hf : 0 ≤ f := by
        have hn16 : n ≤ 15 := by
          by_contra hc
          have h16 : (2 : Int) ^ 16 ≤ 2 ^ n := pow_le_pow_right₀ (by decide) (by omega)
          have : a * 2 ^ n = -2 ^ 15 := by
            rw [hxv] at e
            generalize a * 2 ^ n = b at *
            omega
          rcases Int.lt_trichotomy a 0 with ha0 | ha0 | ha0
          · have : a * 2 ^ n ≤ (-1) * 2 ^ n := Int.mul_le_mul_of_nonneg_right (by omega) (by positivity)
            omega
          · rw [ha0] at this; omega
          · have : 0 ≤ a * 2 ^ n := by positivity
            omega
        omega
      refine ⟨rfl, rfl, hxv, hf, ?_⟩
      obtain ⟨j, rfl⟩ : ∃ j : Nat, f = j := ⟨f.toNat, by omega⟩
      rw [Int.toNat_natCast]
      have hj : j + n = 31 := by omega
      have hpn := two_pow_pos n
      have : (2 : Int) ^ j * 2 ^ n = 2 ^ 31 := by rw [← pow_add, hj]
      have e3 : 2 * (x * a) * 2 ^ n = 2 ^ j * 2 ^ n := by
        rw [this, show 2 * (x * a) * 2 ^ n = 2 * (x * (a * 2 ^ n)) by ring, e]; decide
      exact Int.eq_of_mul_eq_mul_right (by omega) e3)
    refine ⟨r, scaled_cancel (a := n) (by rw [show x * a * 2 ^ n = x * (a * 2 ^ n) by ring, Int.add_comm]; exact r1), ?_⟩
    rw [r2, clamp_clamp (by omega), addFx_eq h0 (clamp_inRange _ _), Int.zero_add, clamp_of_inRange (clamp_inRange _ _)]

/-- An element of the leaky ReLU kernel. -/
theorem leakyFx_spec (m : Rnd) {w : Nat} (hw : w = 8 ∨ w = 16) {x a f : Int} (hx : InRange w x) (ha : InRange w a)
    (ht : ¬ LeakyTie m w a f x) : LeakyFx m w a f x (leakyFx m w (leakySlope m w a f).1 (leakySlope m w a f).2 x) := by
  unfold leakySlope
  by_cases h16 : w = 16
  · subst h16
    obtain ⟨n, e, b, r, -, -⟩ := normFx_spec 16 (by omega) a ha
    have e1 : normCastFx m 16 16 a = (a * 2 ^ n, -(n : Int)) := by
      unfold normCastFx castFxSame
      simp only [if_pos, e]
      rw [show (((16 : Nat) : Int) - ((16 : Nat) : Int)) - (n : Int) = -(n : Int) by omega, asrRnd_neg (by omega) ha, clamp_of_inRange r]
    rw [if_pos rfl, e1]
    have := leakyFx_core m (Or.inr rfl) (n := n) hx r (by omega) ht
    simpa [Int.sub_neg] using this
  · rw [if_neg h16]
    have := leakyFx_core m hw (n := 0) (f := f) hx (by simpa using ha) (fun _ => rfl) ht
    simpa using this

/-- An element of the parametric ReLU kernel. -/
theorem preluFx_spec (m : Rnd) {w : Nat} (hw : w = 8 ∨ w = 16) {x a f : Int} (hx : InRange w x) (ha : InRange w a)
    (ht : ¬ LeakyTie m w a f x) : LeakyFx m w a f x (leakyFx m w a f x) := by
  have := leakyFx_core m hw (n := 0) (f := f) hx (by simpa using ha) (fun _ => rfl) ht
  simpa using this

/-! ## SA8 -/

theorem leakyIdentity_eq (m : Rnd) (sI fI sO fO : Int) : leakyIdentity m sI fI sO fO =
    (requantParams m sI fI 0 sO fO 0).map fun p => (aslFx 16 p.1 (maxFx (-p.2.1) 0), maxFx p.2.1 0) := by
  simp only [requantParams, leakyIdentity, Option.bind_eq_bind, Option.pure_def]
  by_cases h : normFx 32 sI - normFx 16 sO < 0 ∨ 32 ≤ normFx 32 sI - normFx 16 sO
  · rw [if_pos h, if_pos h, Option.bind_none, Option.bind_none, Option.map_none]
  · rw [if_neg h, if_neg h]
    by_cases h0 : sO = 0
    · cases ckd 32 (sI * 2 ^ (normFx 32 sI - normFx 16 sO).toNat) <;> simp only [if_pos h0, Option.bind_none, Option.bind_some, Option.map_none]
    · simp only [if_neg h0, Option.bind_some]
      cases ckd 32 (sI * 2 ^ (normFx 32 sI - normFx 16 sO).toNat) <;> simp only [Option.bind_none, Option.bind_some, Option.map_none, Option.map_some]

/-- The stored value after an exact shift. -/
theorem store_add8 (m : Rnd) (r : Int) {zo : Int} (hz : InRange 8 zo) : castFx m 32 8 (addFx 32 (clamp 32 r) zo) 0 = clamp 8 (r + zo) := by
  have ho1 := hz.1
  have ho2 := hz.2
  simp only [lo, hi] at ho1 ho2
  rw [addFx_eq (clamp_inRange _ _) (inRange_mono (by omega) hz), castFx_eq m (by omega) (by omega) (clamp_inRange _ _)]
  rw [show asrRndFx m 32 (clamp 32 (clamp 32 r + zo)) 0 = clamp 32 (clamp 32 r + zo) by
    have := asrRnd_neg (m := m) (w := 32) (by omega) (clamp_inRange 32 (clamp 32 r + zo)) 0
    simpa [clamp_of_inRange (clamp_inRange 32 (clamp 32 r + zo))] using this]
  rw [clamp_clamp (by omega)]
  by_cases h : InRange 32 r
  · rw [clamp_of_inRange h]
  · by_cases hp : r < lo 32
    · rw [clamp_of_lt (le_of_lt hp), clamp_of_lt (x := lo 32 + zo) (by simp only [lo] at *; omega), clamp_of_lt (x := r + zo) (by simp only [lo] at *; omega)]
    · have hp2 : hi 32 < r := by
        by_contra hc; exact h ⟨by omega, by omega⟩
      rw [clamp_of_gt (le_of_lt hp2), clamp_of_gt (x := hi 32 + zo) (by simp only [hi] at *; omega), clamp_of_gt (x := r + zo) (by simp only [hi] at *; omega)]

theorem Spec.RelErr.trans {e1 e2 a b c : ℚ} (h1 : RelErr e1 a b) (h2 : RelErr e2 b c) (h0 : 0 ≤ e1) : RelErr (e1 + e2 + e1 * e2) a c := by
  unfold RelErr at *
  have hb : |b| ≤ (1 + e2) * |c| := by
    have : |b| ≤ |b - c| + |c| := by have := abs_add_le (b - c) c; rwa [sub_add_cancel] at this
    linarith
  have h3 : |a - c| ≤ |a - b| + |b - c| := abs_sub_le _ _ _
  have h4 : e1 * |b| ≤ e1 * ((1 + e2) * |c|) := mul_le_mul_of_nonneg_left hb h0
  linarith

theorem Spec.RelErr.mul {e a b : ℚ} (h : RelErr e a b) (c : ℚ) : RelErr e (c * a) (c * b) := by
  unfold RelErr at *
  rw [← mul_sub, abs_mul, abs_mul]
  have := mul_le_mul_of_nonneg_left h (abs_nonneg c)
  linarith

theorem Spec.RelErr.mono {e e' a b : ℚ} (h : RelErr e a b) (he : e ≤ e') : RelErr e' a b := by
  unfold RelErr at *
  have := mul_le_mul_of_nonneg_right he (abs_nonneg b)
  linarith

/-- Normalization to 16 bits keeps a number up to a relative error. -/
theorem normCast_rel (m : Rnd) {x : Int} (h0 : x ≠ 0) (hx : InRange 32 x) :
    RelErr (1 / 2 ^ 14) (scaleVal (normCastFx m 32 16 x).1 (-(normCastFx m 32 16 x).2)) x := by
  obtain ⟨r, hr, hv⟩ := c07_norm_cast_value m 32 16 (by omega) (by omega) x hx
  obtain ⟨k, hk, -, hin, hmag⟩ := norm_mag h0 hx
  have hs : (normCastFx m 32 16 x).2 = 16 - (k : Int) := by unfold normCastFx; simp only [hk]; omega
  rw [hs] at hr
  rw [hv, hs]
  have he := scaled_err hr
  generalize hX : (x : ℚ) * (2 : ℚ) ^ (-(16 - (k : Int))) = X at he
  have hX2 : X * 2 ^ 16 = ((x * 2 ^ k : Int) : ℚ) := by
    rw [← hX, show -(16 - (k : Int)) = (k : Int) - 16 by ring, zpow_sub₀ (by norm_num), zpow_natCast]
    push_cast
    ring
  have b1 : -(2 : ℚ) ^ 31 ≤ X * 2 ^ 16 := by
    rw [hX2]; have := hin.1; simp only [lo] at this; exact_mod_cast this
  have b2 : X * 2 ^ 16 ≤ 2 ^ 31 - 1 := by
    rw [hX2]; have := hin.2; simp only [hi] at this; exact_mod_cast this
  have b3 : (2 : ℚ) ^ 30 ≤ |X| * 2 ^ 16 := by
    have : |X| * 2 ^ 16 = |X * 2 ^ 16| := by rw [abs_mul, abs_of_pos (by positivity : (0 : ℚ) < 2 ^ 16)]
    rw [this, hX2]; exact_mod_cast hmag
  have he' := abs_le.1 he
  have hc : |((clamp 16 r : Int) : ℚ) - X| ≤ 1 := by
    by_cases h1 : r < lo 16
    · exfalso
      simp only [lo] at h1
      have : (r : ℚ) ≤ -(2 ^ 15) - 1 := by exact_mod_cast (by omega : r ≤ -(2 ^ 15) - 1)
      linarith
    · by_cases h2 : hi 16 < r
      · rw [clamp_of_gt (le_of_lt h2)]
        simp only [hi] at h2 ⊢
        have : (2 : ℚ) ^ 15 ≤ r := by exact_mod_cast (by omega : (2 : Int) ^ 15 ≤ r)
        rw [abs_le]
        push_cast
        norm_num at *
        constructor <;> linarith
      · rw [clamp_of_inRange ⟨by omega, by omega⟩]
        linarith
  have hxX : (x : ℚ) = X * (2 : ℚ) ^ (16 - (k : Int)) := by
    rw [← hX, mul_assoc, ← zpow_add₀ (by norm_num), show -(16 - (k : Int)) + (16 - k) = 0 by ring, zpow_zero, mul_one]
  unfold RelErr scaleVal
  rw [neg_neg, hxX, ← sub_mul, abs_mul, abs_mul, abs_of_pos (two_zpow_pos _), ← mul_assoc]
  refine mul_le_mul_of_nonneg_right ?_ (le_of_lt (two_zpow_pos _))
  linarith

/-- The parameters for negative inputs stand for the product of the two factors. -/
theorem leakyAlpha_rel (m : Rnd) {is ish za sa fa a : Int} (his : 1 ≤ is ∧ is ≤ 2 ^ 15 - 1) (ha : InRange 8 a)
    (hz : -(2 ^ 14) ≤ za ∧ za ≤ 2 ^ 14 - 1) (hs : 0 < sa) (hs2 : InRange 16 sa) :
    InRange 16 (leakyAlpha m (is, ish) za sa fa a).1 ∧
    RelErr (1 / 2 ^ 12) (scaleVal (leakyAlpha m (is, ish) za sa fa a).1 (leakyAlpha m (is, ish) za sa fa a).2)
      (scaleVal is ish * ((a - za : Int) * scaleVal sa fa)) := by
  have ha1 := ha.1
  have ha2 := ha.2
  have hs3 := hs2.2
  simp only [lo, hi] at ha1 ha2 hs3
  have hd : InRange 16 (a - za) := ⟨by simp only [lo]; omega, by simp only [hi]; omega⟩
  have hv : InRange 32 ((a - za) * sa) := by
    have : |(a - za) * sa| ≤ 2 ^ 15 * 2 ^ 15 := by
      rw [abs_mul]
      exact mul_le_mul (by rw [abs_le]; omega) (by rw [abs_le]; omega) (abs_nonneg _) (by decide)
    have := abs_le.1 this
    exact ⟨by simp only [lo]; omega, by simp only [hi]; omega⟩
  have hv64 := inRange_mono (by omega : 32 ≤ 64) hv
  have ev : castFx m 64 32 (wrap 16 (a - za) * sa) 0 = (a - za) * sa := by
    rw [wrap_of_inRange (by omega) hd, castFx_eq m (by omega) (by omega) hv64]
    have := asrRnd_neg (m := m) (w := 64) (by omega) hv64 0
    rw [Nat.cast_zero, neg_zero, pow_zero, mul_one, clamp_of_inRange hv64] at this
    rw [this, clamp_of_inRange hv]
  unfold leakyAlpha
  simp only [ev]
  have hreal : (scaleVal is ish : ℚ) * ((a - za : Int) * scaleVal sa fa) = scaleVal is (ish + fa) * ((a - za) * sa : Int) := by
    unfold scaleVal
    rw [show -(ish + fa) = -ish + -fa by ring, zpow_add₀ (by norm_num)]
    push_cast
    ring
  rw [hreal]
  generalize (a - za) * sa = v at *
  have hr1 : InRange 16 (normCastFx m 32 16 v).1 := by
    obtain ⟨r, -, e⟩ := c07_norm_cast_value m 32 16 (by omega) (by omega) v hv
    rw [e]; exact clamp_inRange _ _
  by_cases h0 : v = 0
  · subst h0
    have e1 : normCastFx m 32 16 0 = (0, -15) := by cases m <;> decide
    rw [e1]
    simp only [Int.mul_zero, e1]
    refine ⟨by decide, ?_⟩
    unfold RelErr scaleVal
    simp
  · have n1 := normCast_rel m h0 hv
    have m1 := c07_norm_cast_full_range m 32 16 (by omega) (by omega) v hv h0
    generalize (normCastFx m 32 16 v).1 = b1 at *
    generalize (normCastFx m 32 16 v).2 = t1 at *
    have hb0 : b1 ≠ 0 := by rintro rfl; simp at m1
    have hp0 : is * b1 ≠ 0 := mul_ne_zero (by omega) hb0
    have hp : InRange 32 (is * b1) := by
      have h1 := hr1.1
      have h2 := hr1.2
      simp only [lo, hi] at h1 h2
      have : |is * b1| ≤ 2 ^ 15 * 2 ^ 15 := by
        rw [abs_mul]
        exact mul_le_mul (by rw [abs_le]; omega) (by rw [abs_le]; omega) (abs_nonneg _) (by decide)
      have := abs_le.1 this
      exact ⟨by simp only [lo]; omega, by simp only [hi]; omega⟩
    have n2 := normCast_rel m hp0 hp
    refine ⟨?_, ?_⟩
    · obtain ⟨r, -, e⟩ := c07_norm_cast_value m 32 16 (by omega) (by omega) _ hp
      rw [e]; exact clamp_inRange _ _
    · generalize (normCastFx m 32 16 (is * b1)).1 = b2 at *
      generalize (normCastFx m 32 16 (is * b1)).2 = t2 at *
      have h1 := n2.mul ((2 : ℚ) ^ (-(ish + fa) + t1))
      have h2 := n1.mul (scaleVal is (ish + fa))
      have e1 : (2 : ℚ) ^ (-(ish + fa) + t1) * scaleVal b2 (-t2) = scaleVal b2 (ish + fa - t1 - t2) := by
        unfold scaleVal
        rw [show -(ish + fa - t1 - t2) = (-(ish + fa) + t1) + t2 by ring, neg_neg, zpow_add₀ (by norm_num) (-(ish + fa) + t1)]
        ring
      have e2 : (2 : ℚ) ^ (-(ish + fa) + t1) * ((is * b1 : Int) : ℚ) = scaleVal is (ish + fa) * scaleVal b1 (-t1) := by
        unfold scaleVal
        rw [neg_neg, zpow_add₀ (by norm_num)]
        push_cast
        ring
      rw [e1, e2] at h1
      exact (h1.trans h2 (by norm_num)).mono (by norm_num)

/-- Rounding, adding the output zero point and limiting. -/
theorem leaky_store (m : Rnd) {p1 p2 d zo : Int} {E : ℚ} (hp : InRange 16 p1) (hd : -255 ≤ d ∧ d ≤ 255) (hz : InRange 8 zo)
    (hE : RelErr (1 / 2600) (d * scaleVal p1 p2) E ∨ (256 ≤ d * scaleVal p1 p2 ∧ 256 ≤ E)) :
    |((castFx m 32 8 (addFx 32 (asrRndFx m 32 (p1 * d) p2) zo) 0 : Int) : ℚ) - limitQ (-128) 127 (zo + E)| ≤ 5 / 8 := by
  have h1 := hp.1
  have h2 := hp.2
  simp only [lo, hi] at h1 h2
  have hb : -(2 ^ 30 - 1) ≤ p1 * d ∧ p1 * d ≤ 2 ^ 30 - 1 := by
    have : |p1 * d| ≤ 2 ^ 15 * 255 := by
      rw [abs_mul]
      exact mul_le_mul (by rw [abs_le]; omega) (by rw [abs_le]; omega) (abs_nonneg _) (by decide)
    have := abs_le.1 this
    omega
  obtain ⟨r, r1, r2⟩ := shiftAny m hb p2
  rw [r2, store_add8 m r hz]
  have he := scaled_err r1
  have ex : ((p1 * d : Int) : ℚ) * (2 : ℚ) ^ (-p2) = d * scaleVal p1 p2 := by unfold scaleVal; push_cast; ring
  rw [ex] at he
  generalize (d : ℚ) * scaleVal p1 p2 = X at *
  have hz1 : (-128 : ℚ) ≤ zo := by exact_mod_cast hz.1
  have hz2 : (zo : ℚ) ≤ 127 := by exact_mod_cast hz.2
  rcases hE with hE | ⟨x1, x2⟩
  · unfold RelErr at hE
    have hX := abs_le.1 hE
    by_cases hs : |E| ≤ 300
    · have h3 : |(r : ℚ) - E| ≤ 5 / 8 := by
        have := abs_sub_le (r : ℚ) X E
        linarith
      rw [clamp8_cast]
      have := limitQ_sub (-128) 127 ((r + zo : Int) : ℚ) (zo + E)
      have e : ((r + zo : Int) : ℚ) - (zo + E) = r - E := by push_cast; ring
      rw [e] at this
      linarith
    · have h3 : |((clamp 8 (r + zo) : Int) : ℚ) - limitQ (-128) 127 (zo + E)| = 0 := by
        rw [store_far hz he, sub_self, abs_zero]
        push Not at hs
        rcases abs_cases E with ⟨e, _⟩ | ⟨e, _⟩ <;> rw [e] at hs hX
        · left; constructor <;> linarith
        · right; constructor <;> linarith
      rw [h3]; norm_num
  · rw [store_far hz he (E := E) (Or.inl ⟨by linarith, by linarith⟩), sub_self, abs_zero]
    norm_num

/-- An element of the SA8 leaky ReLU kernel. -/
theorem leakySa_spec (m : Rnd) {sI fI zi sO fO zo za sa fa : Int} (hI : 0 < sI) (hI2 : InRange 16 sI) (hO : 0 < sO) (hO2 : InRange 16 sO)
    (hzi : InRange 8 zi) (hzo : InRange 8 zo) (hza : -(2 ^ 14) ≤ za ∧ za ≤ 2 ^ 14 - 1) (hs : 0 < sa) (hs2 : InRange 16 sa) :
    ∃ ident, leakyIdentity m sI fI sO fO = some ident ∧ ∀ x a, InRange 8 x → InRange 8 a →
      (zi ≤ x ∨ scaleVal sI fI / scaleVal sO fO ≤ 2 ^ 14) →
      |((leakySa m zi zo ident (leakyAlpha m ident za sa fa a) x : Int) : ℚ) -
        limitQ (-128) 127 (zo + leakyQ ((a - za : Int) * scaleVal sa fa) ((x - zi : Int) * scaleVal sI fI) / scaleVal sO fO)| ≤ 5 / 8 := by
  obtain ⟨scale, shift, o, e, s1, s2, rel⟩ := requant_ok m sI fI 0 sO fO 0 hI hI2 hO hO2
  have pI := scaleVal_pos (f := fI) hI
  have pO := scaleVal_pos (f := fO) hO
  rw [leakyIdentity_eq, e, Option.map_some]
  refine ⟨_, rfl, fun x a hx ha hcase => ?_⟩
  simp only
  have hx1 := hx.1
  have hx2 := hx.2
  have hz1 := hzi.1
  have hz2 := hzi.2
  simp only [lo, hi] at hx1 hx2 hz1 hz2
  have hd : InRange 16 (x - zi) := ⟨by simp only [lo]; omega, by simp only [hi]; omega⟩
  have hsub : subFx 16 x zi = x - zi := by
    rw [subFx_eq (inRange_mono (by omega) hx) (inRange_mono (by omega) hzi), clamp_of_inRange hd]
  have hsc : InRange 16 scale := ⟨by simp only [lo]; omega, by simp only [hi]; omega⟩
  unfold leakySa
  simp only [hsub]
  set ρ := scaleVal sI fI / scaleVal sO fO with hρ
  have hρ0 : 0 < ρ := div_pos pI pO
  have id_nonneg : 0 ≤ shift → (aslFx 16 scale (maxFx (-shift) 0), maxFx shift 0) = (scale, shift) := by
    intro h
    have e1 : maxFx (-shift) 0 = ((0 : Nat) : Int) := by unfold maxFx; split <;> simp <;> omega
    have e2 : maxFx shift 0 = shift := by unfold maxFx; split <;> omega
    rw [e1, e2, aslFx_nonneg (by omega) hsc, pow_zero, Int.mul_one, clamp_of_inRange hsc]
  have hsm : shift < 0 → (2 : ℚ) ^ 15 ≤ scaleVal scale shift := by
    intro h
    unfold scaleVal
    have h1 : (2 : ℚ) ^ 14 ≤ scale := by exact_mod_cast s1
    have h2 : (2 : ℚ) ^ (1 : Int) ≤ (2 : ℚ) ^ (-shift) := zpow_le_zpow_right₀ (by norm_num) (by omega)
    rw [zpow_one] at h2
    have h3 : (2 : ℚ) ^ 14 * 2 ≤ (scale : ℚ) * (2 : ℚ) ^ (-shift) :=
      mul_le_mul h1 h2 (by norm_num) (by linarith [show (0 : ℚ) < 2 ^ 14 by norm_num])
    norm_num at h3 ⊢
    exact h3
  unfold RelErr at rel
  rw [abs_of_pos hρ0] at rel
  have rel' := abs_le.1 rel
  by_cases hp : zi ≤ x
  · have eq : leakyQ ((a - za : Int) * scaleVal sa fa) ((x - zi : Int) * scaleVal sI fI) / scaleVal sO fO = (x - zi : Int) * ρ := by
      have h0 : (0 : ℚ) ≤ ((x - zi : Int) : ℚ) := by exact_mod_cast (by omega : 0 ≤ x - zi)
      unfold leakyQ
      rw [if_pos (mul_nonneg h0 (le_of_lt pI)), hρ]
      ring
    rw [if_pos hp, eq]
    by_cases hsh : 0 ≤ shift
    · rw [id_nonneg hsh]
      refine leaky_store m hsc (by omega) hzo (Or.inl ?_)
      refine RelErr.mono (RelErr.mul (e := 1 / 2 ^ 13) ?_ _) (by norm_num)
      unfold RelErr; rw [abs_of_pos hρ0]; exact rel
    · have hb := hsm (by omega)
      obtain ⟨n, hn⟩ : ∃ n : Nat, maxFx (-shift) 0 = ((n + 1 : Nat) : Int) := ⟨(-shift - 1).toNat, by unfold maxFx; split <;> omega⟩
      have e2 : maxFx shift 0 = 0 := by unfold maxFx; split <;> omega
      have e3 : aslFx 16 scale (maxFx (-shift) 0) = Spec.hi 16 := by
        rw [hn, aslFx_nonneg (by omega) hsc, clamp_of_gt]
        have h2 : (2 : Int) ^ 1 ≤ 2 ^ (n + 1) := pow_le_pow_right₀ (by decide) (by omega)
        have : 2 ^ 14 * 2 ^ 1 ≤ scale * 2 ^ (n + 1) := mul_le_mul s1 h2 (by decide) (by omega)
        simp only [Spec.hi]; omega
      rw [e3, e2]
      refine leaky_store m (by decide) (by omega) hzo ?_
      by_cases hd0 : x - zi = 0
      · left; rw [hd0]; unfold RelErr; simp
      · right
        have h1 : (1 : ℚ) ≤ ((x - zi : Int) : ℚ) := by exact_mod_cast (by omega : 1 ≤ x - zi)
        have hs16 : scaleVal (Spec.hi 16) 0 = 32767 := by unfold scaleVal; norm_num [Spec.hi]
        rw [hs16]
        refine ⟨by linarith, ?_⟩
        have : 256 ≤ ρ := by
          norm_num at hb rel'
          linarith
        nlinarith
  · have hle := hcase.resolve_left hp
    have hsh : 0 ≤ shift := by
      by_contra hc
      have := hsm (by omega)
      norm_num at this hle rel'
      linarith
    rw [if_neg hp, id_nonneg hsh]
    have hα := leakyAlpha_rel m (is := scale) (ish := shift) (fa := fa) ⟨by omega, s2⟩ ha hza hs hs2
    have eq : leakyQ ((a - za : Int) * scaleVal sa fa) ((x - zi : Int) * scaleVal sI fI) / scaleVal sO fO =
        (x - zi : Int) * (ρ * ((a - za : Int) * scaleVal sa fa)) := by
      have h0 : ((x - zi : Int) : ℚ) < 0 := by exact_mod_cast (by omega : x - zi < 0)
      unfold leakyQ
      rw [if_neg (not_le.2 (mul_neg_of_neg_of_pos h0 pI)), hρ]
      ring
    rw [eq]
    refine leaky_store m hα.1 (by omega) hzo (Or.inl ?_)
    have h2 : RelErr (1 / 2 ^ 13) (scaleVal scale shift * ((a - za : Int) * scaleVal sa fa)) (ρ * ((a - za : Int) * scaleVal sa fa)) := by
      have : RelErr (1 / 2 ^ 13) (scaleVal scale shift) ρ := by unfold RelErr; rw [abs_of_pos hρ0]; exact rel
      have := this.mul ((a - za : Int) * scaleVal sa fa)
      rwa [mul_comm, mul_comm _ ρ] at this
    exact ((hα.2.trans h2 (by norm_num)).mul _).mono (by norm_num)

/-! ## Loops of the parametric ReLU -/

theorem forRange_one' {σ : Type} (f : Nat → σ → Option σ) (s : σ) : forRange 1 f s = f 0 s := by
  simp [forRange]
theorem forRange_congr' {σ : Type} (n : Nat) (f g : Nat → σ → Option σ) (h : ∀ k s, f k s = g k s) (s : σ) : forRange n f s = forRange n g s := by
  have : f = g := funext fun k => funext fun s => h k s
  rw [this]

theorem forRange_fun_one {σ : Type} (f : Nat → σ → Option σ) : forRange 1 f = f 0 := funext fun s => forRange_one' f s
theorem forFrom_zero {σ : Type} (n : Int) (f : Int → σ → Option σ) : forFrom 0 n f = forRange n.toNat (fun k => f k) := by
  funext s; simp [forFrom]
theorem forFrom_one {σ : Type} (a : Int) (f : Int → σ → Option σ) : forFrom a (a + 1) f = f a := by
  funext s; simp [forFrom, forRange_one']
theorem forFrom_zero_one {σ : Type} (f : Int → σ → Option σ) : forFrom 0 1 f = f 0 := by
  funext s; simp [forFrom, forRange_one']
theorem flatJ_fun {k : Nat} {σ : Type} (n : Int) (o : Fin k → Int) (f : (Fin k → Int) → σ → Option σ) :
    flatJ n o f = forRange n.toNat (fun i => f (fun j => o j + i)) := rfl
theorem prelu_slice (tin tout : Tensor) (hr : tin.dims.length ≤ 4) (hs : tin.shape = tout.shape) (axis : Nat) (ha : axis < tin.dims.length)
    (i1 : tin.strides.getLast? = some 1) (o1 : tout.strides.getLast? = some 1) (idx : Nat) (h : Int → Int) (d : Buf) :
    (let f := fun (a : Fin 2 → Int) (d : Buf) => (d.rd (tin.base + a 0)).bind fun x => d.wr (tout.base + a 1) (h x)
     let ds := joint2 tin.dims tout.dims
     let o := pair (idx * tin.strides.getD axis 0) (idx * tout.strides.getD axis 0)
     if (axis : Int) = tin.dims.length - 1 then preluInner ds o f d else preluOuter ds axis o f d) =
    forSlice tin (axisDim tin axis) idx (fun a b c e d =>
      (d.rd (tin.base + tin.rPos a b c e)).bind fun x => d.wr (tout.base + tout.rPos a b c e) (h x)) d := by
  have hl : tin.dims.length = tout.dims.length := length_congr hs
  obtain ⟨di, bi, ci, ei⟩ := tin
  obtain ⟨do', bo, co, eo⟩ := tout
  simp only at hr ha hl
  have hcase : axis = 0 ∨ axis = 1 ∨ axis = 2 ∨ axis = 3 := by omega
  rcases list_le4_cases di hr with rfl | ⟨a, rfl⟩ | ⟨a, b, rfl⟩ | ⟨a, b, c, rfl⟩ | ⟨a, b, c, d', rfl⟩ <;>
  rcases list_le4_cases do' (by omega) with rfl | ⟨a', rfl⟩ | ⟨a', b', rfl⟩ | ⟨a', b', c', rfl⟩ | ⟨a', b', c', d'', rfl⟩ <;>
  simp only [List.length_cons, List.length_nil] at hl ha <;> first | omega | skip
  all_goals
    rcases hcase with rfl | rfl | rfl | rfl <;> first | omega | skip
  all_goals
    simp only [forSlice, forFrom, sliceLo, sliceHi, Tensor.rDim, Tensor.rPos, maxRank, axisDim, joint2, Tensor.strides, List.map_cons, List.map_nil, List.zipWith_cons_cons,
      List.zipWith_nil_left, List.length_cons, List.length_nil, preluInner, preluOuter, padFront, List.eraseIdx, List.replicate, List.cons_append, List.nil_append, flatJ, pos4, pair,
      List.getD_cons_zero, List.getD_cons_succ, Tensor.shape, List.cons.injEq, List.getLast?_cons_cons, List.getLast?_singleton, Option.some.injEq] at *
  all_goals
    simp only [i1, o1, hs]
    simp [forRange_one', padFront, flatJ_fun, pos4, pair, forFrom_zero, forFrom_one, forFrom_zero_one, forRange_fun_one]
  all_goals
    try simp only [i1, o1, hs, mul_one, add_assoc, add_comm, add_left_comm]

end Mli
