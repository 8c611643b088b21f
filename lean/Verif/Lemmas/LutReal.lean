import Verif.Lemmas.RealFun
import Verif.Props.Lut
import Verif.Spec.Real
import Mathlib.Tactic.Positivity
import Mathlib.Tactic.FieldSimp

/-!
# From table entries to the approximated function
-/

namespace Mli

open Spec

/-- Table `l` approximates `g`: entries within `E`, chords within `C` (in units of `2^-15`), the
outermost cells within `B` outside of the table, and `g` has slope at most `L`. -/
structure Approx (l : Lut) (g : ℝ → ℝ) (E C B L : ℝ) : Prop where
  node : ∀ i : Int, 0 ≤ i → i < l.length → |(l.data.get i : ℝ) - 2 ^ 15 * g (fxReal (i - l.inOffset) l.inFrac)| ≤ E
  chord : ∀ (i : Int) (t : ℝ), 0 ≤ i → i < l.length - 1 → 0 ≤ t → t ≤ 1 →
    2 ^ 15 * |g (((i - l.inOffset : Int) + t) / (2 : ℝ) ^ l.inFrac) - ((1 - t) * g (fxReal (i - l.inOffset) l.inFrac) +
      t * g (fxReal (i + 1 - l.inOffset) l.inFrac))| ≤ C
  left : ∀ (y : ℝ) (r : Int), y ≤ fxReal (-l.inOffset) l.inFrac → Between (l.data.get 0) (l.data.get 1) r → |(r : ℝ) - 2 ^ 15 * g y| ≤ B
  right : ∀ (y : ℝ) (r : Int), fxReal (l.length - 1 - l.inOffset) l.inFrac ≤ y →
    Between (l.data.get (l.length - 2)) (l.data.get (l.length - 1)) r → |(r : ℝ) - 2 ^ 15 * g y| ≤ B
  lip : ∀ a b, |g b - g a| ≤ L * |b - a|

theorem fxReal_shift (x f : Int) (k : Nat) : fxReal x (f + k) = (x : ℝ) / 2 ^ k / (2 : ℝ) ^ f := by
  unfold fxReal
  rw [zpow_add₀ (by norm_num), zpow_natCast, mul_comm, div_mul_eq_div_div]

/-- Inside of the table. -/
theorem Approx.table {l : Lut} {g : ℝ → ℝ} {E C B L : ℝ} (h : Approx l g E C B L) (s : Nat) (x r : Int) (y : ℝ)
    (htwo : 2 ≤ l.length)
    (hT : TableValue l.data.get l.length l.inOffset s x r)
    (hy : (x / 2 ^ s + l.inOffset < 0 ∧ y ≤ fxReal (-l.inOffset) l.inFrac) ∨
      (l.length - 2 < x / 2 ^ s + l.inOffset ∧ fxReal (l.length - 1 - l.inOffset) l.inFrac ≤ y) ∨ y = fxReal x (l.inFrac + s)) :
    |(r : ℝ) - 2 ^ 15 * g y| ≤ max B (E + C + 1 / 2) := by
  obtain ⟨i, hi, hn, hb, -⟩ := hT
  by_cases c1 : x / 2 ^ s + l.inOffset < 0
  · have hi0 : i = 0 := by omega
    refine le_max_of_le_left (h.left y r ?_ (by rw [hi0] at hb; exact hb))
    rcases hy with ⟨-, hy⟩ | ⟨hc, -⟩ | rfl
    · exact hy
    · omega
    · rw [fxReal_shift]
      unfold fxReal
      have hp := two_pow_pos s
      have : x < (-l.inOffset) * 2 ^ s := (Int.ediv_lt_iff_lt_mul hp).1 (by omega)
      have h2 : (x : ℝ) ≤ ((-l.inOffset : Int) : ℝ) * 2 ^ s := by exact_mod_cast this.le
      have : (x : ℝ) / 2 ^ s ≤ ((-l.inOffset : Int) : ℝ) := by rw [div_le_iff₀ (by positivity)]; exact h2
      gcongr
  by_cases c2 : l.length - 2 < x / 2 ^ s + l.inOffset
  · have hi0 : i = l.length - 2 := by omega
    refine le_max_of_le_left (h.right y r ?_ (by rw [hi0, show l.length - 2 + 1 = l.length - 1 by ring] at hb; exact hb))
    rcases hy with ⟨hc, -⟩ | ⟨-, hy⟩ | rfl
    · omega
    · exact hy
    · rw [fxReal_shift]
      unfold fxReal
      have hp := two_pow_pos s
      have : (l.length - 1 - l.inOffset) * 2 ^ s ≤ x := (Int.le_ediv_iff_mul_le hp).1 (by omega)
      have h2 : ((l.length - 1 - l.inOffset : Int) : ℝ) * 2 ^ s ≤ (x : ℝ) := by exact_mod_cast this
      have : ((l.length - 1 - l.inOffset : Int) : ℝ) ≤ (x : ℝ) / 2 ^ s := by rw [le_div_iff₀ (by positivity)]; exact h2
      gcongr
  have hy : y = fxReal x (l.inFrac + s) := by
    rcases hy with ⟨hc, -⟩ | ⟨hc, -⟩ | hy
    · exact absurd hc c1
    · exact absurd hc c2
    · exact hy
  refine le_max_of_le_right ?_
  have hie : i = x / 2 ^ s + l.inOffset := by omega
  have hp := two_pow_pos s
  have hm0 := Int.emod_nonneg x (show (2 ^ s : Int) ≠ 0 by omega)
  have hm1 := Int.emod_lt_of_pos x hp
  have hdm := Int.mul_ediv_add_emod x (2 ^ s)
  have hpr : (0 : ℝ) < 2 ^ s := by positivity
  have ht0 : 0 ≤ ((x % 2 ^ s : Int) : ℝ) / 2 ^ s := div_nonneg (by exact_mod_cast hm0) hpr.le
  have ht1 : ((x % 2 ^ s : Int) : ℝ) / 2 ^ s ≤ 1 := by
    rw [div_le_one hpr]; exact_mod_cast hm1.le
  have hx : (x : ℝ) / 2 ^ s = ((i - l.inOffset : Int) : ℝ) + ((x % 2 ^ s : Int) : ℝ) / 2 ^ s := by
    have e : (x : ℝ) = 2 ^ s * ((i - l.inOffset : Int) : ℝ) + ((x % 2 ^ s : Int) : ℝ) := by
      have : i - l.inOffset = x / 2 ^ s := by omega
      rw [this]; exact_mod_cast hdm.symm
    rw [eq_comm, ← sub_eq_zero]
    field_simp
    linarith
  have hch := h.chord i _ (by omega) (by omega) ht0 ht1
  have n0 := h.node i (by omega) (by omega)
  have n1 := h.node (i + 1) (by omega) (by omega)
  rw [hy, fxReal_shift, hx]
  generalize g (((i - l.inOffset : Int) + ((x % 2 ^ s : Int) : ℝ) / 2 ^ s) / (2 : ℝ) ^ l.inFrac) = gy at *
  generalize g (fxReal (i - l.inOffset) l.inFrac) = g0 at *
  generalize g (fxReal (i + 1 - l.inOffset) l.inFrac) = g1 at *
  unfold Nearest at hn
  generalize l.data.get i = a at *
  generalize l.data.get (i + 1) = b at *
  have hn' : |(a : ℝ) + (b - a) * (((x % 2 ^ s : Int) : ℝ) / 2 ^ s) - r| ≤ 1 / 2 := by
    obtain ⟨k1, k2⟩ := hn
    have k1' : -(2 : ℝ) ^ s ≤ 2 * ((a * 2 ^ s + (b - a) * ((x % 2 ^ s : Int) : ℝ)) - r * 2 ^ s) := by exact_mod_cast k1
    have k2' : 2 * (((a : ℝ) * 2 ^ s + (b - a) * ((x % 2 ^ s : Int) : ℝ)) - r * 2 ^ s) ≤ 2 ^ s := by exact_mod_cast k2
    have e : (a : ℝ) + (b - a) * (((x % 2 ^ s : Int) : ℝ) / 2 ^ s) - r =
        ((a * 2 ^ s + (b - a) * ((x % 2 ^ s : Int) : ℝ)) - r * 2 ^ s) / 2 ^ s := by field_simp
    rw [e, abs_le]
    constructor
    · rw [le_div_iff₀ hpr]; linarith
    · rw [div_le_iff₀ hpr]; linarith
  generalize ((x % 2 ^ s : Int) : ℝ) / 2 ^ s = t at *
  have hc' : |2 ^ 15 * gy - ((1 - t) * (2 ^ 15 * g0) + t * (2 ^ 15 * g1))| ≤ C := by
    rw [show (2:ℝ) ^ 15 * gy - ((1 - t) * (2 ^ 15 * g0) + t * (2 ^ 15 * g1)) = 2 ^ 15 * (gy - ((1 - t) * g0 + t * g1)) by ring,
      abs_mul, abs_of_pos (by positivity : (0:ℝ) < 2 ^ 15)]
    exact hch
  generalize (2:ℝ) ^ 15 * g0 = G0 at *
  generalize (2:ℝ) ^ 15 * g1 = G1 at *
  generalize (2:ℝ) ^ 15 * gy = G at *
  rw [abs_le] at n0 n1 hn' hc' ⊢
  have a1 := mul_le_mul_of_nonneg_left n0.1 (show 0 ≤ 1 - t by linarith)
  have a2 := mul_le_mul_of_nonneg_left n0.2 (show 0 ≤ 1 - t by linarith)
  have a3 := mul_le_mul_of_nonneg_left n1.1 ht0
  have a4 := mul_le_mul_of_nonneg_left n1.2 ht0
  constructor <;> nlinarith

/-- The lookup of an input with `f` fractional bits. -/
theorem Approx.interp {l : Lut} {g : ℝ → ℝ} {E C B L : ℝ} (h : Approx l g E C B L) (hL : 0 ≤ L) (m : Rnd) (f v : Int) (hv : InRange 32 v)
    (hl : l.Ok) (hd : l.Smooth) (hs : 0 < f - l.inFrac) (hf : f - l.inFrac ≤ 30 ∨ |v| ≤ 2 ^ 16) :
    ∃ r, lutInterp m l f v = some r ∧ |(r : ℝ) - 2 ^ 15 * g (fxReal v f)| ≤ max B (E + C + 1 / 2) + 4 * L / 2 ^ l.inFrac := by
  obtain ⟨r, h1, h2⟩ := c29_interpolated m l f v hv hl hd hs
  refine ⟨r, h1, ?_⟩
  generalize hS : (min (f - l.inFrac) 15).toNat = s at *
  generalize hP : (min (max (f - l.inFrac - 15) 0) 15).toNat = p at *
  have k := h.table s _ r _ hl.two h2 (Or.inr (Or.inr rfl))
  have hI : (0:ℝ) < (2:ℝ) ^ l.inFrac := by positivity
  have hd : 2 ^ 15 * |fxReal v f - fxReal (v / 2 ^ p) (l.inFrac + s)| ≤ 4 / 2 ^ l.inFrac := by
    rw [fxReal_shift]
    have ef : fxReal v f = (v : ℝ) / 2 ^ (f - l.inFrac).toNat / 2 ^ l.inFrac := by
      rw [← fxReal_shift]; congr 1; omega
    rw [ef, ← sub_div, abs_div, abs_of_pos hI, ← mul_div_assoc]
    gcongr
    by_cases c1 : f - l.inFrac ≤ 15
    · obtain rfl : p = 0 := by omega
      have : s = (f - l.inFrac).toNat := by omega
      rw [this]; simp
    · obtain rfl : s = 15 := by omega
      have hpp := two_pow_pos p
      have hm0 := Int.emod_nonneg v (show (2 ^ p : Int) ≠ 0 by omega)
      have hm1 := Int.emod_lt_of_pos v hpp
      have hdm := Int.mul_ediv_add_emod v (2 ^ p)
      have hpr : (0 : ℝ) < 2 ^ p := by positivity
      have e1 : ((v / 2 ^ p : Int) : ℝ) = (v : ℝ) / 2 ^ p - ((v % 2 ^ p : Int) : ℝ) / 2 ^ p := by
        have : (2:ℝ) ^ p * ((v / 2 ^ p : Int) : ℝ) + ((v % 2 ^ p : Int) : ℝ) = v := by exact_mod_cast hdm
        rw [← sub_div, eq_div_iff hpr.ne']; linarith
      have t0 : 0 ≤ ((v % 2 ^ p : Int) : ℝ) / 2 ^ p := div_nonneg (by exact_mod_cast hm0) hpr.le
      have t1 : ((v % 2 ^ p : Int) : ℝ) / 2 ^ p ≤ 1 := by rw [div_le_one hpr]; exact_mod_cast hm1.le
      by_cases c2 : f - l.inFrac ≤ 30
      · have e2 : (f - l.inFrac).toNat = p + 15 := by omega
        rw [e2, e1, pow_add]
        generalize ((v % 2 ^ p : Int) : ℝ) / 2 ^ p = t at *
        rw [show (v : ℝ) / (2 ^ p * 2 ^ 15) - ((v : ℝ) / 2 ^ p - t) / 2 ^ 15 = t / 2 ^ 15 by field_simp; ring, abs_of_nonneg (by positivity)]
        rw [mul_div_cancel₀ _ (by positivity)]; linarith
      · obtain rfl : p = 15 := by omega
        have hv' : |(v : ℝ)| ≤ 2 ^ 16 := by
          rcases hf with hf | hf
          · omega
          · exact_mod_cast hf
        obtain ⟨n, hn⟩ : ∃ n, (f - l.inFrac).toNat = 31 + n := ⟨(f - l.inFrac).toNat - 31, by omega⟩
        rw [e1, hn]
        generalize ((v % 2 ^ 15 : Int) : ℝ) / 2 ^ 15 = t at *
        have k1 : |(v : ℝ) / 2 ^ (31 + n)| ≤ 1 / 2 ^ 15 := by
          rw [abs_div, abs_of_pos (by positivity : (0:ℝ) < 2 ^ (31 + n)), div_le_div_iff₀ (by positivity) (by positivity)]
          have : (2:ℝ) ^ 31 ≤ 2 ^ (31 + n) := pow_le_pow_right₀ (by norm_num) (by omega)
          norm_num at *; nlinarith
        rw [abs_le] at hv' k1
        rw [← abs_of_pos (by positivity : (0:ℝ) < 2 ^ 15), ← abs_mul, abs_of_pos (by positivity : (0:ℝ) < 2 ^ 15), abs_le]
        norm_num at *
        constructor <;> nlinarith
  have hlip := h.lip (fxReal (v / 2 ^ p) (l.inFrac + s)) (fxReal v f)
  generalize g (fxReal (v / 2 ^ p) (l.inFrac + s)) = G at *
  generalize g (fxReal v f) = G' at *
  generalize |fxReal v f - fxReal (v / 2 ^ p) (l.inFrac + s)| = d at *
  have h3 : 2 ^ 15 * |G' - G| ≤ 4 * L / 2 ^ l.inFrac := by
    calc (2:ℝ) ^ 15 * |G' - G| ≤ 2 ^ 15 * (L * d) := by gcongr
      _ = L * (2 ^ 15 * d) := by ring
      _ ≤ L * (4 / 2 ^ l.inFrac) := by gcongr
      _ = _ := by ring
  have e : (r : ℝ) - 2 ^ 15 * G' = (r - 2 ^ 15 * G) + -(2 ^ 15 * (G' - G)) := by ring
  rw [e]
  refine (abs_add_le _ _).trans (add_le_add k ?_)
  rw [abs_neg, abs_mul, abs_of_pos (by positivity : (0:ℝ) < 2 ^ 15)]
  exact h3

end Mli
