import Verif.Props.Math
import Mathlib.Algebra.Order.Ring.Abs
import Verif.Props.View
import Verif.Props.EncodeWts

/-!
# C02 – C05, C26, C86: the remaining entry points

The shifts in the other direction, the fractional multiplication, the 32-bit accumulator store, element access through a view, and the input zero
points of a depthwise convolution.
-/

namespace Mli

open Spec

/-- C02: `mli_math_asr_fx` divides by `2^n` towards minus infinity, also for amounts at or beyond the width. -/
theorem c02_asr_floor (w : Nat) (hw : 1 ≤ w) (x : Int) (hx : InRange w x) (n : Nat) : IsFloorDiv x (2 ^ n) (asrFx w x n) := by
  have hp := two_pow_pos n
  rw [asrFx_nonneg hw hx]
  have h1 := Int.mul_ediv_add_emod x (2 ^ n)
  have h2 := Int.emod_nonneg x (b := 2 ^ n) (by omega)
  have h3 := Int.emod_lt_of_pos x hp
  constructor <;> nlinarith

/-- C02: a negative amount of `mli_math_asr_fx` scales up with saturation. -/
theorem c02_asr_neg_clamp (w : Nat) (hw : 1 ≤ w) (x : Int) (hx : InRange w x) (n : Nat) : asrFx w x (-(n : Int)) = clamp w (x * 2 ^ n) :=
  asrFx_neg hw hx n

example : InRange 16 (-300) ∧ asrFx 16 (-300) 3 = -38 ∧ asrFx 16 (-300) 40 = -1 ∧ asrFx 16 (-300) (-7) = -32768 := by decide

/-- C03: the rounding left shift scales up with saturation, in both builds. -/
theorem c03_asl_rnd_up (m : Rnd) (w : Nat) (hw : 2 ≤ w) (x : Int) (hx : InRange w x) (n : Nat) :
    aslRndFx m w x n = clamp w (x * 2 ^ n) := asrRnd_neg (by omega) hx n

/-- C03: a negative amount of the rounding left shift rounds half to even in convergent builds. -/
theorem c03_asl_rnd_down (w : Nat) (hw : 2 ≤ w) (x : Int) (hx : InRange w x) (n : Nat) :
    RoundHalfEven x (2 ^ n) (aslRndFx .convergent w x (-(n : Int))) := by
  unfold aslRndFx
  rw [Int.neg_neg]
  exact c03_convergent_round_half_even w hw x hx n

/-- C04: … and half up in the other builds.  Partial: as `c04_round_half_up_partial`. -/
theorem c04_asl_rnd_partial (w : Nat) (hw : 2 ≤ w) (x : Int) (hx : InRange w x) (n : Nat)
    (h : n = 0 ∨ w ≤ n ∨ x + 2 ^ (n - 1) ≤ hi w) : RoundHalfUp x (2 ^ n) (aslRndFx .up w x (-(n : Int))) := by
  unfold aslRndFx
  rw [Int.neg_neg]
  exact c04_round_half_up_partial w hw x hx n h

example : aslRndFx .convergent 8 100 (-3) = 12 ∧ aslRndFx .up 8 100 (-3) = 13 ∧ aslRndFx .up 8 100 1 = 127 := by decide

/-- C04: the fractional multiplication of 32-bit numbers rounds half up, in all builds.  Partial: except for the product of the two smallest
numbers (`c04_mul_high_violated`). -/
theorem c04_mul_high_partial (L R : Int) (hL : InRange 32 L) (hR : InRange 32 R) (h : ¬ (L = lo 32 ∧ R = lo 32)) :
    RoundHalfUp (L * R) (2 ^ 31) (mulFxHigh L R) := by
  have e1 : lo 32 = -2147483648 := by decide
  have e2 : hi 32 = 2147483647 := by decide
  obtain ⟨l1, l2⟩ := hL
  obtain ⟨r1, r2⟩ := hR
  rw [e1] at l1 r1 h
  rw [e2] at l2 r2
  have hlow : -(2 ^ 62) ≤ L * R := by
    have h1 : |L| ≤ 2147483648 := abs_le.2 ⟨by omega, by omega⟩
    have h2 : |R| ≤ 2147483648 := abs_le.2 ⟨by omega, by omega⟩
    have h3 : |L * R| ≤ 2147483648 * 2147483648 := by
      rw [abs_mul]
      exact mul_le_mul h1 h2 (abs_nonneg _) (by decide)
    have := (abs_le.1 h3).1
    omega
  have hbound : L * R ≤ 2 ^ 62 - 2 ^ 30 - 1 := by
    rcases Int.lt_or_le L 0 with hl | hl
    · rcases Int.lt_or_le R 0 with hr | hr
      · by_cases c : L = -2147483648
        · have : R ≠ -2147483648 := fun h' => h ⟨c, h'⟩
          subst c
          omega
        · have : (-L) * (-R) ≤ 2147483647 * 2147483648 := mul_le_mul (by omega) (by omega) (by omega) (by omega)
          rw [neg_mul_neg] at this
          omega
      · have : L * R ≤ 0 := mul_nonpos_of_nonpos_of_nonneg (by omega) hr
        omega
    · rcases Int.lt_or_le R 0 with hr | hr
      · have : L * R ≤ 0 := mul_nonpos_of_nonneg_of_nonpos hl (by omega)
        omega
      · have : L * R ≤ 2147483647 * 2147483647 := mul_le_mul (by omega) (by omega) (by omega) (by omega)
        omega
  unfold mulFxHigh
  generalize L * R = P at *
  rw [Int.shiftRight_eq_div_pow, wrap_of_inRange (by omega) (by constructor <;> simp only [lo, hi] <;> omega)]
  constructor <;> omega

/-- **Violation**: the fractional product of the two smallest numbers, -1 times -1, is -1. -/
theorem c04_mul_high_violated : mulFxHigh (-2 ^ 31) (-2 ^ 31) = -2 ^ 31 ∧ ¬ RoundHalfUp ((-2 ^ 31) * (-2 ^ 31)) (2 ^ 31) (mulFxHigh (-2 ^ 31) (-2 ^ 31)) := by
  have e : mulFxHigh (-2 ^ 31) (-2 ^ 31) = -2 ^ 31 := by decide +kernel
  refine ⟨e, ?_⟩
  rw [e]
  unfold RoundHalfUp
  decide

example : InRange 32 (-1610612736) ∧ InRange 32 1073741825 ∧ mulFxHigh (-1610612736) 1073741825 = -805306369 := by decide +kernel

/-- C05: the store of the 32-bit accumulator without narrowing is the scaled value, correctly rounded and limited, in convergent builds. -/
theorem c05_acc_cast32 (x : Int) (hx : InRange 32 x) (s : Int) : ∃ r, Scaled .convergent x s r ∧ accCast32 .convergent x s = clamp 32 r := by
  obtain ⟨r, h1, h2⟩ := c05_cast_convergent 32 32 (by decide) (le_refl _) x hx s
  refine ⟨r, h1, ?_⟩
  unfold accCast32
  rcases Int.lt_or_le s 0 with hs | hs
  · obtain ⟨k, rfl⟩ : ∃ k : Nat, s = -(k : Int) := ⟨(-s).toNat, by omega⟩
    rw [asrRnd_neg (by omega) hx]
    unfold Scaled at h1
    rw [if_neg (by omega)] at h1
    rw [h1]
    congr 3
    omega
  · obtain ⟨k, rfl⟩ : ∃ k : Nat, s = (k : Int) := ⟨s.toNat, by omega⟩
    unfold Scaled at h1
    rw [if_pos (by omega), Int.toNat_natCast] at h1
    have h3 := c03_convergent_round_half_even 32 (by decide) x hx k
    have e := RoundHalfEven.unique (two_pow_pos k) h3 h1
    rw [e]
    have hk : InRange 32 r := by
      obtain ⟨a, b⟩ := hx
      obtain ⟨c, d, -⟩ := h1
      have hp := two_pow_pos k
      have e1 : lo 32 = -2147483648 := by decide
      have e2 : hi 32 = 2147483647 := by decide
      rw [e1] at a
      rw [e2] at b
      constructor
      · rw [e1]
        by_contra hc
        nlinarith
      · rw [e2]
        by_contra hc
        have : r * 2 ^ k ≥ 2147483648 * 2 ^ k := by nlinarith
        nlinarith
    rw [clamp_of_inRange hk]

example : accCast32 .convergent 1000003 2 = 250001 ∧ accCast32 .convergent 1000000007 (-5) = 2147483647 := by decide +kernel

end Mli

namespace Mli.Cs

open Mli Mli.Spec Mli.Iter

/-- C26: `read` and `write` at the offset of a position access the cell of the position, as long as the byte offset of the view has 32 bits. -/
theorem c26_access (v : View) (h : v.Ok) (es : Int) (hes : 1 ≤ es) (hb : v.offs * es < 2 ^ 32) (pos : List Int)
    (hp : pos.length = v.rank) : v.access es es (v.getOffset pos) = v.cell pos := access_cell v h es hes hb pos hp

example : let v := mkView 2 5 [3, 4] [7, 1] 2
    v.offs * 4 < 2 ^ 32 ∧ [2, 3].length = v.rank ∧ v.access 4 4 (v.getOffset [2, 3]) = 22 := by decide

end Mli.Cs

namespace Mli.Rt

open Mli Mli.Spec

/-- C86: a depthwise convolution takes one zero point for the whole input or one for each channel, and refuses anything else without effect. -/
theorem c86_depthwise_input (b h wd g c : Int) (z : HostBuf) (d qa : Int) (enc : HostBuf) (ez : z.es = 1) (ee : enc.es = 1) (hd : 1 ≤ d)
    (hz : d ≤ z.mem.size) (hs : d ≤ enc.mem.size) :
    ∃ st qa' enc', dwInpZp [b, h, wd, g, c] z d qa enc = some (st, qa', enc') ∧
      (st = .ok ∨ st = .shapeMismatch) ∧ (st = .ok ↔ d = 1 ∨ d = c) ∧
      (st = .ok → qa' = (if d = 1 then -1 else 4) ∧ Patched enc enc' 0 d z.mem.get) ∧
      (st ≠ .ok → qa' = qa ∧ enc' = enc) := c86_zero_points 4 c z d qa enc ez ee hd hz hs

end Mli.Rt
