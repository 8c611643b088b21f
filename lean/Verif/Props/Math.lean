import Verif.Lemmas.Math

/-! # C01–C07: the fixed-point primitives every kernel is built from -/

namespace Mli

open Spec

/-! ## C01 -/

/-- Saturating addition never overflows internally and returns the exact sum, clamped. -/
theorem c01_add_exact (w : Nat) (x y : Int) (hx : InRange w x) (hy : InRange w y) :
    addFx? w x y = some (clamp w (x + y)) := by
  rw [addFx?_eq hx hy, addFx_eq hx hy]

/-- Saturating subtraction never overflows internally and returns the exact difference, clamped. -/
theorem c01_sub_exact (w : Nat) (x y : Int) (hx : InRange w x) (hy : InRange w y) :
    subFx? w x y = some (clamp w (x - y)) := by
  rw [subFx?_eq hx hy, subFx_eq hx hy]

/-- Negation and absolute value, clamped. -/
theorem c01_neg_exact (w : Nat) (x : Int) (hx : InRange w x) : negFx w x = clamp w (-x) := by
  obtain ⟨a, b⟩ := hx
  have h3 : lo w = - hi w - 1 := by rw [lo_eq, hi_eq]; omega
  have := hi_nonneg w
  unfold negFx clamp
  split <;> split <;> (try split) <;> omega

theorem c01_abs_exact (w : Nat) (x : Int) (hx : InRange w x) : absFx w x = clamp w |x| := by
  unfold absFx
  split
  · rename_i h; rw [abs_of_nonneg h, clamp_of_inRange hx]
  · rename_i h; rw [c01_neg_exact w x hx, abs_of_neg (by omega)]

example : InRange 8 100 ∧ InRange 8 100 ∧ addFx? 8 100 100 = some 127 ∧ subFx? 8 (-100) 100 = some (-128) := by
  decide

/-! ## C02 -/

/-- Scaling up by `2^n`, for every `n` (also `n ≥ w`), is exact up to clamping. -/
theorem c02_asl_clamp (w : Nat) (hw : 1 ≤ w) (x : Int) (hx : InRange w x) (n : Nat) :
    aslFx w x n = clamp w (x * 2 ^ n) := aslFx_nonneg hw hx n

/-- A negative amount divides by `2^n` towards minus infinity. -/
theorem c02_asl_neg_floor (w : Nat) (hw : 1 ≤ w) (x : Int) (hx : InRange w x) (n : Nat) :
    IsFloorDiv x (2 ^ n) (aslFx w x (-(n : Int))) := by
  have hp := two_pow_pos n
  have e : aslFx w x (-(n : Int)) = x / 2 ^ n := by
    by_cases h : n = 0
    · subst h
      have := aslFx_nonneg hw hx 0
      simp only [Nat.cast_zero, neg_zero, pow_zero, mul_one] at this ⊢
      rw [this, clamp_of_inRange hx]; simp
    · exact aslFx_neg hw hx n (by omega)
  rw [e]
  have h1 := Int.mul_ediv_add_emod x (2 ^ n)
  have h2 := Int.emod_nonneg x (b := 2 ^ n) (by omega)
  have h3 := Int.emod_lt_of_pos x hp
  constructor <;> nlinarith

example : InRange 16 (-300) ∧ aslFx 16 (-300) 7 = -32768 ∧ aslFx 16 (-300) 5 = -9600
    ∧ aslFx 16 (-300) (-3) = -38 := by decide

/-! ## C03 -/

/-- Convergent right shift: nearest integer, ties to even; for `n < 0` exact up to clamping. -/
theorem c03_convergent_round_half_even (w : Nat) (hw : 2 ≤ w) (x : Int) (hx : InRange w x) (n : Nat) :
    RoundHalfEven x (2 ^ n) (asrRndFx .convergent w x n) := by
  rw [asrRnd_convergent_nonneg hw hx]; exact rhe_spec x n

theorem c03_negative_amount (m : Rnd) (w : Nat) (hw : 2 ≤ w) (x : Int) (hx : InRange w x) (n : Nat) :
    asrRndFx m w x (-(n : Int)) = clamp w (x * 2 ^ n) := asrRnd_neg (by omega) hx n

/-- The rule determines the result, so the theorem above pins it down completely. -/
theorem c03_spec_unique (x d r s : Int) (hd : 0 < d) (hr : RoundHalfEven x d r)
    (hs : RoundHalfEven x d s) : r = s := RoundHalfEven.unique hd hr hs

example : InRange 8 (-100) ∧ asrRndFx .convergent 8 (-100) 3 = -12 ∧
    asrRndFx .convergent 8 100 3 = 12 ∧ asrRndFx .convergent 8 108 3 = 14 ∧
    asrRndFx .convergent 8 127 9 = 0 := by decide

/-! ## C04 -/

/-- **Violation**: in the round-up configuration the half is added with saturation *before* the
shift, so values near the top of the range are rounded down: `127 / 2` gives 63, not 64. -/
theorem c04_round_up_violated :
    ∃ (x : Int) (n : Nat), InRange 8 x ∧ ¬ RoundHalfUp x (2 ^ n) (asrRndFx .up 8 x n) ∧
      ∃ r, InRange 8 r ∧ RoundHalfUp x (2 ^ n) r := by
  refine ⟨127, 1, by decide, ?_, 64, by decide, ?_⟩
  · rw [show asrRndFx .up 8 127 ((1 : Nat) : Int) = 63 by decide]
    unfold RoundHalfUp; decide
  · unfold RoundHalfUp; decide

/-- Missing from the full claim: `1 ≤ n < w` with `x > MAX - 2^(n-1)` (see the violation). -/
theorem c04_round_half_up_partial (w : Nat) (hw : 2 ≤ w) (x : Int) (hx : InRange w x) (n : Nat)
    (h : n = 0 ∨ w ≤ n ∨ x + 2 ^ (n - 1) ≤ hi w) :
    RoundHalfUp x (2 ^ n) (asrRndFx .up w x n) := by
  rw [asrRnd_up_nonneg hw hx n (by omega)]; exact rhu_spec x n

/-- In the excluded region the result is the floor of `MAX / 2^n`, which is one less than the
correctly rounded value: the error is never larger than one unit. -/
theorem c04_round_up_excluded (w : Nat) (hw : 2 ≤ w) (x : Int) (hx : InRange w x) (n : Nat)
    (h1 : 1 ≤ n) (h2 : n < w) (h : hi w < x + 2 ^ (n - 1)) :
    RoundHalfUp x (2 ^ n) (asrRndFx .up w x n + 1) := by
  obtain ⟨k, rfl⟩ : ∃ k, n = k + 1 := ⟨n - 1, by omega⟩
  rw [Nat.add_sub_cancel] at h
  rw [asrRnd_up_general hw hx k h2, clamp_of_gt (by omega)]
  obtain ⟨a, b⟩ := hx
  have hp := two_pow_pos k
  have e : (2 : Int) ^ (k + 1) = 2 * 2 ^ k := by rw [pow_succ]; ring
  have e2 : (2 : Int) ^ (w - 1) = 2 ^ (w - 1 - (k + 1)) * 2 ^ (k + 1) := (pow_sub_mul (by omega)).symm
  have e3 : hi w = (2 ^ (w - 1 - (k + 1)) - 1) * 2 ^ (k + 1) + (2 ^ (k + 1) - 1) := by
    rw [hi_eq, e2]; ring
  have e4 : hi w / 2 ^ (k + 1) = 2 ^ (w - 1 - (k + 1)) - 1 := by
    rw [e3, Int.add_comm, Int.add_mul_ediv_right _ _ (by omega),
      Int.ediv_eq_zero_of_lt (by omega) (by omega)]; omega
  rw [e4]
  have e5 : (2 : Int) ^ (w - 1 - (k + 1)) - 1 + 1 = 2 ^ (w - 1 - (k + 1)) := by omega
  rw [e5]
  unfold RoundHalfUp
  rw [← e2]
  rw [hi_eq] at b h
  constructor <;> omega

example : InRange 8 (-100) ∧ (-100 : Int) + 2 ^ (3 - 1) ≤ hi 8 ∧ asrRndFx .up 8 (-100) 3 = -12 ∧
    asrRndFx .up 8 100 3 = 13 := by decide

/-! ## C05 -/

theorem clamp_clamp {wo wi : Nat} (h : wo ≤ wi) (x : Int) : clamp wo (clamp wi x) = clamp wo x := by
  have hp : (2 : Int) ^ (wo - 1) ≤ 2 ^ (wi - 1) := pow_le_pow_right₀ (by decide) (by omega)
  have h1 := two_pow_pos (wo - 1)
  by_cases a : x < lo wi
  · rw [clamp_of_lt (w := wi) (by omega), clamp_of_lt, clamp_of_lt]
    · rw [lo_eq] at *; omega
    · rw [lo_eq, lo_eq]; omega
  · by_cases b : hi wi < x
    · rw [clamp_of_gt (w := wi) (by omega), clamp_of_gt, clamp_of_gt]
      · rw [hi_eq] at *; omega
      · rw [hi_eq, hi_eq]; omega
    · rw [clamp_of_inRange (w := wi) ⟨by omega, by omega⟩]

/-- Convergent configuration: every narrowing conversion from `wi` to `wo` bits returns the
correctly rounded scaled value, clamped to the destination range, for every value and shift. -/
theorem c05_cast_convergent (wi wo : Nat) (ho : 2 ≤ wo) (hio : wo ≤ wi) (x : Int)
    (hx : InRange wi x) (s : Int) :
    ∃ r, Scaled .convergent x s r ∧ castFx .convergent wi wo x s = clamp wo r := by
  rw [castFx_eq .convergent ho hio hx]
  rcases Int.lt_or_le s 0 with hs | hs
  · obtain ⟨k, rfl⟩ : ∃ k : Nat, s = -(k : Int) := ⟨(-s).toNat, by omega⟩
    refine ⟨x * 2 ^ k, ?_, ?_⟩
    · unfold Scaled; rw [if_neg (by omega)]; congr 2; omega
    · rw [asrRnd_neg (by omega) hx, clamp_clamp hio]
  · obtain ⟨k, rfl⟩ : ∃ k : Nat, s = (k : Int) := ⟨s.toNat, by omega⟩
    refine ⟨rhe x k, ?_, ?_⟩
    · unfold Scaled; rw [if_pos (by omega)]; exact rhe_spec x k
    · rw [asrRnd_convergent_nonneg (by omega) hx]

/-- Round-up configuration.  Missing: shifts `wi - wo < s < wi` of values above
`MAX - 2^(s-1)`, for which C04 is violated. -/
theorem c05_cast_up_partial (wi wo : Nat) (ho : 2 ≤ wo) (hio : wo ≤ wi) (x : Int)
    (hx : InRange wi x) (s : Int)
    (h : s ≤ (wi : Int) - wo ∨ (wi : Int) ≤ s ∨ x + 2 ^ (s.toNat - 1) ≤ hi wi) :
    ∃ r, Scaled .up x s r ∧ castFx .up wi wo x s = clamp wo r := by
  rw [castFx_eq .up ho hio hx]
  rcases Int.lt_or_le s 0 with hs | hs
  · obtain ⟨k, rfl⟩ : ∃ k : Nat, s = -(k : Int) := ⟨(-s).toNat, by omega⟩
    refine ⟨x * 2 ^ k, ?_, ?_⟩
    · unfold Scaled; rw [if_neg (by omega)]; congr 2; omega
    · rw [asrRnd_neg (by omega) hx, clamp_clamp hio]
  · obtain ⟨k, rfl⟩ : ∃ k : Nat, s = (k : Int) := ⟨s.toNat, by omega⟩
    refine ⟨rhu x k, ?_, ?_⟩
    · unfold Scaled; rw [if_pos (by omega)]; exact rhu_spec x k
    · by_cases hc : k = 0 ∨ wi ≤ k ∨ x + 2 ^ (k - 1) ≤ hi wi
      · rw [asrRnd_up_nonneg (by omega) hx k (by omega)]
      · have hk : (k : Int) ≤ (wi : Int) - wo := by
          rcases h with h | h | h
          · exact h
          · omega
          · rw [Int.toNat_natCast] at h; omega
        have hlt : hi wi < x + 2 ^ (k - 1) := by omega
        have hex := c04_round_up_excluded wi (by omega) x hx k (by omega) (by omega) hlt
        have hr : rhu x k = asrRndFx .up wi x k + 1 := RoundHalfUp.unique (two_pow_pos k) (rhu_spec x k) hex
        rw [hr]
        -- both are at or above the top of the destination range
        obtain ⟨j, rfl⟩ : ∃ j, k = j + 1 := ⟨k - 1, by omega⟩
        rw [Nat.add_sub_cancel] at hlt
        rw [asrRnd_up_general (by omega) hx j (by omega), clamp_of_gt (w := wi) (by omega)]
        have hge : hi wo ≤ hi wi / 2 ^ (j + 1) := by
          rw [Int.le_ediv_iff_mul_le (two_pow_pos _)]
          have h1 : (2 : Int) ^ (wo - 1) * 2 ^ (j + 1) ≤ 2 ^ (wi - 1) := by
            rw [← pow_add]; exact pow_le_pow_right₀ (by decide) (by omega)
          have h2 := two_pow_pos (j + 1)
          rw [hi_eq, hi_eq]; nlinarith
        rw [clamp_of_gt hge, clamp_of_gt (by omega)]

/-- The C04 deviation is visible through a cast too. -/
theorem c05_cast_up_violated :
    ∃ (x s : Int), InRange 32 x ∧ ∀ r, Scaled .up x s r → castFx .up 32 16 x s ≠ clamp 16 r := by
  refine ⟨2147483647, 18, by decide, ?_⟩
  intro r hr
  have : r = 8192 := by
    unfold Scaled at hr
    rw [if_pos (by decide)] at hr
    refine RoundHalfUp.unique (d := 2 ^ 18) (by decide) hr ?_
    unfold RoundHalfUp; decide
  subst this; decide

/-- The 8- and 16-bit accumulator stores used by the kernels are the same conversion. -/
theorem c05_acc_cast_is_cast (m : Rnd) (x : Int) (hx : InRange 32 x) (s : Int) :
    accCast8 m x s = castFx m 32 8 x s ∧ accCast16 m x s = castFx m 32 16 x s := by
  rw [accCast8_eq m hx, accCast16_eq m hx, castFx_eq m (by omega) (by omega) hx,
    castFx_eq m (by omega) (by omega) hx]
  exact ⟨rfl, rfl⟩

/-- A conversion never turns a non-negative value negative or a non-positive one positive,
whatever the mode and shift. -/
theorem c05_cast_sign (m : Rnd) (wi wo : Nat) (ho : 2 ≤ wo) (hio : wo ≤ wi) (x : Int)
    (hx : InRange wi x) (s : Int) :
    (0 ≤ x → 0 ≤ castFx m wi wo x s) ∧ (x ≤ 0 → castFx m wi wo x s ≤ 0) := by
  have h0 : InRange wi 0 := ⟨by have := lo_neg wi; omega, hi_nonneg wi⟩
  have hz : castFx m wi wo 0 s = 0 := by
    rw [castFx_eq m ho hio h0]
    have h1 : InRange wo 0 := ⟨by have := lo_neg wo; omega, hi_nonneg wo⟩
    have : asrRndFx m wi 0 s = 0 := by
      rcases Int.lt_or_le s 0 with hs | hs
      · obtain ⟨k, rfl⟩ : ∃ k : Nat, s = -(k : Int) := ⟨(-s).toNat, by omega⟩
        rw [asrRnd_neg (by omega) h0, Int.zero_mul, clamp_of_inRange h0]
      · obtain ⟨k, rfl⟩ : ∃ k : Nat, s = (k : Int) := ⟨s.toNat, by omega⟩
        have hp := two_pow_pos k
        cases m with
        | convergent =>
          rw [asrRnd_convergent_nonneg (by omega) h0]
          apply RoundHalfEven.unique hp (rhe_spec 0 k)
          refine ⟨?_, ?_, ?_⟩ <;> omega
        | up =>
          have hc : k = 0 ∨ (wi : Int) - 1 < k ∨ (0 : Int) ≤ hi wi - 2 ^ (k - 1) := by
            by_cases hk : k = 0
            · left; exact hk
            · by_cases hk2 : (wi : Int) - 1 < k
              · right; left; exact hk2
              · right; right
                have : (2 : Int) ^ (k - 1) ≤ 2 ^ (wi - 2) := pow_le_pow_right₀ (by decide) (by omega)
                have e : (2 : Int) ^ (wi - 1) = 2 * 2 ^ (wi - 2) := by
                  have := two_pow_split (w := wi - 1) (by omega)
                  rw [this]; congr 1
                have := two_pow_pos (wi - 2)
                rw [hi_eq, e]; omega
          rw [asrRnd_up_nonneg (by omega) h0 k hc]
          apply RoundHalfUp.unique hp (rhu_spec 0 k)
          refine ⟨?_, ?_⟩ <;> omega
    rw [this, clamp_of_inRange h1]
  have mono : ∀ a b, InRange wi a → InRange wi b → a ≤ b → castFx m wi wo a s ≤ castFx m wi wo b s := by
    intro a b ha hb hab
    rw [castFx_eq m ho hio ha, castFx_eq m ho hio hb]
    exact clamp_mono (asrRnd_mono m (by omega) ha hb s hab)
  constructor
  · intro h; have := mono 0 x h0 hx h; omega
  · intro h; have := mono x 0 hx h0 h; omega

/-- **Violation**: the 16-bit to 40-bit-accumulator conversion goes through `int32_t` and wraps. -/
theorem c05_acc40_violated : ∃ (x s : Int), InRange 16 x ∧ 0 < x ∧ castFxAcc40 .convergent x s < 0 := by
  refine ⟨1, -31, by decide, by decide, by decide⟩

/-- The 16-bit to 40-bit conversion is exact for shifts above `-17`.
Missing: larger left shifts, for which the value wraps. -/
theorem c05_acc40_partial (m : Rnd) (x : Int) (hx : InRange 16 x) (n : Nat) (hn : n ≤ 16) :
    castFxAcc40 m x (-(n : Int)) = x * 2 ^ n := by
  have e1 : lo 16 = -32768 := by decide
  have e2 : hi 16 = 32767 := by decide
  have e3 : lo 32 = -2147483648 := by decide
  have e4 : hi 32 = 2147483647 := by decide
  have e5 : lo 64 = -9223372036854775808 := by decide
  have e6 : hi 64 = 9223372036854775807 := by decide
  obtain ⟨a, b⟩ := hx
  have hp := two_pow_pos n
  have hp2 : (2 : Int) ^ n ≤ 2 ^ 16 := pow_le_pow_right₀ (by decide) hn
  have h1 : -2147483648 ≤ x * 2 ^ n := by nlinarith
  have h2 : x * 2 ^ n ≤ 2147483647 := by nlinarith
  unfold castFxAcc40
  rw [asrRnd_neg (by omega) ⟨by omega, by omega⟩, clamp_of_inRange ⟨by omega, by omega⟩,
    wrap_of_inRange (by omega) ⟨by omega, by omega⟩]

example : InRange 32 1000001 ∧ castFx .convergent 32 8 1000001 14 = 61 ∧
    castFx .convergent 32 8 1000001 3 = 127 ∧ castFx .up 32 8 1000001 14 = 61 ∧
    castFx .up 32 16 (-1000001) 14 = -61 ∧ castFx .up 32 16 (-1000001) 0 = -32768 := by decide

/-! ## C06 -/

/-- Narrowing conversions preserve order, in both rounding modes and for every shift. -/
theorem c06_cast_monotone (m : Rnd) (wi wo : Nat) (ho : 2 ≤ wo) (hio : wo ≤ wi) (x y : Int)
    (hx : InRange wi x) (hy : InRange wi y) (h : x ≤ y) (s : Int) :
    castFx m wi wo x s ≤ castFx m wi wo y s := by
  rw [castFx_eq m ho hio hx, castFx_eq m ho hio hy]
  exact clamp_mono (asrRnd_mono m (by omega) hx hy s h)

/-- Same-width conversions (rounding shifts) preserve order. -/
theorem c06_shift_monotone (m : Rnd) (w : Nat) (hw : 2 ≤ w) (x y : Int)
    (hx : InRange w x) (hy : InRange w y) (h : x ≤ y) (s : Int) :
    castFxSame m w x s ≤ castFxSame m w y s := asrRnd_mono m hw hx hy s h

example : InRange 32 99 ∧ InRange 32 100 ∧ castFx .up 32 8 99 3 = 12 ∧ castFx .up 32 8 100 3 = 13 := by
  decide

/-! ## C07 -/

theorem normLoop_spec (x h : Int) : ∀ (fuel r : Nat), (∃ k, r ≤ k ∧ k < r + fuel ∧ x >>> k = h) →
    ∃ k, normLoop x h fuel r = some k ∧ r ≤ k ∧ k < r + fuel ∧ x >>> k = h ∧
      ∀ j, r ≤ j → j < k → x >>> j ≠ h := by
  intro fuel
  induction fuel with
  | zero => rintro r ⟨k, h1, h2, _⟩; omega
  | succ f ih =>
    rintro r ⟨k, h1, h2, h3⟩
    unfold normLoop
    by_cases hr : x >>> r ≠ h
    · rw [if_pos hr]
      have hk : r + 1 ≤ k := by
        by_contra hc
        have : k = r := by omega
        subst this; exact hr h3
      obtain ⟨k', a, b, c, d, e⟩ := ih (r + 1) ⟨k, hk, by omega, h3⟩
      refine ⟨k', a, by omega, by omega, d, ?_⟩
      intro j hj1 hj2
      by_cases hj : j = r
      · subst hj; exact hr
      · exact e j (by omega) hj2
    · rw [if_neg hr]
      refine ⟨r, rfl, le_rfl, by omega, by simpa using hr, ?_⟩
      intro j hj1 hj2; omega

/-- `mli_math_norm_fx` is defined for every value and returns the exact number of redundant
sign bits: the value can be scaled up by `2^n` without overflow, and not by `2^(n+1)`. -/
theorem c07_norm_defined (w : Nat) (hw : 1 ≤ w) (x : Int) (hx : InRange w x) :
    ∃ n : Nat, normFx? w x = some n ∧ n ≤ w - 1 ∧ InRange w (x * 2 ^ n) ∧
      (x ≠ 0 → ¬ InRange w (x * 2 ^ (n + 1))) ∧ (x = 0 → n = w - 1) := by
  by_cases h0 : x = 0
  · refine ⟨w - 1, ?_, le_rfl, ?_, by intro h; exact absurd h0 h, fun _ => rfl⟩
    · simp [normFx?, h0]; omega
    · subst h0; rw [Int.zero_mul]; exact hx
  · unfold normFx?
    simp only [if_neg h0]
    have key : ∀ r : Nat, r ≤ w - 1 → (x >>> r = (if x < 0 then (-1 : Int) else 0) ↔
        InRange w (x * 2 ^ (w - 1 - r))) := by
      intro r hr
      have hp := two_pow_pos r
      have hq := two_pow_pos (w - 1 - r)
      have hm : (2 : Int) ^ r * 2 ^ (w - 1 - r) = 2 ^ (w - 1) := by
        rw [← pow_add]; congr 1; omega
      rw [shr_eq]
      unfold InRange; rw [lo_eq, hi_eq, ← hm]
      split
      · rw [div_pow_eq_neg_one_iff]
        constructor
        · rintro ⟨a, b⟩
          constructor
          · nlinarith
          · have : x ≤ -1 := by omega
            nlinarith
        · rintro ⟨a, b⟩
          refine ⟨?_, by omega⟩
          by_contra hc
          have : x ≤ -(2 ^ r) - 1 := by omega
          nlinarith
      · rw [div_pow_eq_zero_iff]
        constructor
        · rintro ⟨a, b⟩
          constructor
          · nlinarith
          · have : x + 1 ≤ 2 ^ r := by omega
            nlinarith
        · rintro ⟨a, b⟩
          refine ⟨by omega, ?_⟩
          by_contra hc
          have : 2 ^ r ≤ x := by omega
          nlinarith
    have hlast := (key (w - 1) le_rfl).mpr (by simpa using hx)
    obtain ⟨k, a, b, c, d, e⟩ := normLoop_spec x (if x < 0 then (-1 : Int) else 0) w 0
      ⟨w - 1, by omega, by omega, hlast⟩
    refine ⟨w - 1 - k, ?_, by omega, (key k (by omega)).mp d, ?_, fun h => absurd h h0⟩
    · rw [a]
      simp only [Option.bind_eq_bind, Option.bind_some, Option.pure_def, Option.some.injEq]; omega
    · intro _ hc
      have hm := (hx : _ ∧ _)
      by_cases hk : k = 0
      · subst hk
        simp only [Nat.sub_zero] at hc
        have hww : w - 1 + 1 = w := by omega
        rw [hww] at hc
        obtain ⟨c1, c2⟩ := hc
        rw [lo_eq] at c1; rw [hi_eq] at c2
        have := two_pow_split hw
        have hp := two_pow_pos (w - 1)
        rcases Int.lt_or_le x 0 with hx0 | hx0
        · have : x ≤ -1 := by omega
          nlinarith
        · have : 1 ≤ x := by omega
          nlinarith
      · apply e (k - 1) (by omega) (by omega)
        apply (key (k - 1) (by omega)).mpr
        have : w - 1 - (k - 1) = w - 1 - k + 1 := by omega
        rw [this]; exact hc

theorem normFx_spec (w : Nat) (hw : 1 ≤ w) (x : Int) (hx : InRange w x) :
    ∃ n : Nat, normFx w x = n ∧ n ≤ w - 1 ∧ InRange w (x * 2 ^ n) ∧
      (x ≠ 0 → ¬ InRange w (x * 2 ^ (n + 1))) ∧ (x = 0 → n = w - 1) := by
  obtain ⟨n, h, rest⟩ := c07_norm_defined w hw x hx
  exact ⟨n, by unfold normFx; rw [h]; rfl, rest⟩

/-- Normalising cast: the mantissa is the value scaled by `2^-s`, correctly rounded and clamped,
in both rounding modes. -/
theorem c07_norm_cast_value (m : Rnd) (wi wo : Nat) (ho : 2 ≤ wo) (hio : wo < wi) (x : Int)
    (hx : InRange wi x) :
    ∃ r, Scaled m x (normCastFx m wi wo x).2 r ∧ (normCastFx m wi wo x).1 = clamp wo r := by
  obtain ⟨n, hn, hn2, _⟩ := normFx_spec wi (by omega) x hx
  unfold normCastFx
  simp only [if_neg (show ¬ wi = wo by omega)]
  cases m with
  | convergent => exact c05_cast_convergent wi wo ho (by omega) x hx _
  | up => exact c05_cast_up_partial wi wo ho (by omega) x hx _ (Or.inl (by omega))

/-- Normalising cast: the mantissa of a non-zero value uses the whole destination range. -/
theorem c07_norm_cast_full_range (m : Rnd) (wi wo : Nat) (ho : 2 ≤ wo) (hio : wo < wi) (x : Int)
    (hx : InRange wi x) (hx0 : x ≠ 0) : 2 ^ (wo - 2) ≤ |(normCastFx m wi wo x).1| := by
  obtain ⟨r, hr, hv⟩ := c07_norm_cast_value m wi wo ho hio x hx
  obtain ⟨n, hn, hn2, hin, hnot, _⟩ := normFx_spec wi (by omega) x hx
  have hs : (normCastFx m wi wo x).2 = (wi : Int) - wo - n := by
    unfold normCastFx; simp only [hn]
  rw [hv]
  rw [hs] at hr
  have hw1 : (2 : Int) ^ (wi - 1) = 2 * 2 ^ (wi - 2) := by
    have := two_pow_split (w := wi - 1) (by omega)
    rw [this]; congr 1
  have ho1 : (2 : Int) ^ (wo - 1) = 2 * 2 ^ (wo - 2) := by
    have := two_pow_split (w := wo - 1) (by omega)
    rw [this]; congr 1
  have hpo := two_pow_pos (wo - 2)
  -- lower bound on the normalised value
  have hpn := two_pow_pos n
  have hsplit : (2 : Int) ^ (wi - 2) = 2 ^ (wo - 2) * 2 ^ (wi - wo) := by
    rw [← pow_add]; congr 1; omega
  have hpd := two_pow_pos (wi - wo)
  have hbig : (0 < x → 2 ^ (wi - 2) ≤ x * 2 ^ n) ∧ (x < 0 → x * 2 ^ n < -(2 ^ (wi - 2))) := by
    have h2 := hnot hx0
    have e : x * 2 ^ (n + 1) = 2 * (x * 2 ^ n) := by rw [pow_succ]; ring
    unfold InRange at h2; rw [e, lo_eq, hi_eq, hw1] at h2
    constructor
    · intro hp
      have : 0 < x * 2 ^ n := by nlinarith
      have := two_pow_pos (wi - 2)
      omega
    · intro hp
      have : x * 2 ^ n < 0 := by nlinarith
      have := two_pow_pos (wi - 2)
      omega
  -- the rounded value keeps the bound
  have hrb : (0 < x → 2 ^ (wo - 2) ≤ r) ∧ (x < 0 → r ≤ -(2 ^ (wo - 2))) := by
    unfold Scaled at hr
    split at hr
    · rename_i hge
      obtain ⟨t, ht⟩ : ∃ t : Nat, (wi : Int) - wo - n = t := ⟨((wi : Int) - wo - n).toNat, by omega⟩
      have htn : wi - wo = t + n := by omega
      rw [ht, Int.toNat_natCast] at hr
      have hpt := two_pow_pos t
      have hmul : (2 : Int) ^ (wi - wo) = 2 ^ t * 2 ^ n := by rw [htn, pow_add]
      have hx1 : 0 < x → 2 ^ (wo - 2) * 2 ^ t ≤ x := by
        intro hp
        have h := hbig.1 hp
        rw [hsplit, hmul] at h
        by_contra hc
        nlinarith
      have hx2 : x < 0 → x ≤ -(2 ^ (wo - 2) * 2 ^ t) := by
        intro hp
        have h := hbig.2 hp
        rw [hsplit, hmul] at h
        by_contra hc
        nlinarith
      have hgen : -(2 ^ t : Int) ≤ 2 * (x - r * 2 ^ t) ∧ 2 * (x - r * 2 ^ t) ≤ 2 ^ t := by
        cases m with
        | up => obtain ⟨a, b⟩ := hr; omega
        | convergent => obtain ⟨a, b, c⟩ := hr; omega
      obtain ⟨g1, g2⟩ := hgen
      constructor
      · intro hp
        have := hx1 hp
        by_contra hc
        have : r ≤ 2 ^ (wo - 2) - 1 := by omega
        nlinarith
      · intro hp
        have := hx2 hp
        by_contra hc
        have : -(2 ^ (wo - 2)) + 1 ≤ r := by omega
        nlinarith
    · rename_i hge
      obtain ⟨t, ht⟩ : ∃ t : Nat, (wi : Int) - wo - n = -(t : Int) :=
        ⟨(-((wi : Int) - wo - n)).toNat, by omega⟩
      have htn : n = (wi - wo) + t := by omega
      rw [ht, Int.neg_neg, Int.toNat_natCast] at hr
      have e : x * 2 ^ n = r * 2 ^ (wi - wo) := by rw [hr, htn, pow_add]; ring
      rw [e, hsplit] at hbig
      constructor
      · intro hp
        have := hbig.1 hp
        exact le_of_mul_le_mul_right this hpd
      · intro hp
        have := hbig.2 hp
        by_contra hc
        nlinarith
  have hlohi : lo wo = -(2 * 2 ^ (wo - 2)) ∧ hi wo = 2 * 2 ^ (wo - 2) - 1 := by
    rw [lo_eq, hi_eq, ho1]; exact ⟨rfl, rfl⟩
  rcases Int.lt_or_le x 0 with hneg | hpos
  · have := hrb.2 hneg
    have hc : clamp wo r ≤ -(2 ^ (wo - 2)) := by
      unfold clamp; rw [hlohi.1, hlohi.2]; split
      · omega
      · split <;> omega
    rw [abs_of_neg (by omega)]; omega
  · have := hrb.1 (by omega)
    have hc : 2 ^ (wo - 2) ≤ clamp wo r := by
      unfold clamp; rw [hlohi.1, hlohi.2]; split
      · omega
      · split <;> omega
    rw [abs_of_pos (by omega)]; exact hc

example : normFx? 32 1000 = some 21 ∧ normFx? 8 (-1) = some 7 ∧ normFx? 8 (-128) = some 0 ∧
    normCastFx .convergent 32 16 100000 = (25000, 2) ∧ normCastFx .up 32 16 (-3) = (-24576, -13) := by
  decide

end Mli
