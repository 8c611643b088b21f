import Verif.Lemmas.Float
import Verif.Model.ConvertFloat
import Verif.Spec.Scale
import Verif.Lemmas.Math

/-! # One element converted from and to floating point -/

namespace Mli

open Spec

/-! ## The operations on finite numbers -/

theorem f32val_facts {a : Int} {x : ℚ} (h : f32val a = some x) :
    fisNan a = false ∧ (x ≠ 0 → f32neg a = decide (x < 0)) ∧ fgt0 a = decide (0 < x) := by
  unfold f32val at h
  by_cases hm : 255 * 2 ^ 23 ≤ f32mag a
  · rw [if_pos hm] at h; cases h
  rw [if_neg hm] at h
  have hn : fisNan a = false := by unfold fisNan; rw [decide_eq_false_iff_not]; omega
  have h0 : 0 ≤ f32mag a := by unfold f32mag; omega
  have hv := magVal_nonneg h0
  have hz : f32mag a ≠ 0 → 0 < magVal (f32mag a) := by
    intro hne
    unfold magVal
    by_cases hc : f32mag a / 2 ^ 23 = 0
    · rw [if_pos hc]
      have : (0 : ℚ) < f32mag a := by exact_mod_cast lt_of_le_of_ne h0 (Ne.symm hne)
      positivity
    · rw [if_neg hc]
      have : (0 : ℚ) < ((2 ^ 23 + f32mag a % 2 ^ 23 : Int) : ℚ) := by exact_mod_cast (by omega : 0 < 2 ^ 23 + f32mag a % 2 ^ 23)
      positivity
  have hz0 : magVal 0 = 0 := by norm_num [magVal]
  refine ⟨hn, fun hx => ?_, ?_⟩
  · have h := Option.some.inj h
    cases hs : f32neg a
    · rw [hs, if_neg (by simp)] at h
      rw [eq_comm, decide_eq_false_iff_not]; linarith
    · rw [hs, if_pos rfl] at h
      rw [eq_comm, decide_eq_true_iff]
      rcases hv.eq_or_lt with hv | hv
      · exfalso; apply hx; rw [← h, ← hv]; norm_num
      · linarith
  · have h := Option.some.inj h
    unfold fgt0
    rw [hn]
    cases hs : f32neg a
    · rw [hs, if_neg (by simp)] at h
      by_cases hm0 : f32mag a = 0
      · rw [hm0, hz0] at h; rw [← h]; simp [hm0]
      · have := hz hm0
        rw [h] at this
        simp [hm0, this]
    · rw [hs, if_pos rfl] at h
      have : ¬ 0 < x := by linarith
      simp [this]

theorem f32val_le {a : Int} {x : ℚ} (h : f32val a = some x) : |x| ≤ maxFloat := by
  unfold f32val at h
  by_cases hm : 255 * 2 ^ 23 ≤ f32mag a
  · rw [if_pos hm] at h; cases h
  rw [if_neg hm] at h
  have h0 : 0 ≤ f32mag a := by unfold f32mag; omega
  have hv := magVal_nonneg h0
  have hx : |x| = magVal (f32mag a) := by
    have := Option.some.inj h
    split at this
    · rw [← this, abs_neg, abs_of_nonneg hv]
    · rw [← this, abs_of_nonneg hv]
  rw [hx]
  unfold magVal
  by_cases hc : f32mag a / 2 ^ 23 = 0
  · rw [if_pos hc]
    have : (f32mag a : ℚ) ≤ ((2 ^ 23 : Int) : ℚ) := by exact_mod_cast (by omega)
    refine le_trans (mul_le_mul_of_nonneg_right this (by positivity)) ?_
    norm_num [maxFloat]
  · rw [if_neg hc]
    have h1 : ((2 ^ 23 + f32mag a % 2 ^ 23 : Int) : ℚ) ≤ ((16777215 : Int) : ℚ) := by exact_mod_cast (by omega)
    have h2 : (2 : ℚ) ^ (f32mag a / 2 ^ 23 - 150) ≤ 2 ^ (104 : Int) := two_le (by omega)
    refine le_trans (mul_le_mul h1 h2 (two_pos' _).le (by norm_num)) ?_
    norm_num [maxFloat]

theorem fmul_eq {a b : Int} {x y : ℚ} (hx : f32val a = some x) (hy : f32val b = some y) :
    fmul a b = ofRat (f32neg a != f32neg b) (x * y) ∧ (x * y ≠ 0 → (f32neg a != f32neg b) = decide (x * y < 0)) := by
  obtain ⟨n1, s1, -⟩ := f32val_facts hx
  obtain ⟨n2, s2, -⟩ := f32val_facts hy
  constructor
  · unfold fmul; rw [n1, n2, hx, hy]; rfl
  · intro h
    have hx0 : x ≠ 0 := left_ne_zero_of_mul h
    have hy0 : y ≠ 0 := right_ne_zero_of_mul h
    rw [s1 hx0, s2 hy0]
    rcases lt_or_gt_of_ne hx0 with h1 | h1 <;> rcases lt_or_gt_of_ne hy0 with h2 | h2
    · have := mul_pos_of_neg_of_neg h1 h2
      simp [h1, h2, not_lt.2 this.le]
    · have := mul_neg_of_neg_of_pos h1 h2
      simp [h1, not_lt.2 h2.le, this]
    · have := mul_neg_of_pos_of_neg h1 h2
      simp [not_lt.2 h1.le, h2, this]
    · have := mul_pos h1 h2
      simp [not_lt.2 h1.le, not_lt.2 h2.le, not_lt.2 this.le]

theorem val_mul {a b : Int} {x y : ℚ} (hx : f32val a = some x) (hy : f32val b = some y) (h : |x * y| ≤ maxFloat) :
    f32val (fmul a b) = some (fl (x * y)) := by
  obtain ⟨e, s⟩ := fmul_eq hx hy
  rw [e]; exact val_ofRat h s

theorem val_add {a b : Int} {x y : ℚ} (hx : f32val a = some x) (hy : f32val b = some y) (h : |x + y| ≤ maxFloat) :
    f32val (fadd a b) = some (fl (x + y)) := by
  obtain ⟨n1, -, -⟩ := f32val_facts hx
  obtain ⟨n2, -, -⟩ := f32val_facts hy
  unfold fadd
  rw [n1, n2, hx, hy]
  simp only [Bool.or_self, Bool.false_eq_true, if_false]
  by_cases hz : x + y = 0
  · rw [if_pos hz, hz]; exact val_ofRat (by rw [← hz]; exact h) (fun h => absurd rfl h)
  · rw [if_neg hz]; exact val_ofRat h (fun _ => rfl)

theorem val_div {a b : Int} {x y : ℚ} (hx : f32val a = some x) (hy : f32val b = some y) (hp : 0 < x) (hq : 0 < y) (h : x / y ≤ maxFloat) :
    f32val (fdiv a b) = some (fl (x / y)) := by
  obtain ⟨n1, s1, -⟩ := f32val_facts hx
  obtain ⟨n2, s2, -⟩ := f32val_facts hy
  unfold fdiv
  rw [n1, n2, hx, hy]
  simp only [Bool.or_self, Bool.false_eq_true, if_false]
  have hxy : 0 < x / y := div_pos hp hq
  rw [if_neg hq.ne', s1 hp.ne', s2 hq.ne', decide_eq_false (not_lt.2 hp.le), decide_eq_false (not_lt.2 hq.le)]
  refine val_ofRat (by rw [abs_of_pos hxy]; exact h) (fun _ => ?_)
  rw [decide_eq_false (not_lt.2 hxy.le)]; rfl

theorem val_ldexp {a n : Int} {x : ℚ} (hx : f32val a = some x) (h : |x * 2 ^ n| ≤ maxFloat) : f32val (fldexp a n) = some (fl (x * 2 ^ n)) := by
  obtain ⟨-, s1, -⟩ := f32val_facts hx
  unfold fldexp
  rw [hx]
  refine val_ofRat h (fun hne => ?_)
  have hp := two_pos' n
  rw [s1 (left_ne_zero_of_mul hne)]
  have : x < 0 ↔ x * 2 ^ n < 0 := by
    constructor
    · intro h; exact mul_neg_of_neg_of_pos h hp
    · intro h; by_contra hc; push Not at hc
      have := mul_nonneg hc hp.le
      linarith
  rw [decide_eq_decide]; exact this

theorem val_ofInt {i : Int} (h : |(i : ℚ)| ≤ maxFloat) : f32val (fofInt i) = some (fl i) :=
  val_ofRat h (fun _ => by rw [decide_eq_decide]; norm_cast)

theorem intBound {i : Int} (h : |i| ≤ 2 ^ 40) : |(i : ℚ)| ≤ maxFloat := by
  have h' : |(i : ℚ)| ≤ 2 ^ 40 := by exact_mod_cast h
  refine le_trans h' ?_
  norm_num [maxFloat]

theorem val_ofInt_exact {i : Int} (h : |i| ≤ 2 ^ 24) : f32val (fofInt i) = some (i : ℚ) := by
  rw [val_ofInt (intBound (by omega)), fl_int h]

theorem val_half (neg : Bool) : f32val (fhalf neg) = some (if neg then -(1 / 2) else 1 / 2) := by
  cases neg <;> decide +kernel

/-! ## Scales -/

/-- What the checks and the types guarantee for scale and shift. -/
structure ScaleOk (s f : Int) : Prop where
  pos : 0 < s
  s16 : s < 2 ^ 15
  f8 : f ≤ 127

theorem val_dequantScale {s f : Int} (h : ScaleOk s f) (hf : scaleVal s f ≤ maxFloat) :
    f32val (fldexp (fofInt s) (-f)) = some (scaleVal s f) := by
  have hs := val_ofInt_exact (i := s) (by rw [abs_of_pos h.pos]; have := h.s16; omega)
  have hp : (0 : ℚ) < s := by exact_mod_cast h.pos
  have h2 := two_pos' (-f)
  rw [val_ldexp hs (by rw [abs_of_pos (by positivity)]; exact hf)]
  rw [fl_exact (by rw [abs_of_pos h.pos]; have := h.s16; omega) (by have := h.f8; omega)]
  rfl

theorem flAbs_form {q : ℚ} (h : 0 < q) : ∃ n : Int, 0 ≤ n ∧ n ≤ 2 ^ 24 ∧ flAbs q = n * 2 ^ (fexp q - 23) := by
  obtain ⟨b1, b2, -⟩ := fman_bounds h
  refine ⟨fman q, b1, b2, ?_⟩
  unfold flAbs
  rw [if_neg (not_le.2 h)]

theorem val_quantScale {s f : Int} (h : ScaleOk s f) :
    ∃ r : ℚ, f32val (fldexp (fdiv (fofInt 1) (fofInt s)) f) = some r ∧ |r - 1 / scaleVal s f| ≤ 1 / scaleVal s f / 2 ^ 22 + 1 / 2 ^ 60 / 2 ^ 90 ∧ 0 ≤ r := by
  have hs := val_ofInt_exact (i := s) (by rw [abs_of_pos h.pos]; have := h.s16; omega)
  have h1 := val_ofInt_exact (i := 1) (by decide)
  have hp : (1 : ℚ) ≤ s := by exact_mod_cast h.pos
  have hp0 : (0 : ℚ) < s := by linarith
  have hsu : (s : ℚ) < 2 ^ 15 := by exact_mod_cast h.s16
  have hq : (0 : ℚ) < 1 / s := by positivity
  have hq1 : (1 : ℚ) / s ≤ 1 := by rw [div_le_one hp0]; exact hp
  have hq2 : (2 : ℚ) ^ (-15 : Int) ≤ 1 / s := by
    rw [le_div_iff₀ hp0]
    norm_num
    linarith
  have hd := val_div h1 hs (by norm_num) hp0 (by push_cast; refine le_trans hq1 (by norm_num [maxFloat]))
  push_cast at hd
  have e1 : fl (1 / s : ℚ) = flAbs (1 / s) := by unfold fl; rw [if_neg (not_lt.2 hq.le)]
  rw [e1] at hd
  have herr := (flAbs_rel hq.le).2 (le_trans (two_le (by decide)) hq2)
  have h2 := two_pos' f
  have hr0 := flAbs_nonneg (1 / (s : ℚ))
  have hbig : |flAbs (1 / (s : ℚ)) * 2 ^ f| ≤ maxFloat := by
    rw [abs_of_nonneg (mul_nonneg hr0 h2.le)]
    have a1 : flAbs (1 / (s : ℚ)) ≤ 1 + 1 / 2 ^ 24 := by
      have := (abs_le.1 herr).2
      have : (1 : ℚ) / s / 2 ^ 24 ≤ 1 / 2 ^ 24 := by gcongr
      linarith
    have a2 : (2 : ℚ) ^ f ≤ 2 ^ (127 : Int) := two_le h.f8
    calc flAbs (1 / (s : ℚ)) * 2 ^ f ≤ (1 + 1 / 2 ^ 24) * 2 ^ (127 : Int) := by gcongr
      _ ≤ maxFloat := by norm_num [maxFloat]
  have e : 1 / scaleVal s f = 1 / s * 2 ^ f := by
    unfold scaleVal
    rw [zpow_neg]
    field_simp
  have h3 : |flAbs (1 / (s : ℚ)) * 2 ^ f - 1 / scaleVal s f| ≤ 1 / scaleVal s f / 2 ^ 24 := by
    rw [e, ← sub_mul, abs_mul, abs_of_pos h2, mul_div_right_comm]
    exact mul_le_mul_of_nonneg_right herr h2.le
  have h4 := fl_err (flAbs (1 / (s : ℚ)) * 2 ^ f)
  rw [abs_of_nonneg (mul_nonneg hr0 h2.le)] at h4
  have h5 := (abs_le.1 h3).2
  have hE : 0 < 1 / scaleVal s f := by rw [e]; positivity
  have hv := val_ldexp hd hbig
  have hP0 := mul_nonneg hr0 h2.le
  generalize 1 / scaleVal s f = E at *
  generalize flAbs (1 / (s : ℚ)) * 2 ^ f = P at *
  refine ⟨fl P, hv, ?_, (fl_sign _).1 hP0⟩
  have := abs_sub_le (fl P) P E
  linarith

theorem scaleVal_pos {s f : Int} (h : 0 < s) : 0 < scaleVal s f := by
  have : (0 : ℚ) < s := by exact_mod_cast h
  unfold scaleVal
  positivity

/-! ## From floating point -/

/-- Truncation of a rounded sum. -/
theorem trunc_near {w p d : ℚ} (hp : |w - (p + 1 / 2)| ≤ d) (h0 : 0 ≤ w) : |((⌊w⌋ : Int) : ℚ) - p| ≤ 1 / 2 + d := by
  have f1 := Int.floor_le w
  have f2 := Int.lt_floor_add_one w
  have := abs_le.1 hp
  rw [abs_le]; constructor <;> linarith

theorem ftoInt32_val {a : Int} {w : ℚ} (h : f32val a = some w) (hb : |w| < 2 ^ 31) :
    ftoInt32 a = some (if 0 ≤ w then ⌊w⌋ else -⌊-w⌋) ∧ InRange 32 (if 0 ≤ w then ⌊w⌋ else -⌊-w⌋) := by
  unfold ftoInt32
  rw [h, Option.bind_some]
  have hw := abs_lt.1 hb
  have key : lo 32 ≤ (if 0 ≤ w then ⌊w⌋ else -⌊-w⌋) ∧ (if 0 ≤ w then ⌊w⌋ else -⌊-w⌋) ≤ hi 32 := by
    simp only [lo, hi]
    by_cases h0 : 0 ≤ w
    · rw [if_pos h0]
      have a1 : 0 ≤ ⌊w⌋ := Int.floor_nonneg.2 h0
      have a2 : ⌊w⌋ < 2 ^ 31 := Int.floor_lt.2 (by push_cast; exact hw.2)
      omega
    · rw [if_neg h0]
      have a1 : 0 ≤ ⌊-w⌋ := Int.floor_nonneg.2 (by linarith)
      have a2 : ⌊-w⌋ < 2 ^ 31 := Int.floor_lt.2 (by push_cast; linarith)
      omega
  simp only
  rw [if_pos key]
  exact ⟨rfl, key⟩

/-- The quotient of a floating-point number and the scale, rounded. -/
theorem floatScale_near {s f x : Int} {v : ℚ} (h : ScaleOk s f) (hx : f32val x = some v)
    (hb : |v / scaleVal s f| ≤ 2 ^ 31 - 1024) :
    ∃ t, floatScale x (fldexp (fdiv (fofInt 1) (fofInt s)) f) = some t ∧ InRange 32 t ∧
      |(t : ℚ) - v / scaleVal s f| ≤ 1 / 2 + 1 / 2 ^ 20 + |v / scaleVal s f| / 2 ^ 21 := by
  obtain ⟨r, hr, her, hrp⟩ := val_quantScale h
  set S := scaleVal s f with hS
  have hSp : 0 < S := scaleVal_pos h.pos
  set e := v / S with he
  have hE := abs_nonneg e
  have e1 : |v * r - e| ≤ |e| / 2 ^ 22 + 1 / 2 ^ 22 := by
    have : v * r - e = v * (r - 1 / S) := by rw [he]; field_simp
    rw [this, abs_mul]
    refine le_trans (mul_le_mul_of_nonneg_left her (abs_nonneg v)) ?_
    have h1 : |v| * (1 / S / 2 ^ 22) = |e| / 2 ^ 22 := by
      rw [he, abs_div, abs_of_pos hSp]
      ring
    have h2 : |v| * (1 / 2 ^ 60 / 2 ^ 90) ≤ maxFloat * (1 / 2 ^ 60 / 2 ^ 90) := mul_le_mul_of_nonneg_right (f32val_le hx) (by positivity)
    have h3 : maxFloat * (1 / 2 ^ 60 / 2 ^ 90) ≤ 1 / 2 ^ 22 := by norm_num [maxFloat]
    rw [mul_add]
    linarith
  have e2 : |v * r| ≤ |e| + |e| / 2 ^ 22 + 1 / 2 ^ 22 := by
    have := abs_sub_abs_le_abs_sub (v * r) e
    linarith
  have hmax : (2 : ℚ) ^ 33 ≤ maxFloat := by norm_num [maxFloat]
  have hp := val_mul hx hr (by refine le_trans (le_trans e2 ?_) hmax; linarith)
  set p := fl (v * r) with hpd
  have e3 := fl_err (v * r)
  rw [← hpd] at e3
  have e4 : |p - e| ≤ |e| / 2 ^ 22 + 1 / 2 ^ 22 + |v * r| / 2 ^ 24 + 1 / 2 ^ 150 := by
    have := abs_sub_le p (v * r) e
    linarith
  have e5 : |p| ≤ |e| + |p - e| := by
    have := abs_sub_abs_le_abs_sub p e
    linarith
  obtain ⟨-, -, hg⟩ := f32val_facts hx
  have hnum : (1 : ℚ) / 2 ^ 150 ≤ 1 / 2 ^ 60 := by norm_num
  by_cases hv : 0 < v
  · have hh := val_half (!fgt0 x)
    rw [hg, decide_eq_true hv] at hh
    simp only [Bool.not_true, Bool.false_eq_true, if_false] at hh
    have hp0 : 0 ≤ p := (fl_sign _).1 (by positivity)
    rw [abs_of_nonneg hp0] at e5
    have hw := val_add hp hh (by rw [abs_of_nonneg (by linarith)]; refine le_trans ?_ hmax; linarith)
    have e6 := fl_err (p + 1 / 2)
    rw [abs_of_nonneg (by linarith : 0 ≤ p + 1 / 2)] at e6
    have hw0 : 0 ≤ fl (p + 1 / 2) := (fl_sign _).1 (by linarith)
    have hw1 : |fl (p + 1 / 2)| < 2 ^ 31 := by
      rw [abs_of_nonneg hw0]
      have := (abs_le.1 e6).2
      linarith
    obtain ⟨ht, hi⟩ := ftoInt32_val hw hw1
    rw [if_pos hw0] at ht hi
    refine ⟨⌊fl (p + 1 / 2)⌋, ?_, hi, ?_⟩
    · unfold floatScale; rw [hg, decide_eq_true hv]; exact ht
    · have := trunc_near e6 hw0
      have := abs_sub_le (((⌊fl (p + 1 / 2)⌋ : Int) : ℚ)) p e
      linarith
  · have hh := val_half (!fgt0 x)
    rw [hg, decide_eq_false hv] at hh
    simp only [Bool.not_false, if_true] at hh
    have hv' : v ≤ 0 := not_lt.1 hv
    have hp0 : p ≤ 0 := (fl_sign _).2 (mul_nonpos_of_nonpos_of_nonneg hv' hrp)
    rw [abs_of_nonpos hp0] at e5
    have hw := val_add hp hh (by rw [abs_of_nonpos (by linarith)]; refine le_trans ?_ hmax; linarith)
    have e6 := fl_err (p + -(1 / 2))
    rw [abs_of_nonpos (by linarith : p + -(1 / 2) ≤ 0)] at e6
    have hw0 : fl (p + -(1 / 2)) ≤ 0 := (fl_sign _).2 (by linarith)
    have hw1 : |fl (p + -(1 / 2))| < 2 ^ 31 := by
      rw [abs_of_nonpos hw0]
      have := (abs_le.1 e6).1
      linarith
    obtain ⟨ht, hi⟩ := ftoInt32_val hw hw1
    have hneg : (if 0 ≤ fl (p + -(1 / 2)) then ⌊fl (p + -(1 / 2))⌋ else -⌊-fl (p + -(1 / 2))⌋) = -⌊-fl (p + -(1 / 2))⌋ := by
      split
      · next h0 => have : fl (p + -(1 / 2)) = 0 := le_antisymm hw0 h0
                   rw [this]; norm_num
      · rfl
    rw [hneg] at ht hi
    refine ⟨-⌊-fl (p + -(1 / 2))⌋, ?_, hi, ?_⟩
    · unfold floatScale; rw [hg, decide_eq_false hv]; exact ht
    · have e7 : |-fl (p + -(1 / 2)) - (-p + 1 / 2)| ≤ -(p + -(1 / 2)) / 2 ^ 24 + 1 / 2 ^ 150 := by
        rw [show -fl (p + -(1 / 2)) - (-p + 1 / 2) = -(fl (p + -(1 / 2)) - (p + -(1 / 2))) by ring, abs_neg]
        exact e6
      have h8 := trunc_near e7 (by linarith)
      have h9 : |((-⌊-fl (p + -(1 / 2))⌋ : Int) : ℚ) - p| = |((⌊-fl (p + -(1 / 2))⌋ : Int) : ℚ) - -p| := by
        push_cast
        rw [← abs_neg]
        congr 1; ring
      have := abs_sub_le (((-⌊-fl (p + -(1 / 2))⌋ : Int) : ℚ)) p e
      rw [h9] at this
      linarith

end Mli
