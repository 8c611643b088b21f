import Verif.Props.ConvertVal
import Verif.Props.ConvSa8
import Verif.Props.ConvMore

/-! # Conversion between number formats (C50) -/

namespace Mli

open Spec

/-! ## Parameters -/

/-- The quantized dimension of a tensor (negative: none). -/
def QTensor.axis (a : QTensor) : Int := if a.ty.isSa then a.q.dim else -1

/-- Zero point of the element at position `is`. -/
def QTensor.zpOf (a : QTensor) (is : List Int) : Int := a.zp (paramIdx a.axis is)

/-- Scale of the element at position `is`: the number that a step of 1 of the stored value stands for. -/
def QTensor.stepOf (a : QTensor) (is : List Int) : ℚ := scaleVal (a.scale (paramIdx a.axis is)) (a.frac (paramIdx a.axis is))

/-- Types of the parameters and size of the elements. -/
structure QTensor.Ok (a : QTensor) (b : Buf) : Prop where
  valid : a.t.Valid b
  typed : a.q.Typed

structure Accepted (src dst : QTensor) : Prop where
  shape : src.t.shape = dst.t.shape
  qs : src.ty.isSa → chkQuant src.t src.q 15 = .ok
  qd : dst.ty.isSa → chkQuant dst.t dst.q 15 = .ok
  dims : src.ty.isSa → dst.ty.isSa → src.q.dim = dst.q.dim ∨ src.q.dim < 0 ∨ dst.q.dim < 0

theorem chkQTensor_ok {a : QTensor} (h : chkQTensor a = some .ok) : checkTensorPrivate a.t = some .ok ∧ (a.ty.isSa → chkQuant a.t a.q 15 = .ok) := by
  unfold chkQTensor at h
  rcases hc : checkTensorPrivate a.t with _ | s
  · rw [hc] at h; cases h
  · rw [hc, Option.map_some, Option.some.injEq] at h
    by_cases hs : s = .ok
    · subst hs
      refine ⟨rfl, fun hsa => ?_⟩
      rw [if_neg (by simp), if_pos hsa] at h
      exact h
    · rw [if_pos hs] at h; exact absurd h hs

theorem chkConvert_ok {one : Bool} {src dst : QTensor} (h : chkConvert one src dst = some .ok) : Accepted src dst := by
  unfold chkConvert at h
  rcases h1 : chkQTensor src with _ | s
  · rw [h1] at h; cases h
  rw [h1, Option.bind_some] at h
  by_cases hs : s = .ok
  · subst hs
    rw [if_neg (by simp)] at h
    rcases h2 : chkQTensor dst with _ | s
    · rw [h2] at h; cases h
    rw [h2, Option.map_some, Option.some.injEq] at h
    by_cases hs : s = .ok
    · subst hs
      rw [if_neg (by simp)] at h
      by_cases c1 : (!sameShape src.t dst.t) = true
      · rw [if_pos c1] at h; cases h
      rw [if_neg c1] at h
      by_cases c2 : (!(innerOne src.t && innerOne dst.t)) = true
      · rw [if_pos c2] at h; cases h
      rw [if_neg c2] at h
      split at h
      · cases h
      · by_cases c4 : (src.ty.isSa && dst.ty.isSa && !decide (src.q.dim = dst.q.dim ∨ src.q.dim < 0 ∨ dst.q.dim < 0)) = true
        · rw [if_pos c4] at h; cases h
        · refine ⟨?_, (chkQTensor_ok h1).2, (chkQTensor_ok h2).2, fun a b => ?_⟩
          · simpa [sameShape] using c1
          · by_contra hc
            apply c4
            rw [a, b]
            simpa using hc
    · rw [if_pos hs] at h; exact absurd h hs
  · rw [if_pos hs] at h
    exact absurd (Option.some.inj h) hs

theorem chkQuant_dim {t : Tensor} {q : SaQ} {bits : Nat} (h : chkQuant t q bits = .ok) : q.dim < t.dims.length ∨ q.dim < 0 := by
  unfold chkQuant at h
  by_cases hc : 0 ≤ q.dim ∧ ¬ q.dim < t.dims.length
  · rw [if_pos hc] at h; cases h
  · omega

theorem axis_congr {a : QTensor} {A : Int} (h : a.ty.isSa → 0 ≤ a.q.dim → A = a.q.dim) (is : List Int) :
    a.zp (paramIdx A is) = a.zpOf is ∧ a.scale (paramIdx A is) = a.scale (paramIdx a.axis is) ∧ a.frac (paramIdx A is) = a.frac (paramIdx a.axis is) := by
  unfold QTensor.zpOf QTensor.zp QTensor.scale QTensor.frac QTensor.axis
  by_cases hs : a.ty.isSa = true
  · simp only [hs, if_true]
    by_cases hd : 0 ≤ a.q.dim
    · rw [h hs hd]; exact ⟨rfl, rfl, rfl⟩
    · unfold SaQ.zpAt SaQ.scaleAt SaQ.fracAt SaQ.idx
      rw [if_pos (by omega), if_pos (by omega)]
      exact ⟨rfl, rfl, rfl⟩
  · simp only [hs, Bool.false_eq_true, if_false, and_self]

theorem convertAxis_src {src dst : QTensor} (h : Accepted src dst) (hs : src.ty.isSa) (hd : 0 ≤ src.q.dim) : convertAxis src dst = src.q.dim := by
  unfold convertAxis
  rw [hs]
  simp only [Bool.true_and, ge_iff_le, hd, decide_true, if_true]
  split
  · next hc =>
    simp only [Bool.and_eq_true, decide_eq_true_eq] at hc
    have := h.dims hs hc.1
    omega
  · rfl

theorem convertAxis_dst {src dst : QTensor} (hs : dst.ty.isSa) (hd : 0 ≤ dst.q.dim) : convertAxis src dst = dst.q.dim := by
  unfold convertAxis
  rw [hs]
  simp only [Bool.true_and, ge_iff_le, hd, decide_true, if_true]

theorem convertAxis_lt {src dst : QTensor} (h : Accepted src dst) : convertAxis src dst < dst.t.dims.length := by
  have hl : src.t.dims.length = dst.t.dims.length := length_congr h.shape
  unfold convertAxis
  simp only [Bool.and_eq_true, decide_eq_true_eq]
  split
  · next hc => have := chkQuant_dim (h.qd hc.1); omega
  · split
    · next hc => have := chkQuant_dim (h.qs hc.1); omega
    · omega

theorem QTensor.scale_ok {a : QTensor} {A : Int} {k : Int} (ht : a.q.Typed) (hq : a.ty.isSa → chkQuant a.t a.q 15 = .ok)
    (hA : a.ty.isSa → 0 ≤ a.q.dim → A = a.q.dim) (h0 : 0 ≤ k) (hk : k < paramCount A a.t.shape) :
    0 < a.scale k ∧ InRange 16 (a.scale k) ∧ InRange 16 (a.zp k) := by
  unfold QTensor.scale QTensor.zp
  by_cases hs : a.ty.isSa = true
  · rw [if_pos hs, if_pos hs]
    have c := chkQuant_ok (hq hs) (k := k) (by
      by_cases hd : a.q.dim < 0
      · exact Or.inl hd
      · right
        rw [hA hs (by omega)] at hk
        unfold paramCount at hk
        rw [if_neg hd] at hk
        exact ⟨h0, hk⟩)
    refine ⟨c.1, ht.scaleAt k, ?_⟩
    have := c.2
    constructor
    · simp only [lo]; simpa using this.1
    · simp only [hi]; simpa using this.2
  · rw [if_neg hs, if_neg hs]
    exact ⟨by decide, by decide, by decide⟩

/-! ## The loops -/

/-- The value stored for element `is` when its value is `x`. -/
def convertVal (m : Rnd) (src dst : QTensor) (x : Int) (is : List Int) : Int :=
  let k := paramIdx (convertAxis src dst) is
  let p := (requantParams m (src.scale k) (src.frac k) (src.zp k) (dst.scale k) (dst.frac k) (dst.zp k)).getD (0, 0, 0)
  calcConvert m (convertWide src.ty dst.ty) dst.ty.width (src.zp k) p.1 (minFx p.2.1 (if convertWide src.ty dst.ty then 63 else 31)) (dst.zp k) x

theorem convert_run (m : Rnd) (rd : Buf → Int → Option Int) (src dst : QTensor) (d : Buf) (vs : src.t.dims.length ≤ 4) (vd : dst.Ok d) (ht : src.q.Typed)
    (h : Accepted src dst) (x : List Int → Int)
    (hrd : ∀ is, InShape dst.t.shape is → ∀ d' : Buf, d'.size = d.size →
      (∀ a, (∀ js, InShape dst.t.shape js → js ≠ is → dst.t.addr js ≠ a) → d'.get a = d.get a) → rd d' (src.t.addr is) = some (x is)) :
    ∃ d', convertRun m rd src dst d = some d' ∧ dst.t.Writes (fun is => convertVal m src dst (x is) is) d d' := by
  have hax := convertAxis_lt h
  have hl : src.t.dims.length = dst.t.dims.length := length_congr h.shape
  obtain ⟨d', h1, h2⟩ := slices_write src.t dst.t d vd.valid h.shape (convertAxis src dst) hax (fun is => convertVal m src dst (x is) is)
    (fun sl a b c e d =>
      (rd d (src.t.base + src.t.rPos a b c e)).bind fun x =>
      d.wr (dst.t.base + dst.t.rPos a b c e) (calcConvert m (convertWide src.ty dst.ty) dst.ty.width (src.zp sl)
        ((requantParams m (src.scale sl) (src.frac sl) (src.zp sl) (dst.scale sl) (dst.frac sl) (dst.zp sl)).getD (0, 0, 0)).1
        (minFx ((requantParams m (src.scale sl) (src.frac sl) (src.zp sl) (dst.scale sl) (dst.frac sl) (dst.zp sl)).getD (0, 0, 0)).2.1
          (if convertWide src.ty dst.ty then 63 else 31)) (dst.zp sl) x))
    (fun sl p hsl hp d' hd hfr => by
      obtain ⟨a1, a2, a3⟩ := slice_param vd.valid.rank hax hsl hp
      have b2 : src.t.base + src.t.rPos p.1 p.2.1 p.2.2.1 p.2.2.2 = src.t.addr (ptIdx dst.t p) := by
        have hp' : p ∈ slicePts src.t (axisDim src.t (convertAxis src dst)) sl := by
          rw [slicePts_congr h.shape, axisDim_congr h.shape]; exact hp
        have := (slice_param vs (by omega) (by rw [h.shape]; exact hsl) hp').2.1
        rw [this]
        unfold ptIdx
        rw [hl]
      rw [b2, hrd _ a1 d' hd hfr, Option.bind_some, a2]
      unfold convertVal
      simp only [a3])
  refine ⟨d', ?_, h2⟩
  rw [← h1]
  unfold convertRun
  have hn := slice_num vs (t := src.t) (axis := convertAxis src dst) (by omega)
  have hx : (if convertAxis src dst ≥ 0 then convertAxis src dst + ((maxRank : Nat) - (src.t.dims.length : Int)) else -1) =
      axisDim src.t (convertAxis src dst) := rfl
  simp only [hx, hn, h.shape]
  refine forRange_congr (fun sl hsl => funext fun d => ?_) _
  have hb : (sl : Int) < paramCount (convertAxis src dst) dst.t.shape := by omega
  obtain ⟨k1, k2, -⟩ := QTensor.scale_ok ht h.qs (convertAxis_src h) (Int.natCast_nonneg sl) (by rw [h.shape]; exact hb)
  obtain ⟨k3, k4, -⟩ := QTensor.scale_ok vd.typed h.qd convertAxis_dst (Int.natCast_nonneg sl) hb
  obtain ⟨sc, sh, o, e, -⟩ := requant_ok m _ (src.frac sl) (src.zp sl) _ (dst.frac sl) (dst.zp sl) k1 k2 k3 k4
  unfold convertSlice
  rw [e, Option.bind_some]
  rfl

/-! ## Accuracy -/

theorem clamp_limit (w : Nat) (v : Int) : ((clamp w v : Int) : ℚ) = limitQ (lo w) (hi w) v := by
  have := lo_le_hi w
  have : clamp w v = max (lo w) (min (hi w) v) := by
    unfold clamp; split <;> (try split) <;> omega
  rw [this]
  unfold limitQ
  push_cast
  rfl

theorem hi_bound {w : Nat} (h : 2 ≤ w ∧ w ≤ 32) : 1 ≤ hi w ∧ hi w ≤ 2 ^ 31 - 1 ∧ lo w = -hi w - 1 := by
  have h1 : (2 : Int) ^ (w - 1) ≤ 2 ^ 31 := pow_le_pow_right₀ (by decide) (by omega)
  have h2 : (2 : Int) ^ 1 ≤ 2 ^ (w - 1) := pow_le_pow_right₀ (by decide) (by omega)
  simp only [hi, lo]
  omega

/-- What is stored for a value `r` close to `E`, limited to 32 bits before the zero point is added. -/
theorem store_limit {wo : Nat} (hw : 2 ≤ wo ∧ wo ≤ 32) {r zo : Int} {E : ℚ} (hz : InRange 16 zo) (hr : |(r : ℚ) - E| ≤ 1 / 2 + |E| / 8000) :
    |((clamp wo (clamp 32 r + zo) : Int) : ℚ) - limitQ (lo wo) (hi wo) (zo + E)| ≤ 1 / 2 + |E| / 4096 := by
  have hE := abs_nonneg E
  have hr' := abs_le.1 hr
  obtain ⟨b1, b2, b3⟩ := hi_bound hw
  have z1 := hz.1
  have z2 := hz.2
  simp only [lo, hi] at z1 z2
  have z1q : -(2 ^ 15 : ℚ) ≤ zo := by exact_mod_cast z1
  have z2q : (zo : ℚ) ≤ 2 ^ 15 := by exact_mod_cast (show zo ≤ 2 ^ 15 by omega)
  have b1q : (1 : ℚ) ≤ hi wo := by exact_mod_cast b1
  have b2q : (hi wo : ℚ) ≤ 2 ^ 31 - 1 := by exact_mod_cast b2
  have b3q : ((lo wo : Int) : ℚ) = -hi wo - 1 := by rw [b3]; push_cast; ring
  rw [clamp_limit]
  by_cases h : InRange 32 r
  · rw [clamp_of_inRange h]
    refine (limitQ_sub _ _ _ _).trans ?_
    push_cast
    have e : (r : ℚ) + zo - (zo + E) = r - E := by ring
    rw [e]
    linarith
  · push_cast
    by_cases hlt : r < lo 32
    · rw [clamp_of_lt (le_of_lt hlt)]
      have hrq : (r : ℚ) ≤ -(2 ^ 31) := by
        simp only [lo] at hlt
        exact_mod_cast (show r ≤ -(2 ^ 31) by omega)
      have hE1 : E < 0 := by
        by_contra hc
        rw [abs_of_nonneg (not_lt.1 hc)] at *
        linarith
      rw [abs_of_neg hE1] at *
      have e1 : ((lo 32 : Int) : ℚ) = -(2 ^ 31) := by norm_num [lo]
      rw [e1]
      unfold limitQ
      rw [b3q, abs_le]
      rcases min_cases (hi wo : ℚ) (-(2 ^ 31) + zo) with ⟨q1, q2⟩ | ⟨q1, q2⟩ <;> rcases min_cases (hi wo : ℚ) (zo + E) with ⟨q3, q4⟩ | ⟨q3, q4⟩ <;>
        rw [q1, q3]
      · constructor <;> linarith
      · constructor <;> linarith
      · constructor <;> linarith
      · rcases max_cases (-(hi wo : ℚ) - 1) (-(2 ^ 31) + zo) with ⟨p1, p2⟩ | ⟨p1, p2⟩ <;> rcases max_cases (-(hi wo : ℚ) - 1) (zo + E) with ⟨p3, p4⟩ | ⟨p3, p4⟩ <;>
          rw [p1, p3] <;> constructor <;> linarith
    · have hgt : hi 32 < r := by
        by_contra hc; exact h ⟨by omega, by omega⟩
      rw [clamp_of_gt (le_of_lt hgt)]
      have hrq : (2 ^ 31 : ℚ) ≤ r := by
        simp only [hi] at hgt
        exact_mod_cast (show 2 ^ 31 ≤ r by omega)
      have hE1 : 0 < E := by
        by_contra hc
        rw [abs_of_nonpos (not_lt.1 hc)] at *
        linarith
      rw [abs_of_pos hE1] at *
      have e1 : ((hi 32 : Int) : ℚ) = 2 ^ 31 - 1 := by norm_num [hi]
      rw [e1]
      unfold limitQ
      rw [b3q, abs_le]
      rcases min_cases (hi wo : ℚ) (2 ^ 31 - 1 + zo) with ⟨q1, q2⟩ | ⟨q1, q2⟩ <;> rcases min_cases (hi wo : ℚ) (zo + E) with ⟨q3, q4⟩ | ⟨q3, q4⟩ <;>
        rw [q1, q3]
      · rw [max_eq_right (by linarith)]
        constructor <;> linarith
      · rw [max_eq_right (by linarith), max_eq_right (by linarith)]
        constructor <;> linarith
      · rw [max_eq_right (by linarith), max_eq_right (by linarith)]
        constructor <;> linarith
      · rw [max_eq_right (by linarith), max_eq_right (by linarith)]
        constructor <;> linarith

/-- Bits of the difference between an element and its zero point that the conversion can hold. -/
def convertBits (src dst : ElT) : Nat := if src = .sa32 ∨ dst = .sa32 then 32 else 16

/-- The value of a conversion is close to the value with exact arithmetic. -/
theorem convertVal_close (m : Rnd) {src dst : QTensor} {d : Buf} (ts : src.q.Typed) (vd : dst.Ok d) (h : Accepted src dst) {is : List Int}
    (hi : InShape dst.t.shape is) {x : Int} (hx : InRange src.ty.width x) (hd : InRange (convertBits src.ty dst.ty) (x - src.zpOf is)) :
    |((convertVal m src dst x is : Int) : ℚ) - limitQ (lo dst.ty.width) (Spec.hi dst.ty.width) (dst.zpOf is + (x - src.zpOf is) * (src.stepOf is / dst.stepOf is))| ≤
      1 / 2 + |(x - src.zpOf is) * (src.stepOf is / dst.stepOf is)| / 4096 := by
  have hax := convertAxis_lt h
  have hlt := paramIdx_lt (axis := convertAxis src dst) hi (by simp [Tensor.shape]; omega)
  obtain ⟨k1, k2, k5⟩ := QTensor.scale_ok ts h.qs (convertAxis_src h) hlt.1 (by rw [h.shape]; exact hlt.2)
  obtain ⟨k3, k4, k6⟩ := QTensor.scale_ok vd.typed h.qd convertAxis_dst hlt.1 hlt.2
  obtain ⟨a1, a2, a3⟩ := axis_congr (convertAxis_src h) is
  obtain ⟨b1, b2, b3⟩ := axis_congr (a := dst) (A := convertAxis src dst) convertAxis_dst is
  unfold convertVal QTensor.stepOf
  rw [← a2, ← a3, ← b2, ← b3, ← a1, ← b1]
  rw [← a1] at hd
  generalize paramIdx (convertAxis src dst) is = k at *
  obtain ⟨sc, sh, o, e, c1, c2, c3⟩ := requant_ok m _ (src.frac k) (src.zp k) _ (dst.frac k) (dst.zp k) k1 k2 k3 k4
  simp only [e, Option.getD_some]
  generalize scaleVal (src.scale k) (src.frac k) / scaleVal (dst.scale k) (dst.frac k) = R at *
  have hw : 2 ≤ dst.ty.width ∧ dst.ty.width ≤ 32 := by cases dst.ty <;> decide
  have hclose : ∀ r : Int, |(r : ℚ) - (x - src.zp k : Int) * scaleVal sc sh| ≤ 1 / 2 + |(x - src.zp k : Int) * scaleVal sc sh| / 2 ^ 28 →
      |(r : ℚ) - (x - src.zp k : Int) * R| ≤ 1 / 2 + |(x - src.zp k : Int) * R| / 8000 := by
    intro r hr
    have h1 : |((x - src.zp k : Int) : ℚ) * scaleVal sc sh - (x - src.zp k : Int) * R| ≤ |(x - src.zp k : Int) * R| / 2 ^ 13 := by
      rw [← mul_sub, abs_mul, abs_mul]
      unfold RelErr at c3
      have := mul_le_mul_of_nonneg_left c3 (abs_nonneg ((x - src.zp k : Int) : ℚ))
      linarith
    generalize ((x - src.zp k : Int) : ℚ) * scaleVal sc sh = P at *
    generalize ((x - src.zp k : Int) : ℚ) * R = Q at *
    have h2 : |P| ≤ |Q| + |Q| / 2 ^ 13 := by
      have := abs_sub_abs_le_abs_sub P Q
      linarith
    have h3 := abs_sub_le (r : ℚ) P Q
    have h4 := abs_nonneg Q
    linarith
  have hgoal : ∀ y : Int, |((y : Int) : ℚ) - limitQ (lo dst.ty.width) (Spec.hi dst.ty.width) (dst.zp k + (x - src.zp k : Int) * R)| ≤
      1 / 2 + |(x - src.zp k : Int) * R| / 4096 →
      |((y : Int) : ℚ) - limitQ (lo dst.ty.width) (Spec.hi dst.ty.width) (dst.zp k + (x - src.zp k) * R)| ≤ 1 / 2 + |(x - src.zp k) * R| / 4096 := by
    intro y hy
    push_cast at hy
    exact hy
  apply hgoal
  by_cases hwd : src.ty = .sa32 ∨ dst.ty = .sa32
  · have ew : convertWide src.ty dst.ty = true := by
      unfold convertWide
      rcases hwd with h | h <;> simp [h]
    unfold convertBits at hd
    rw [if_pos hwd] at hd
    rw [ew]
    simp only [if_true]
    obtain ⟨r, r1, r2⟩ := calc_wide m hw sh (inRange_mono (by cases src.ty <;> decide) hx) k5 hd ⟨c1, c2⟩ k6
    rw [r2]
    exact store_limit hw k6 (hclose r r1)
  · have ew : convertWide src.ty dst.ty = false := by
      unfold convertWide
      push Not at hwd
      simp [hwd.1, hwd.2]
    unfold convertBits at hd
    rw [if_neg hwd] at hd
    have ws : src.ty.width ≤ 16 ∧ dst.ty.width ≤ 16 := by
      push Not at hwd
      constructor
      · have := hwd.1; revert this; cases src.ty <;> decide
      · have := hwd.2; revert this; cases dst.ty <;> decide
    rw [ew]
    simp only [Bool.false_eq_true, if_false]
    obtain ⟨r, r1, r2⟩ := calc_narrow m ⟨hw.1, ws.2⟩ sh (inRange_mono ws.1 hx) k5 hd ⟨by omega, c2⟩ k6
    rw [r2, clamp_limit]
    refine (limitQ_sub _ _ _ _).trans ?_
    have e := scaled_err r1
    have := hclose r (by
      unfold scaleVal
      rw [← mul_assoc]
      push_cast at e ⊢
      have := abs_nonneg (((x : ℚ) - src.zp k) * sc * 2 ^ (-sh))
      linarith)
    push_cast at this ⊢
    have e2 : (r : ℚ) + dst.zp k - (dst.zp k + (x - src.zp k) * R) = r - (x - src.zp k) * R := by ring
    rw [e2]
    have := abs_nonneg (((x : ℚ) - src.zp k) * R)
    linarith

/-- C50: an accepted conversion between any two integer formats stores, for every element, a value within half a step plus `2^-12` of
the converted value, of the exact result limited to the destination type, and changes nothing else.  The difference between an element
and its zero point must fit the 16 bits (32 bits if one tensor is `SA_32`) that the code holds it in. -/
theorem c50_accuracy (m : Rnd) (mem d : Buf) (src dst : QTensor) (vs : src.Ok mem) (vd : dst.Ok d) (hc : chkConvert false src dst = some .ok)
    (hx : src.t.Holds mem src.ty.width)
    (hd : ∀ is, InShape src.t.shape is → InRange (convertBits src.ty dst.ty) (mem.get (src.t.addr is) - src.zpOf is)) :
    ∃ d' val, hlpConvertTo m mem src dst d = some (.ok, d') ∧ dst.t.Writes val d d' ∧ ∀ is, InShape dst.t.shape is →
      let exact : ℚ := (mem.get (src.t.addr is) - src.zpOf is) * (src.stepOf is / dst.stepOf is)
      |(val is : ℚ) - limitQ (lo dst.ty.width) (hi dst.ty.width) (dst.zpOf is + exact)| ≤ 1 / 2 + |exact| / 4096 := by
  have h := chkConvert_ok hc
  obtain ⟨d', h1, h2⟩ := convert_run m (fun _ => mem.rd) src dst d vs.valid.rank vd vs.typed h (fun is => mem.get (src.t.addr is))
    (fun is hi d' _ _ => vs.valid.rd (by rw [h.shape]; exact hi) rfl)
  refine ⟨d', _, ?_, h2, fun is hi => convertVal_close m vs.typed vd h hi (hx is (by rw [h.shape]; exact hi)) (hd is (by rw [h.shape]; exact hi))⟩
  unfold hlpConvertTo hlpConvert
  rw [hc, Option.bind_some, if_neg (by simp), h1]
  rfl

/-- The same for a conversion in place. -/
theorem c50_accuracy_in_place (m : Rnd) (mem : Buf) (src dst : QTensor) (vs : src.Ok mem) (vd : dst.Ok mem) (ht : src.t = dst.t)
    (hc : chkConvert true src dst = some .ok) (hx : src.t.Holds mem src.ty.width)
    (hd : ∀ is, InShape src.t.shape is → InRange (convertBits src.ty dst.ty) (mem.get (src.t.addr is) - src.zpOf is)) :
    ∃ mem' val, hlpConvertIn m src dst mem = some (.ok, mem') ∧ dst.t.Writes val mem mem' ∧ ∀ is, InShape dst.t.shape is →
      let exact : ℚ := (mem.get (src.t.addr is) - src.zpOf is) * (src.stepOf is / dst.stepOf is)
      |(val is : ℚ) - limitQ (lo dst.ty.width) (hi dst.ty.width) (dst.zpOf is + exact)| ≤ 1 / 2 + |exact| / 4096 := by
  have h := chkConvert_ok hc
  obtain ⟨d', h1, h2⟩ := convert_run m (fun d => d.rd) src dst mem vs.valid.rank vd vs.typed h (fun is => mem.get (src.t.addr is))
    (fun is hi d' hs hfr => by
      rw [vs.valid.rd (by rw [h.shape]; exact hi) hs, ht, hfr (dst.t.addr is) (fun js hj hne e => hne
        (Tensor.Separate.refl dst.t mem vd.valid _ _ hj hi e))])
  refine ⟨d', _, ?_, h2, fun is hi => convertVal_close m vs.typed vd h hi (hx is (by rw [h.shape]; exact hi)) (hd is (by rw [h.shape]; exact hi))⟩
  unfold hlpConvertIn hlpConvert
  rw [hc, Option.bind_some, if_neg (by simp), h1]
  rfl

/-! ## Fixed-point formats -/

def ElT.isFx (t : ElT) : Prop := t = .fx8 ∨ t = .fx16

theorem scaled_cancel {m : Rnd} {x k r : Int} {a : Nat} (h : Scaled m (x * 2 ^ a) (a + k) r) : Scaled m x k r := by
  unfold Scaled at *
  have hpa := two_pow_pos a
  by_cases hk : 0 ≤ k
  · rw [if_pos (by omega)] at h
    rw [if_pos hk]
    obtain ⟨n, rfl⟩ : ∃ n : Nat, k = n := ⟨k.toNat, by omega⟩
    rw [show ((a : Int) + n).toNat = n + a by omega, pow_add] at h
    rw [Int.toNat_natCast]
    have e : ∀ P : Int, 2 * (x * 2 ^ a - r * (P * 2 ^ a)) = (2 * (x - r * P)) * 2 ^ a := fun P => by ring
    cases m
    · simp only [RoundHalfUp, e] at *
      refine ⟨le_of_mul_le_mul_right (a := 2 ^ a) (by rw [neg_mul]; exact h.1) hpa, lt_of_mul_lt_mul_right (a := 2 ^ a) h.2 (le_of_lt hpa)⟩
    · simp only [RoundHalfEven, e] at *
      refine ⟨le_of_mul_le_mul_right (a := 2 ^ a) (by rw [neg_mul]; exact h.1) hpa, le_of_mul_le_mul_right (a := 2 ^ a) h.2.1 hpa, fun ht => h.2.2 ?_⟩
      rcases ht with ht | ht
      · left; rw [ht]
      · right; rw [ht]; ring
  · rw [if_neg hk]
    obtain ⟨n, rfl⟩ : ∃ n : Nat, k = -(n : Int) := ⟨(-k).toNat, by omega⟩
    rw [show (- -(n : Int)).toNat = n by omega]
    by_cases hk2 : 0 ≤ (a : Int) + -(n : Int)
    · rw [if_pos hk2] at h
      obtain ⟨b, rfl⟩ : ∃ b, a = b + n := ⟨a - n, by omega⟩
      rw [show (((b + n : Nat) : Int) + -(n : Int)).toNat = b by omega, pow_add] at h
      have hb := two_pow_pos b
      have e : x * (2 ^ b * 2 ^ n) - r * 2 ^ b = (x * 2 ^ n - r) * 2 ^ b := by ring
      generalize x * 2 ^ n - r = t at e
      have key : t = 0 → r = x * 2 ^ n → r = x * 2 ^ n := fun _ h => h
      have ht : -(2 ^ b) ≤ 2 * (t * 2 ^ b) ∧ 2 * (t * 2 ^ b) ≤ 2 ^ b := by
        cases m
        · simp only [RoundHalfUp, e] at h; exact ⟨h.1, le_of_lt h.2⟩
        · simp only [RoundHalfEven, e] at h; exact ⟨h.1, h.2.1⟩
      have h1 : -1 ≤ 2 * t := le_of_mul_le_mul_right (a := 2 ^ b) (by linarith) hb
      have h2 : 2 * t ≤ 1 := le_of_mul_le_mul_right (a := 2 ^ b) (by linarith) hb
      have ht0 : t = 0 := by omega
      subst ht0
      have : (x * 2 ^ n - r) * 2 ^ b = 0 := by linarith [e, show x * (2 ^ b * 2 ^ n) - r * 2 ^ b = (x * 2 ^ n - r) * 2 ^ b by ring]
      have := (Int.mul_eq_zero.1 this).resolve_right (by omega)
      omega
    · rw [if_neg hk2] at h
      rw [h, Int.mul_assoc, ← pow_add]
      congr 2
      omega

/-- The value of a conversion between fixed-point formats. -/
theorem convertVal_fx (m : Rnd) {src dst : QTensor} (hs : src.ty.isFx) (hd : dst.ty.isFx) {x : Int} (hx : InRange src.ty.width x) (is : List Int) :
    ∃ r, Scaled m x (src.fx - dst.fx) r ∧ convertVal m src dst x is = clamp dst.ty.width r := by
  have es : src.ty.isSa = false := by rcases hs with h | h <;> rw [h] <;> rfl
  have ed : dst.ty.isSa = false := by rcases hd with h | h <;> rw [h] <;> rfl
  have ws : src.ty.width ≤ 16 := by rcases hs with h | h <;> rw [h] <;> decide
  have wd : 2 ≤ dst.ty.width ∧ dst.ty.width ≤ 16 := by rcases hd with h | h <;> rw [h] <;> decide
  have ew : convertWide src.ty dst.ty = false := by rcases hs with h | h <;> rcases hd with h' | h' <;> rw [h, h'] <;> rfl
  unfold convertVal QTensor.scale QTensor.frac QTensor.zp
  rw [es, ed, ew]
  simp only [Bool.false_eq_true, if_false]
  have hp := requant_fx m src.fx dst.fx
  rcases hq : requantParams m 1 src.fx 0 1 dst.fx 0 with _ | p
  · rw [hq] at hp; cases hp
  · rw [hq, Option.map_some, Option.some.injEq, Prod.mk.injEq] at hp
    simp only [Option.getD_some]
    rw [hp.1, hp.2]
    have hx16 : InRange 16 x := inRange_mono ws hx
    obtain ⟨r, r1, r2⟩ := calc_narrow m wd (14 + src.fx - dst.fx) hx16 (zi := 0) (by decide) (by simpa using hx16) (scale := 2 ^ 14) (by decide)
      (zo := 0) (by decide)
    refine ⟨r, ?_, ?_⟩
    · rw [Int.sub_zero] at r1
      refine scaled_cancel (a := 14) ?_
      rw [show ((14 : Nat) : Int) + (src.fx - dst.fx) = 14 + src.fx - dst.fx by omega]
      exact r1
    · rw [r2, Int.add_zero]

/-- C50, fixed-point formats: every element becomes the value in the new format, correctly rounded and limited to the destination type,
and nothing else changes. -/
theorem c50_fx (m : Rnd) (mem d : Buf) (src dst : QTensor) (hs : src.ty.isFx) (hd : dst.ty.isFx) (vs : src.Ok mem) (vd : dst.Ok d)
    (hc : chkConvert false src dst = some .ok) (hx : src.t.Holds mem src.ty.width) :
    ∃ d' val, hlpConvertTo m mem src dst d = some (.ok, d') ∧ dst.t.Writes val d d' ∧ ∀ is, InShape dst.t.shape is →
      ∃ r, Scaled m (mem.get (src.t.addr is)) (src.fx - dst.fx) r ∧ val is = clamp dst.ty.width r := by
  have h := chkConvert_ok hc
  obtain ⟨d', h1, h2⟩ := convert_run m (fun _ => mem.rd) src dst d vs.valid.rank vd vs.typed h (fun is => mem.get (src.t.addr is))
    (fun is hi d' _ _ => vs.valid.rd (by rw [h.shape]; exact hi) rfl)
  refine ⟨d', _, ?_, h2, fun is hi => convertVal_fx m hs hd (hx is (by rw [h.shape]; exact hi)) is⟩
  unfold hlpConvertTo hlpConvert
  rw [hc, Option.bind_some, if_neg (by simp), h1]
  rfl

/-- C50, round trip: converting to a fixed-point format with at least as many fractional and integer bits and back to the first format
gives the original values. -/
theorem c50_round_trip (m : Rnd) (mem d1 d2 : Buf) (src mid dst : QTensor) (hs : src.ty.isFx) (hm : mid.ty.isFx) (hty : dst.ty = src.ty)
    (hfx : dst.fx = src.fx) (vs : src.Ok mem) (vm : mid.Ok d1) (vd : dst.Ok d2) (hc1 : chkConvert false src mid = some .ok)
    (hc2 : chkConvert false mid dst = some .ok) (hx : src.t.Holds mem src.ty.width) (hfrac : src.fx ≤ mid.fx)
    (hint : (src.ty.width : Int) - src.fx ≤ mid.ty.width - mid.fx) :
    ∃ d1' d2' val, hlpConvertTo m mem src mid d1 = some (.ok, d1') ∧ hlpConvertTo m d1' mid dst d2 = some (.ok, d2') ∧
      dst.t.Writes val d2 d2' ∧ ∀ is, InShape dst.t.shape is → val is = mem.get (src.t.addr is) := by
  have h1 := chkConvert_ok hc1
  have h2 := chkConvert_ok hc2
  obtain ⟨d1', v1, e1, w1, s1⟩ := c50_fx m mem d1 src mid hs hm vs vm hc1 hx
  have hmid : ∀ is, InShape mid.t.shape is → d1'.get (mid.t.addr is) = mem.get (src.t.addr is) * 2 ^ (mid.fx - src.fx).toNat ∧
      InRange mid.ty.width (d1'.get (mid.t.addr is)) := by
    intro is hi
    have hxi := hx is (by rw [h1.shape]; exact hi)
    obtain ⟨r, r1, r2⟩ := s1 is hi
    have er : r = mem.get (src.t.addr is) * 2 ^ (mid.fx - src.fx).toNat := by
      unfold Scaled at r1
      by_cases hk : 0 ≤ src.fx - mid.fx
      · have e0 : src.fx - mid.fx = 0 := by omega
        have e1 : (mid.fx - src.fx).toNat = 0 := by omega
        rw [if_pos hk, e0] at r1
        rw [e1]
        cases m <;> simp only [RoundHalfUp, RoundHalfEven, Int.toNat_zero, pow_zero] at r1 ⊢ <;> omega
      · rw [if_neg hk] at r1
        rw [r1]; congr 2; omega
    have hr : InRange mid.ty.width r := by
      have b1 := hxi.1
      have b2 := hxi.2
      rw [er]
      have w0 : 1 ≤ src.ty.width := by rcases hs with h | h <;> rw [h] <;> decide
      have w1 : 1 ≤ mid.ty.width := by rcases hm with h | h <;> rw [h] <;> decide
      have hp := two_pow_pos (mid.fx - src.fx).toNat
      have hpow : (2 : Int) ^ (src.ty.width - 1) * 2 ^ (mid.fx - src.fx).toNat ≤ 2 ^ (mid.ty.width - 1) := by
        rw [← pow_add]
        exact pow_le_pow_right₀ (by decide) (by omega)
      simp only [lo, Spec.hi] at b1 b2
      constructor
      · simp only [lo]
        have : -(2 ^ (src.ty.width - 1)) * 2 ^ (mid.fx - src.fx).toNat ≤ mem.get (src.t.addr is) * 2 ^ (mid.fx - src.fx).toNat :=
          Int.mul_le_mul_of_nonneg_right b1 (le_of_lt hp)
        rw [Int.neg_mul] at this
        omega
      · simp only [Spec.hi]
        have : mem.get (src.t.addr is) * 2 ^ (mid.fx - src.fx).toNat ≤ (2 ^ (src.ty.width - 1) - 1) * 2 ^ (mid.fx - src.fx).toNat :=
          Int.mul_le_mul_of_nonneg_right b2 (le_of_lt hp)
        rw [Int.sub_mul, Int.one_mul] at this
        omega
    rw [w1.elem is hi, r2, clamp_of_inRange hr]
    exact ⟨er, hr⟩
  have vm' : mid.Ok d1' := ⟨⟨vm.valid.typed, vm.valid.small, vm.valid.accepted, by
    have := vm.valid.fits
    unfold Tensor.Fits at *
    rw [w1.size]; exact this⟩, vm.typed⟩
  obtain ⟨d2', v2, e2, w2, s2⟩ := c50_fx m d1' d2 mid dst hm (by rw [hty]; exact hs) vm' vd hc2 (fun is hi => (hmid is hi).2)
  refine ⟨d1', d2', v2, e1, e2, w2, fun is hi => ?_⟩
  have him : InShape mid.t.shape is := by rw [h2.shape]; exact hi
  have hxi := hx is (by rw [h1.shape]; exact him)
  obtain ⟨r, r1, r2⟩ := s2 is hi
  have : r = mem.get (src.t.addr is) := by
    rw [(hmid is him).1, show mid.fx - dst.fx = ((mid.fx - src.fx).toNat : Int) + 0 by omega] at r1
    have r1 := scaled_cancel r1
    unfold Scaled at r1
    rw [if_pos (by omega)] at r1
    cases m <;> simp only [RoundHalfUp, RoundHalfEven, Int.toNat_zero, pow_zero] at r1 <;> omega
  rw [r2, this, hty, clamp_of_inRange hxi]

/-- A conversion that is not accepted changes nothing. -/
theorem c50_rejected (m : Rnd) (mem d d' : Buf) (src dst : QTensor) (s : Status) (h : hlpConvertTo m mem src dst d = some (s, d')) (hs : s ≠ .ok) : d' = d := by
  unfold hlpConvertTo hlpConvert at h
  rcases hc : chkConvert false src dst with _ | t
  · rw [hc] at h; cases h
  rw [hc, Option.bind_some] at h
  by_cases ht : t = .ok
  · subst ht
    rw [if_neg (by simp)] at h
    rcases hr : convertRun m (fun _ => mem.rd) src dst d with _ | e
    · rw [hr] at h; cases h
    rw [hr] at h
    simp only [Option.map_some, Option.some.injEq, Prod.mk.injEq] at h
    exact absurd h.1.symm hs
  · rw [if_pos ht] at h
    simp only [Option.some.injEq, Prod.mk.injEq] at h
    exact h.2.symm

/-- C50 is false for a conversion in place between tensors with different strides: the check compares the pointers only for equal element
types, so it accepts the call, and an element is overwritten before it is read. -/
theorem c50_in_place_violated : ∃ (src dst : QTensor) (mem mem' : Buf), src.Ok mem ∧ dst.Ok mem ∧
    hlpConvertIn .convergent src dst mem = some (.ok, mem') ∧ src.stepOf [2, 0] = dst.stepOf [2, 0] ∧ src.zpOf [2, 0] = dst.zpOf [2, 0] ∧
    mem.get (src.t.addr [2, 0]) = 30 ∧ mem'.get (dst.t.addr [2, 0]) = 20 := by
  refine ⟨{ t := { dims := [⟨3, 1⟩, ⟨1, 1⟩], cap := 3, es := 1 }, ty := .fx8, fx := 0 },
    { t := { dims := [⟨3, 2⟩, ⟨1, 1⟩], cap := 5, es := 1 }, ty := .sa8, q := ⟨-1, [0], [1], [0]⟩ }, Buf.ofList [10, 20, 30, 40, 50],
    ((hlpConvertIn .convergent { t := { dims := [⟨3, 1⟩, ⟨1, 1⟩], cap := 3, es := 1 }, ty := .fx8, fx := 0 }
      { t := { dims := [⟨3, 2⟩, ⟨1, 1⟩], cap := 5, es := 1 }, ty := .sa8, q := ⟨-1, [0], [1], [0]⟩ } (Buf.ofList [10, 20, 30, 40, 50])).getD
        (.ok, Buf.ofList [])).2, ⟨⟨by decide, by decide, by decide, by decide⟩, by decide⟩, ⟨⟨by decide, by decide, by decide, by decide⟩, by decide⟩,
    ?_, ?_, by decide, by decide, by decide +kernel⟩
  · rcases hc : hlpConvertIn .convergent { t := { dims := [⟨3, 1⟩, ⟨1, 1⟩], cap := 3, es := 1 }, ty := .fx8, fx := 0 }
      { t := { dims := [⟨3, 2⟩, ⟨1, 1⟩], cap := 5, es := 1 }, ty := .sa8, q := ⟨-1, [0], [1], [0]⟩ } (Buf.ofList [10, 20, 30, 40, 50]) with _ | ⟨s, b⟩
    · exfalso
      have := congrArg Option.isSome hc
      revert this
      decide +kernel
    · have : s = .ok := by
        have h2 := congrArg (Option.map Prod.fst) hc
        have h3 : (hlpConvertIn .convergent { t := { dims := [⟨3, 1⟩, ⟨1, 1⟩], cap := 3, es := 1 }, ty := .fx8, fx := 0 }
          { t := { dims := [⟨3, 2⟩, ⟨1, 1⟩], cap := 5, es := 1 }, ty := .sa8, q := ⟨-1, [0], [1], [0]⟩ }
          (Buf.ofList [10, 20, 30, 40, 50])).map Prod.fst = some .ok := by decide +kernel
        rw [h3] at h2
        simpa using h2.symm
      rw [this]
      rfl
  · rfl

/-! ## Examples -/

/-- 16-bit to 8-bit fixed point: `1.0625`, `-3`, `7.99..`, `0.03125` with 11 fractional bits become `17`, `-48`, `127` (limited), `0` (half of a
step, to even) with 4. -/
example : let s : QTensor := { t := { dims := [⟨2, 3⟩, ⟨2, 1⟩], cap := 10, es := 2 }, ty := .fx16, fx := 11 }
    let d : QTensor := { t := { dims := [⟨2, 2⟩, ⟨2, 1⟩], cap := 4, es := 1, base := 1 }, ty := .fx8, fx := 4 }
    let mem := Buf.ofList [2176, -6144, 99, 16383, 64]
    s.ty.isFx ∧ d.ty.isFx ∧ s.Ok mem ∧ d.Ok (Buf.ofList [0, 0, 0, 0, 0, 0]) ∧ chkConvert false s d = some .ok ∧ s.t.Holds mem 16 ∧
    (hlpConvertTo .convergent mem s d (Buf.ofList [0, 0, 0, 0, 0, 0])).map (fun r => (r.1, r.2.toList)) = some (.ok, [0, 17, -48, 127, 0, 0]) :=
  ⟨Or.inr rfl, Or.inl rfl, ⟨⟨by decide, by decide, by decide, by decide⟩, by decide⟩, ⟨⟨by decide, by decide, by decide, by decide⟩, by decide⟩,
    by decide, holds_ofList (by decide) _, by decide +kernel⟩

/-- From `SA_8` with two scales to `SA_32`, in which the formats need 32-bit arithmetic. -/
example : let s : QTensor := { t := { dims := [⟨2, 2⟩, ⟨2, 1⟩], cap := 4, es := 1 }, ty := .sa8, q := ⟨1, [3, -4], [100, 25], [7, 9]⟩ }
    let d : QTensor := { t := { dims := [⟨2, 2⟩, ⟨2, 1⟩], cap := 16, es := 4 }, ty := .sa32, q := ⟨-1, [5], [77], [12]⟩ }
    let mem := Buf.ofList [13, -4, 127, 126]
    s.Ok mem ∧ d.Ok (Buf.ofList [0, 0, 0, 0]) ∧ chkConvert false s d = some .ok ∧ s.t.Holds mem 8 ∧ convertBits s.ty d.ty = 32 ∧
    s.zpOf [0, 1] = -4 ∧ d.zpOf [0, 1] = 5 ∧
    (hlpConvertTo .convergent mem s d (Buf.ofList [0, 0, 0, 0])).map (fun r => (r.1, r.2.toList)) = some (.ok, [421, 5, 5158, 343]) :=
  ⟨⟨⟨by decide, by decide, by decide, by decide⟩, by decide⟩, ⟨⟨by decide, by decide, by decide, by decide⟩, by decide⟩, by decide,
    holds_ofList (by decide) _, by decide, by decide, by decide, by decide +kernel⟩

/-- The conditions of the round trip: 8 bits with 5 fractional bits and 16 bits with 9. -/
example : let s : QTensor := { t := { dims := [⟨3, 1⟩], cap := 3, es := 1 }, ty := .fx8, fx := 5 }
    let k : QTensor := { t := { dims := [⟨3, 1⟩], cap := 6, es := 2 }, ty := .fx16, fx := 9 }
    let mem := Buf.ofList [-128, 127, 77]
    s.Ok mem ∧ k.Ok (Buf.ofList [0, 0, 0]) ∧ chkConvert false s k = some .ok ∧ chkConvert false k s = some .ok ∧ s.t.Holds mem 8 ∧ s.fx ≤ k.fx ∧
    (s.ty.width : Int) - s.fx ≤ k.ty.width - k.fx :=
  ⟨⟨⟨by decide, by decide, by decide, by decide⟩, by decide⟩, ⟨⟨by decide, by decide, by decide, by decide⟩, by decide⟩, by decide, by decide,
    holds_ofList (by decide) _, by decide, by decide⟩

end Mli
