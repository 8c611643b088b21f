import Verif.Lemmas.EltSa
import Verif.Props.Eltwise
import Verif.Props.LeakyRelu

/-! # C59: element-wise arithmetic of SA8 tensors -/

namespace Mli

open Spec

/-- The operation on real numbers. -/
def Spec.eltReal : EltOp → ℚ → ℚ → ℚ
  | .add, x, y => x + y
  | .sub, x, y => x - y
  | .mul, x, y => x * y
  | .max, x, y => max x y
  | .min, x, y => min x y

/-- The error allowed, in steps of the output, for operands of `x` and `y` steps: addition and subtraction round both
operands to steps of the output before the operation, with a relative error of the scales of 2^-13. -/
def Spec.eltErr : EltOp → ℚ → ℚ → ℚ
  | .add, x, y | .sub, x, y => 1 + (|x| + |y|) / 8192
  | _, _, _ => 3 / 5

/-- Parameters that the kernels accept, and that fit their types. -/
structure SaParams.Ok (q : SaParams) : Prop where
  zp : InRange 8 q.zp
  pos : 0 < q.scale
  scale : InRange 16 q.scale

theorem sub8 {a z : Int} (ha : InRange 8 a) (hz : InRange 8 z) : subFx 16 a z = a - z ∧ -255 ≤ a - z ∧ a - z ≤ 255 := by
  have h1 := ha.1
  have h2 := ha.2
  have h3 := hz.1
  have h4 := hz.2
  simp only [lo, hi] at h1 h2 h3 h4
  refine ⟨?_, by omega, by omega⟩
  rw [subFx_eq (inRange_mono (by omega) ha) (inRange_mono (by omega) hz), clamp_of_inRange ⟨by simp only [lo]; omega, by simp only [hi]; omega⟩]

theorem maxFx_mul {d1 d2 s : Int} (h : 0 ≤ s) : maxFx (d1 * s) (d2 * s) = max d1 d2 * s := by
  have : maxFx (d1 * s) (d2 * s) = max (d1 * s) (d2 * s) := by unfold maxFx; split <;> omega
  rw [this]
  rcases le_total d1 d2 with h' | h'
  · rw [max_eq_right h', max_eq_right (mul_le_mul_of_nonneg_right h' h)]
  · rw [max_eq_left h', max_eq_left (mul_le_mul_of_nonneg_right h' h)]

theorem minFx_mul {d1 d2 s : Int} (h : 0 ≤ s) : minFx (d1 * s) (d2 * s) = min d1 d2 * s := by
  have : minFx (d1 * s) (d2 * s) = min (d1 * s) (d2 * s) := by unfold minFx; split <;> omega
  rw [this]
  rcases le_total d1 d2 with h' | h'
  · rw [min_eq_left h', min_eq_left (mul_le_mul_of_nonneg_right h' h)]
  · rw [min_eq_right h', min_eq_right (mul_le_mul_of_nonneg_right h' h)]

/-- One element of the SA8 kernels. -/
theorem eltSa_spec (m : Rnd) (op : EltOp) {q1 q2 qo : SaParams} (h1 : q1.Ok) (h2 : q2.Ok) (ho : qo.Ok)
    (hmm : op = .max ∨ op = .min → q1 = q2) {a b : Int} (ha : InRange 8 a) (hb : InRange 8 b) :
    SaClose (eltErr op (saReal q1.zp q1.scale q1.frac a / scaleVal qo.scale qo.frac) (saReal q2.zp q2.scale q2.frac b / scaleVal qo.scale qo.frac))
      qo.zp qo.scale qo.frac (eltReal op (saReal q1.zp q1.scale q1.frac a) (saReal q2.zp q2.scale q2.frac b))
      (eltSa m op (eltParamsSa m op q1 q2 qo) a b) := by
  obtain ⟨e1, d1⟩ := sub8 ha h1.zp
  obtain ⟨e2, d2⟩ := sub8 hb h2.zp
  have hs1 := h1.scale.2
  have hs2 := h2.scale.2
  have hso := ho.scale.2
  simp only [hi] at hs1 hs2 hso
  have pos1 := h1.pos
  have pos2 := h2.pos
  have poso := ho.pos
  have p1 := scaleVal_pos (f := q1.frac) pos1
  have p2 := scaleVal_pos (f := q2.frac) pos2
  have po := scaleVal_pos (f := qo.frac) poso
  have r1 := div_pos p1 po
  have r2 := div_pos p2 po
  unfold SaClose saReal
  set A := a - q1.zp with hA
  set B := b - q2.zp with hB
  cases op with
  | add =>
    simp only [eltSa, eltParamsSa, eltErr, eltReal, e1, e2]
    obtain ⟨k, n, c1, c2, c3, c4, c5⟩ := eltRatio m q1.frac qo.frac pos1 (by omega) poso (by omega)
    obtain ⟨k', n', c1', c2', c3', c4', c5'⟩ := eltRatio m q2.frac qo.frac pos2 (by omega) poso (by omega)
    rw [c1, c2, c1', c2', show -(-k) + q1.frac - qo.frac - n = q1.frac + k - qo.frac - n by ring, show -(-k') + q2.frac - qo.frac - n' = q2.frac + k' - qo.frac - n' by ring]
    have l1 := limited m (u := 23) (by omega) c3 c4 (q1.frac + k - qo.frac - n)
    have l2 := limited m (u := 23) (by omega) c3' c4' (q2.frac + k' - qo.frac - n')
    have hE1 : (A : ℚ) * scaleVal q1.scale q1.frac / scaleVal qo.scale qo.frac = A * (scaleVal q1.scale q1.frac / scaleVal qo.scale qo.frac) := by ring
    have hE2 : (B : ℚ) * scaleVal q2.scale q2.frac / scaleVal qo.scale qo.frac = B * (scaleVal q2.scale q2.frac / scaleVal qo.scale qo.frac) := by ring
    rw [add_div, hE1, hE2]
    have := sum_store m (sg := 1) (zo := qo.zp) (E1 := A * (scaleVal q1.scale q1.frac / scaleVal qo.scale qo.frac))
      (E2 := B * (scaleVal q2.scale q2.frac / scaleVal qo.scale qo.frac)) (Or.inl rfl) ho.zp
      (fun hs => ⟨term_scaled m c3 c4 r1 c5 l1 d1 (by have := abs_nonneg ((B : ℚ) * (scaleVal q2.scale q2.frac / scaleVal qo.scale qo.frac)); linarith),
        term_scaled m c3' c4' r2 c5' l2 d2 (by have := abs_nonneg ((A : ℚ) * (scaleVal q1.scale q1.frac / scaleVal qo.scale qo.frac)); linarith)⟩)
      (asrRnd_inRange m (by omega) (limited_mul l1 c3 c4 d1) _) (asrRnd_inRange m (by omega) (limited_mul l2 c3' c4' d2) _)
    rw [if_pos rfl, Int.cast_one, one_mul] at this
    exact this
  | sub =>
    simp only [eltSa, eltParamsSa, eltErr, eltReal, e1, e2]
    obtain ⟨k, n, c1, c2, c3, c4, c5⟩ := eltRatio m q1.frac qo.frac pos1 (by omega) poso (by omega)
    obtain ⟨k', n', c1', c2', c3', c4', c5'⟩ := eltRatio m q2.frac qo.frac pos2 (by omega) poso (by omega)
    rw [c1, c2, c1', c2', show -(-k) + q1.frac - qo.frac - n = q1.frac + k - qo.frac - n by ring, show -(-k') + q2.frac - qo.frac - n' = q2.frac + k' - qo.frac - n' by ring]
    have l1 := limited m (u := 23) (by omega) c3 c4 (q1.frac + k - qo.frac - n)
    have l2 := limited m (u := 23) (by omega) c3' c4' (q2.frac + k' - qo.frac - n')
    have hE1 : (A : ℚ) * scaleVal q1.scale q1.frac / scaleVal qo.scale qo.frac = A * (scaleVal q1.scale q1.frac / scaleVal qo.scale qo.frac) := by ring
    have hE2 : (B : ℚ) * scaleVal q2.scale q2.frac / scaleVal qo.scale qo.frac = B * (scaleVal q2.scale q2.frac / scaleVal qo.scale qo.frac) := by ring
    rw [sub_div, hE1, hE2]
    have := sum_store m (sg := -1) (zo := qo.zp) (E1 := A * (scaleVal q1.scale q1.frac / scaleVal qo.scale qo.frac))
      (E2 := B * (scaleVal q2.scale q2.frac / scaleVal qo.scale qo.frac)) (Or.inr rfl) ho.zp
      (fun hs => ⟨term_scaled m c3 c4 r1 c5 l1 d1 (by have := abs_nonneg ((B : ℚ) * (scaleVal q2.scale q2.frac / scaleVal qo.scale qo.frac)); linarith),
        term_scaled m c3' c4' r2 c5' l2 d2 (by have := abs_nonneg ((A : ℚ) * (scaleVal q1.scale q1.frac / scaleVal qo.scale qo.frac)); linarith)⟩)
      (asrRnd_inRange m (by omega) (limited_mul l1 c3 c4 d1) _) (asrRnd_inRange m (by omega) (limited_mul l2 c3' c4' d2) _)
    rw [if_neg (by decide), Int.cast_neg, Int.cast_one, neg_one_mul, ← sub_eq_add_neg] at this
    exact this
  | mul =>
    simp only [eltSa, eltParamsSa, eltErr, eltReal, e1, e2]
    have hpos : 0 < q1.scale * q2.scale := mul_pos pos1 pos2
    have hle : q1.scale * q2.scale ≤ 2 ^ 30 := by
      have : q1.scale * q2.scale ≤ 2 ^ 15 * 2 ^ 15 := mul_le_mul (by omega) (by omega) (by omega) (by decide)
      omega
    obtain ⟨k, n, c1, c2, c3, c4, c5⟩ := eltRatio m (q1.frac + q2.frac) qo.frac hpos hle poso (by omega)
    rw [c1, c2, show q1.frac + q2.frac - qo.frac - -k - n = q1.frac + q2.frac + k - qo.frac - n by ring]
    have l1 := limited m (u := 31) (by omega) c3 c4 (q1.frac + q2.frac + k - qo.frac - n)
    have hAB : -65025 ≤ A * B ∧ A * B ≤ 65025 := by
      have : |A * B| ≤ 255 * 255 := by
        rw [abs_mul]
        exact mul_le_mul (by rw [abs_le]; omega) (by rw [abs_le]; omega) (abs_nonneg _) (by decide)
      have := abs_le.1 this
      omega
    rw [wrap_of_inRange (by omega) (show InRange 32 (A * B) from ⟨by simp only [lo]; omega, by simp only [hi]; omega⟩)]
    have hsv : scaleVal (q1.scale * q2.scale) (q1.frac + q2.frac) = scaleVal q1.scale q1.frac * scaleVal q2.scale q2.frac := by
      unfold scaleVal
      rw [neg_add, zpow_add₀ (by norm_num)]
      push_cast
      ring
    have := mul_store m c3 c4 (div_pos (scaleVal_pos hpos) po) c5 l1 hAB ho.zp
    rw [hsv] at this
    have e : (A : ℚ) * scaleVal q1.scale q1.frac * (B * scaleVal q2.scale q2.frac) / scaleVal qo.scale qo.frac =
        ((A * B : Int) : ℚ) * (scaleVal q1.scale q1.frac * scaleVal q2.scale q2.frac / scaleVal qo.scale qo.frac) := by
      push_cast; ring
    rw [e]
    exact this
  | max =>
    obtain rfl := hmm (Or.inl rfl)
    simp only [eltSa, eltParamsSa, eltErr, eltReal, e1, e2]
    obtain ⟨k, n, c1, c2, c3, c4, c5⟩ := eltRatio m q1.frac qo.frac pos1 (by omega) poso (by omega)
    rw [c1, c2, show q1.frac - qo.frac - -k - n = q1.frac + k - qo.frac - n by ring]
    have l1 := limited m (u := 23) (by omega) c3 c4 (q1.frac + k - qo.frac - n)
    rw [maxFx_mul (limited_nonneg l1 c3)]
    have := store_scaled m c3 c4 r1 c5 l1 (d := max A B) (by omega) ho.zp
    have e : max ((A : ℚ) * scaleVal q1.scale q1.frac) (B * scaleVal q1.scale q1.frac) / scaleVal qo.scale qo.frac =
        ((max A B : Int) : ℚ) * (scaleVal q1.scale q1.frac / scaleVal qo.scale qo.frac) := by
      rw [Int.cast_max, ← max_mul_of_nonneg _ _ (le_of_lt p1)]
      ring
    rw [e]
    exact this
  | min =>
    obtain rfl := hmm (Or.inr rfl)
    simp only [eltSa, eltParamsSa, eltErr, eltReal, e1, e2]
    obtain ⟨k, n, c1, c2, c3, c4, c5⟩ := eltRatio m q1.frac qo.frac pos1 (by omega) poso (by omega)
    rw [c1, c2, show q1.frac - qo.frac - -k - n = q1.frac + k - qo.frac - n by ring]
    have l1 := limited m (u := 23) (by omega) c3 c4 (q1.frac + k - qo.frac - n)
    rw [minFx_mul (limited_nonneg l1 c3)]
    have := store_scaled m c3 c4 r1 c5 l1 (d := min A B) (by omega) ho.zp
    have e : min ((A : ℚ) * scaleVal q1.scale q1.frac) (B * scaleVal q1.scale q1.frac) / scaleVal qo.scale qo.frac =
        ((min A B : Int) : ℚ) * (scaleVal q1.scale q1.frac / scaleVal qo.scale qo.frac) := by
      rw [Int.cast_min, ← min_mul_of_nonneg _ _ (le_of_lt p1)]
      ring
    rw [e]
    exact this

theorem chkEltQuant_ok {t1 t2 out : Tensor} {q1 q2 qo : SaQ} (h : chkEltQuant t1 t2 out q1 q2 qo = .ok) :
    (q1.dim < 0 ∧ q2.dim < 0 ∧ qo.dim < 0) ∧ (0 < q1.scaleAt 0 ∧ InRange 8 (q1.zpAt 0)) ∧ (0 < q2.scaleAt 0 ∧ InRange 8 (q2.zpAt 0)) ∧
    (0 < qo.scaleAt 0 ∧ InRange 8 (qo.zpAt 0)) := by
  unfold chkEltQuant at h
  by_cases h1 : chkQuant t1 q1 7 = .ok
  swap
  · rw [if_pos h1] at h; exact absurd h h1
  by_cases h2 : chkQuant t2 q2 7 = .ok
  swap
  · rw [if_neg (not_not.2 h1), if_pos h2] at h; exact absurd h h2
  by_cases h3 : chkQuant out qo 7 = .ok
  swap
  · rw [if_neg (not_not.2 h1), if_neg (not_not.2 h2), if_pos h3] at h; exact absurd h h3
  rw [if_neg (not_not.2 h1), if_neg (not_not.2 h2), if_neg (not_not.2 h3)] at h
  by_cases h4 : q1.dim < 0 ∧ q2.dim < 0 ∧ qo.dim < 0
  swap
  · rw [if_pos h4] at h; cases h
  have c1 := chkQuant_ok h1 (k := 0) (Or.inl h4.1)
  have c2 := chkQuant_ok h2 (k := 0) (Or.inl h4.2.1)
  have c3 := chkQuant_ok h3 (k := 0) (Or.inl h4.2.2)
  simp only [show ¬ 7 = 0 by decide, if_false] at c1 c2 c3
  exact ⟨h4, ⟨c1.1, c1.2.1, c1.2.2⟩, ⟨c2.1, c2.2.1, c2.2.2⟩, c3.1, c3.2.1, c3.2.2⟩

/-- C59: for every shape, strides, zero points and scales of accepted SA8 tensors (one of them may be a scalar) every element of the output is the
sum, difference, product, maximum or minimum of the real numbers that the operands stand for at its position, in the format of the output, within
3/5 of a step (product, maximum, minimum) or within one step and a relative error of 2^-13 of the operands (sum, difference), limited to
8 bits. Nothing else is written. -/
theorem c59_eltwise_sa8 (m : Rnd) (op : EltOp) (q1 q2 qo : SaQ) (o1 o2 : Operand) (out : Tensor) (mem : Buf)
    (hc : chkEltwise o1.t o2.t out = some .ok) (hq : chkEltQuant o1.t o2.t out q1 q2 qo = .ok)
    (hf : op = .max ∨ op = .min → sameFormatSa q1 q2 = true)
    (ht1 : q1.Typed) (ht2 : q2.Typed) (hto : qo.Typed)
    (ho : out.Valid mem) (h1 : o1.Valid out mem) (h2 : o2.Valid out mem)
    (hel1 : ∀ is, InShape out.shape is → InRange 8 (o1.at mem is))
    (hel2 : ∀ is, InShape out.shape is → InRange 8 (o2.at mem is)) :
    ∃ mem' val, krnEltwiseSa m op q1 q2 qo o1 o2 out mem = some (.ok, mem') ∧ out.Writes val mem mem' ∧
      ∀ is, InShape out.shape is →
        let x := saReal (q1.zpAt 0) (q1.scaleAt 0) (q1.fracAt 0) (o1.at mem is)
        let y := saReal (q2.zpAt 0) (q2.scaleAt 0) (q2.fracAt 0) (o2.at mem is)
        let step := scaleVal (qo.scaleAt 0) (qo.fracAt 0)
        SaClose (eltErr op (x / step) (y / step)) (qo.zpAt 0) (qo.scaleAt 0) (qo.fracAt 0) (eltReal op x y) (val is) := by
  obtain ⟨mem', r1, r2⟩ := c32_traversal (eltSa m op (eltParamsSa m op q1.params q2.params qo.params)) o1 o2 out mem hc ho h1 h2
  obtain ⟨-, a1, a2, a3⟩ := chkEltQuant_ok hq
  refine ⟨mem', _, ?_, r2, fun is his => ?_⟩
  · unfold krnEltwiseSa
    rw [hc, Option.bind_some, if_neg (by decide), if_neg (by rintro ⟨h, h'⟩; rw [hf h] at h'; cases h'), if_neg (not_not.2 hq), r1, Option.map_some]
  · refine eltSa_spec m op (q1 := q1.params) (q2 := q2.params) (qo := qo.params) ⟨a1.2, a1.1, ht1.scaleAt 0⟩ ⟨a2.2, a2.1, ht2.scaleAt 0⟩
      ⟨a3.2, a3.1, hto.scaleAt 0⟩ (fun h => ?_) (hel1 is his) (hel2 is his)
    have := hf h
    simp only [sameFormatSa, Bool.and_eq_true, decide_eq_true_eq] at this
    simp only [SaQ.params, this.1.1.2, this.1.2, this.2]

/-- C59, status: success means that the tensors were accepted; any other status leaves the memory unchanged. -/
theorem c59_status (m : Rnd) (op : EltOp) (q1 q2 qo : SaQ) (o1 o2 : Operand) (out : Tensor) (mem mem' : Buf) (s : Status)
    (h : krnEltwiseSa m op q1 q2 qo o1 o2 out mem = some (s, mem')) :
    (s = .ok → chkEltwise o1.t o2.t out = some .ok ∧ chkEltQuant o1.t o2.t out q1 q2 qo = .ok ∧ (op = .max ∨ op = .min → sameFormatSa q1 q2 = true)) ∧
    (s ≠ .ok → mem' = mem) := by
  unfold krnEltwiseSa at h
  obtain ⟨c, hc, h⟩ := Option.bind_eq_some_iff.1 h
  by_cases h1 : c = .ok
  swap
  · rw [if_pos h1] at h; simp only [Option.some.injEq, Prod.mk.injEq] at h
    exact ⟨fun e => absurd (h.1.trans e) h1, fun _ => h.2.symm⟩
  rw [if_neg (not_not.2 h1)] at h
  by_cases h2 : (op = .max ∨ op = .min) ∧ sameFormatSa q1 q2 = false
  · rw [if_pos h2] at h; simp only [Option.some.injEq, Prod.mk.injEq] at h
    exact ⟨fun e => absurd (h.1.trans e) (by decide), fun _ => h.2.symm⟩
  rw [if_neg h2] at h
  by_cases h3 : chkEltQuant o1.t o2.t out q1 q2 qo = .ok
  swap
  · rw [if_pos h3] at h; simp only [Option.some.injEq, Prod.mk.injEq] at h
    exact ⟨fun e => absurd (h.1.trans e) h3, fun _ => h.2.symm⟩
  rw [if_neg (not_not.2 h3)] at h
  simp only [Option.map_eq_some_iff, Prod.mk.injEq] at h
  obtain ⟨_, -, e, -⟩ := h
  refine ⟨fun _ => ⟨by rw [hc, h1], h3, fun hm => ?_⟩, fun hn => absurd e.symm hn⟩
  cases hf : sameFormatSa q1 q2
  · exact absurd ⟨hm, hf⟩ h2
  · rfl

/-! ## The hypotheses are met -/

def exEsA : Operand := { t := exLk }
def exEsB : Operand := { t := { dims := [], cap := 0, es := 1 }, imm := 20 }
def exEsQ1 : SaQ := ⟨-1, [-3], [20000], [18]⟩
def exEsQ2 : SaQ := ⟨-1, [4], [16384], [17]⟩
def exEsQo : SaQ := ⟨-1, [7], [30000], [17]⟩

/-- In place, rows with a gap, a scalar second operand. -/
example : ∀ op, (op = .add ∨ op = .sub ∨ op = .mul) →
    ∃ mem' val, krnEltwiseSa .up op exEsQ1 exEsQ2 exEsQo exEsA exEsB exLk exLkMem = some (.ok, mem') ∧ exLk.Writes val exLkMem mem' := by
  intro op hop
  have hh : exLk.Holds exLkMem 8 := holds_ofList (by decide) _
  obtain ⟨mem', val, h1, h2, -⟩ := c59_eltwise_sa8 .up op exEsQ1 exEsQ2 exEsQo exEsA exEsB exLk exLkMem (by decide) (by decide)
    (by rintro (h | h) <;> subst h <;> simp at hop) (by decide) (by decide) (by decide) exLk_valid
    ⟨fun _ => exLk_valid, fun _ => Tensor.Separate.refl _ _ exLk_valid⟩ ⟨fun h => absurd rfl h, fun h => absurd (by decide) h⟩
    (fun is his => hh is his) (fun is _ => (by decide : InRange 8 20))
  exact ⟨mem', val, h1, h2⟩

example : (krnEltwiseSa .up .add exEsQ1 exEsQ2 exEsQo exEsA exEsB exLk exLkMem).map (fun p => (p.1, p.2.toList)) =
    some (.ok, [99, 20, 14, 99, 10, 24, 99, 27, 7, 99, -16, 50, 99, 99]) := by decide +kernel

example : (krnEltwiseSa .convergent .mul exEsQ1 exEsQ2 exEsQo exEsA exEsB exLk exLkMem).map (fun p => (p.1, p.2.toList)) =
    some (.ok, [99, 16, 2, 99, -4, 22, 99, 29, -11, 99, -58, 76, 99, 99]) := by decide +kernel

example : (krnEltwiseSa .up .max exEsQ1 exEsQ1 exEsQo exEsA exEsB exLk exLkMem).map (fun p => (p.1, p.2.toList)) =
    some (.ok, [99, 15, 15, 99, 15, 15, 99, 18, 15, 99, 15, 41, 99, 99]) := by decide +kernel

/-- A refused call: the maximum of two different formats. -/
example : (krnEltwiseSa .up .max exEsQ1 exEsQ2 exEsQo exEsA exEsB exLk exLkMem).map (fun p => (p.1, p.2.toList)) =
    some (.incompatibleTensors, exLkMem.toList) := by decide +kernel

end Mli
