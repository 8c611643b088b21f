import Verif.Model.Tensor
import Verif.Spec.Tensor
import Verif.Lemmas.Math

/-! # Helper lemmas about tensors and the tensor check -/

namespace Mli

open Spec

theorem ckd_eq_some {w : Nat} {x y : Int} : ckd w x = some y ↔ InRange w x ∧ x = y := by
  unfold ckd; split <;> simp [*]

/-- Strides do not overlap: each dimension is stepped over completely by the next outer stride.
`bound` is what the outermost stride in the list has to cover... from the inside. -/
def Nested : List Dim → Prop
  | [] => True
  | [d] => 1 ≤ d.stride
  | d :: e :: ds => e.shape * e.stride ≤ d.stride ∧ Nested (e :: ds)

theorem chkStep_some {s s' : ChkSt} {d : Dim} (h : chkStep s d = some s') :
    s' = { fail := s.fail || !(decide (d.stride ≥ s.prevShape * s.prevStride)), prevShape := d.shape,
           prevStride := d.stride, size := s.size + (d.shape - 1) * d.stride } ∧
    InRange 32 s'.size := by
  unfold chkStep at h
  simp only [Option.bind_eq_bind, Option.bind_eq_some_iff, ckd_eq_some, Option.pure_def,
    Option.some.injEq] at h
  obtain ⟨p, ⟨_, rfl⟩, t, ⟨_, rfl⟩, sz, ⟨h1, rfl⟩, rfl⟩ := h
  exact ⟨rfl, h1⟩

/-- Sum of `(shape-1)*stride` over the dimensions. -/
def span (ds : List Dim) : Int := (ds.map (fun d => (d.shape - 1) * d.stride)).sum

theorem span_cons (d : Dim) (ds : List Dim) : span (d :: ds) = (d.shape - 1) * d.stride + span ds := by
  simp [span]

theorem span_append (a b : List Dim) : span (a ++ b) = span a + span b := by
  simp [span]

theorem span_reverse (ds : List Dim) : span ds.reverse = span ds := by
  induction ds with
  | nil => rfl
  | cons d ds ih => rw [List.reverse_cons, span_append, ih, span_cons, span_cons]; simp [span]; ring

theorem extent_eq (ds : List Dim) : extent (ds.map (·.shape)) (ds.map (·.stride)) = 1 + span ds := by
  induction ds with
  | nil => rfl
  | cons d ds ih => simp only [List.map_cons, extent, ih, span_cons]; ring

/-- Chain condition seen from the innermost dimension. -/
def ChainR : Int → Int → List Dim → Prop
  | _, _, [] => True
  | ps, pst, d :: ds => ps * pst ≤ d.stride ∧ ChainR d.shape d.stride ds

theorem chkLoop_some : ∀ (ds : List Dim) (s s' : ChkSt), chkLoop ds s = some s' →
    s'.size = s.size + span ds ∧ (s'.fail = false ↔ s.fail = false ∧ ChainR s.prevShape s.prevStride ds) ∧
    (ds ≠ [] → InRange 32 s'.size) := by
  intro ds
  induction ds with
  | nil => intro s s' h; simp [chkLoop] at h; subst h; simp [span, ChainR]
  | cons d ds ih =>
    intro s s' h
    unfold chkLoop at h
    rw [Option.bind_eq_some_iff] at h
    obtain ⟨s1, h1, h2⟩ := h
    obtain ⟨e, hr⟩ := chkStep_some h1
    obtain ⟨a, b, c⟩ := ih s1 s' h2
    refine ⟨?_, ?_, ?_⟩
    · rw [a, e, span_cons]; simp only; ring
    · rw [b, e]; simp only [ChainR, Bool.or_eq_false_iff, Bool.not_eq_false', decide_eq_true_eq, ge_iff_le]
      tauto
    · intro _
      by_cases hd : ds = []
      · subst hd; simp [chkLoop] at h2; rw [← h2]; exact hr
      · exact c hd

theorem chkLoop_defined : ∀ (ds : List Dim) (s : ChkSt),
    InRange 32 (s.prevShape * s.prevStride) →
    (∀ d ∈ ds, InRange 32 (d.shape * d.stride) ∧ InRange 32 ((d.shape - 1) * d.stride)) →
    (∀ k, InRange 32 (s.size + span (ds.take k))) →
    ∃ s', chkLoop ds s = some s' := by
  intro ds
  induction ds with
  | nil => intro s _ _ _; exact ⟨s, rfl⟩
  | cons d ds ih =>
    intro s h1 h2 h3
    have hd := h2 d (by simp)
    have h31 := h3 1
    simp only [List.take_succ_cons, List.take_zero, span_cons] at h31
    have e0 : span ([] : List Dim) = 0 := rfl
    rw [e0, Int.add_zero] at h31
    have hs : chkStep s d = some (ChkSt.mk (s.fail || !(decide (d.stride ≥ s.prevShape * s.prevStride)))
        d.shape d.stride (s.size + (d.shape - 1) * d.stride)) := by
      unfold chkStep
      rw [ckd_some h1, ckd_some hd.2]
      simp only [Option.bind_eq_bind, Option.bind_some]
      rw [ckd_some h31]; rfl
    unfold chkLoop
    rw [hs, Option.bind_some]
    apply ih
    · exact hd.1
    · intro e he; exact h2 e (by simp [he])
    · intro k
      have := h3 (k + 1)
      simp only [List.take_succ_cons, span_cons] at this
      rw [← Int.add_assoc] at this; exact this

theorem chainR_append : ∀ (a : List Dim) (ps pst : Int) (d : Dim) (b : List Dim),
    ChainR ps pst (a ++ d :: b) ↔ ChainR ps pst (a ++ [d]) ∧ ChainR d.shape d.stride b := by
  intro a
  induction a with
  | nil => intro ps pst d b; simp [ChainR]
  | cons x a ih =>
    intro ps pst d b
    have h := ih x.shape x.stride d b
    show (ps * pst ≤ x.stride ∧ ChainR x.shape x.stride (a ++ d :: b)) ↔
      (ps * pst ≤ x.stride ∧ ChainR x.shape x.stride (a ++ [d])) ∧ ChainR d.shape d.stride b
    rw [h, and_assoc]

/-- The check's chain condition is `Nested`. -/
theorem chainR_reverse : ∀ (ds : List Dim), ChainR 1 1 ds.reverse ↔ Nested ds := by
  intro ds
  induction ds with
  | nil => simp [ChainR, Nested]
  | cons d ds ih =>
    cases ds with
    | nil => simp [ChainR, Nested]
    | cons e ds =>
      rw [List.reverse_cons, List.reverse_cons, List.append_assoc, List.singleton_append, chainR_append,
        ← List.reverse_cons, ih]
      simp only [ChainR, Nested, and_true]
      exact and_comm

theorem dimOk_iff (d : Dim) : dimOk d = true ↔ 0 < d.stride ∧ 0 < d.shape ∧ d.shape ≤ int32Max := by
  unfold dimOk; simp; omega

/-- Complete description of an accepting run. -/
theorem checkTensorPrivate_ok {t : Tensor} (h : checkTensorPrivate t = some .ok) :
    t.dims.length ≤ 4 ∧ t.cap ≤ int32Max ∧
    (∀ d ∈ t.dims, 0 < d.stride ∧ 0 < d.shape ∧ d.shape ≤ int32Max) ∧ Nested t.dims ∧
    InRange 32 (1 + span t.dims) ∧ wrap 32 ((1 + span t.dims) * t.es) ≤ t.cap := by
  unfold checkTensorPrivate at h
  split at h
  · simp at h
  · rename_i h1
    split at h
    · simp at h
    · rename_i h2
      simp only [Option.bind_eq_bind, Option.bind_eq_some_iff, Option.pure_def] at h
      obtain ⟨s, hs, h3⟩ := h
      obtain ⟨a, b, c⟩ := chkLoop_some _ _ _ hs
      simp only [span_reverse] at a
      have hf : s.fail = false := by
        by_contra hc
        simp only [Bool.not_eq_false] at hc
        rw [hc] at h3; simp at h3
      rw [hf] at h3
      simp only [Bool.false_eq_true, if_false] at h3
      have hcap : wrap 32 (s.size * t.es) ≤ t.cap := by
        by_contra hc
        rw [if_neg (by omega)] at h3; simp at h3
      rw [a] at hcap
      have h2' : ∀ d ∈ t.dims, 0 < d.stride ∧ 0 < d.shape ∧ d.shape ≤ int32Max := by
        simp only [Bool.not_eq_true', Bool.not_eq_false, List.all_eq_true] at h2
        intro d hd; exact (dimOk_iff d).mp (h2 d hd)
      refine ⟨by unfold maxRank at h1; omega, by omega, h2', ?_, ?_, hcap⟩
      · rw [← chainR_reverse]; exact (b.mp hf).2
      · by_cases hd : t.dims = []
        · rw [hd]; decide
        · have := c (by simpa using hd)
          rw [a] at this; exact this

/-! ## addressing -/

theorem span_nonneg {ds : List Dim} (h : ∀ d ∈ ds, 0 < d.stride ∧ 0 < d.shape) : 0 ≤ span ds := by
  induction ds with
  | nil => simp [span]
  | cons d ds ih =>
    rw [span_cons]
    have h1 := h d (by simp)
    have h2 := ih (fun e he => h e (by simp [he]))
    nlinarith

theorem offset_bounds : ∀ (ds : List Dim) (is : List Int), (∀ d ∈ ds, 0 < d.stride) →
    InShape (ds.map (·.shape)) is →
    0 ≤ offset (ds.map (·.stride)) is ∧ offset (ds.map (·.stride)) is ≤ span ds := by
  intro ds
  induction ds with
  | nil => intro is _ h; cases is <;> simp_all [InShape, offset, span]
  | cons d ds ih =>
    intro is hp h
    cases is with
    | nil => simp [InShape] at h
    | cons i is =>
      simp only [List.map_cons, InShape] at h
      obtain ⟨⟨h1, h2⟩, h3⟩ := h
      obtain ⟨a, b⟩ := ih is (fun e he => hp e (by simp [he])) h3
      have hd := hp d (by simp)
      simp only [List.map_cons, offset, span_cons]
      constructor
      · nlinarith
      · nlinarith

theorem nested_offset_lt : ∀ (d : Dim) (ds : List Dim) (is : List Int),
    (∀ e ∈ d :: ds, 0 < e.stride) → Nested (d :: ds) →
    InShape ((d :: ds).map (·.shape)) is →
    offset ((d :: ds).map (·.stride)) is < d.shape * d.stride := by
  intro d ds
  induction ds generalizing d with
  | nil =>
    intro is hp hn h
    cases is with
    | nil => simp [InShape] at h
    | cons i is =>
      simp only [List.map_cons, List.map_nil, InShape] at h
      obtain ⟨⟨h1, h2⟩, h3⟩ := h
      have hd := hp d (by simp)
      simp only [List.map_cons, List.map_nil, offset]
      cases is with
      | nil => simp only [Int.add_zero]; nlinarith
      | cons _ _ => simp [InShape] at h3
  | cons e ds ih =>
    intro is hp hn h
    cases is with
    | nil => simp [InShape] at h
    | cons i is =>
      rw [List.map_cons] at h
      unfold InShape at h
      obtain ⟨⟨h1, h2⟩, h3⟩ := h
      have hd := hp d (by simp)
      have hlt := ih e is (fun x hx => hp x (by simp at hx ⊢; tauto)) hn.2 h3
      have hne := hn.1
      rw [List.map_cons]; unfold offset
      nlinarith

theorem nested_offset_inj : ∀ (ds : List Dim) (is js : List Int), (∀ d ∈ ds, 0 < d.stride) →
    Nested ds → InShape (ds.map (·.shape)) is → InShape (ds.map (·.shape)) js →
    offset (ds.map (·.stride)) is = offset (ds.map (·.stride)) js → is = js := by
  intro ds
  induction ds with
  | nil => intro is js _ _ h1 h2 _; cases is <;> cases js <;> simp_all [InShape]
  | cons d ds ih =>
    intro is js hp hn h1 h2 h
    cases is with
    | nil => simp [InShape] at h1
    | cons i is =>
    cases js with
    | nil => simp [InShape] at h2
    | cons j js =>
      rw [List.map_cons] at h1 h2 h
      unfold InShape at h1 h2
      unfold offset at h
      have hp' : ∀ e ∈ ds, 0 < e.stride := fun e he => hp e (by simp [he])
      have hd := hp d (by simp)
      have hn' : Nested ds := by
        cases ds with
        | nil => trivial
        | cons e ds => exact hn.2
      obtain ⟨a1, a2⟩ := offset_bounds ds is hp' h1.2
      obtain ⟨b1, b2⟩ := offset_bounds ds js hp' h2.2
      have hsmall : offset (ds.map (·.stride)) is < d.stride ∧ offset (ds.map (·.stride)) js < d.stride := by
        cases ds with
        | nil => simp only [List.map_nil, offset]; exact ⟨hd, hd⟩
        | cons e ds =>
          have x1 := nested_offset_lt e ds is hp' hn' h1.2
          have x2 := nested_offset_lt e ds js hp' hn' h2.2
          have := hn.1
          exact ⟨by omega, by omega⟩
      have hij : i = j := by
        by_contra hc
        rcases Int.lt_or_gt_of_ne hc with hl | hl
        · have : i + 1 ≤ j := hl
          nlinarith [hsmall.1, hsmall.2]
        · have : j + 1 ≤ i := hl
          nlinarith [hsmall.1, hsmall.2]
      subst hij
      have := ih is js hp' hn' h1.2 h2.2 (by omega)
      rw [this]

end Mli
