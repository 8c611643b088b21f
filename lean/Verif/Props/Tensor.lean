import Verif.Lemmas.Tensor

/-! # C08–C12: the tensor check, element count and sub-tensors -/

namespace Mli

open Spec

/-- Bytes from the first to the last element; the condition `≤ INT32_MAX` below says that the
tensor spans less than 2 GiB. -/
def Tensor.footprint (t : Tensor) : Int := extent t.shape t.strides * t.es

theorem footprint_eq (t : Tensor) : t.footprint = (1 + span t.dims) * t.es := by
  unfold Tensor.footprint Tensor.shape Tensor.strides; rw [extent_eq]

/-! ## C08 -/

/-- **Violation**: the size in bytes is computed modulo 2^32, so a tensor of 2^30 four-byte
elements is accepted with a buffer of zero bytes. -/
theorem c08_wrap_violated : ∃ t : Tensor, t.WellTyped ∧ checkTensorPrivate t = some .ok ∧
    ∃ is, InShape t.shape is ∧ ¬ (offset t.strides is + 1) * t.es ≤ t.cap := by
  refine ⟨{ dims := [⟨1073741824, 1⟩], cap := 0, es := 4 }, by decide, by decide, [0], by decide, by decide⟩

/-- Acceptance implies that every element is completely inside the buffer.
Missing: tensors spanning 2 GiB or more, for which the property is violated. -/
theorem c08_accepted_in_bounds_partial (t : Tensor) (hw : t.WellTyped) (hs : t.footprint ≤ int32Max)
    (h : checkTensorPrivate t = some .ok) (is : List Int) (hi : InShape t.shape is) :
    0 ≤ offset t.strides is ∧ (offset t.strides is + 1) * t.es ≤ t.cap := by
  obtain ⟨_, _, hd, _, hr, hc⟩ := checkTensorPrivate_ok h
  obtain ⟨a, b⟩ := offset_bounds t.dims is (fun d hd' => (hd d hd').1) hi
  have hsp := span_nonneg (ds := t.dims) (fun d hd' => ⟨(hd d hd').1, (hd d hd').2.1⟩)
  have hes : 1 ≤ t.es := by have := hw.2.2.2; omega
  rw [footprint_eq] at hs
  have hin : InRange 32 ((1 + span t.dims) * t.es) := by
    refine ⟨?_, ?_⟩
    · rw [show lo 32 = -2147483648 by decide]; nlinarith
    · rw [show Spec.hi 32 = 2147483647 by decide]; exact hs
  rw [wrap_of_inRange (by omega) hin] at hc
  refine ⟨a, ?_⟩
  change (offset (t.dims.map (·.stride)) is + 1) * t.es ≤ t.cap
  nlinarith

/-- For one-byte elements the 2 GiB condition is not needed. -/
theorem c08_accepted_in_bounds_int8 (t : Tensor) (hw : t.WellTyped) (he : t.es = 1)
    (h : checkTensorPrivate t = some .ok) (is : List Int) (hi : InShape t.shape is) :
    0 ≤ offset t.strides is ∧ (offset t.strides is + 1) * t.es ≤ t.cap := by
  apply c08_accepted_in_bounds_partial t hw _ h is hi
  obtain ⟨_, _, _, _, hr, _⟩ := checkTensorPrivate_ok h
  rw [footprint_eq, he, Int.mul_one]
  exact hr.2

/-- A padded 3-dimensional int16 tensor used as the concrete case below. -/
def exT : Tensor := { dims := [⟨3, 40⟩, ⟨4, 10⟩, ⟨8, 1⟩], cap := 240, es := 2 }

example : exT.WellTyped ∧ exT.footprint ≤ int32Max ∧ checkTensorPrivate exT = some .ok ∧
    InShape exT.shape [2, 3, 7] := by decide

/-! ## C09 -/

/-- Acceptance implies that different multi-indices address different elements. -/
theorem c09_accepted_no_alias (t : Tensor) (h : checkTensorPrivate t = some .ok)
    (is js : List Int) (hi : InShape t.shape is) (hj : InShape t.shape js)
    (heq : offset t.strides is = offset t.strides js) : is = js := by
  obtain ⟨_, _, hd, hn, _, _⟩ := checkTensorPrivate_ok h
  exact nested_offset_inj t.dims is js (fun d hd' => (hd d hd').1) hn hi hj heq

example : checkTensorPrivate exT = some .ok ∧ InShape exT.shape [1, 2, 3] ∧ InShape exT.shape [2, 0, 1] ∧
    offset exT.strides [1, 2, 3] = 63 := by decide

/-! ## C10 -/

theorem nested_iff (ds : List Dim) (hp : ∀ d ∈ ds, 0 < d.stride) :
    Nested ds ↔ StridesNested (ds.map (·.shape)) (ds.map (·.stride)) := by
  induction ds with
  | nil => simp [Nested, StridesNested]
  | cons d ds ih =>
    cases ds with
    | nil => have := hp d (by simp); simp only [Nested, List.map_cons, List.map_nil, StridesNested, iff_true]; omega
    | cons e ds =>
      have := ih (fun x hx => hp x (by simp at hx ⊢; tauto))
      simp only [Nested, List.map_cons, StridesNested] at this ⊢
      rw [this]

theorem span_take_reverse_bounds (ds : List Dim) (h : ∀ d ∈ ds, 0 < d.stride ∧ 0 < d.shape) (k : Nat) :
    0 ≤ span (ds.reverse.take k) ∧ span (ds.reverse.take k) ≤ span ds := by
  have hr : ∀ d ∈ ds.reverse, 0 < d.stride ∧ 0 < d.shape := by
    intro d hd; exact h d (by simpa using hd)
  have h1 : 0 ≤ span (ds.reverse.take k) := span_nonneg (fun d hd => hr d (List.mem_of_mem_take hd))
  have h2 : 0 ≤ span (ds.reverse.drop k) := span_nonneg (fun d hd => hr d (List.mem_of_mem_drop hd))
  have h3 : span (ds.reverse.take k) + span (ds.reverse.drop k) = span ds := by
    rw [← span_append, List.take_append_drop, span_reverse]
  omega

/-- What the API documentation asks of a tensor, apart from the buffer size. -/
def Tensor.LayoutValid (t : Tensor) : Prop :=
  t.dims.length ≤ 4 ∧ t.cap ≤ int32Max ∧
  (∀ d ∈ t.dims, 0 < d.stride ∧ 1 ≤ d.shape ∧ d.shape ≤ int32Max) ∧
  StridesNested t.shape t.strides

/-- The check is total and returns exactly the documented decision.
Missing: tensors whose extent, or shape times stride of some dimension, is 2 GiB or more
(signed overflow or modulo-2^32 arithmetic inside the check, see `c08_wrap_violated` and
`c10_overflow`). -/
theorem c10_check_decision_partial (t : Tensor) (hw : t.WellTyped)
    (hs : t.footprint ≤ int32Max) (hp : ∀ d ∈ t.dims, d.shape * d.stride ≤ int32Max) :
    (checkTensorPrivate t = some .ok ↔ t.LayoutValid ∧ t.footprint ≤ t.cap) ∧
    (checkTensorPrivate t = some .notEnghMem ↔ t.LayoutValid ∧ ¬ t.footprint ≤ t.cap) ∧
    (checkTensorPrivate t = some .badTensor ↔ ¬ t.LayoutValid) := by
  rw [footprint_eq] at *
  have hes : 1 ≤ t.es := by have := hw.2.2.2; omega
  unfold checkTensorPrivate
  by_cases h1 : t.dims.length > maxRank ∨ t.cap > int32Max
  · rw [if_pos h1]
    have : ¬ t.LayoutValid := by
      rintro ⟨a, b, _⟩; unfold maxRank at h1; omega
    simp [this]
  rw [if_neg h1]
  by_cases h2 : t.dims.all dimOk = true
  · rw [if_neg (by simp [h2])]
    have hd : ∀ d ∈ t.dims, 0 < d.stride ∧ 0 < d.shape ∧ d.shape ≤ int32Max := by
      rw [List.all_eq_true] at h2
      intro d hd'; exact (dimOk_iff d).mp (h2 d hd')
    have hd2 : ∀ d ∈ t.dims, 0 < d.stride ∧ 0 < d.shape := fun d h => ⟨(hd d h).1, (hd d h).2.1⟩
    have hsp := span_nonneg hd2
    have hspan : 1 + span t.dims ≤ int32Max := by nlinarith
    have r32 : ∀ x : Int, 0 ≤ x → x ≤ int32Max → InRange 32 x := by
      intro x h1 h2
      refine ⟨?_, ?_⟩
      · rw [show lo 32 = -2147483648 by decide]; omega
      · exact h2
    obtain ⟨s, hs'⟩ := chkLoop_defined t.dims.reverse
      { fail := false, prevShape := 1, prevStride := 1, size := 1 } (by decide)
      (by
        intro d hd'
        have hm : d ∈ t.dims := by simpa using hd'
        obtain ⟨a, b, c⟩ := hd d hm
        have := hp d hm
        exact ⟨r32 _ (by nlinarith) this, r32 _ (by nlinarith) (by nlinarith)⟩)
      (by
        intro k
        obtain ⟨a, b⟩ := span_take_reverse_bounds t.dims hd2 k
        exact r32 _ (by simp only; omega) (by simp only; omega))
    obtain ⟨a, b, c⟩ := chkLoop_some _ _ _ hs'
    simp only [span_reverse] at a b
    have hwrap : wrap 32 (s.size * t.es) = (1 + span t.dims) * t.es := by
      rw [a]; exact wrap_of_inRange (by omega) (r32 _ (by nlinarith) hs)
    have hlay : t.LayoutValid ↔ s.fail = false := by
      rw [b, chainR_reverse, nested_iff _ (fun d h => (hd d h).1)]
      unfold Tensor.LayoutValid Tensor.shape Tensor.strides
      constructor
      · rintro ⟨_, _, _, x⟩; exact ⟨trivial, x⟩
      · rintro ⟨_, x⟩; exact ⟨by unfold maxRank at h1; omega, by omega, hd, x⟩
    rw [hs']
    simp only [Option.bind_eq_bind, Option.bind_some, hwrap, hlay, Option.pure_def]
    cases hf : s.fail
    · by_cases hc : t.cap ≥ (1 + span t.dims) * t.es
      · simp [hc]
      · simp [hc]
    · simp
  · rw [if_pos (by simpa using h2)]
    have : ¬ t.LayoutValid := by
      rintro ⟨_, _, x, _⟩
      apply h2
      rw [List.all_eq_true]
      intro d hd; exact (dimOk_iff d).mpr (x d hd)
    simp [this]

/-- **Violation**: the check itself evaluates signed overflow for a representable tensor. -/
theorem c10_overflow : ∃ t : Tensor, t.WellTyped ∧ checkTensorPrivate t = none := by
  refine ⟨{ dims := [⟨2, 2147483647⟩, ⟨2147483647, 2⟩], cap := 100, es := 1 }, by decide, by decide⟩

example : exT.WellTyped ∧ exT.footprint ≤ int32Max ∧ (∀ d ∈ exT.dims, d.shape * d.stride ≤ int32Max) ∧
    checkTensorPrivate exT = some .ok ∧ checkTensorPrivate { exT with cap := 200 } = some .notEnghMem := by
  decide

/-! ## C11 -/

theorem foldl_mod_prod (ns : List Int) (h : ∀ n ∈ ns, 1 ≤ n) : ∀ acc : Int, 1 ≤ acc →
    acc * prod ns < 2 ^ 32 →
    ns.foldl (fun acc n => (acc * n) % 2 ^ 32) acc = acc * prod ns := by
  induction ns with
  | nil => intro acc _ _; simp [prod]
  | cons n ns ih =>
    intro acc ha hlt
    have hn := h n (by simp)
    have hns : ∀ m ∈ ns, 1 ≤ m := fun m hm => h m (by simp [hm])
    have hp : 1 ≤ prod ns := by
      clear ih hlt h
      induction ns with
      | nil => simp [prod]
      | cons m ms ih2 =>
        have := hns m (by simp)
        have := ih2 (fun x hx => hns x (by simp [hx]))
        unfold prod; nlinarith
    unfold prod at hlt ⊢
    have e : acc * (n * prod ns) = (acc * n) * prod ns := by ring
    rw [e] at hlt ⊢
    have hsmall : acc * n < 2 ^ 32 := by nlinarith
    have hmod : (acc * n) % 2 ^ 32 = acc * n := Int.emod_eq_of_lt (by nlinarith) hsmall
    rw [List.foldl_cons, hmod]
    exact ih hns (acc * n) (by nlinarith) hlt

/-- The element count is the product of the dimensions from `start` on, when that is below 2^32. -/
theorem c11_count_is_product (t : Tensor) (start : Nat) (hr : t.dims.length ≤ 4)
    (hstart : start < t.dims.length ∨ (t.dims = [] ∧ start = 0)) (hd : ∀ d ∈ t.dims, 1 ≤ d.shape)
    (hlt : prod (t.shape.drop start) < 2 ^ 32) :
    hlpCountElemNum t start = prod (t.shape.drop start) := by
  unfold hlpCountElemNum maxRank
  rw [if_neg (by omega), if_neg (by
    rintro ⟨a, b⟩
    rcases hstart with h | ⟨h, _⟩
    · exact b h
    · rw [h] at a; exact a rfl)]
  unfold countElemNumPart
  have e : (t.dims.drop start).map (·.shape) = t.shape.drop start := by
    unfold Tensor.shape; rw [List.map_drop]
  rw [e]
  have := foldl_mod_prod (t.shape.drop start) (by
    intro n hn
    have := List.mem_of_mem_drop hn
    unfold Tensor.shape at this
    rw [List.mem_map] at this
    obtain ⟨d, hd', rfl⟩ := this
    exact hd d hd') 1 (by decide) (by simpa using hlt)
  rw [this, Int.one_mul]

theorem nested_span_lt (d : Dim) (ds : List Dim) (h : ∀ e ∈ d :: ds, 0 < e.stride ∧ 0 < e.shape)
    (hn : Nested (d :: ds)) : span (d :: ds) < d.shape * d.stride := by
  induction ds generalizing d with
  | nil => have := h d (by simp); simp only [span_cons]; simp [span]; nlinarith
  | cons e ds ih =>
    have h1 := h d (by simp)
    have := ih e (fun x hx => h x (by simp at hx ⊢; tauto)) hn.2
    rw [span_cons]
    have := hn.1
    nlinarith

theorem prod_le_extent (ds : List Dim) (h : ∀ e ∈ ds, 0 < e.stride ∧ 0 < e.shape)
    (hn : Nested ds) : prod (ds.map (·.shape)) ≤ 1 + span ds := by
  induction ds with
  | nil => simp [prod, span]
  | cons d ds ih =>
    have h1 := h d (by simp)
    have h' : ∀ e ∈ ds, 0 < e.stride ∧ 0 < e.shape := fun x hx => h x (by simp [hx])
    have hn' : Nested ds := by
      cases ds with
      | nil => trivial
      | cons e ds => exact hn.2
    have hih := ih h' hn'
    rw [List.map_cons, prod, span_cons]
    have hst : prod (ds.map (·.shape)) ≤ d.stride := by
      cases ds with
      | nil => simp [prod]; omega
      | cons e ds =>
        have := nested_span_lt e ds h' hn'
        have := hn.1
        omega
    nlinarith

theorem prod_pos {ns : List Int} (h : ∀ n ∈ ns, 1 ≤ n) : 1 ≤ prod ns := by
  induction ns with
  | nil => simp [prod]
  | cons n ns ih =>
    have := h n (by simp)
    have := ih (fun m hm => h m (by simp [hm]))
    unfold prod; nlinarith

theorem prod_drop_le (ns : List Int) (h : ∀ n ∈ ns, 1 ≤ n) (k : Nat) : prod (ns.drop k) ≤ prod ns := by
  induction ns generalizing k with
  | nil => simp
  | cons n ns ih =>
    cases k with
    | zero => simp
    | succ k =>
      have h1 := h n (by simp)
      have h2 : ∀ m ∈ ns, 1 ≤ m := fun m hm => h m (by simp [hm])
      have h3 := ih h2 k
      have h4 := prod_pos h2
      rw [List.drop_succ_cons]
      conv => rhs; unfold prod
      nlinarith

/-- For every accepted tensor the count never wraps. -/
theorem c11_accepted_count (t : Tensor) (start : Nat) (h : checkTensorPrivate t = some .ok)
    (hstart : start < t.dims.length ∨ (t.dims = [] ∧ start = 0)) :
    hlpCountElemNum t start = prod (t.shape.drop start) := by
  obtain ⟨hr, _, hd, hn, hin, _⟩ := checkTensorPrivate_ok h
  have hd1 : ∀ n ∈ t.shape, (1 : Int) ≤ n := by
    intro n hn'
    unfold Tensor.shape at hn'
    rw [List.mem_map] at hn'
    obtain ⟨d, hd', rfl⟩ := hn'
    have := (hd d hd').2.1; omega
  apply c11_count_is_product t start hr hstart (fun d h' => by have := (hd d h').2.1; omega)
  have h1 := prod_drop_le t.shape hd1 start
  have h2 := prod_le_extent t.dims (fun d h' => ⟨(hd d h').1, (hd d h').2.1⟩) hn
  have h3 := hin.2
  rw [show Spec.hi 32 = 2147483647 by decide] at h3
  change prod t.shape ≤ _ at h2
  omega

example : checkTensorPrivate exT = some .ok ∧ hlpCountElemNum exT 0 = 96 ∧ hlpCountElemNum exT 1 = 32 := by
  decide

/-! ## C12 -/

/-- Element-wise sum of two multi-indices. -/
def addIdx : List Int → List Int → List Int
  | a :: as, b :: bs => (a + b) :: addIdx as bs
  | _, _ => []

theorem dropOnes_cons {α : Type} (k : Nat) (n : Int) (ns : List Int) (x : α) (xs : List α) :
    dropOnes (k + 1) (n :: ns) (x :: xs) =
      if n = 1 then dropOnes k ns xs else x :: dropOnes (k + 1) ns xs := rfl

theorem subDims_shape : ∀ (ds : List Dim) (ns : List Int) (k : Nat), ds.length = ns.length →
    (subDims k ds ns).map (·.shape) = dropOnes k ns ns ∧
    (subDims k ds ns).map (·.stride) = dropOnes k ns (ds.map (·.stride)) := by
  intro ds
  induction ds with
  | nil => intro ns k h; cases ns <;> cases k <;> simp_all [subDims, dropOnes]
  | cons d ds ih =>
    intro ns k h
    cases ns with
    | nil => simp at h
    | cons n ns =>
      have hl : ds.length = ns.length := by simpa using h
      cases k with
      | zero =>
        obtain ⟨a, b⟩ := ih ns 0 hl
        simp only [Nat.cast_zero] at a b
        simp [subDims, dropOnes, a, b]
      | succ k =>
        unfold subDims dropOnes
        by_cases hn : n = 1
        · have e : ((k + 1 : Nat) : Int) - 1 = (k : Int) := by omega
          rw [if_pos ⟨by omega, hn⟩, e]
          obtain ⟨a, b⟩ := ih ns k hl
          simp [hn, a, b]
        · rw [if_neg (by tauto)]
          obtain ⟨a, b⟩ := ih ns (k + 1) hl
          rw [if_neg hn, List.map_cons, List.map_cons, List.map_cons, a, b]
          refine ⟨rfl, ?_⟩
          show _ = if n = 1 then dropOnes k ns (ds.map (·.stride)) else
            d.stride :: dropOnes (k + 1) ns (ds.map (·.stride))
          rw [if_neg hn]

theorem inShape_length : ∀ (ns is : List Int), InShape ns is → ns.length = is.length := by
  intro ns
  induction ns with
  | nil => intro is h; cases is <;> simp_all [InShape]
  | cons n ns ih =>
    intro is h
    cases is with
    | nil => simp [InShape] at h
    | cons i is => simp [ih is h.2]

theorem dropOnes_zero {α : Type} (ns : List Int) (xs : List α) : dropOnes 0 ns xs = xs := by
  cases ns <;> cases xs <;> rfl

theorem offset_dropOnes : ∀ (k : Nat) (ns ss is : List Int), ns.length = ss.length → InShape ns is →
    offset (dropOnes k ns ss) (dropOnes k ns is) = offset ss is ∧
    InShape (dropOnes k ns ns) (dropOnes k ns is) := by
  intro k ns
  induction ns generalizing k with
  | nil => intro ss is h1 h2; cases is <;> cases ss <;> cases k <;> simp_all [InShape, dropOnes]
  | cons n ns ih =>
    intro ss is h1 h2
    cases ss with
    | nil => simp at h1
    | cons s ss =>
    cases is with
    | nil => simp [InShape] at h2
    | cons i is =>
      have hl : ns.length = ss.length := by simpa using h1
      cases k with
      | zero => simp only [dropOnes_zero]; exact ⟨trivial, h2⟩
      | succ k =>
        unfold dropOnes
        by_cases hn : n = 1
        · simp only [if_pos hn]
          obtain ⟨a, b⟩ := ih k ss is hl h2.2
          refine ⟨?_, b⟩
          have : i = 0 := by have := h2.1; omega
          rw [a, this, offset]; omega
        · simp only [if_neg hn]
          obtain ⟨a, b⟩ := ih (k + 1) ss is hl h2.2
          refine ⟨?_, h2.1, b⟩
          simp only [offset, a]

theorem dropOnes_onto : ∀ (k : Nat) (ns js : List Int), InShape (dropOnes k ns ns) js →
    ∃ is, InShape ns is ∧ dropOnes k ns is = js := by
  intro k ns
  induction ns generalizing k with
  | nil =>
    intro js h
    have : dropOnes k ([] : List Int) ([] : List Int) = [] := by cases k <;> rfl
    rw [this] at h
    cases js with
    | nil => exact ⟨[], trivial, this⟩
    | cons _ _ => simp [InShape] at h
  | cons n ns ih =>
    intro js h
    cases k with
    | zero => rw [dropOnes_zero] at h; exact ⟨js, h, dropOnes_zero _ _⟩
    | succ k =>
      unfold dropOnes at h
      by_cases hn : n = 1
      · rw [if_pos hn] at h
        obtain ⟨is, a, b⟩ := ih k js h
        refine ⟨0 :: is, ⟨⟨le_rfl, by omega⟩, a⟩, ?_⟩
        unfold dropOnes; rw [if_pos hn, b]
      · rw [if_neg hn] at h
        cases js with
        | nil => simp [InShape] at h
        | cons j js =>
          obtain ⟨is, a, b⟩ := ih (k + 1) js h.2
          refine ⟨j :: is, ⟨h.1, a⟩, ?_⟩
          unfold dropOnes; rw [if_neg hn, b]

theorem offset_addIdx : ∀ (ds : List Dim) (os is : List Int), ds.length = os.length → ds.length = is.length →
    offset (ds.map (·.stride)) (addIdx os is) = bufOffset ds os + offset (ds.map (·.stride)) is := by
  intro ds
  induction ds with
  | nil => intro os is h1 h2; cases os <;> cases is <;> simp_all [offset, addIdx, bufOffset]
  | cons d ds ih =>
    intro os is h1 h2
    cases os with
    | nil => simp at h1
    | cons o os =>
    cases is with
    | nil => simp at h2
    | cons i is =>
      simp only [List.map_cons, addIdx, offset, bufOffset]
      rw [ih os is (by simpa using h1) (by simpa using h2)]; ring

theorem subCfgOk_window : ∀ (ds : List Dim) (os ns is : List Int), subCfgOk ds os ns = true →
    (∀ o ∈ os, 0 ≤ o) → (∀ n ∈ ns, 0 ≤ n) → (∀ p ∈ os.zip ns, p.1 + p.2 < 2 ^ 32) →
    ds.length = os.length → InShape ns is → ds.length = ns.length →
    InShape (ds.map (·.shape)) (addIdx os is) := by
  intro ds
  induction ds with
  | nil => intro os ns is _ _ _ _ h1 h2 h3; cases os <;> cases ns <;> cases is <;> simp_all [InShape, addIdx]
  | cons d ds ih =>
    intro os ns is hok ho hn hsum h1 h2 h3
    cases os with
    | nil => simp at h1
    | cons o os =>
    cases ns with
    | nil => simp at h3
    | cons n ns =>
    cases is with
    | nil => simp [InShape] at h2
    | cons i is =>
      unfold subCfgOk at hok
      simp only [Bool.and_eq_true, decide_eq_true_eq] at hok
      obtain ⟨⟨a, b⟩, c⟩ := hok
      have ho' := ho o (by simp)
      have hn' := hn n (by simp)
      have hs' := hsum (o, n) (by simp)
      simp only at hs'
      rw [Int.emod_eq_of_lt (by omega) hs'] at b
      have hi := h2.1
      refine ⟨⟨by omega, by show o + i < d.shape; omega⟩, ?_⟩
      exact ih os ns is c (fun x hx => ho x (by simp [hx])) (fun x hx => hn x (by simp [hx]))
        (fun p hp => hsum p (by simp [hp])) (by simpa using h1) h2.2 (by simpa using h3)

theorem createSubtensor_ok {t out : Tensor} {c : SubCfg} (h : createSubtensor t c = some (.ok, out)) :
    checkTensorPrivate t = some .ok ∧ c.rank ≤ t.dims.length ∧ subCfgOk t.dims c.offs c.sizes = true ∧
    out = { dims := (subDims ((t.dims.length : Int) - c.rank) t.dims c.sizes).take c.rank
            base := t.base + bufOffset t.dims c.offs
            cap := t.cap - bufOffset t.dims c.offs * t.es
            es := t.es } := by
  unfold createSubtensor at h
  cases hc : checkTensorPrivate t with
  | none => rw [hc] at h; simp at h
  | some st =>
    rw [hc] at h
    simp only [Option.bind_eq_bind, Option.bind_some] at h
    by_cases h1 : st = .ok
    · subst h1
      simp only [ne_eq, not_true_eq_false, if_false] at h
      by_cases h2 : c.rank > t.dims.length
      · rw [if_pos h2] at h; simp at h
      · rw [if_neg h2] at h
        by_cases h3 : subCfgOk t.dims c.offs c.sizes = true
        · rw [if_neg (by simp [h3])] at h
          simp only [Option.pure_def, Option.some.injEq, Prod.mk.injEq, true_and] at h
          exact ⟨rfl, by omega, h3, h.symm⟩
        · rw [if_pos (by simpa using h3)] at h; simp at h
    · rw [if_pos h1] at h
      simp only [Option.pure_def, Option.some.injEq, Prod.mk.injEq] at h
      exact absurd h.1 h1

/-- Configurations with one entry per input dimension, sizes that do not wrap, and enough
dimensions of size one to reach the requested rank. -/
def SubCfg.Sane (c : SubCfg) (t : Tensor) : Prop :=
  t.dims.length = c.offs.length ∧ t.dims.length = c.sizes.length ∧
  (∀ o ∈ c.offs, 0 ≤ o) ∧ (∀ n ∈ c.sizes, 0 ≤ n) ∧ (∀ p ∈ c.offs.zip c.sizes, p.1 + p.2 < 2 ^ 32) ∧
  (dropOnes (t.dims.length - c.rank) c.sizes c.sizes).length = c.rank

instance (c : SubCfg) (t : Tensor) : Decidable (c.Sane t) := by unfold SubCfg.Sane; infer_instance

theorem createSubtensor_shape {t out : Tensor} {c : SubCfg} (hs : c.Sane t)
    (h : createSubtensor t c = some (.ok, out)) :
    out.shape = dropOnes (t.dims.length - c.rank) c.sizes c.sizes ∧
    out.strides = dropOnes (t.dims.length - c.rank) c.sizes t.strides := by
  obtain ⟨h1, h2, h3, rfl⟩ := createSubtensor_ok h
  obtain ⟨s1, s2, s3, s4, s5, s6⟩ := hs
  have e : ((t.dims.length : Int) - c.rank) = ((t.dims.length - c.rank : Nat) : Int) := by omega
  obtain ⟨a, b⟩ := subDims_shape t.dims c.sizes (t.dims.length - c.rank) s2
  have hlen : (subDims ((t.dims.length - c.rank : Nat) : Int) t.dims c.sizes).length = c.rank := by
    have := congrArg List.length a
    rw [List.length_map, s6] at this; exact this
  unfold Tensor.shape Tensor.strides
  rw [e]
  simp only [List.take_of_length_le (le_of_eq hlen)]
  exact ⟨a, b⟩

/-- Every element of the window `[offset, offset+size)` of the parent is an element of the
sub-tensor, found under its window coordinates with the leading size-1 dimensions removed; and
it is inside the parent. -/
theorem c12_window_partial (t out : Tensor) (c : SubCfg) (hs : c.Sane t)
    (h : createSubtensor t c = some (.ok, out)) (is : List Int) (hi : InShape c.sizes is) :
    InShape out.shape (dropOnes (t.dims.length - c.rank) c.sizes is) ∧
    InShape t.shape (addIdx c.offs is) ∧
    out.base + offset out.strides (dropOnes (t.dims.length - c.rank) c.sizes is) =
      t.base + offset t.strides (addIdx c.offs is) := by
  obtain ⟨hsh, hst⟩ := createSubtensor_shape hs h
  obtain ⟨h1, h2, h3, rfl⟩ := createSubtensor_ok h
  obtain ⟨s1, s2, s3, s4, s5, s6⟩ := hs
  have hl : c.sizes.length = t.strides.length := by unfold Tensor.strides; rw [List.length_map]; omega
  obtain ⟨a, b⟩ := offset_dropOnes (t.dims.length - c.rank) c.sizes t.strides is hl hi
  refine ⟨by rw [hsh]; exact b, subCfgOk_window _ _ _ _ h3 s3 s4 s5 s1 hi s2, ?_⟩
  rw [hst, a]
  have := offset_addIdx t.dims c.offs is s1 (by rw [s2]; exact inShape_length _ _ hi)
  change offset t.strides (addIdx c.offs is) = _ at this
  rw [this]
  simp only [Tensor.strides]
  ring

/-- Conversely every element of the sub-tensor is an element of the window. -/
theorem c12_onto_partial (t out : Tensor) (c : SubCfg) (hs : c.Sane t)
    (h : createSubtensor t c = some (.ok, out)) (js : List Int) (hj : InShape out.shape js) :
    ∃ is, InShape c.sizes is ∧ dropOnes (t.dims.length - c.rank) c.sizes is = js := by
  obtain ⟨hsh, _⟩ := createSubtensor_shape hs h
  rw [hsh] at hj
  exact dropOnes_onto _ _ _ hj

/-- Every element of the sub-tensor is inside the bytes the sub-tensor's own capacity covers,
which is inside the parent's buffer. -/
theorem c12_in_parent_partial (t out : Tensor) (c : SubCfg) (hw : t.WellTyped) (hf : t.footprint ≤ int32Max)
    (hs : c.Sane t) (h : createSubtensor t c = some (.ok, out)) (js : List Int) (hj : InShape out.shape js) :
    t.base ≤ out.base + offset out.strides js ∧
    (out.base + offset out.strides js + 1) * out.es ≤ t.base * t.es + t.cap ∧
    (offset out.strides js + 1) * out.es ≤ out.cap := by
  obtain ⟨is, hi, rfl⟩ := c12_onto_partial t out c hs h js hj
  obtain ⟨a, b, e⟩ := c12_window_partial t out c hs h is hi
  obtain ⟨h1, h2, h3, hout⟩ := createSubtensor_ok h
  obtain ⟨x, y⟩ := c08_accepted_in_bounds_partial t hw hf h1 _ b
  have hes : out.es = t.es := by rw [hout]
  have hb : out.base = t.base + bufOffset t.dims c.offs := by rw [hout]
  have hc : out.cap = t.cap - bufOffset t.dims c.offs * t.es := by rw [hout]
  rw [e, hes]
  refine ⟨by omega, by nlinarith, ?_⟩
  have : offset out.strides (dropOnes (t.dims.length - c.rank) c.sizes is) =
      offset t.strides (addIdx c.offs is) - bufOffset t.dims c.offs := by omega
  rw [this, hc]; nlinarith

/-- **Violation**: `offset + size` is tested modulo 2^32, so a configuration whose window leaves
the parent is accepted. -/
theorem c12_wrap_violated : ∃ (t out : Tensor) (c : SubCfg), t.WellTyped ∧
    (∀ o ∈ c.offs, 0 ≤ o ∧ o < 2 ^ 32) ∧ (∀ n ∈ c.sizes, 0 ≤ n ∧ n < 2 ^ 32) ∧
    createSubtensor t c = some (.ok, out) ∧
    ∃ js, InShape out.shape js ∧ ¬ (offset out.strides js + 1) * out.es ≤ out.cap := by
  refine ⟨{ dims := [⟨4, 1⟩], cap := 4, es := 1 },
    { dims := [⟨4294967295, 1⟩], base := 1, cap := 3, es := 1 },
    { offs := [1], sizes := [4294967295], rank := 1 }, by decide, by decide, by decide, by decide, [5],
    by decide, by decide⟩

example : let c : SubCfg := { offs := [1, 2, 3], sizes := [1, 2, 5], rank := 2 }
    c.Sane exT ∧ createSubtensor exT c =
      some (.ok, { dims := [⟨2, 10⟩, ⟨5, 1⟩], base := 63, cap := 240 - 126, es := 2 }) ∧
    InShape c.sizes [0, 1, 4] ∧ exT.footprint ≤ int32Max := by decide

end Mli
