import Verif.Lemmas.Walk
import Verif.Lemmas.Tensor
import Verif.Props.Permute

/-! # C33: squashing is invisible -/

namespace Mli

open Spec

/-! ## joint dimensions of tensors -/

theorem jpos_eq_offset {k : Nat} (j : Fin k) : ∀ (ds : List (JDim k)) (is : List Int),
    jpos ds is j = offset (ds.map (·.s j)) is := by
  intro ds
  induction ds with
  | nil => intro is; simp [jpos, offset]
  | cons d ds ih =>
    intro is
    cases is with
    | nil => simp [jpos, offset]
    | cons i is => simp only [jpos, List.map_cons, offset, ih]

/-- Dimensions of tensor `j`. -/
def jproj {k : Nat} (j : Fin k) (ds : List (JDim k)) : List Dim := ds.map fun d => ⟨d.n, d.s j⟩

theorem jnested_of_chain {k : Nat} : ∀ (l : List (JDim k)),
    (∀ d ∈ l, 0 < d.n ∧ ∀ j, 0 < d.s j) → (∀ j, ∃ a b, ChainR a b (jproj j l)) → JNested l := by
  intro l
  induction l with
  | nil => intro _ _; trivial
  | cons d l ih =>
    intro h1 h2
    cases l with
    | nil => exact h1 d (by simp)
    | cons e l =>
      refine ⟨h1 d (by simp), fun j => ?_, ih (fun x hx => h1 x (by simp at hx ⊢; tauto)) fun j => ?_⟩
      · obtain ⟨a, b, h⟩ := h2 j
        simp only [jproj, List.map_cons, ChainR] at h
        exact h.2.1
      · obtain ⟨a, b, h⟩ := h2 j
        exact ⟨d.n, d.s j, by simpa [jproj, ChainR] using h.2⟩

/-- Tensors accepted by the check give nested joint dimensions. -/
theorem jnested_of_accepted {k : Nat} (hk : 0 < k) (ds : List (JDim k)) (T : Fin k → Tensor)
    (hT : ∀ j, (T j).dims = jproj j ds) (hok : ∀ j, checkTensorPrivate (T j) = some .ok) :
    JNested ds.reverse ∧ ds.length ≤ 4 := by
  constructor
  · apply jnested_of_chain
    · intro d hd
      rw [List.mem_reverse] at hd
      have hp : ∀ j, 0 < d.s j ∧ 0 < d.n := by
        intro j
        have := (checkTensorPrivate_ok (hok j)).2.2.1 ⟨d.n, d.s j⟩
          (by rw [hT]; exact List.mem_map.mpr ⟨d, hd, rfl⟩)
        exact ⟨this.1, this.2.1⟩
      exact ⟨(hp ⟨0, hk⟩).2, fun j => (hp j).1⟩
    · intro j
      refine ⟨1, 1, ?_⟩
      have := (checkTensorPrivate_ok (hok j)).2.2.2.1
      rw [← chainR_reverse, hT] at this
      simpa [jproj, List.map_reverse] using this
  · have := (checkTensorPrivate_ok (hok ⟨0, hk⟩)).1
    rw [hT] at this; simpa [jproj] using this

theorem joint2_spec : ∀ (a b : List Dim), a.map (·.shape) = b.map (·.shape) →
    a = jproj 0 (joint2 a b) ∧ b = jproj 1 (joint2 a b) := by
  intro a
  induction a with
  | nil => intro b h; cases b <;> simp_all [joint2, jproj]
  | cons d a ih =>
    intro b h
    cases b with
    | nil => simp at h
    | cons e b =>
      simp only [List.map_cons, List.cons.injEq] at h
      obtain ⟨h1, h2⟩ := ih b h.2
      constructor
      · simp only [joint2, List.zipWith_cons_cons, jproj, List.map_cons] at h1 ⊢
        rw [← h1]; simp [pair]
      · simp only [joint2, List.zipWith_cons_cons, jproj, List.map_cons] at h2 ⊢
        rw [← h2]; simp [pair, h.1]

theorem joint3_spec : ∀ (a b c : List Dim), a.map (·.shape) = c.map (·.shape) → b.map (·.shape) = c.map (·.shape) →
    a = jproj 0 (joint3 a b c) ∧ b = jproj 1 (joint3 a b c) ∧ c = jproj 2 (joint3 a b c) := by
  intro a
  induction a with
  | nil => intro b c h h'; cases c <;> cases b <;> simp_all [joint3, jproj]
  | cons d a ih =>
    intro b c h h'
    match b, c, h, h' with
    | [], [], h, _ => simp at h
    | [], _ :: _, _, h' => simp at h'
    | _ :: _, [], h, _ => simp at h
    | e :: b, f :: c, h, h' =>
      simp only [List.map_cons, List.cons.injEq] at h h'
      obtain ⟨h1, h2, h3⟩ := ih b c h.2 h'.2
      refine ⟨?_, ?_, ?_⟩
      · simp only [joint3, jproj, List.map_cons] at h1 ⊢
        rw [← h1]; simp [triple]
      · simp only [joint3, jproj, List.map_cons] at h2 ⊢
        rw [← h2]; simp [triple, h.1, ← h'.1]
      · simp only [joint3, jproj, List.map_cons] at h3 ⊢
        rw [← h3]; simp [triple, h.1]

/-- The visited sequence, in terms of multi-indices. -/
theorem walk_foldlM {k : Nat} {σ : Type} (ds : List (JDim k)) (f : (Fin k → Int) → σ → Option σ) (s : σ)
    (g : List Int → Fin k → Int) (hg : ∀ is j, g is j = offset (ds.map (·.s j)) is) :
    (walk ds).foldlM (fun s a => f a s) s =
      (rowMajor (ds.map (·.n))).foldlM (fun s is => f (g is) s) s := by
  rw [walk_eq, List.foldlM_map]
  congr 1
  funext s is
  congr 1
  funext j
  rw [jpos_eq_offset, hg]

theorem joint2_tensors {a b : Tensor} (h : a.shape = b.shape) :
    let ds := joint2 a.dims b.dims
    (∀ j, (if j = 0 then a else b : Tensor).dims = jproj j ds) ∧ ds.map (·.n) = a.shape ∧
    (∀ is, ∀ j : Fin 2, pair (offset a.strides is) (offset b.strides is) j = offset (ds.map (·.s j)) is) ∧
    ds.length = a.dims.length := by
  intro ds
  obtain ⟨h0, h1⟩ := joint2_spec a.dims b.dims h
  have hs0 : a.strides = ds.map (·.s 0) := by
    rw [Tensor.strides, h0]; simp [jproj, ds]
  have hs1 : b.strides = ds.map (·.s 1) := by
    rw [Tensor.strides, h1]; simp [jproj, ds]
  refine ⟨?_, ?_, ?_, ?_⟩
  · intro j
    match j with
    | 0 => exact h0
    | 1 => exact h1
  · rw [Tensor.shape, h0]; simp [jproj, ds]
  · intro is j
    match j with
    | 0 => rw [hs0]; rfl
    | 1 => rw [hs1]; rfl
  · rw [h0]; simp [jproj, ds]

theorem joint3_tensors {a b c : Tensor} (h : a.shape = c.shape) (h' : b.shape = c.shape) :
    let ds := joint3 a.dims b.dims c.dims
    (∀ j, (if j = 0 then a else if j = 1 then b else c : Tensor).dims = jproj j ds) ∧
    ds.map (·.n) = c.shape ∧
    (∀ is, ∀ j : Fin 3, triple (offset a.strides is) (offset b.strides is) (offset c.strides is) j
      = offset (ds.map (·.s j)) is) ∧
    ds.length = c.dims.length := by
  intro ds
  obtain ⟨h0, h1, h2⟩ := joint3_spec a.dims b.dims c.dims h h'
  have hs0 : a.strides = ds.map (·.s 0) := by
    rw [Tensor.strides, h0]; simp [jproj, ds]
  have hs1 : b.strides = ds.map (·.s 1) := by
    rw [Tensor.strides, h1]; simp [jproj, ds]
  have hs2 : c.strides = ds.map (·.s 2) := by
    rw [Tensor.strides, h2]; simp [jproj, ds]
  refine ⟨?_, ?_, ?_, ?_⟩
  · intro j
    match j with
    | 0 => exact h0
    | 1 => exact h1
    | 2 => exact h2
  · rw [Tensor.shape, h2]; simp [jproj, ds]
  · intro is j
    match j with
    | 0 => rw [hs0]; rfl
    | 1 => rw [hs1]; rfl
    | 2 => rw [hs2]; rfl
  · rw [h2]; simp [jproj, ds]

/-! ## C33 -/

/-- Two accepted tensors of the same shape: the loops over the squashed tensors run their body on
exactly the row-major sequence of multi-indices, with the addresses of the same element in both
tensors - for any loop body. -/
theorem c33_squash_invisible {σ : Type} (a b : Tensor) (hs : a.shape = b.shape)
    (ha : checkTensorPrivate a = some .ok) (hb : checkTensorPrivate b = some .ok)
    (f : (Fin 2 → Int) → σ → Option σ) (s : σ) :
    nest4J (squashGeneric (joint2 a.dims b.dims)) f s =
      (rowMajor a.shape).foldlM (fun s is => f (pair (offset a.strides is) (offset b.strides is)) s) s := by
  obtain ⟨h1, h2, h3, h4⟩ := joint2_tensors hs
  obtain ⟨hn, hl⟩ := jnested_of_accepted (by omega) _ _ h1 (by intro j; split <;> assumption)
  obtain ⟨w1, w2⟩ := walk_squashGeneric _ hn hl
  rw [nest4J_eq_walk _ w2, w1, walk_foldlM _ _ _ _ h3, h2]

/-- The same for three tensors. -/
theorem c33_squash_invisible3 {σ : Type} (a b c : Tensor) (hs : a.shape = c.shape) (hs' : b.shape = c.shape)
    (ha : checkTensorPrivate a = some .ok) (hb : checkTensorPrivate b = some .ok)
    (hc : checkTensorPrivate c = some .ok) (f : (Fin 3 → Int) → σ → Option σ) (s : σ) :
    nest4J (squashGeneric (joint3 a.dims b.dims c.dims)) f s =
      (rowMajor c.shape).foldlM (fun s is =>
        f (triple (offset a.strides is) (offset b.strides is) (offset c.strides is)) s) s := by
  obtain ⟨h1, h2, h3, h4⟩ := joint3_tensors hs hs'
  obtain ⟨hn, hl⟩ := jnested_of_accepted (by omega) _ _ h1 (by intro j; split; assumption; split <;> assumption)
  obtain ⟨w1, w2⟩ := walk_squashGeneric _ hn hl
  rw [nest4J_eq_walk _ w2, w1, walk_foldlM _ _ _ _ h3, h2]

theorem getLast_unit {k : Nat} (ds : List (JDim k)) (h : ∀ j, (ds.map (·.s j)).getLast? = some 1) :
    ∀ d ∈ ds.getLast?, ∀ j, d.s j = 1 := by
  intro d hd j
  have := h j
  rw [List.getLast?_map, Option.mem_def.mp hd] at this
  simpa using this

/-- With adjacent innermost elements, also the traversal that merges everything into one flat loop
when possible is the row-major traversal. -/
theorem c33_traverse_invisible {σ : Type} (a b : Tensor) (hs : a.shape = b.shape)
    (ha : checkTensorPrivate a = some .ok) (hb : checkTensorPrivate b = some .ok)
    (ia : a.strides.getLast? = some 1) (ib : b.strides.getLast? = some 1)
    (f : (Fin 2 → Int) → σ → Option σ) (s : σ) :
    traverse (joint2 a.dims b.dims) f s =
      (rowMajor a.shape).foldlM (fun s is => f (pair (offset a.strides is) (offset b.strides is)) s) s := by
  obtain ⟨h1, h2, h3, h4⟩ := joint2_tensors hs
  obtain ⟨hn, hl⟩ := jnested_of_accepted (by omega) _ _ h1 (by intro j; split <;> assumption)
  rw [traverse_eq_walk _ hn hl ?_ ?_, walk_foldlM _ _ _ _ h3, h2]
  · intro he
    rw [he] at h4
    have : a.dims = [] := List.length_eq_zero_iff.mp h4.symm
    simp [Tensor.strides, this] at ia
  · apply getLast_unit
    intro j
    have := h1 j
    have e : (if j = 0 then a else b : Tensor).strides = (joint2 a.dims b.dims).map (·.s j) := by
      rw [Tensor.strides, this]; simp [jproj]
    rw [← e]
    split <;> assumption

theorem c33_traverse_invisible3 {σ : Type} (a b c : Tensor) (hs : a.shape = c.shape) (hs' : b.shape = c.shape)
    (ha : checkTensorPrivate a = some .ok) (hb : checkTensorPrivate b = some .ok)
    (hc : checkTensorPrivate c = some .ok)
    (ia : a.strides.getLast? = some 1) (ib : b.strides.getLast? = some 1) (ic : c.strides.getLast? = some 1)
    (f : (Fin 3 → Int) → σ → Option σ) (s : σ) :
    traverse (joint3 a.dims b.dims c.dims) f s =
      (rowMajor c.shape).foldlM (fun s is =>
        f (triple (offset a.strides is) (offset b.strides is) (offset c.strides is)) s) s := by
  obtain ⟨h1, h2, h3, h4⟩ := joint3_tensors hs hs'
  obtain ⟨hn, hl⟩ := jnested_of_accepted (by omega) _ _ h1 (by intro j; split; assumption; split <;> assumption)
  rw [traverse_eq_walk _ hn hl ?_ ?_, walk_foldlM _ _ _ _ h3, h2]
  · intro he
    rw [he] at h4
    have : c.dims = [] := List.length_eq_zero_iff.mp h4.symm
    simp [Tensor.strides, this] at ic
  · apply getLast_unit
    intro j
    have := h1 j
    have e : (if j = 0 then a else if j = 1 then b else c : Tensor).strides
        = (joint3 a.dims b.dims c.dims).map (·.s j) := by
      rw [Tensor.strides, this]; simp [jproj]
    rw [← e]
    split
    · assumption
    · split <;> assumption

/-- The row-major traversal meets every multi-index exactly once. -/
theorem c33_row_major_complete (shape : List Int) :
    (rowMajor shape).Nodup ∧ ∀ is, is ∈ rowMajor shape ↔ InShape shape is :=
  ⟨nodup_rowMajor shape, fun _ => mem_rowMajor⟩

/-- Hypotheses are met by a dense tensor and one with a row pitch; the first two dimensions of the
pair cannot be merged, the last two can. -/
example :
    let a : Tensor := { dims := [⟨2, 12⟩, ⟨2, 3⟩, ⟨3, 1⟩], cap := 18, es := 1 }
    let b : Tensor := { dims := [⟨2, 6⟩, ⟨2, 3⟩, ⟨3, 1⟩], cap := 12, es := 1 }
    a.shape = b.shape ∧ checkTensorPrivate a = some .ok ∧ checkTensorPrivate b = some .ok ∧
    a.strides.getLast? = some 1 ∧ b.strides.getLast? = some 1 ∧
    ((squashGeneric (joint2 a.dims b.dims)).map fun d => (d.n, d.s 0, d.s 1)) =
      [(1, 0, 0), (1, 0, 0), (2, 12, 6), (6, 1, 1)] := by
  refine ⟨by decide, by decide, by decide, by decide, by decide, ?_⟩
  simp [joint2, squashGeneric, squashLoop, padFront, pair]

/-- The acceptance hypothesis matters: on overlapping rows (stride below the row size), squashing
visits other elements. -/
example :
    ((squashGeneric [(⟨2, fun _ => 3⟩ : JDim 1), ⟨3, fun _ => 2⟩]).map fun d => (d.n, d.s 0)) =
      [(1, 0), (1, 0), (1, 0), (6, 1)] := by
  simp [squashGeneric, squashLoop, padFront]

end Mli
