import Verif.Lemmas.Map

/-! # Traversals of tensors whose innermost stride is 1, without the tensor check -/

namespace Mli

open Spec

theorem walk_squashLoop_unit {k : Nat} : ∀ (m : Nat) (d : JDim k) (ds : List (JDim k)), ds.length = m → (∀ j, d.s j = 1) →
    (∀ e ∈ d :: ds, 0 < e.n) →
    walk (squashLoop (d :: ds)).reverse = walk (d :: ds).reverse ∧ (squashLoop (d :: ds)).length ≤ ds.length + 1 := by
  intro m
  induction m with
  | zero =>
    intro d ds hl _ _
    obtain rfl := List.length_eq_zero_iff.mp hl
    simp [squashLoop]
  | succ m ih =>
    intro d ds hl hd hp
    match ds, hl with
    | d1 :: ds, hl =>
      rw [squashLoop]
      split
      · rename_i hm
        have p0 := hp d (by simp)
        have p1 := hp d1 (by simp)
        obtain ⟨e1, e2⟩ := ih ⟨d1.n * d.n, fun _ => 1⟩ ds (by simpa using hl) (fun _ => rfl) (by
          intro e he
          rw [List.mem_cons] at he
          rcases he with rfl | he
          · exact Int.mul_pos p1 p0
          · exact hp e (by simp [he]))
        refine ⟨?_, ?_⟩
        · rw [e1]
          simp only [List.reverse_cons, List.append_assoc, List.cons_append, List.nil_append]
          refine (walk_append_congr ds.reverse (walk_merge d1 d [] ?_ ?_ ?_ _ rfl ?_)).symm
          · omega
          · omega
          · intro j; rw [hm, hd]; simp
          · funext j; simp [hd]
        · simp only [List.length_cons] at e2 ⊢; omega
      · exact ⟨rfl, by simp⟩

theorem oneDimLoop_unit {k : Nat} : ∀ (ds : List (JDim k)) (d : JDim k), (∀ e ∈ d :: ds, 0 < e.n) →
    (∀ j, d.s j = 1) → oneDimLoop d.n ds ≠ 0 →
    walk (d :: ds).reverse = walk [(⟨oneDimLoop d.n ds, fun _ => 1⟩ : JDim k)] := by
  intro ds
  induction ds with
  | nil =>
    intro d _ hd _
    have : d.s = fun _ => 1 := funext hd
    simp [oneDimLoop, walk, this]
  | cons d1 ds ih =>
    intro d hp hd h0
    rw [oneDimLoop] at h0 ⊢
    split
    · rename_i hm
      rw [if_pos hm] at h0
      have hm' : ∀ j, d1.s j = d.n := hm
      have p0 := hp d (by simp)
      have p1 := hp d1 (by simp)
      have e : d.n * d1.n = d1.n * d.n := Int.mul_comm _ _
      rw [e] at h0 ⊢
      have i2 := ih ⟨d1.n * d.n, fun _ => 1⟩ (by
        intro e he
        rw [List.mem_cons] at he
        rcases he with rfl | he
        · exact Int.mul_pos p1 p0
        · exact hp e (by simp [he])) (fun _ => rfl) h0
      rw [← i2]
      simp only [List.reverse_cons, List.append_assoc, List.cons_append, List.nil_append]
      refine (walk_append_congr ds.reverse (walk_merge d1 d [] ?_ ?_ ?_ _ rfl ?_))
      · omega
      · omega
      · intro j; rw [hm, hd]; simp
      · funext j; simp [hd]
    · rename_i hm; exact absurd (if_neg hm) h0

/-- Any traversal with adjacent innermost elements and non-empty dimensions is the row-major traversal. -/
theorem traverse_unit {k : Nat} {σ : Type} (ds : List (JDim k)) (hp : ∀ d ∈ ds, 0 < d.n)
    (hl : ds.length ≤ 4) (hr : ds ≠ []) (hu : ∀ d ∈ ds.getLast?, ∀ j, d.s j = 1)
    (f : (Fin k → Int) → σ → Option σ) (s : σ) :
    traverse ds f s = (walk ds).foldlM (fun s a => f a s) s := by
  unfold traverse squashOneDim
  obtain ⟨d, rest, hd⟩ : ∃ d rest, ds.reverse = d :: rest := by
    cases h : ds.reverse with
    | nil => exact absurd (List.reverse_eq_nil_iff.mp h) hr
    | cons d rest => exact ⟨d, rest, rfl⟩
  have hlast : ds.getLast? = some d := by
    rw [List.getLast?_eq_head?_reverse, hd]; rfl
  have hu' : ∀ j, d.s j = 1 := hu d hlast
  have hds : ds = (d :: rest).reverse := by rw [← hd, List.reverse_reverse]
  have hp' : ∀ e ∈ d :: rest, 0 < e.n := by
    intro e he
    apply hp
    rw [hds, List.mem_reverse]; exact he
  simp only [hd, Option.bind_eq_bind, Option.bind_some]
  have hlen : rest.length + 1 ≤ 4 := by rw [hds] at hl; simpa using hl
  obtain ⟨g1, g2⟩ := walk_squashLoop_unit _ d rest rfl hu' hp'
  have w1 : walk (squashGeneric ds) = walk ds := by rw [squashGeneric, walk_padFront, hd, g1, ← hd, List.reverse_reverse]
  have w2 : (squashGeneric ds).length = 4 := by
    simp only [squashGeneric, padFront, List.length_append, List.length_replicate, List.length_reverse, hd]
    omega
  split
  · rename_i h0
    rw [flatJ_eq_walk, hds, oneDimLoop_unit rest d hp' hu' h0]
  · rw [nest3J_eq_nest4J, nest4J_eq_walk _ w2, w1]
    obtain ⟨e, es, h1, h2⟩ := squashLoop_head _ d rest rfl hu'
    intro x hx
    rw [squashGeneric, hd, h1, padFront] at hx
    simp at hx
    subst hx
    exact h2

/-- A tensor of rank 1 to 4 with non-empty dimensions and innermost stride 1. -/
structure Tensor.Unit (t : Tensor) : Prop where
  rank : t.dims ≠ [] ∧ t.dims.length ≤ 4
  pos : ∀ n ∈ t.shape, 1 ≤ n
  inner : t.strides.getLast? = some 1

theorem traverse_unit2 {σ : Type} (a b : Tensor) (hs : a.shape = b.shape) (ha : a.Unit) (hb : b.Unit)
    (f : (Fin 2 → Int) → σ → Option σ) (s : σ) :
    traverse (joint2 a.dims b.dims) f s =
      (rowMajor a.shape).foldlM (fun s is => f (pair (offset a.strides is) (offset b.strides is)) s) s := by
  obtain ⟨h1, h2, h3, h4⟩ := joint2_tensors hs
  rw [traverse_unit _ ?_ ?_ ?_ ?_, walk_foldlM _ _ _ _ h3, h2]
  · intro d hd
    have : d.n ∈ a.shape := by rw [← h2]; exact List.mem_map_of_mem hd
    have := ha.pos _ this; omega
  · rw [h4]; exact ha.rank.2
  · intro e
    rw [e] at h4
    exact ha.rank.1 (List.length_eq_zero_iff.mp (by simpa using h4.symm))
  · apply getLast_unit
    intro j
    have := h1 j
    have e : (joint2 a.dims b.dims).map (·.s j) = (if j = 0 then a else b).strides := by
      rw [Tensor.strides, this]; simp [jproj]
    rw [e]
    split
    · exact ha.inner
    · exact hb.inner

theorem traverse_unit3 {σ : Type} (a b c : Tensor) (hs : a.shape = c.shape) (hs' : b.shape = c.shape)
    (ha : a.Unit) (hb : b.Unit) (hc : c.Unit) (f : (Fin 3 → Int) → σ → Option σ) (s : σ) :
    traverse (joint3 a.dims b.dims c.dims) f s =
      (rowMajor c.shape).foldlM (fun s is =>
        f (triple (offset a.strides is) (offset b.strides is) (offset c.strides is)) s) s := by
  obtain ⟨h1, h2, h3, h4⟩ := joint3_tensors hs hs'
  rw [traverse_unit _ ?_ ?_ ?_ ?_, walk_foldlM _ _ _ _ h3, h2]
  · intro d hd
    have : d.n ∈ c.shape := by rw [← h2]; exact List.mem_map_of_mem hd
    have := hc.pos _ this; omega
  · rw [h4]; exact hc.rank.2
  · intro e
    rw [e] at h4
    exact hc.rank.1 (List.length_eq_zero_iff.mp (by simpa using h4.symm))
  · apply getLast_unit
    intro j
    have := h1 j
    have e : (joint3 a.dims b.dims c.dims).map (·.s j) = (if j = 0 then a else if j = 1 then b else c).strides := by
      rw [Tensor.strides, this]; simp [jproj]
    rw [e]
    split
    · exact ha.inner
    · split
      · exact hb.inner
      · exact hc.inner

end Mli
