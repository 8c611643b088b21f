import Verif.Model.Softmax
import Verif.Spec.Axis
import Verif.Lemmas.Map
import Verif.Lemmas.Emit

/-! # The loops over the slices along an axis -/

namespace Mli

open Spec

/-- A dimension reduced to size 1. -/
def JDim.one {k : Nat} (d : JDim k) : JDim k := { d with n := 1 }

/-- `axisDims` by recursion. -/
def axisAt {k : Nat} : Nat → List (JDim k) → List (JDim k)
  | _, [] => []
  | 0, d :: ds => d :: ds.map JDim.one
  | a + 1, d :: ds => d.one :: axisAt a ds

theorem axisAt_eq (a : Nat) : ∀ (ds : List (JDim 2)) (b : Nat),
    (ds.mapIdx fun i d => if i + b = a + b then d else d.one) = axisAt a ds := by
  induction a with
  | zero =>
    intro ds b
    cases ds with
    | nil => rfl
    | cons d ds =>
      simp only [List.mapIdx_cons, axisAt]
      congr 1
      rw [show (fun (i : Nat) (d : JDim 2) => if i + 1 + b = 0 + b then d else d.one) = fun _ d => d.one from by
          funext i d; rw [if_neg (by omega)]]
      apply List.ext_getElem <;> simp
  | succ a ih =>
    intro ds b
    cases ds with
    | nil => rfl
    | cons d ds =>
      simp only [List.mapIdx_cons, axisAt]
      congr 1
      · rw [if_neg (by omega)]
      · rw [← ih ds (b + 1)]
        congr 1; funext i d
        by_cases h : i = a
        · rw [if_pos (by omega), if_pos (by omega)]
        · rw [if_neg (by omega), if_neg (by omega)]

theorem axisDims_eq (a : Nat) (ds : List (JDim 2)) : axisDims a ds = axisAt a ds := by
  rw [axisDims, if_pos (by omega), ← axisAt_eq a ds 0]
  congr 1; funext i d
  simp only [Nat.add_zero, Nat.cast_inj]
  rfl

theorem walk_ones {k : Nat} : ∀ ds : List (JDim k), walk (ds.map JDim.one) = [fun _ => 0] := by
  intro ds
  induction ds with
  | nil => rfl
  | cons d ds ih => simp [walk, JDim.one]; simpa [JDim.one] using ih

theorem walk_oneDim {k : Nat} (d : JDim k) (ds : List (JDim k)) : walk (d.one :: ds) = walk ds := by
  simp [walk, JDim.one]

/-- The axis tensor visits the multiples of the stride of the axis. -/
theorem walk_axisAt {k : Nat} : ∀ (a : Nat) (ds : List (JDim k)) (h : a < ds.length),
    walk (axisAt a ds) = (List.range (ds[a]).n.toNat).map fun (i : Nat) => fun j => (i : Int) * (ds[a]).s j := by
  intro a
  induction a with
  | zero =>
    intro ds h
    cases ds with
    | nil => simp at h
    | cons d ds =>
      simp only [axisAt, walk, walk_ones, List.map_cons, List.map_nil, add_zero, List.getElem_cons_zero]
      exact List.flatMap_pure_eq_map ..
  | succ a ih =>
    intro ds h
    cases ds with
    | nil => simp at h
    | cons d ds =>
      rw [axisAt, walk_oneDim, ih ds (by simpa using h)]
      rfl

/-- Smaller sizes keep the nesting. -/
theorem JNested.shrink {k : Nat} : ∀ {ds es : List (JDim k)}, List.Forall₂ (fun d e => e.s = d.s ∧ 0 < e.n ∧ e.n ≤ d.n) ds es →
    JNested ds → JNested es := by
  intro ds es h
  induction h with
  | nil => intro h; trivial
  | cons h1 h2 ih =>
    intro hn
    cases h2 with
    | nil =>
      exact ⟨h1.2.1, fun j => by rw [h1.1]; exact hn.2 j⟩
    | cons h3 h4 =>
      refine ⟨⟨h1.2.1, fun j => by rw [h1.1]; exact hn.head.2 j⟩, fun j => ?_, ih hn.tail⟩
      rw [h1.1, h3.1]
      have := hn.2.1 j
      have h5 := hn.head.2 j
      have := h1.2.2
      nlinarith

theorem axisAt_forall {k : Nat} : ∀ (a : Nat) (ds : List (JDim k)), (∀ d ∈ ds, 0 < d.n) →
    List.Forall₂ (fun d e => e.s = d.s ∧ 0 < e.n ∧ e.n ≤ d.n) ds (axisAt a ds) := by
  intro a ds
  induction ds generalizing a with
  | nil => intro _; cases a <;> exact .nil
  | cons d ds ih =>
    intro h
    cases a with
    | zero =>
      refine .cons ⟨rfl, h d (by simp), le_refl _⟩ ?_
      rw [List.forall₂_map_right_iff, List.forall₂_same]
      intro e he
      have := h e (by simp [he])
      exact ⟨rfl, by simp [JDim.one], by simp [JDim.one]; omega⟩
    | succ a =>
      have := h d (by simp)
      exact .cons ⟨rfl, by simp [JDim.one], by simp [JDim.one]; omega⟩ (ih a fun e he => h e (by simp [he]))

theorem JNested.pos {k : Nat} : ∀ {ds : List (JDim k)}, JNested ds → ∀ d ∈ ds, 0 < d.n := by
  intro ds
  induction ds with
  | nil => simp
  | cons d ds ih =>
    intro h e he
    rcases List.mem_cons.1 he with rfl | he
    · exact h.head.1
    · exact ih h.tail e he

/-- The three loops visit the sequence of the three dimensions. -/
theorem axisLoops_eq (axis : Int) (tin tout : Tensor) (body : (Fin 2 → Int) → Buf → Option Buf) (mem : Buf)
    (h : (nonAxisDims axis (joint2 tin.dims tout.dims)).length = 3) :
    axisLoops axis tin tout body mem =
      (walk (nonAxisDims axis (joint2 tin.dims tout.dims))).foldlM (fun d o => body o d) mem := by
  unfold axisLoops
  match nonAxisDims axis (joint2 tin.dims tout.dims), h with
  | [d0, d1, d2], _ =>
    simp only [forRange_eq_foldlM, walk, foldlM_flatMap', List.foldlM_map, List.foldlM_cons, List.foldlM_nil]
    congr 1; funext s0 p0
    congr 1; funext s1 p1
    congr 1; funext s2 p2
    rw [show (fun j => (p0 : Int) * d0.s j + p1 * d1.s j + p2 * d2.s j) =
      fun j => (p0 : Int) * d0.s j + (↑p1 * d1.s j + (↑p2 * d2.s j + 0)) from by funext j; ring]
    simp

theorem jpos_insertIdx {k : Nat} : ∀ (a : Nat) (ds : List (JDim k)) (h : a < ds.length) (os : List Int) (i : Int),
    os.length + 1 = ds.length →
    jpos ds (os.insertIdx a i) = fun j => jpos (ds.eraseIdx a) os j + i * (ds[a]).s j := by
  intro a
  induction a with
  | zero =>
    intro ds h os i hl
    cases ds with
    | nil => simp at h
    | cons d ds => funext j; simp [jpos]; ring
  | succ a ih =>
    intro ds h os i hl
    cases ds with
    | nil => simp at h
    | cons d ds =>
      cases os with
      | nil => simp only [List.length_nil, List.length_cons] at hl h; omega
      | cons o os =>
        funext j
        simp only [List.insertIdx_succ_cons, jpos, List.eraseIdx_cons_succ, List.getElem_cons_succ]
        rw [ih ds (by simpa using h) os i (by simpa using hl)]
        simp only
        ring

theorem inShape_insertIdx : ∀ (a : Nat) (shape : List Int) (h : a < shape.length) (os : List Int) (i : Int),
    InShape (shape.eraseIdx a) os → 0 ≤ i → i < shape[a] → InShape shape (os.insertIdx a i) := by
  intro a
  induction a with
  | zero =>
    intro shape h os i ho h0 h1
    cases shape with
    | nil => simp at h
    | cons n ns => exact ⟨⟨h0, h1⟩, ho⟩
  | succ a ih =>
    intro shape h os i ho h0 h1
    cases shape with
    | nil => simp at h
    | cons n ns =>
      cases os with
      | nil => simp [InShape] at ho
      | cons o os => exact ⟨ho.1, ih ns (by simpa using h) os i ho.2 h0 h1⟩

theorem inShape_split : ∀ (a : Nat) (shape : List Int) (h : a < shape.length) (is : List Int), InShape shape is →
    InShape (shape.eraseIdx a) (is.eraseIdx a) ∧ ∃ i, 0 ≤ i ∧ i < shape[a] ∧ is = (is.eraseIdx a).insertIdx a i := by
  intro a
  induction a with
  | zero =>
    intro shape h is hs
    cases shape with
    | nil => simp at h
    | cons n ns =>
      cases is with
      | nil => simp [InShape] at hs
      | cons i is => exact ⟨hs.2, i, hs.1.1, hs.1.2, by simp⟩
  | succ a ih =>
    intro shape h is hs
    cases shape with
    | nil => simp at h
    | cons n ns =>
      cases is with
      | nil => simp [InShape] at hs
      | cons i is =>
        obtain ⟨h1, k, h2, h3, h4⟩ := ih ns (by simpa using h) is hs.2
        refine ⟨⟨hs.1, h1⟩, k, h2, h3, ?_⟩
        simp only [List.eraseIdx_cons_succ, List.insertIdx_succ_cons]
        rw [← h4]

/-- What the loops along an axis do, in terms of positions: `S` are the slices, each with the offsets of its first element in input and
output. -/
structure AxisSlices (axis : Int) (tin tout : Tensor) (S : List ((Fin 2 → Int) × List (List Int))) : Prop where
  loops : ∀ body mem, axisLoops axis tin tout body mem = S.foldlM (fun d s => body s.1 d) mem
  inner : ∀ s ∈ S, ∀ (σ : Type) (f : (Fin 2 → Int) → σ → Option σ) (x : σ),
    nest4J (squashGeneric (axisDims axis (joint2 tin.dims tout.dims))) (fun a => f (fun j => s.1 j + a j)) x =
      s.2.foldlM (fun x is => f (pair (offset tin.strides is) (offset tout.strides is)) x) x
  first : ∀ s ∈ S, ∃ is ∈ s.2, s.1 = pair (offset tin.strides is) (offset tout.strides is)
  mem : ∀ s ∈ S, ∀ is ∈ s.2, InShape tin.shape is
  perm : ∀ s ∈ S, ∀ is ∈ s.2, s.2.Perm (slice axis tin.shape is)
  cover : ∀ is, InShape tin.shape is → ∃ s ∈ S, is ∈ s.2
  disj : S.Pairwise fun s t => s.2.Disjoint t.2

theorem AxisSlices.nodup {axis : Int} {tin tout : Tensor} {S : List ((Fin 2 → Int) × List (List Int))}
    (h : AxisSlices axis tin tout S) {s : (Fin 2 → Int) × List (List Int)} (hs : s ∈ S) : s.2.Nodup := by
  obtain ⟨is, hi, _⟩ := h.first s hs
  exact (h.perm s hs is hi).nodup_iff.2 ((nodup_rowMajor _).filter _)

theorem axis_slices (axis : Int) (tin tout : Tensor) (hs : tin.shape = tout.shape) (hi : checkTensorPrivate tin = some .ok)
    (ho : checkTensorPrivate tout = some .ok) (hax : axis < tin.dims.length) : ∃ S, AxisSlices axis tin tout S := by
  obtain ⟨h1, h2, h3, h4⟩ := joint2_tensors hs
  obtain ⟨hn, hl⟩ := jnested_of_accepted (by omega) _ _ h1 (by intro j; split <;> assumption)
  have hp := hn.pos
  rw [show (∀ d ∈ (joint2 tin.dims tout.dims).reverse, 0 < d.n) = ∀ d ∈ joint2 tin.dims tout.dims, 0 < d.n from by simp] at hp
  generalize hds : joint2 tin.dims tout.dims = ds at *
  have hpos : ∀ is, pair (offset tin.strides is) (offset tout.strides is) = jpos ds is := by
    intro is; funext j; rw [h3, jpos_eq_offset]
  have hshape : ∀ d ∈ tin.shape, 0 < d := by
    intro d hd; rw [← h2] at hd
    obtain ⟨e, he, rfl⟩ := List.mem_map.1 hd
    exact hp e he
  by_cases hneg : axis < 0
  · -- one slice
    obtain ⟨w1, w2⟩ := walk_squashGeneric ds hn hl
    have hx : axisDims axis ds = ds := by rw [axisDims, if_neg (by omega)]
    have hz : InShape tin.shape (tin.shape.map fun _ => 0) := by
      clear h2 h3 h4 hpos hax
      generalize tin.shape = sh at hshape
      induction sh with
      | nil => trivial
      | cons n ns ih => exact ⟨⟨le_refl _, hshape n (by simp)⟩, ih fun d hd => hshape d (by simp [hd])⟩
    have hz0 : ∀ s : List Int, offset s (tin.shape.map fun _ => 0) = 0 := by
      intro s
      generalize tin.shape = sh
      induction s generalizing sh with
      | nil => cases sh <;> rfl
      | cons a s ih => cases sh with
        | nil => rfl
        | cons n ns => rw [List.map_cons, offset, ih]; ring
    refine ⟨[(fun _ => 0, rowMajor tin.shape)], ?_, ?_, ?_, ?_, ?_, ?_, ?_⟩
    · intro body mem
      rw [axisLoops_eq]
      · rw [hds, nonAxisDims, if_neg (by omega)]
        simp [walk, List.replicate]
      · rw [hds, nonAxisDims, if_neg (by omega)]; rfl
    · intro s hs' σ f x
      simp only [List.mem_singleton] at hs'
      subst hs'
      rw [hds, hx, nest4J_eq_walk _ w2, w1, walk_eq, h2, List.foldlM_map]
      simp only [hpos, zero_add]
    · intro s hs'
      simp only [List.mem_singleton] at hs'
      subst hs'
      refine ⟨_, mem_rowMajor.2 hz, ?_⟩
      funext j
      simp only [hz0]
      unfold pair; split <;> rfl
    · intro s hs' is his
      simp only [List.mem_singleton] at hs'
      subst hs'
      exact mem_rowMajor.1 his
    · intro s hs' is his
      simp only [List.mem_singleton] at hs'
      subst hs'
      rw [slice, List.filter_eq_self.2]
      intro js _
      simp [sameSlice, hneg]
    · intro is his
      exact ⟨_, List.mem_singleton.2 rfl, mem_rowMajor.2 his⟩
    · simp
  · obtain ⟨a, rfl⟩ : ∃ a : Nat, axis = a := ⟨axis.toNat, by omega⟩
    have hal : a < ds.length := by rw [h4]; omega
    have hsl : tin.shape.length = ds.length := by rw [← h2]; simp
    have hsa : a < tin.shape.length := by omega
    have hn' : tin.shape[a] = (ds[a]).n := by simp [← h2]
    have hx : axisDims a ds = axisAt a ds := axisDims_eq a ds
    have hfa := axisAt_forall a ds hp
    obtain ⟨w1, w2⟩ := walk_squashGeneric (axisAt a ds) (JNested.shrink (List.rel_reverse hfa) hn)
      (by rw [← hfa.length_eq]; exact hl)
    have hne : nonAxisDims (a : Int) ds = ds.eraseIdx a ++ List.replicate (4 - ds.length) ⟨1, fun _ => 0⟩ := by
      rw [nonAxisDims, if_pos (by omega), padBack, Int.toNat_natCast, List.eraseIdx_append_of_lt_length hal]
    have hw : walk (nonAxisDims (a : Int) ds) = walk (ds.eraseIdx a) := by
      rw [hne]
      have := walk_append_congr (ds.eraseIdx a) (walk_replicate_one (4 - ds.length) ([] : List (JDim 2)))
      simpa using this
    have hsh : (ds.eraseIdx a).map (·.n) = tin.shape.eraseIdx a := by
      rw [← h2]
      exact (List.eraseIdx_map ..).symm
    have hlen : ∀ os, InShape (tin.shape.eraseIdx a) os → os.length + 1 = ds.length := by
      intro os ho
      have : os.length = (tin.shape.eraseIdx a).length := by
        clear * - ho
        generalize tin.shape.eraseIdx a = sh at ho
        induction sh generalizing os with
        | nil => cases os <;> simp_all [InShape]
        | cons n ns ih => cases os with
          | nil => simp [InShape] at ho
          | cons i is => simp [ih is ho.2]
      rw [this, List.length_eraseIdx_of_lt (by omega)]; omega
    -- one slice for each position of the other coordinates
    let mk : List Int → (Fin 2 → Int) × List (List Int) := fun os =>
      (jpos (ds.eraseIdx a) os, (List.range (ds[a]).n.toNat).map fun (i : Nat) => os.insertIdx a (i : Int))
    have hmem : ∀ os, InShape (tin.shape.eraseIdx a) os → ∀ is, is ∈ (mk os).2 ↔ InShape tin.shape is ∧ is.eraseIdx a = os := by
      intro os ho' is
      simp only [mk, List.mem_map, List.mem_range]
      constructor
      · rintro ⟨i, h, rfl⟩
        refine ⟨inShape_insertIdx a _ hsa os i ho' (by omega) (by omega), ?_⟩
        exact List.eraseIdx_insertIdx_self ..
      · rintro ⟨h, rfl⟩
        obtain ⟨_, i, h5, h6, h7⟩ := inShape_split a _ hsa is h
        refine ⟨i.toNat, by omega, ?_⟩
        rw [Int.toNat_of_nonneg h5, ← h7]
    have hnd : ∀ os, InShape (tin.shape.eraseIdx a) os → (mk os).2.Nodup := by
      intro os ho'
      refine List.Nodup.map_on ?_ List.nodup_range
      intro x _ y _ e
      have hle : a ≤ os.length := by have := hlen os ho'; omega
      have e1 : (os.insertIdx a (x : Int))[a]? = (os.insertIdx a (y : Int))[a]? := by rw [e]
      rw [List.getElem?_insertIdx_self, List.getElem?_insertIdx_self, if_pos hle, if_pos hle] at e1
      simpa using e1
    refine ⟨(rowMajor (tin.shape.eraseIdx a)).map mk, ?_, ?_, ?_, ?_, ?_, ?_, ?_⟩
    · intro body mem
      rw [axisLoops_eq]
      · rw [hds, hw, walk_eq, hsh, List.foldlM_map, List.foldlM_map]
      · rw [hds, hne, List.length_append, List.length_eraseIdx_of_lt hal, List.length_replicate]; omega
    · intro s hs' σ f x
      obtain ⟨os, ho', rfl⟩ := List.mem_map.1 hs'
      have ho' := mem_rowMajor.1 ho'
      rw [hds, hx, nest4J_eq_walk _ w2, w1, walk_axisAt a ds hal, List.foldlM_map]
      simp only [mk, List.foldlM_map, hpos]
      congr 1; funext y i
      rw [jpos_insertIdx a ds hal os i (hlen os ho')]
    · intro s hs'
      obtain ⟨os, ho', rfl⟩ := List.mem_map.1 hs'
      have ho' := mem_rowMajor.1 ho'
      have h0 := hp ds[a] (List.getElem_mem hal)
      refine ⟨os.insertIdx a 0, ?_, ?_⟩
      · refine List.mem_map.2 ⟨0, by rw [List.mem_range]; omega, rfl⟩
      · rw [hpos, jpos_insertIdx a ds hal os 0 (hlen os ho')]
        simp [mk]
    · intro s hs' is his
      obtain ⟨os, ho', rfl⟩ := List.mem_map.1 hs'
      exact ((hmem os (mem_rowMajor.1 ho') is).1 his).1
    · intro s hs' is his
      obtain ⟨os, ho', rfl⟩ := List.mem_map.1 hs'
      have ho' := mem_rowMajor.1 ho'
      rw [slice, List.perm_ext_iff_of_nodup (hnd os ho') ((nodup_rowMajor _).filter _)]
      intro js
      obtain ⟨_, rfl⟩ := (hmem os ho' is).1 his
      rw [hmem _ ho' js, List.mem_filter, mem_rowMajor]
      rw [sameSlice, decide_eq_false (by omega), Bool.false_or, decide_eq_true_iff, Int.toNat_natCast]
      exact and_congr_right fun _ => eq_comm
    · intro is his
      have := (inShape_split a _ hsa is his).1
      exact ⟨mk (is.eraseIdx a), List.mem_map.2 ⟨_, mem_rowMajor.2 this, rfl⟩, (hmem _ this is).2 ⟨his, rfl⟩⟩
    · rw [List.pairwise_map]
      refine List.Pairwise.imp_of_mem ?_ (nodup_rowMajor (tin.shape.eraseIdx a))
      intro o1 o2 m1 m2 hne' is i1 i2
      have e1 := ((hmem o1 (mem_rowMajor.1 m1) is).1 i1).2
      have e2 := ((hmem o2 (mem_rowMajor.1 m2) is).1 i2).2
      exact hne' (e1.symm.trans e2)

/-- When the body writes the elements of a slice whenever memory still has the original input elements of that slice, the loops write all
elements. -/
theorem AxisSlices.run {axis : Int} {tin tout : Tensor} {S : List ((Fin 2 → Int) × List (List Int))} (h : AxisSlices axis tin tout S)
    (mem : Buf) (ho : tout.Valid mem) (hs : tin.shape = tout.shape) (hsep : tin.Separate tout)
    (body : (Fin 2 → Int) → Buf → Option Buf) (val : List Int → Int)
    (hb : ∀ s ∈ S, ∀ d : Buf, d.size = mem.size → (∀ is ∈ s.2, d.get (tin.addr is) = mem.get (tin.addr is)) →
      ∃ d', body s.1 d = some d' ∧ Emits tout.addr val (· ∈ s.2) d d') :
    ∃ mem', axisLoops axis tin tout body mem = some mem' ∧ tout.Writes val mem mem' := by
  rw [h.loops]
  have hc : Coherent tout.addr val (InShape tout.shape) := by
    intro p q h1 h2 e; rw [Tensor.Separate.refl tout mem ho p q h1 h2 e]
  have key : ∀ (T : List ((Fin 2 → Int) × List (List Int))) (R : List ((Fin 2 → Int) × List (List Int))), S = R ++ T → ∀ d : Buf,
      Emits tout.addr val (fun p => ∃ s ∈ R, p ∈ s.2) mem d →
      ∃ d', T.foldlM (fun d s => body s.1 d) d = some d' ∧ Emits tout.addr val (fun p => ∃ s ∈ S, p ∈ s.2) mem d' := by
    intro T
    induction T with
    | nil => intro R hR d hd; exact ⟨d, rfl, by rw [hR, List.append_nil]; exact hd⟩
    | cons s T ih =>
      intro R hR d hd
      have hsS : s ∈ S := by rw [hR]; simp
      have hRS : ∀ r ∈ R, r ∈ S := by intro r hr; rw [hR]; simp [hr]
      obtain ⟨d1, b1, b2⟩ := hb s hsS d hd.size (by
        intro is his
        refine hd.frame _ ?_
        rintro p ⟨r, hr, hp⟩ e
        have hps := h.mem r (hRS r hr) p hp
        rw [hs] at hps
        have := hsep is p (h.mem s hsS is his) hps e.symm
        subst this
        have hd' := h.disj
        rw [hR] at hd'
        exact (List.pairwise_append.1 hd').2.2 r hr s (by simp) hp his)
      rw [List.foldlM_cons, b1]
      refine ih (R ++ [s]) (by rw [hR]; simp) d1 ?_
      refine (Emits.trans hc ?_ ?_ hd b2).congr ?_
      · rintro p ⟨r, hr, hp⟩; rw [← hs]; exact h.mem r (hRS r hr) p hp
      · intro p hp; rw [← hs]; exact h.mem s hsS p hp
      · intro p
        simp only [List.mem_append, List.mem_singleton]
        constructor
        · rintro (⟨r, hr, hp⟩ | hp)
          · exact ⟨r, Or.inl hr, hp⟩
          · exact ⟨s, Or.inr rfl, hp⟩
        · rintro ⟨r, hr | rfl, hp⟩
          · exact Or.inl ⟨r, hr, hp⟩
          · exact Or.inr hp
  obtain ⟨d', k1, k2⟩ := key S [] (by simp) mem ((Emits.none _ _ _).congr (by simp))
  refine ⟨d', k1, k2.size, ?_, ?_⟩
  · intro is his
    rw [← hs] at his
    obtain ⟨s, h1, h2⟩ := h.cover is his
    exact k2.hit is ⟨s, h1, h2⟩
  · intro a ha
    refine k2.frame a ?_
    rintro p ⟨s, h1, h2⟩
    exact ha p (by rw [← hs]; exact h.mem s h1 p h2)

end Mli
