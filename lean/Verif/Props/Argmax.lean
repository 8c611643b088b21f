import Verif.Spec.TopK
import Verif.Lemmas.Heap
import Verif.Lemmas.Lex
import Verif.Props.Fc

/-!
# Properties of the arg-max kernels (C40)
-/

namespace Mli

open Spec

/-! ## Selection from a list of positions -/

/-- `selectStep` for a position. -/
def selectPos (src : Buf) (sb : Int) (topk : Nat) (db x : Int) (d : Buf) : Option Buf :=
  (idxKey src sb db d 0).bind fun k =>
  (src.rd (sb + x)).bind fun v =>
  if k > v then some d
  else (d.wr (db + (0 : Nat)) x).bind (heapify src sb topk db (topk + 1) 0)

/-- The index array holds the largest of the positions in `R`, as a heap; memory elsewhere is that of `d0`. -/
structure Selected (src : Buf) (sb db : Int) (k : Nat) (R : List Int) (d0 d : Buf) : Prop where
  size : d.size = d0.size
  frame : ∀ a, a < db ∨ db + k ≤ a → d.get a = d0.get a
  mem : ∀ j : Nat, j < k → d.get (db + j) ∈ R
  inj : ∀ i j : Nat, i < k → j < k → d.get (db + i) = d.get (db + j) → i = j
  heap : HeapFrom (keyAt src sb db d) 0 k
  rest : ∀ x ∈ R, (∀ j : Nat, j < k → d.get (db + j) ≠ x) → src.get (sb + x) ≤ keyAt src sb db d 0

theorem Rearr.mem_iff {db : Int} {n : Nat} {a b : Buf} (h : Rearr db n a b) (x : Int) :
    (∃ j : Nat, j < n ∧ b.get (db + j) = x) ↔ ∃ j : Nat, j < n ∧ a.get (db + j) = x := by
  obtain ⟨-, -, σ, p, q⟩ := h
  constructor
  · rintro ⟨j, hj, rfl⟩
    exact ⟨σ j, perm_lt p hj, (q j).symm⟩
  · rintro ⟨j, hj, rfl⟩
    have p' : ∀ j, n ≤ j → σ.symm j = j := fun j hj => by rw [Equiv.symm_apply_eq, p j hj]
    exact ⟨σ.symm j, perm_lt p' hj, by rw [q, Equiv.apply_symm_apply]⟩

theorem Rearr.inj {db : Int} {n : Nat} {a b : Buf} (h : Rearr db n a b)
    (hi : ∀ i j : Nat, i < n → j < n → a.get (db + i) = a.get (db + j) → i = j) :
    ∀ i j : Nat, i < n → j < n → b.get (db + i) = b.get (db + j) → i = j := by
  obtain ⟨-, -, σ, p, q⟩ := h
  intro i j h1 h2 e
  rw [q, q] at e
  exact σ.injective (hi _ _ (perm_lt p h1) (perm_lt p h2) e)

theorem selectPos_step {src : Buf} {sb db : Int} {k : Nat} {R : List Int} {d0 d : Buf} {x : Int} (hk : 0 < k) (h0 : 0 ≤ db) (h1 : db + k ≤ d0.size)
    (hR : ∀ y ∈ x :: R, 0 ≤ sb + y ∧ sb + y < src.size) (hx : x ∉ R) (S : Selected src sb db k R d0 d) :
    ∃ d', selectPos src sb k db x d = some d' ∧ Selected src sb db k (x :: R) d0 d' := by
  have hA : IdxArr src sb db k d := ⟨h0, by rw [S.size]; exact h1, fun j hj => hR _ (List.mem_cons_of_mem _ (S.mem j hj))⟩
  unfold selectPos
  rw [idxKey_some hA hk, Option.bind_some, Buf.rd, if_pos (hR x (by simp)), Option.bind_some]
  by_cases hgt : keyAt src sb db d 0 > src.get (sb + x)
  · rw [if_pos hgt]
    refine ⟨d, rfl, S.size, S.frame, fun j hj => List.mem_cons_of_mem _ (S.mem j hj), S.inj, S.heap, ?_⟩
    intro y hy hn
    rcases List.mem_cons.1 hy with rfl | hy
    · omega
    · exact S.rest y hy hn
  · rw [if_neg hgt, Buf.wr, if_pos (by rw [S.size]; omega), Option.bind_some]
    generalize hd1 : ({ size := d.size, get := fun y => if y = db + (0 : Nat) then x else d.get y } : Buf) = d1
    have g0 : d1.get (db + (0 : Nat)) = x := by rw [← hd1]; simp
    have gn : ∀ a, a ≠ db → d1.get a = d.get a := by intro a ha; rw [← hd1]; simp [ha]
    have gs : d1.size = d.size := by rw [← hd1]
    have gj : ∀ j : Nat, j ≠ 0 → d1.get (db + j) = d.get (db + j) := fun j hj => gn _ (by omega)
    have k0 : keyAt src sb db d1 0 = src.get (sb + x) := by unfold keyAt; rw [g0]
    have kj : ∀ j : Nat, j ≠ 0 → keyAt src sb db d1 j = keyAt src sb db d j := fun j hj => by unfold keyAt; rw [gj j hj]
    have hA1 : IdxArr src sb db k d1 := ⟨h0, by rw [gs]; exact hA.hi, fun j hj => by
      by_cases hj0 : j = 0
      · subst hj0; rw [g0]; exact hR x (by simp)
      · rw [gj j hj0]; exact hA.val j hj⟩
    obtain ⟨d2, e2, R2, H2⟩ := heapify_spec (src := src) (sb := sb) (db := db) (n := k) (k + 1) 0 0 d1 hA1 (Nat.le_refl _) (by omega)
      ⟨fun j a b c f => by
        rw [kj j (by omega), kj _ (by omega)]
        exact S.heap j a b c, fun a => by omega⟩
    refine ⟨d2, e2, R2.size.trans (gs.trans S.size), ?_, ?_, ?_, H2, ?_⟩
    · intro a ha
      rw [R2.frame a ha, gn a (by omega), S.frame a ha]
    · intro j hj
      obtain ⟨i, hi, e⟩ := (R2.mem_iff _).1 ⟨j, hj, rfl⟩
      rw [← e]
      by_cases hi0 : i = 0
      · subst hi0; rw [g0]; simp
      · rw [gj i hi0]; exact List.mem_cons_of_mem _ (S.mem i hi)
    · apply R2.inj
      intro i j hi hj e
      by_cases hi0 : i = 0
      · by_cases hj0 : j = 0
        · omega
        · subst hi0
          rw [g0, gj j hj0] at e
          exact absurd (e ▸ S.mem j hj) hx
      · by_cases hj0 : j = 0
        · subst hj0
          rw [g0, gj i hi0] at e
          exact absurd (e ▸ S.mem i hi) hx
        · rw [gj i hi0, gj j hj0] at e
          exact S.inj i j hi hj e
    · intro y hy hn
      have hmin : keyAt src sb db d 0 ≤ keyAt src sb db d2 0 := by
        obtain ⟨i, hi, e⟩ := (R2.mem_iff _).1 ⟨0, hk, rfl⟩
        have e' : keyAt src sb db d2 0 = keyAt src sb db d1 i := by unfold keyAt; rw [e]
        rw [e']
        by_cases hi0 : i = 0
        · subst hi0; rw [k0]; omega
        · rw [kj i hi0]; exact heap_root S.heap i hi
      have hn' : ∀ j : Nat, j < k → d1.get (db + j) ≠ y := by
        intro j hj e
        obtain ⟨i, hi, e'⟩ := (R2.mem_iff y).2 ⟨j, hj, e⟩
        exact hn i hi e'
      rcases List.mem_cons.1 hy with rfl | hy
      · exact absurd g0 (hn' 0 hk)
      · by_cases hy0 : d.get (db + (0 : Nat)) = y
        · have : src.get (sb + y) = keyAt src sb db d 0 := by unfold keyAt; rw [hy0]
          omega
        · refine (S.rest y hy fun j hj => ?_).trans hmin
          by_cases hj0 : j = 0
          · subst hj0; exact hy0
          · rw [← gj j hj0]; exact hn' j hj

theorem selectPos_all {src : Buf} {sb db : Int} {k : Nat} {d0 : Buf} (hk : 0 < k) (h0 : 0 ≤ db) (h1 : db + k ≤ d0.size) :
    ∀ (Q R : List Int) (d : Buf), (∀ y ∈ Q ++ R, 0 ≤ sb + y ∧ sb + y < src.size) → (Q ++ R).Nodup → Selected src sb db k R d0 d →
    ∃ d' R', Q.foldlM (fun d x => selectPos src sb k db x d) d = some d' ∧ (∀ x, x ∈ R' ↔ x ∈ Q ++ R) ∧ Selected src sb db k R' d0 d' := by
  intro Q
  induction Q with
  | nil => intro R d _ _ S; exact ⟨d, R, rfl, fun x => by simp, S⟩
  | cons x Q ih =>
    intro R d hv hn S
    have hx : x ∉ R := fun h => by
      have := (List.nodup_cons.1 hn).1
      exact this (by simp [h])
    obtain ⟨d1, e1, S1⟩ := selectPos_step hk h0 h1 (fun y hy => hv y (by
      rcases List.mem_cons.1 hy with rfl | hy
      · simp
      · simp [hy])) hx S
    obtain ⟨d2, R2, e2, m2, S2⟩ := ih (x :: R) d1 (fun y hy => hv y (by
      simp only [List.mem_append, List.mem_cons] at hy ⊢; tauto))
      (by
        have := List.nodup_cons.1 hn
        exact (List.perm_middle.nodup_iff).2 hn) S1
    refine ⟨d2, R2, ?_, fun y => ?_, S2⟩
    · rw [List.foldlM_cons, e1]; exact e2
    · rw [m2]; simp only [List.mem_append, List.mem_cons]; tauto

/-! ## The loops as lists of positions -/

/-- The points of a slice in the order of the loops. -/
def slicePts (t : Tensor) (ax sl : Int) : List (Int × Int × Int × Int) :=
  box (sliceLo ax sl 0) (sliceHi t ax sl 0) (box (sliceLo ax sl 1) (sliceHi t ax sl 1)
    (box (sliceLo ax sl 2) (sliceHi t ax sl 2) (rangeI (sliceLo ax sl 3) (sliceHi t ax sl 3))))

def Tensor.ptPos (t : Tensor) (p : Int × Int × Int × Int) : Int := t.rPos p.1 p.2.1 p.2.2.1 p.2.2.2

theorem fill_list (t : Tensor) (k : Nat) (db : Int) (h0 : 0 ≤ db) : ∀ (L : List (Int × Int × Int × Int)) (i : Nat) (d : Buf),
    i ≤ k → db + k ≤ d.size →
    ∃ d' i', L.foldlM (fun s p => fillStep t k db p.1 p.2.1 p.2.2.1 p.2.2.2 s) { i := i, d := d } = some { i := i', d := d', ret := L[k - i]? } ∧
      d'.size = d.size ∧ (∀ a, a < db + i ∨ db + k ≤ a → d'.get a = d.get a) ∧
      (∀ j : Nat, i + j < k → (h : j < L.length) → d'.get (db + (i + j : Nat)) = t.ptPos L[j]) := by
  have done : ∀ (L : List (Int × Int × Int × Int)) (s : FillSt), s.ret.isSome →
      L.foldlM (fun s p => fillStep t k db p.1 p.2.1 p.2.2.1 p.2.2.2 s) s = some s := by
    intro L
    induction L with
    | nil => intro s _; rfl
    | cons p L ih =>
      intro s hs
      obtain ⟨r, hr⟩ := Option.isSome_iff_exists.1 hs
      rw [List.foldlM_cons, fillStep, hr]
      exact ih s hs
  intro L
  induction L with
  | nil => intro i d _ _; exact ⟨d, i, by simp, rfl, fun _ _ => rfl, fun j _ h => by simp at h⟩
  | cons p L ih =>
    intro i d hi hd
    rw [List.foldlM_cons, fillStep]
    by_cases hik : i = k
    · simp only [hik, if_true, Option.bind_eq_bind, Option.bind_some]
      rw [done L _ rfl]
      exact ⟨d, k, by simp, rfl, fun _ _ => rfl, fun j hj => by omega⟩
    · simp only [if_neg hik, Buf.wr]
      rw [if_pos (by omega)]
      simp only [Option.map_some, Option.bind_eq_bind, Option.bind_some]
      obtain ⟨d', i', e, s1, f1, g1⟩ := ih (i + 1) { size := d.size, get := fun x => if x = db + i then t.rPos p.1 p.2.1 p.2.2.1 p.2.2.2 else d.get x }
        (by omega) hd
      refine ⟨d', i', ?_, s1, ?_, ?_⟩
      · rw [e, show k - i = (k - (i + 1)) + 1 by omega, List.getElem?_cons_succ]
      · intro a ha
        rw [f1 a (by push_cast; omega)]
        simp only []
        rw [if_neg (by omega)]
      · intro j hj hlt
        cases j with
        | zero =>
          rw [f1 _ (by push_cast; omega)]
          simp [Tensor.ptPos]
        | succ j =>
          have := g1 j (by omega) (by simpa using hlt)
          rw [show i + 1 + j = i + (j + 1) by omega] at this
          simpa using this

theorem fillDst_eq (t : Tensor) (k : Nat) (ax sl db : Int) (d : Buf) :
    fillDst t k ax sl db d = ((slicePts t ax sl).foldlM (fun s p => fillStep t k db p.1 p.2.1 p.2.2.1 p.2.2.2 s) { i := 0, d := d }).map fun s =>
      (s.d, s.ret.getD (sliceHi t ax sl 0, sliceHi t ax sl 1, sliceHi t ax sl 2, sliceHi t ax sl 3)) := by
  unfold fillDst slicePts
  congr 1
  simp only [forFrom_eq]
  have e1 : ∀ a b s, (rangeI (sliceLo ax sl 2) (sliceHi t ax sl 2)).foldlM (fun s c =>
      (rangeI (sliceLo ax sl 3) (sliceHi t ax sl 3)).foldlM (fun s e => fillStep t k db a b c e s) s) s =
      (box (sliceLo ax sl 2) (sliceHi t ax sl 2) (rangeI (sliceLo ax sl 3) (sliceHi t ax sl 3))).foldlM
        (fun s p => fillStep t k db a b p.1 p.2 s) s := fun a b s =>
    foldlM_nest _ (fun _ => rangeI (sliceLo ax sl 3) (sliceHi t ax sl 3)) (fun c e s => fillStep t k db a b c e s) s
  simp only [e1]
  have e2 : ∀ a s, (rangeI (sliceLo ax sl 1) (sliceHi t ax sl 1)).foldlM (fun s b =>
      (box (sliceLo ax sl 2) (sliceHi t ax sl 2) (rangeI (sliceLo ax sl 3) (sliceHi t ax sl 3))).foldlM
        (fun s p => fillStep t k db a b p.1 p.2 s) s) s =
      (box (sliceLo ax sl 1) (sliceHi t ax sl 1) (box (sliceLo ax sl 2) (sliceHi t ax sl 2)
        (rangeI (sliceLo ax sl 3) (sliceHi t ax sl 3)))).foldlM (fun s p => fillStep t k db a p.1 p.2.1 p.2.2 s) s := fun a s =>
    foldlM_nest _ (fun _ => _) (fun b (p : Int × Int) s => fillStep t k db a b p.1 p.2 s) s
  simp only [e2]
  exact foldlM_nest _ (fun _ => _) (fun a (p : Int × Int × Int) s => fillStep t k db a p.1 p.2.1 p.2.2 s) _

/-- The loops of the selection go over what is left of the slice. -/
theorem select_loops (src : Buf) (t : Tensor) (k : Nat) (ax sl db : Int) (d : Buf) (n : Nat) (p : Int × Int × Int × Int)
    (hp : (slicePts t ax sl)[n]? = some p) :
    forFrom p.1 (sliceHi t ax sl 0) (fun a (s : (Int × Int × Int) × Buf) =>
      (forFrom s.1.1 (sliceHi t ax sl 1) (fun b (s : (Int × Int) × Buf) =>
        (forFrom s.1.1 (sliceHi t ax sl 2) (fun c (s : Int × Buf) =>
          (forFrom s.1 (sliceHi t ax sl 3) (fun e d => selectStep src t k db a b c e d) s.2).map fun d => (sliceLo ax sl 3, d))
          (s.1.2, s.2)).map fun s => ((sliceLo ax sl 2, s.1), s.2))
        (s.1.2, s.2)).map fun s => ((sliceLo ax sl 1, s.1), s.2))
      (p.2, d) =
    (((slicePts t ax sl).drop n).foldlM (fun d p => selectStep src t k db p.1 p.2.1 p.2.2.1 p.2.2.2 d) d).map fun d =>
      ((sliceLo ax sl 1, sliceLo ax sl 2, sliceLo ax sl 3), d) := by
  obtain ⟨p0, p1, p2, p3⟩ := p
  unfold slicePts at hp ⊢
  generalize sliceHi t ax sl 0 = h0 at *
  generalize sliceHi t ax sl 1 = h1 at *
  generalize sliceHi t ax sl 2 = h2 at *
  generalize sliceHi t ax sl 3 = h3 at *
  generalize sliceLo ax sl 0 = l0 at *
  generalize sliceLo ax sl 1 = l1 at *
  generalize sliceLo ax sl 2 = l2 at *
  generalize sliceLo ax sl 3 = l3 at *
  obtain ⟨n1, q1, c0, D0⟩ := box_drop _ l0 n rfl hp
  obtain ⟨n2, q2, c1, D1⟩ := box_drop _ l1 n1 rfl q1
  obtain ⟨n3, q3, c2, D2⟩ := box_drop _ l2 n2 rfl q2
  have D3 : (rangeI l3 h3).drop n3 = rangeI p3 h3 := rangeI_drop n3 l3 q3
  have i1 : l1 < h1 := by have := (mem_box.1 (List.mem_of_getElem? q1)).1; simp only at this; omega
  have i2 : l2 < h2 := by have := (mem_box.1 (List.mem_of_getElem? q2)).1; simp only at this; omega
  have L2 : ∀ a b s2 s3 d, s2 < h2 → forFrom s2 h2 (fun c (s : Int × Buf) =>
      (forFrom s.1 h3 (fun e d => selectStep src t k db a b c e d) s.2).map fun d => (l3, d)) (s3, d) =
      ((lexFrom h2 (rangeI s3 h3) (rangeI l3 h3) s2).foldlM (fun d p => selectStep src t k db a b p.1 p.2 d) d).map fun d => (l3, d) := by
    intro a b s2 s3 d hs
    exact carry_loop s2 h2 hs _ l3 s3 (fun s => rangeI s h3) (fun d p => selectStep src t k db a b p.1 p.2 d)
      (fun x s d _ => by simp only [forFrom_eq]) d
  have L1 : ∀ a s1 (s : Int × Int) d, s1 < h1 → s.1 < h2 → forFrom s1 h1 (fun b (s : (Int × Int) × Buf) =>
        (forFrom s.1.1 h2 (fun c (s : Int × Buf) =>
          (forFrom s.1 h3 (fun e d => selectStep src t k db a b c e d) s.2).map fun d => (l3, d))
          (s.1.2, s.2)).map fun s => ((l2, s.1), s.2)) (s, d) =
      ((lexFrom h1 (lexFrom h2 (rangeI s.2 h3) (rangeI l3 h3) s.1) (box l2 h2 (rangeI l3 h3)) s1).foldlM
        (fun d p => selectStep src t k db a p.1 p.2.1 p.2.2 d) d).map fun d => ((l2, l3), d) := by
    intro a s1 s d hs hs2
    rw [← lexFrom_full l2]
    exact carry_loop s1 h1 hs _ (l2, l3) s (fun s => lexFrom h2 (rangeI s.2 h3) (rangeI l3 h3) s.1)
      (fun d p => selectStep src t k db a p.1 p.2.1 p.2.2 d)
      (fun x s' d hs' => by
        simp only []
        rw [L2 a x s'.1 s'.2 d (by rcases hs' with rfl | rfl <;> assumption), Option.map_map]
        rfl) d
  rw [D0, D1, D2, D3, ← lexFrom_full l1]
  rw [carry_loop p0 h0 c0 _ (l1, l2, l3) (p1, p2, p3)
    (fun s => lexFrom h1 (lexFrom h2 (rangeI s.2.2 h3) (rangeI l3 h3) s.2.1) (box l2 h2 (rangeI l3 h3)) s.1)
    (fun d p => selectStep src t k db p.1 p.2.1 p.2.2.1 p.2.2.2 d)
    (fun x s' d hs' => by
      simp only []
      rw [L1 x s'.1 s'.2 d (by rcases hs' with rfl | rfl <;> assumption) (by rcases hs' with rfl | rfl <;> assumption), Option.map_map]
      rfl) d]
  simp only [lexFrom_full]

/-! ## One slice -/

theorem slice_topk {src : Buf} {t : Tensor} {k : Nat} {ax sl db : Int} {d : Buf} (hk : 0 < k) (h0 : 0 ≤ db) (h1 : db + k ≤ d.size)
    (hlen : k ≤ (slicePts t ax sl).length)
    (hv : ∀ p ∈ slicePts t ax sl, 0 ≤ t.base + t.ptPos p ∧ t.base + t.ptPos p < src.size)
    (hinj : ∀ p ∈ slicePts t ax sl, ∀ q ∈ slicePts t ax sl, t.ptPos p = t.ptPos q → p = q) :
    ∃ d', ((fillDst t k ax sl db d).bind fun r => (heapSelect src t k ax sl db r.2 r.1).bind fun d => heapSort src t.base k db d) = some d' ∧
      d'.size = d.size ∧ (∀ a, a < db ∨ db + k ≤ a → d'.get a = d.get a) ∧
      TopK (fun x => ∃ p ∈ slicePts t ax sl, x = t.ptPos p) (fun x => src.get (t.base + x)) k (fun j => d'.get (db + j)) := by
  have hnd : (slicePts t ax sl).Nodup := nodup_box _ _ (nodup_box _ _ (nodup_box _ _ (nodup_rangeI _ _)))
  generalize hL : slicePts t ax sl = L at *
  obtain ⟨d1, i1, e1, s1, f1, g1⟩ := fill_list t k db h0 L 0 d (by omega) h1
  have hnd' : (L.map t.ptPos).Nodup := (List.nodup_map_iff_inj_on hnd).2 fun p hp q hq e => hinj p hp q hq e
  have ent : ∀ j : Nat, (h : j < k) → d1.get (db + j) = (L.map t.ptPos)[j]'(by simp; omega) := by
    intro j hj
    have := g1 j (by omega) (by omega)
    simpa using this
  have hA1 : IdxArr src t.base db k d1 := ⟨h0, by rw [s1]; exact h1, fun j hj => by
    rw [ent j hj, List.getElem_map]
    exact hv _ (List.getElem_mem _)⟩
  obtain ⟨d2, e2, R2, H2⟩ := buildHeap_spec hA1
  have S2 : Selected src t.base db k ((L.take k).map t.ptPos) d d2 := by
    refine ⟨R2.size.trans s1, ?_, ?_, ?_, H2, ?_⟩
    · intro a ha
      rw [R2.frame a ha, f1 a (by simpa using ha)]
    · intro j hj
      obtain ⟨i, hi, e⟩ := (R2.mem_iff _).1 ⟨j, hj, rfl⟩
      rw [← e, ent i hi, List.getElem_map, List.mem_map]
      exact ⟨_, List.mem_take_iff_getElem.2 ⟨i, by omega, rfl⟩, rfl⟩
    · apply R2.inj
      intro i j hi hj e
      rw [ent i hi, ent j hj] at e
      exact (List.Nodup.getElem_inj_iff hnd').1 e
    · intro x hx hn
      obtain ⟨p, hp, rfl⟩ := List.mem_map.1 hx
      obtain ⟨i, hi, rfl⟩ := List.mem_take_iff_getElem.1 hp
      obtain ⟨j, hj, e⟩ := (R2.mem_iff (t.ptPos L[i])).2 ⟨i, by omega, by rw [ent i (by omega), List.getElem_map]⟩
      exact absurd e (hn j hj)
  have hperm : ∀ x, x ∈ (L.drop k).map t.ptPos ++ (L.take k).map t.ptPos ↔ x ∈ L.map t.ptPos := by
    intro x
    rw [← List.map_append]
    have : (L.drop k ++ L.take k).Perm L := by
      have := List.perm_append_comm (l₁ := L.drop k) (l₂ := L.take k)
      rwa [List.take_append_drop] at this
    exact (this.map _).mem_iff
  obtain ⟨d3, R3, e3, m3, S3⟩ := selectPos_all (src := src) (sb := t.base) (d0 := d) hk h0 h1 ((L.drop k).map t.ptPos) ((L.take k).map t.ptPos) d2
    (fun y hy => by
      obtain ⟨p, hp, rfl⟩ := List.mem_map.1 ((hperm y).1 hy)
      exact hv p hp)
    (by
      rw [← List.map_append]
      have : (L.drop k ++ L.take k).Perm L := by
        have := List.perm_append_comm (l₁ := L.drop k) (l₂ := L.take k)
        rwa [List.take_append_drop] at this
      exact ((this.map t.ptPos).nodup_iff).2 hnd') S2
  have sel : heapSelect src t k ax sl db (L[k]?.getD (sliceHi t ax sl 0, sliceHi t ax sl 1, sliceHi t ax sl 2, sliceHi t ax sl 3)) d1 = some d3 := by
    unfold heapSelect
    rw [e2, Option.bind_some]
    cases hp : L[k]? with
    | some p =>
      rw [Option.getD_some, select_loops src t k ax sl db d2 k p (by rw [hL, hp]), Option.map_map, hL]
      rw [List.foldlM_map] at e3
      rw [show (fun (d : Buf) (p : Int × Int × Int × Int) => selectStep src t k db p.1 p.2.1 p.2.2.1 p.2.2.2 d) =
        fun d p => selectPos src t.base k db (t.ptPos p) d from rfl, e3]
      rfl
    | none =>
      rw [List.getElem?_eq_none_iff] at hp
      rw [List.drop_eq_nil_of_le hp] at e3
      rw [Option.getD_none, forFrom_eq, rangeI_nil (Int.le_refl _)]
      simpa using e3
  have hA3 : IdxArr src t.base db k d3 := ⟨h0, by rw [S3.size]; exact h1, fun j hj => by
    obtain ⟨p, hp, e⟩ := List.mem_map.1 ((hperm _).1 ((m3 _).1 (S3.mem j hj)))
    rw [← e]; exact hv p hp⟩
  obtain ⟨d4, e4, R4, O4⟩ := heapSort_spec hA3
  have key4 : ∀ j : Nat, src.get (t.base + d4.get (db + j)) = keyAt src t.base db d4 j := fun _ => rfl
  refine ⟨d4, ?_, R4.size.trans S3.size, fun a ha => (R4.frame a ha).trans (S3.frame a ha), ?_, ?_, ?_, ?_⟩
  · rw [fillDst_eq, hL, e1]
    simp only [Option.map_some, Option.bind_some, Nat.sub_zero]
    rw [sel]
    exact e4
  · intro j hj
    obtain ⟨i, hi, e⟩ := (R4.mem_iff _).1 ⟨j, hj, rfl⟩
    obtain ⟨p, hp, e'⟩ := List.mem_map.1 ((hperm _).1 ((m3 _).1 (S3.mem i hi)))
    exact ⟨p, hp, by rw [← e, e']⟩
  · intro i j hij hj e
    have := R4.inj S3.inj i j (by omega) hj e
    omega
  · intro i j hij hj
    exact O4 i j hij hj
  · rintro x ⟨p, hp, rfl⟩ hn j hj
    have hx := S3.rest (t.ptPos p) ((m3 _).2 ((hperm _).2 (List.mem_map.2 ⟨p, hp, rfl⟩))) (fun i hi e => by
      obtain ⟨i', hi', e'⟩ := (R4.mem_iff _).2 ⟨i, hi, e⟩
      exact hn i' hi' e')
    obtain ⟨i, hi, e⟩ := (R4.mem_iff _).1 ⟨j, hj, rfl⟩
    have := heap_root S3.heap i hi
    have e' : keyAt src t.base db d3 i = src.get (t.base + d4.get (db + j)) := by unfold keyAt; rw [e]
    show src.get (t.base + t.ptPos p) ≤ src.get (t.base + d4.get (db + j))
    omega

/-! ## Slices of a tensor -/

/-- The dimension of the rank-4 view that belongs to `axis`, as the kernel computes it. -/
def axisDim (t : Tensor) (axis : Int) : Int := if axis ≥ 0 then axis + (maxRank - t.dims.length) else -1

/-- A point of the rank-4 view as a multi-index of the tensor. -/
def ptIdx (t : Tensor) (p : Int × Int × Int × Int) : List Int := [p.1, p.2.1, p.2.2.1, p.2.2.2].drop (4 - t.dims.length)

theorem mem_slicePts {t : Tensor} {ax sl : Int} {p : Int × Int × Int × Int} : p ∈ slicePts t ax sl ↔
    (sliceLo ax sl 0 ≤ p.1 ∧ p.1 < sliceHi t ax sl 0) ∧ (sliceLo ax sl 1 ≤ p.2.1 ∧ p.2.1 < sliceHi t ax sl 1) ∧
    (sliceLo ax sl 2 ≤ p.2.2.1 ∧ p.2.2.1 < sliceHi t ax sl 2) ∧ (sliceLo ax sl 3 ≤ p.2.2.2 ∧ p.2.2.2 < sliceHi t ax sl 3) := by
  unfold slicePts
  rw [mem_box, mem_box, mem_box, mem_rangeI]

theorem slice_dim {t : Tensor} {ax sl x : Int} {i : Nat} (hs : ax = i → 0 ≤ sl ∧ sl < (t.rDim i).shape) :
    (sliceLo ax sl i ≤ x ∧ x < sliceHi t ax sl i) ↔ (0 ≤ x ∧ x < (t.rDim i).shape) ∧ (ax = i → x = sl) := by
  unfold sliceLo sliceHi
  by_cases h : ax = i
  · have := hs h
    simp only [h, if_true, true_implies]
    omega
  · simp only [h, if_false, false_implies, and_true]

theorem rDim_axis {t : Tensor} {a : Nat} (ha : a < t.dims.length) : t.rDim (a + (4 - t.dims.length)) = t.dims.getD a ⟨1, 0⟩ := by
  unfold Tensor.rDim maxRank
  rw [List.getD_eq_getElem?_getD, List.getElem?_append_right (by simp), List.getD_eq_getElem?_getD]
  simp

/-- Points of a slice, dimension by dimension. -/
theorem mem_slicePts' {t : Tensor} (hr : t.dims.length ≤ 4) {axis sl : Int} (hax : axis < t.dims.length)
    (hs : 0 ≤ axis → 0 ≤ sl ∧ sl < t.shape.getD axis.toNat 0) {p : Int × Int × Int × Int} :
    p ∈ slicePts t (axisDim t axis) sl ↔
    ((0 ≤ p.1 ∧ p.1 < (t.rDim 0).shape) ∧ (axisDim t axis = 0 → p.1 = sl)) ∧
    ((0 ≤ p.2.1 ∧ p.2.1 < (t.rDim 1).shape) ∧ (axisDim t axis = 1 → p.2.1 = sl)) ∧
    ((0 ≤ p.2.2.1 ∧ p.2.2.1 < (t.rDim 2).shape) ∧ (axisDim t axis = 2 → p.2.2.1 = sl)) ∧
    ((0 ≤ p.2.2.2 ∧ p.2.2.2 < (t.rDim 3).shape) ∧ (axisDim t axis = 3 → p.2.2.2 = sl)) := by
  have H : ∀ i : Nat, axisDim t axis = i → 0 ≤ sl ∧ sl < (t.rDim i).shape := by
    intro i hi
    unfold axisDim maxRank at hi
    by_cases h0 : axis ≥ 0
    · rw [if_pos h0] at hi
      have h1 := hs h0
      have e : i = axis.toNat + (4 - t.dims.length) := by omega
      rw [e, rDim_axis (by omega)]
      have : t.shape.getD axis.toNat 0 = (t.dims.getD axis.toNat ⟨1, 0⟩).shape := by
        unfold Tensor.shape
        rw [List.getD_eq_getElem?_getD, List.getD_eq_getElem?_getD, List.getElem?_map, List.getElem?_eq_getElem (by omega)]
        rfl
      rw [← this]
      exact h1
    · rw [if_neg h0] at hi; omega
  rw [mem_slicePts, slice_dim (H 0), slice_dim (H 1), slice_dim (H 2), slice_dim (H 3)]
  rfl

theorem slice_pts {t : Tensor} (hr : t.dims.length ≤ 4) {axis sl : Int} (hax : axis < t.dims.length)
    (hs : 0 ≤ axis → 0 ≤ sl ∧ sl < t.shape.getD axis.toNat 0) {p : Int × Int × Int × Int}
    (hp : p ∈ slicePts t (axisDim t axis) sl) : InSlice t.shape axis sl (ptIdx t p) ∧ offset t.strides (ptIdx t p) = t.ptPos p ∧
      ∀ q ∈ slicePts t (axisDim t axis) sl, ptIdx t q = ptIdx t p → q = p := by
  rw [mem_slicePts' hr hax hs] at hp
  simp only [mem_slicePts' hr hax hs]
  obtain ⟨p0, p1, p2, p3⟩ := p
  obtain ⟨dims, base, cap, es⟩ := t
  simp only [axisDim, maxRank] at hp ⊢
  have hcase : axis < 0 ∨ axis = 0 ∨ axis = 1 ∨ axis = 2 ∨ axis = 3 := by simp only at hr hax; omega
  rcases list_le4_cases dims hr with rfl | ⟨a, rfl⟩ | ⟨a, b, rfl⟩ | ⟨a, b, c, rfl⟩ | ⟨a, b, c, d, rfl⟩ <;>
    simp only [Tensor.rDim, maxRank, Tensor.shape, Tensor.strides, Tensor.ptPos, Tensor.rPos, ptIdx, InSlice, List.length_cons, List.length_nil,
      List.replicate, List.cons_append, List.nil_append, List.getD_cons_zero, List.getD_cons_succ, List.drop_succ_cons, List.drop_zero,
      List.map_cons, List.map_nil, InShape, offset, Nat.reduceAdd, Nat.reduceSub, Nat.zero_add, Nat.sub_zero, Nat.sub_self, Prod.forall, Prod.mk.injEq,
      List.cons.injEq, and_true] at hp hax ⊢
  all_goals
    refine ⟨⟨by first | trivial | omega, fun h0 => ?_⟩, by omega, fun _ _ _ _ _ _ => by omega⟩
    rcases hcase with h | rfl | rfl | rfl | rfl <;> first | (exfalso; omega) | (simp at hp ⊢; omega)

theorem slice_pts_onto {t : Tensor} (hr : t.dims.length ≤ 4) {axis sl : Int} (hax : axis < t.dims.length)
    (hs : 0 ≤ axis → 0 ≤ sl ∧ sl < t.shape.getD axis.toNat 0) {is : List Int} (hi : InSlice t.shape axis sl is) :
    ∃ p ∈ slicePts t (axisDim t axis) sl, ptIdx t p = is := by
  simp only [mem_slicePts' hr hax hs]
  obtain ⟨dims, base, cap, es⟩ := t
  obtain ⟨hi, h0⟩ := hi
  simp only [axisDim, maxRank] at hax ⊢
  have hcase : axis < 0 ∨ axis = 0 ∨ axis = 1 ∨ axis = 2 ∨ axis = 3 := by simp only at hr hax; omega
  rcases list_le4_cases dims hr with rfl | ⟨a, rfl⟩ | ⟨a, b, rfl⟩ | ⟨a, b, c, rfl⟩ | ⟨a, b, c, d, rfl⟩
  · match is, hi with
    | [], _ =>
      refine ⟨(0, 0, 0, 0), ?_, rfl⟩
      simp only [Tensor.rDim, maxRank, List.length_nil, List.replicate, List.append_nil, List.getD_cons_zero, List.getD_cons_succ] at hax ⊢
      omega
    | _ :: _, hi => exact hi.elim
  · match is, hi with
    | [i], hi =>
      refine ⟨(0, 0, 0, i), ?_, rfl⟩
      simp only [Tensor.shape, List.map_cons, List.map_nil, InShape, Tensor.rDim, maxRank, List.length_cons, List.length_nil, List.replicate, List.cons_append,
        List.nil_append, List.getD_cons_zero, List.getD_cons_succ, Nat.reduceAdd, Nat.reduceSub] at hi hax ⊢
      rcases hcase with h | rfl | rfl | rfl | rfl <;> first | (exfalso; omega) | omega | (simp at h0 ⊢; omega)
    | [], hi => exact hi.elim
    | _ :: _ :: _, hi => exact hi.2.elim
  · match is, hi with
    | [i, j], hi =>
      refine ⟨(0, 0, i, j), ?_, rfl⟩
      simp only [Tensor.shape, List.map_cons, List.map_nil, InShape, Tensor.rDim, maxRank, List.length_cons, List.length_nil, List.replicate, List.cons_append,
        List.nil_append, List.getD_cons_zero, List.getD_cons_succ, Nat.reduceAdd, Nat.reduceSub] at hi hax ⊢
      rcases hcase with h | rfl | rfl | rfl | rfl <;> first | (exfalso; omega) | omega | (simp at h0 ⊢; omega)
    | [], hi => exact hi.elim
    | [_], hi => exact hi.2.elim
    | _ :: _ :: _ :: _, hi => exact hi.2.2.elim
  · match is, hi with
    | [i, j, k], hi =>
      refine ⟨(0, i, j, k), ?_, rfl⟩
      simp only [Tensor.shape, List.map_cons, List.map_nil, InShape, Tensor.rDim, maxRank, List.length_cons, List.length_nil, List.replicate, List.cons_append,
        List.nil_append, List.getD_cons_zero, List.getD_cons_succ, Nat.reduceAdd, Nat.reduceSub] at hi hax ⊢
      rcases hcase with h | rfl | rfl | rfl | rfl <;> first | (exfalso; omega) | omega | (simp at h0 ⊢; omega)
    | [], hi => exact hi.elim
    | [_], hi => exact hi.2.elim
    | [_, _], hi => exact hi.2.2.elim
    | _ :: _ :: _ :: _ :: _, hi => exact hi.2.2.2.elim
  · match is, hi with
    | [i, j, k, l], hi =>
      refine ⟨(i, j, k, l), ?_, rfl⟩
      simp only [Tensor.shape, List.map_cons, List.map_nil, InShape, Tensor.rDim, maxRank, List.length_cons, List.length_nil, List.replicate, List.cons_append,
        List.nil_append, List.getD_cons_zero, List.getD_cons_succ, Nat.reduceAdd, Nat.reduceSub] at hi hax ⊢
      rcases hcase with h | rfl | rfl | rfl | rfl <;> first | (exfalso; omega) | omega | (simp at h0 ⊢; omega)
    | [], hi => exact hi.elim
    | [_], hi => exact hi.2.elim
    | [_, _], hi => exact hi.2.2.elim
    | [_, _, _], hi => exact hi.2.2.2.elim
    | _ :: _ :: _ :: _ :: _ :: _, hi => exact hi.2.2.2.2.elim

/-- Number of points of a slice. -/
theorem length_slicePts {t : Tensor} (hr : t.dims.length ≤ 4) (hpos : ∀ d ∈ t.dims, 1 ≤ d.shape) {axis sl : Int} (hax : axis < t.dims.length) :
    ((slicePts t (axisDim t axis) sl).length : Int) * (if axis ≥ 0 then t.shape.getD axis.toNat 0 else 1) = prod t.shape := by
  have hcase : axis < 0 ∨ axis = 0 ∨ axis = 1 ∨ axis = 2 ∨ axis = 3 := by omega
  have hl : (rangeI (sliceLo (axisDim t axis) sl 3) (sliceHi t (axisDim t axis) sl 3)).length =
      (sliceHi t (axisDim t axis) sl 3 - sliceLo (axisDim t axis) sl 3).toNat := by simp [rangeI]
  have hone : ∀ i : Nat, 1 ≤ (t.rDim i).shape := by
    intro i
    unfold Tensor.rDim
    rw [List.getD_eq_getElem?_getD]
    cases h : (List.replicate (maxRank - t.dims.length) (⟨1, 0⟩ : Dim) ++ t.dims)[i]? with
    | none => simp
    | some d =>
      rcases List.mem_append.1 (List.mem_of_getElem? h) with h | h
      · rw [List.eq_of_mem_replicate h]; decide
      · exact hpos d h
  have he : ∀ i : Nat, ((sliceHi t (axisDim t axis) sl i - sliceLo (axisDim t axis) sl i).toNat : Int) =
      if axisDim t axis = i then 1 else (t.rDim i).shape := by
    intro i
    have := hone i
    unfold sliceHi sliceLo
    split <;> omega
  unfold slicePts
  rw [length_box, length_box, length_box, hl]
  push_cast
  rw [he, he, he, he]
  obtain ⟨dims, base, cap, es⟩ := t
  unfold axisDim Tensor.rDim maxRank Tensor.shape
  rcases list_le4_cases dims hr with rfl | ⟨a, rfl⟩ | ⟨a, b, rfl⟩ | ⟨a, b, c, rfl⟩ | ⟨a, b, c, d, rfl⟩ <;>
    rcases hcase with h | rfl | rfl | rfl | rfl <;>
    first
    | (exfalso; simp at hax; done)
    | (simp [prod, List.replicate, show ¬ (0 ≤ axis) by omega]; done)
    | (simp [prod, List.replicate, show ¬ (0 ≤ axis) by omega]; ring)
    | (simp [prod, List.replicate]; done)
    | (simp [prod, List.replicate]; ring)

/-! ## The kernel -/

theorem chkArgmax_ok {tin tout : Tensor} {stale : Nat → Int} {axis topk : Int} (h : chkArgmax tin tout stale axis topk = some .ok) :
    isContig tout = true ∧ axis < tin.dims.length ∧ innerOne tin = true ∧ topk ≤ wrap 32 (countElemNum tin / sliceCount tin.shape axis) ∧
      rawShape tout stale 0 = sliceCount tin.shape axis ∧ wrap 32 (rawShape tout stale 1) = topk := by
  unfold chkArgmax at h
  rw [show (if axis ≥ 0 then tin.shape.getD axis.toNat 0 else 1) = sliceCount tin.shape axis from rfl] at h
  generalize sliceCount tin.shape axis = c at h ⊢
  simp only [Option.bind_eq_bind, Option.pure_def, Option.bind_eq_some_iff] at h
  obtain ⟨s1, -, h⟩ := h
  split at h
  · rename_i hne; exact absurd (Option.some.inj h) hne
  rw [Option.bind_eq_some_iff] at h
  obtain ⟨s2, -, h⟩ := h
  split at h
  · rename_i hne; exact absurd (Option.some.inj h) hne
  split at h
  · cases h
  rename_i h1
  split at h
  · cases h
  split at h
  · cases h
  rename_i h3
  split at h
  · cases h
  rename_i h4
  split at h
  · cases h
  rename_i h5
  split at h
  · cases h
  rename_i h6
  have h6 := not_not.1 h6
  exact ⟨by simpa using h1, by omega, by simpa using h3, not_not.1 h5, h6.1, h6.2⟩

/-- C40: for every accepted call with an output of rank 2 and for every slice, the kernel writes the positions (relative to the data
pointer of the input) of `topk` different elements of the slice, in descending order of their values, and no other element of
the slice is larger than any of them.  Nothing but the output is written. -/
theorem c40_argmax (src dst : Buf) (tin tout : Tensor) (stale : Nat → Int) (axis topk : Int) (vi : tin.Valid src) (vo : tout.Valid dst)
    (h2 : tout.dims.length = 2) (hc : chkArgmax tin tout stale axis topk = some .ok) :
    tout.shape = [sliceCount tin.shape axis, topk] ∧
    ∃ dst' val, krnArgmax src tin tout stale axis topk dst = some (.ok, dst') ∧ tout.Writes val dst dst' ∧
      ∀ s, 0 ≤ s → s < sliceCount tin.shape axis →
        TopK (fun x => ∃ is, InSlice tin.shape axis s is ∧ x = offset tin.strides is) (fun x => src.get (tin.base + x)) topk.toNat
          (fun j => val [s, (j : Int)]) := by
  obtain ⟨c1, c2, -, c3, c4, c5⟩ := chkArgmax_ok hc
  obtain ⟨n, k, ed⟩ : ∃ n k, tout.dims = [n, k] := by
    match h : tout.dims, h2 with
    | [n, k], _ => exact ⟨n, k, rfl⟩
  have hn : 1 ≤ n.shape := vo.shape_pos n (by rw [ed]; simp)
  have hk : 1 ≤ k.shape := vo.shape_pos k (by rw [ed]; simp)
  have hso : tout.shape = [n.shape, k.shape] := by simp [Tensor.shape, ed]
  have hcnt := countElemNum_eq vo
  rw [hso] at hcnt
  simp only [prod, Int.mul_one] at hcnt
  have hkb : k.shape < 2 ^ 31 := by nlinarith
  have e0 : n.shape = sliceCount tin.shape axis := by rw [← c4]; simp [rawShape, hso]
  have e1 : k.shape = topk := by
    rw [← c5]
    simp only [rawShape, hso, List.getElem?_cons_succ, List.getElem?_cons_zero, Option.getD_some]
    rw [wrap_of_inRange (by omega) ⟨by simp only [lo]; omega, by simp only [hi]; omega⟩]
  obtain ⟨g1, g2⟩ : n.stride = k.shape ∧ k.stride = 1 := by
    have := (contigScan_cstr tout.dims c1).1
    rw [ed] at this
    simpa [cstr, prod] using this
  refine ⟨by rw [hso, e0, e1], ?_⟩
  have addr : ∀ s j, tout.addr [s, j] = tout.base + topk * s + j := by
    intro s j
    simp only [Tensor.addr, Tensor.strides, ed, List.map_cons, List.map_nil, offset, g1, g2, e1]
    ring
  have last := vo.inBounds (is := [n.shape - 1, k.shape - 1]) (by rw [hso]; exact ⟨⟨by omega, by omega⟩, ⟨by omega, by omega⟩, trivial⟩)
  have last' : tout.addr [n.shape - 1, k.shape - 1] < dst.size := last.2
  rw [addr] at last'
  have hb0 : 0 ≤ tout.base := vo.fits.1
  have hslice : ∀ s : Int, 0 ≤ s → s < n.shape → (0 ≤ axis → 0 ≤ s ∧ s < tin.shape.getD axis.toNat 0) := by
    intro s h1 h2 h3
    rw [e0, sliceCount, if_pos h3] at h2
    exact ⟨h1, h2⟩
  have hlen : ∀ s : Int, topk.toNat ≤ (slicePts tin (axisDim tin axis) s).length := by
    intro s
    have := length_slicePts (sl := s) vi.rank vi.shape_pos c2
    have hc' := countElemNum_eq vi
    have e : (if axis ≥ 0 then tin.shape.getD axis.toNat 0 else 1) = sliceCount tin.shape axis := rfl
    rw [e, ← e0] at this
    rw [hc'.1, ← this, ← e0, Int.mul_ediv_cancel _ (by omega), wrap_of_inRange (by omega)
      ⟨by simp only [lo]; omega, by
        have : ((slicePts tin (axisDim tin axis) s).length : Int) * 1 ≤ ((slicePts tin (axisDim tin axis) s).length : Int) * n.shape :=
          Int.mul_le_mul_of_nonneg_left hn (by omega)
        simp only [hi]; omega⟩] at c3
    omega
  obtain ⟨dst', r1, r2, r3, r4⟩ := forRange_inv (n := n.shape.toNat) (s := dst)
    (f := fun (sl : Nat) d =>
      (fillDst tin topk.toNat (axisDim tin axis) sl (tout.base + topk * sl) d).bind fun r =>
      (heapSelect src tin topk.toNat (axisDim tin axis) sl (tout.base + topk * sl) r.2 r.1).bind fun d =>
      heapSort src tin.base topk.toNat (tout.base + topk * sl) d)
    (fun m d => d.size = dst.size ∧ (∀ a, a < tout.base ∨ tout.base + topk * m ≤ a → d.get a = dst.get a) ∧
      ∀ s : Nat, s < m → TopK (fun x => ∃ is, InSlice tin.shape axis s is ∧ x = offset tin.strides is) (fun x => src.get (tin.base + x)) topk.toNat
        (fun j => d.get (tout.base + topk * s + j)))
    ⟨rfl, fun _ _ => rfl, fun s hs => by omega⟩
    (fun m d hm ⟨p1, p2, p3⟩ => by
      have hs := hslice m (by omega) (by omega)
      have hms : topk * (m : Int) + topk ≤ topk * (n.shape - 1) + topk := by
        have : topk * (m : Int) ≤ topk * (n.shape - 1) := Int.mul_le_mul_of_nonneg_left (by omega) (by omega)
        omega
      have hm0 : 0 ≤ topk * (m : Int) := Int.mul_nonneg (by omega) (by omega)
      obtain ⟨d', q1, q2, q3, q4⟩ := slice_topk (src := src) (t := tin) (k := topk.toNat) (ax := axisDim tin axis) (sl := m)
        (db := tout.base + topk * m) (d := d) (by omega) (by omega) (by rw [p1]; omega) (hlen m)
        (fun p hp => by
          obtain ⟨a, b, -⟩ := slice_pts vi.rank c2 hs hp
          rw [← b]
          exact vi.inBounds a.1)
        (fun p hp q hq e => by
          obtain ⟨a, b, c⟩ := slice_pts vi.rank c2 hs hp
          obtain ⟨a', b', c'⟩ := slice_pts vi.rank c2 hs hq
          refine (c q hq ?_).symm
          exact c09_accepted_no_alias tin vi.accepted _ _ a'.1 a.1 (by rw [b, b', e]))
      refine ⟨d', q1, q2.trans p1, ?_, ?_⟩
      · intro a ha
        have : topk * ((m + 1 : Nat) : Int) = topk * m + topk := by push_cast; ring
        rw [this] at ha
        rw [q3 a (by omega), p2 a (by omega)]
      · intro s hs'
        by_cases hsm : s = m
        · subst hsm
          refine ⟨?_, q4.distinct, q4.sorted, ?_⟩
          · intro j hj
            obtain ⟨p, hp, e⟩ := q4.mem j hj
            obtain ⟨a, b, -⟩ := slice_pts vi.rank c2 hs hp
            exact ⟨_, a, by rw [b]; exact e⟩
          · rintro x ⟨is, hi, rfl⟩ hx
            obtain ⟨p, hp, rfl⟩ := slice_pts_onto vi.rank c2 hs hi
            obtain ⟨-, b, -⟩ := slice_pts vi.rank c2 hs hp
            exact q4.largest _ ⟨p, hp, b⟩ hx
        · have h3 := p3 s (by omega)
          have hlt : topk * (s : Int) + topk ≤ topk * m := by
            have : topk * ((s : Int) + 1) ≤ topk * m := Int.mul_le_mul_of_nonneg_left (by omega) (by omega)
            rw [Int.mul_add, Int.mul_one] at this
            exact this
          have eq : ∀ j : Nat, j < topk.toNat → d'.get (tout.base + topk * s + j) = d.get (tout.base + topk * s + j) :=
            fun j hj => q3 _ (by omega)
          refine ⟨fun j hj => ?_, fun i j hij hj => ?_, fun i j hij hj => ?_, fun x hx hx' j hj => ?_⟩
          · simp only [eq j hj]; exact h3.mem j hj
          · simp only [eq j hj, eq i (by omega)]; exact h3.distinct i j hij hj
          · simp only [eq j hj, eq i (by omega)]; exact h3.sorted i j hij hj
          · simp only [eq j hj]
            exact h3.largest x hx (fun i hi => by rw [← eq i hi]; exact hx' i hi) j hj)
  refine ⟨dst', fun is => dst'.get (tout.addr is), ?_, ⟨r2, fun _ _ => rfl, ?_⟩, ?_⟩
  · unfold krnArgmax argmaxRun
    rw [hc]
    have esl : (if axis ≥ 0 then (tin.rDim (axisDim tin axis).toNat).shape else 1) = n.shape := by
      rw [e0, sliceCount]
      by_cases h0 : axis ≥ 0
      · rw [if_pos h0, if_pos h0]
        have hr := vi.rank
        have : (axisDim tin axis).toNat = axis.toNat + (4 - tin.dims.length) := by
          unfold axisDim maxRank; rw [if_pos h0]; omega
        rw [this, rDim_axis (by omega), Tensor.shape, List.getD_eq_getElem?_getD, List.getD_eq_getElem?_getD, List.getElem?_map,
          List.getElem?_eq_getElem (by omega)]
        rfl
      · rw [if_neg h0, if_neg h0]
    simp only [Option.bind_eq_bind, Option.bind_some, ne_eq, not_true_eq_false, if_false, Option.pure_def]
    rw [show (if axis ≥ 0 then axis + (maxRank - tin.dims.length) else -1) = axisDim tin axis from rfl, esl, r1]
    rfl
  · intro a ha
    apply r3
    rw [show ((n.shape.toNat : Nat) : Int) = n.shape by omega]
    by_contra hcon
    have hin : 0 ≤ a - tout.base ∧ a - tout.base < topk * n.shape := by omega
    have hk0 : 0 < topk := by omega
    have hd := Int.emod_add_mul_ediv (a - tout.base) topk
    refine ha [(a - tout.base) / topk, (a - tout.base) % topk] ?_ ?_
    · rw [hso]
      simp only [InShape]
      exact ⟨⟨Int.ediv_nonneg hin.1 (by omega), Int.ediv_lt_of_lt_mul hk0 (by rw [Int.mul_comm]; exact hin.2)⟩,
        ⟨Int.emod_nonneg _ (by omega), by rw [e1]; exact Int.emod_lt_of_pos _ hk0⟩, trivial⟩
    · rw [addr]; omega
  · intro s hs1 hs2
    have := r4 s.toNat (by omega)
    rw [show ((s.toNat : Nat) : Int) = s by omega] at this
    simp only [addr]
    exact this

/-- An arg-max kernel that reports an error leaves the output as it was; success means that the arguments were accepted. -/
theorem c40_status (src dst dst' : Buf) (tin tout : Tensor) (stale : Nat → Int) (axis topk : Int) (st : Status)
    (h : krnArgmax src tin tout stale axis topk dst = some (st, dst')) :
    (st ≠ .ok → dst' = dst) ∧ (st = .ok → chkArgmax tin tout stale axis topk = some .ok) := by
  unfold krnArgmax at h
  simp only [Option.bind_eq_bind, Option.pure_def] at h
  rw [Option.bind_eq_some_iff] at h
  obtain ⟨s1, hs1, h⟩ := h
  split at h
  · rename_i hne
    simp only [Option.some.injEq, Prod.mk.injEq] at h
    obtain ⟨rfl, rfl⟩ := h
    exact ⟨fun _ => rfl, fun e => absurd e hne⟩
  · rename_i hne
    simp only [Option.bind_eq_some_iff, Option.some.injEq, Prod.mk.injEq] at h
    obtain ⟨_, -, rfl, -⟩ := h
    exact ⟨fun e => absurd rfl e, fun _ => by rw [hs1, not_not.1 hne]⟩

/-! ## A concrete call -/

/-- 3 by 4 elements in rows of 5. -/
def exAmIn : Tensor := { dims := [⟨3, 5⟩, ⟨4, 1⟩], cap := 30, es := 2 }
def exAmOut (n k : Int) : Tensor := { dims := [⟨n, k⟩, ⟨k, 1⟩], cap := 4 * (n * k), es := 4, base := 1 }
def exAmSrc : List Int := [5, 3, 9, 1, 77, 4, 9, 2, 8, 77, 0, 7, 6, 9, 77]

/-- Arg-max of the whole tensor, of the rows and of the columns; row 1 of the second result names elements 6 and 8. -/
example : exAmIn.Valid (Buf.ofList exAmSrc) ∧ (exAmOut 1 5).Valid (Buf.ofList (List.replicate 10 (-9))) ∧
    (krnArgmax (Buf.ofList exAmSrc) exAmIn (exAmOut 1 5) (fun _ => 0) (-1) 5 (Buf.ofList (List.replicate 10 (-9)))).map
      (fun p => (p.1, p.2.toList)) = some (.ok, [-9, 6, 2, 13, 8, 11, -9, -9, -9, -9]) ∧
    (krnArgmax (Buf.ofList exAmSrc) exAmIn (exAmOut 3 2) (fun _ => 0) 0 2 (Buf.ofList (List.replicate 10 (-9)))).map
      (fun p => (p.1, p.2.toList)) = some (.ok, [-9, 2, 0, 6, 8, 13, 11, -9, -9, -9]) ∧
    (krnArgmax (Buf.ofList exAmSrc) exAmIn (exAmOut 4 2) (fun _ => 0) 1 2 (Buf.ofList (List.replicate 10 (-9)))).map
      (fun p => (p.1, p.2.toList)) = some (.ok, [-9, 0, 5, 6, 11, 2, 12, 13, 8, -9]) :=
  ⟨⟨by decide, by decide, by decide, by decide⟩, ⟨by decide, by decide, by decide, by decide⟩, by decide +kernel, by decide +kernel, by decide +kernel⟩

/-- The rank of the output is not checked: with rank 1 and a stale second dimension the accepted call writes behind the output. -/
theorem c40_output_rank_violated :
    let tout : Tensor := { dims := [⟨1, 1⟩], cap := 4, es := 4 }
    tout.Valid (Buf.ofList [0]) ∧ chkArgmax exAmIn tout (fun _ => 3) (-1) 3 = some .ok ∧
    krnArgmax (Buf.ofList exAmSrc) exAmIn tout (fun _ => 3) (-1) 3 (Buf.ofList [0]) = none :=
  ⟨⟨by decide, by decide, by decide, by decide⟩, by decide +kernel, by decide +kernel⟩

end Mli
