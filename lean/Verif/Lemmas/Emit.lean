import Verif.Lemmas.Mem
import Mathlib.Data.Multiset.Bind
import Mathlib.Tactic.Ring
import Mathlib.Tactic.Linarith

/-! # Loops that write a set of positions, and rectangles of addresses -/

namespace Mli

/-- `d'` is `d` after writing `val p` at `addr p` for the positions `p` in `S`. -/
structure Emits {ι : Type} (addr val : ι → Int) (S : ι → Prop) (d d' : Buf) : Prop where
  size : d'.size = d.size
  hit : ∀ p, S p → d'.get (addr p) = val p
  frame : ∀ a, (∀ p, S p → addr p ≠ a) → d'.get a = d.get a

/-- Positions that share an address agree on the value. -/
def Coherent {ι : Type} (addr val : ι → Int) (ok : ι → Prop) : Prop :=
  ∀ p q, ok p → ok q → addr p = addr q → val p = val q

theorem Emits.none {ι : Type} (addr val : ι → Int) (d : Buf) : Emits addr val (fun _ => False) d d :=
  ⟨rfl, fun _ h => h.elim, fun _ _ => rfl⟩

theorem Emits.congr {ι : Type} {addr val : ι → Int} {S T : ι → Prop} {d d' : Buf} (h : Emits addr val S d d')
    (e : ∀ p, S p ↔ T p) : Emits addr val T d d' :=
  ⟨h.size, fun p hp => h.hit p ((e p).2 hp), fun a ha => h.frame a fun p hp => ha p ((e p).1 hp)⟩

theorem Emits.trans {ι : Type} {addr val : ι → Int} {ok S T : ι → Prop} {d d1 d2 : Buf}
    (hc : Coherent addr val ok) (hS : ∀ p, S p → ok p) (hT : ∀ p, T p → ok p)
    (h1 : Emits addr val S d d1) (h2 : Emits addr val T d1 d2) :
    Emits addr val (fun p => S p ∨ T p) d d2 := by
  refine ⟨h2.size.trans h1.size, ?_, ?_⟩
  · intro p hp
    by_cases hT' : ∃ q, T q ∧ addr q = addr p
    · obtain ⟨q, hq, e⟩ := hT'
      rw [← e, h2.hit q hq]
      rcases hp with hp | hp
      · exact hc q p (hT q hq) (hS p hp) e
      · exact hc q p (hT q hq) (hT p hp) e
    · rcases hp with hp | hp
      · rw [h2.frame _ (fun q hq e => hT' ⟨q, hq, e⟩), h1.hit p hp]
      · exact h2.hit p hp
  · intro a ha
    rw [h2.frame a (fun p hp => ha p (Or.inr hp)), h1.frame a (fun p hp => ha p (Or.inl hp))]

theorem Emits.one {ι : Type} (addr val : ι → Int) (p : ι) (d : Buf) (h : 0 ≤ addr p ∧ addr p < d.size) :
    ∃ d', d.wr (addr p) (val p) = some d' ∧ Emits addr val (fun q => q = p) d d' := by
  refine ⟨_, Buf.wr_some h, rfl, ?_, ?_⟩
  · rintro q rfl; simp
  · intro a ha
    have := ha p rfl
    simp only [if_neg (Ne.symm this)]

/-- Loop rule. -/
theorem forRange_emits {ι : Type} {addr val : ι → Int} {ok : ι → Prop} (hc : Coherent addr val ok)
    (n : Nat) (f : Nat → Buf → Option Buf) (S : Nat → ι → Prop) (d : Buf)
    (hok : ∀ i p, i < n → S i p → ok p)
    (hf : ∀ i d', i < n → d'.size = d.size → ∃ d'', f i d' = some d'' ∧ Emits addr val (S i) d' d'') :
    ∃ d', forRange n f d = some d' ∧ Emits addr val (fun p => ∃ i, i < n ∧ S i p) d d' := by
  have := forRange_inv (n := n) (f := f) (s := d)
    (fun k d' => Emits addr val (fun p => ∃ i, i < k ∧ i < n ∧ S i p) d d')
    ((Emits.none addr val d).congr (by intro p; constructor; · exact False.elim
                                       · rintro ⟨i, h, _⟩; omega))
    (fun i s hi hs => by
      obtain ⟨d'', h1, h2⟩ := hf i s hi hs.size
      refine ⟨d'', h1, (Emits.trans hc ?_ (fun p hp => hok i p hi hp) hs h2).congr ?_⟩
      · rintro p ⟨j, _, hj, hp⟩; exact hok j p hj hp
      · intro p
        constructor
        · rintro (⟨j, a, b, c⟩ | h)
          · exact ⟨j, by omega, b, c⟩
          · exact ⟨i, by omega, hi, h⟩
        · rintro ⟨j, a, b, c⟩
          by_cases hj : j = i
          · exact Or.inr (hj ▸ c)
          · exact Or.inl ⟨j, by omega, b, c⟩)
  obtain ⟨d', h1, h2⟩ := this
  exact ⟨d', h1, h2.congr (by
    intro p; constructor
    · rintro ⟨i, a, _, c⟩; exact ⟨i, a, c⟩
    · rintro ⟨i, a, c⟩; exact ⟨i, a, a, c⟩)⟩

/-- Loop rule with a second state component that is a known function of the iteration count. -/
theorem forRange_emits_ptr {ι σ : Type} {addr val : ι → Int} {ok : ι → Prop} (hc : Coherent addr val ok)
    (n : Nat) (f : Nat → σ × Buf → Option (σ × Buf)) (S : Nat → ι → Prop) (ptr : Nat → σ) (d : Buf)
    (hok : ∀ i p, i < n → S i p → ok p)
    (hf : ∀ i d', i < n → d'.size = d.size →
      ∃ d'', f i (ptr i, d') = some (ptr (i + 1), d'') ∧ Emits addr val (S i) d' d'') :
    ∃ d', forRange n f (ptr 0, d) = some (ptr n, d') ∧ Emits addr val (fun p => ∃ i, i < n ∧ S i p) d d' := by
  have := forRange_inv (n := n) (f := f) (s := (ptr 0, d))
    (fun k s => s.1 = ptr k ∧ Emits addr val (fun p => ∃ i, i < k ∧ i < n ∧ S i p) d s.2)
    ⟨rfl, (Emits.none addr val d).congr (by
      intro p; constructor
      · exact False.elim
      · rintro ⟨i, h, _⟩; omega)⟩
    (fun i s hi hs => by
      obtain ⟨d'', h1, h2⟩ := hf i s.2 hi hs.2.size
      refine ⟨(ptr (i + 1), d''), ?_, rfl, (Emits.trans hc ?_ (fun p hp => hok i p hi hp) hs.2 h2).congr ?_⟩
      · rw [← h1, ← hs.1]
      · rintro p ⟨j, _, hj, hp⟩; exact hok j p hj hp
      · intro p
        constructor
        · rintro (⟨j, a, b, c⟩ | h)
          · exact ⟨j, by omega, b, c⟩
          · exact ⟨i, by omega, hi, h⟩
        · rintro ⟨j, a, b, c⟩
          by_cases hj : j = i
          · exact Or.inr (hj ▸ c)
          · exact Or.inl ⟨j, by omega, b, c⟩)
  obtain ⟨⟨q, d'⟩, h1, h2, h3⟩ := this
  simp only at h2 h3
  refine ⟨d', by rw [h1, h2], h3.congr (by
    intro p; constructor
    · rintro ⟨i, a, _, c⟩; exact ⟨i, a, c⟩
    · rintro ⟨i, a, c⟩; exact ⟨i, a, a, c⟩)⟩

/-- Loop rule with a second state component about which an invariant is known. -/
theorem forRange_emits_inv {ι σ : Type} {addr val : ι → Int} {ok : ι → Prop} (hc : Coherent addr val ok)
    (n : Nat) (f : Nat → σ × Buf → Option (σ × Buf)) (S : Nat → ι → Prop) (P : Nat → σ → Prop) (s : σ) (d : Buf)
    (hok : ∀ i p, i < n → S i p → ok p) (h0 : P 0 s)
    (hf : ∀ i s d', i < n → P i s → d'.size = d.size →
      ∃ s' d'', f i (s, d') = some (s', d'') ∧ P (i + 1) s' ∧ Emits addr val (S i) d' d'') :
    ∃ s' d', forRange n f (s, d) = some (s', d') ∧ P n s' ∧ Emits addr val (fun p => ∃ i, i < n ∧ S i p) d d' := by
  have := forRange_inv (n := n) (f := f) (s := (s, d))
    (fun k s => P k s.1 ∧ Emits addr val (fun p => ∃ i, i < k ∧ i < n ∧ S i p) d s.2)
    ⟨h0, (Emits.none addr val d).congr (by
      intro p; constructor
      · exact False.elim
      · rintro ⟨i, h, _⟩; omega)⟩
    (fun i s hi hs => by
      obtain ⟨s', d'', h1, h2, h3⟩ := hf i s.1 s.2 hi hs.1 hs.2.size
      refine ⟨(s', d''), h1, h2, (Emits.trans hc ?_ (fun p hp => hok i p hi hp) hs.2 h3).congr ?_⟩
      · rintro p ⟨j, _, hj, hp⟩; exact hok j p hj hp
      · intro p
        constructor
        · rintro (⟨j, a, b, c⟩ | h)
          · exact ⟨j, by omega, b, c⟩
          · exact ⟨i, by omega, hi, h⟩
        · rintro ⟨j, a, b, c⟩
          by_cases hj : j = i
          · exact Or.inr (hj ▸ c)
          · exact Or.inl ⟨j, by omega, b, c⟩)
  obtain ⟨⟨q, d'⟩, h1, h2, h3⟩ := this
  simp only at h2 h3
  refine ⟨q, d', h1, h2, h3.congr (by
    intro p; constructor
    · rintro ⟨i, a, _, c⟩; exact ⟨i, a, c⟩
    · rintro ⟨i, a, c⟩; exact ⟨i, a, a, c⟩)⟩

/-! ## Rectangles -/

/-- Addresses of a rectangle, row by row. -/
def rect (p rs cs : Int) (R C : Nat) : List Int :=
  (List.range R).flatMap fun (r : Nat) => (List.range C).map fun (c : Nat) => p + rs * r + cs * c

theorem mem_rect {p rs cs : Int} {R C : Nat} {a : Int} :
    a ∈ rect p rs cs R C ↔ ∃ r c : Nat, r < R ∧ c < C ∧ a = p + rs * r + cs * c := by
  simp only [rect, List.mem_flatMap, List.mem_map, List.mem_range]
  constructor
  · rintro ⟨r, hr, c, hc, rfl⟩; exact ⟨r, c, hr, hc, rfl⟩
  · rintro ⟨r, c, hr, hc, rfl⟩; exact ⟨r, hr, c, hc, rfl⟩

theorem length_rect (p rs cs : Int) (R C : Nat) : (rect p rs cs R C).length = R * C := by
  simp [rect, List.length_flatMap]

theorem rect_transpose (p rs cs : Int) (R C : Nat) : (rect p rs cs R C).Perm (rect p cs rs C R) := by
  rw [← Multiset.coe_eq_coe]
  have e : ∀ (p rs cs : Int) (R C : Nat), ((rect p rs cs R C : List Int) : Multiset Int) =
      ((List.range R : List Nat) : Multiset Nat).bind fun (r : Nat) =>
        ((List.range C : List Nat) : Multiset Nat).map fun (c : Nat) => p + rs * r + cs * c := by
    intro p rs cs R C
    simp [rect, Multiset.coe_bind]
  rw [e, e, Multiset.bind_map_comm]
  congr 1; funext c; congr 1; funext r; ring

theorem range_map_flip (C : Nat) (f : Int → Int) :
    ((List.range C).map fun (c : Nat) => f ((C : Int) - 1 - c)).Perm ((List.range C).map fun (c : Nat) => f c) := by
  have h : ((List.range C).map fun (c : Nat) => f ((C : Int) - 1 - c)) =
      ((List.range C).map fun (c : Nat) => f c).reverse := by
    apply List.ext_getElem
    · simp
    · intro n h1 h2
      simp only [List.length_map, List.length_range] at h1
      simp only [List.getElem_map, List.getElem_range, List.getElem_reverse, List.length_map, List.length_range]
      congr 1; omega
  rw [h]; exact List.reverse_perm _

theorem rect_flip (p rs cs : Int) (R C : Nat) :
    (rect (p + cs * (C - 1)) rs (-cs) R C).Perm (rect p rs cs R C) := by
  unfold rect
  apply List.Perm.flatMap_left
  intro r _
  have := range_map_flip C (fun c => p + rs * r + cs * c)
  refine List.Perm.trans (List.Perm.of_eq ?_) this
  apply List.map_congr_left
  intro c _; ring

/-- Rotation by one quadrant. -/
theorem rect_rot1 (p rs cs : Int) (R C : Nat) :
    (rect (p + cs * (C - 1)) (-cs) rs C R).Perm (rect p rs cs R C) :=
  (rect_transpose _ _ _ _ _).trans (rect_flip _ _ _ _ _)

/-- Rotation by two quadrants. -/
theorem rect_rot2 (p rs cs : Int) (R C : Nat) :
    (rect (p + cs * (C - 1) + rs * (R - 1)) (-rs) (-cs) R C).Perm (rect p rs cs R C) := by
  have h1 := rect_rot1 (p + cs * (C - 1)) (-cs) rs C R
  have h2 := rect_rot1 p rs cs R C
  exact h1.trans h2

/-- Rotation by three quadrants. -/
theorem rect_rot3 (p rs cs : Int) (R C : Nat) :
    (rect (p + rs * (R - 1)) cs (-rs) C R).Perm (rect p rs cs R C) :=
  (rect_flip p cs rs C R).trans (rect_transpose _ _ _ _ _)

end Mli
