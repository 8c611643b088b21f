import Verif.Lemmas.Generic
import Verif.Props.Permute

/-! # Contiguous layouts, right-aligned rank-4 views, permutation sums -/

namespace Mli

open Spec

/-- Strides of a contiguous layout. -/
def cstr : List Int → List Int
  | [] => []
  | _ :: ns => prod ns :: cstr ns

theorem cstr_length (ns : List Int) : (cstr ns).length = ns.length := by
  induction ns with
  | nil => rfl
  | cons n ns ih => simp [cstr, ih]

theorem cstr_getElem? (ns : List Int) (k : Nat) (h : k < ns.length) :
    (cstr ns)[k]? = some (prod (ns.drop (k + 1))) := by
  induction ns generalizing k with
  | nil => simp at h
  | cons n ns ih =>
    cases k with
    | zero => simp [cstr]
    | succ k => simpa [cstr] using ih k (by simpa using h)

theorem contig_offset_range : ∀ (ns is : List Int), InShape ns is →
    0 ≤ offset (cstr ns) is ∧ offset (cstr ns) is < prod ns := by
  intro ns
  induction ns with
  | nil => intro is h; cases is <;> simp_all [InShape, offset, cstr, prod]
  | cons n ns ih =>
    intro is h
    cases is with
    | nil => exact h.elim
    | cons i is =>
      obtain ⟨⟨h1, h2⟩, h3⟩ := h
      obtain ⟨a, b⟩ := ih is h3
      simp only [cstr, offset, prod]
      constructor
      · nlinarith
      · nlinarith

theorem contig_offset_inj : ∀ (ns is js : List Int), InShape ns is → InShape ns js →
    offset (cstr ns) is = offset (cstr ns) js → is = js := by
  intro ns
  induction ns with
  | nil => intro is js h1 h2 _; cases is <;> cases js <;> simp_all [InShape]
  | cons n ns ih =>
    intro is js h1 h2 h
    cases is with
    | nil => exact h1.elim
    | cons i is =>
      cases js with
      | nil => exact h2.elim
      | cons j js =>
        obtain ⟨a, b⟩ := contig_offset_range ns is h1.2
        obtain ⟨c, d⟩ := contig_offset_range ns js h2.2
        simp only [cstr, offset] at h
        have hij : i = j := by
          rcases lt_trichotomy i j with hlt | he | hgt
          · nlinarith
          · exact he
          · nlinarith
        subst hij
        rw [ih is js h1.2 h2.2 (by omega)]

theorem contig_offset_onto : ∀ (ns : List Int), (∀ n ∈ ns, 1 ≤ n) → ∀ a, 0 ≤ a → a < prod ns →
    ∃ is, InShape ns is ∧ offset (cstr ns) is = a := by
  intro ns
  induction ns with
  | nil => intro _ a h1 h2; exact ⟨[], trivial, by simp [prod] at h2; simp [offset, cstr]; omega⟩
  | cons n ns ih =>
    intro hp a h1 h2
    have hpos : 1 ≤ prod ns := prod_pos (fun m hm => hp m (by simp [hm]))
    obtain ⟨is, hi, ho⟩ := ih (fun m hm => hp m (by simp [hm])) (a % prod ns)
      (Int.emod_nonneg _ (by omega)) (Int.emod_lt_of_pos _ (by omega))
    refine ⟨(a / prod ns) :: is, ⟨⟨Int.ediv_nonneg h1 (by omega), ?_⟩, hi⟩, ?_⟩
    · apply Int.ediv_lt_of_lt_mul (by omega); simpa [prod] using h2
    · simp only [cstr, offset, ho]
      have := Int.mul_ediv_add_emod a (prod ns)
      nlinarith

/-! ## sums -/

theorem sum4R (r : Nat) (hr : r ≤ 4) (g : Nat → Int) (h : ∀ i, i < 4 - r → g i = 0) :
    g 0 + g 1 + g 2 + g 3 = ((List.range r).map fun k => g (k + (4 - r))).sum := by
  have : r = 0 ∨ r = 1 ∨ r = 2 ∨ r = 3 ∨ r = 4 := by omega
  rcases this with rfl | rfl | rfl | rfl | rfl
  · rw [h 0, h 1, h 2, h 3] <;> simp
  · rw [h 0, h 1, h 2] <;> simp [List.range_succ]
  · rw [h 0, h 1] <;> simp [List.range_succ]
  · rw [h 0] <;> simp [List.range_succ, Int.add_assoc]
  · simp [List.range_succ, Int.add_assoc]

theorem permFn_isPerm {P : Nat → Nat} {r : Nat} (h1 : ∀ k, k < r → P k < r)
    (h2 : ∀ i j, i < r → j < r → P i = P j → i = j) :
    ((List.range r).map P).Perm (List.range r) := by
  apply List.Subperm.perm_of_length_le
  · apply List.subperm_of_subset
    · apply List.Nodup.map_on _ List.nodup_range
      intro a ha b hb hab
      rw [List.mem_range] at ha hb
      exact h2 a b ha hb hab
    · intro x hx
      rw [List.mem_map] at hx
      obtain ⟨k, hk, rfl⟩ := hx
      rw [List.mem_range] at hk ⊢
      exact h1 k hk
  · simp

theorem permFn_sum {P : Nat → Nat} {r : Nat} (h1 : ∀ k, k < r → P k < r)
    (h2 : ∀ i j, i < r → j < r → P i = P j → i = j) (f : Nat → Int) :
    ((List.range r).map fun k => f (P k)).sum = ((List.range r).map f).sum := by
  have := ((permFn_isPerm h1 h2).map f).sum_eq
  rw [List.map_map] at this
  exact this

theorem permFn_surj {P : Nat → Nat} {r : Nat} (h1 : ∀ k, k < r → P k < r)
    (h2 : ∀ i j, i < r → j < r → P i = P j → i = j) {m : Nat} (hm : m < r) : ∃ k, k < r ∧ P k = m := by
  have : m ∈ (List.range r).map P := (permFn_isPerm h1 h2).mem_iff.mpr (by simpa using hm)
  rw [List.mem_map] at this
  obtain ⟨k, hk, rfl⟩ := this
  exact ⟨k, by simpa using hk, rfl⟩

/-- Any values can be placed at permuted positions. -/
theorem permFn_lift {P : Nat → Nat} {r : Nat} (h1 : ∀ k, k < r → P k < r)
    (h2 : ∀ i j, i < r → j < r → P i = P j → i = j) (f : Nat → Int) :
    ∃ is : List Int, is.length = r ∧ ∀ k, k < r → is.getD (P k) 0 = f k := by
  have hsel : ∀ m, m < r → ∃ k, k < r ∧ P k = m := fun m hm => permFn_surj h1 h2 hm
  let inv : Nat → Nat := fun m => if h : m < r then Classical.choose (hsel m h) else 0
  have hinv : ∀ m, m < r → inv m < r ∧ P (inv m) = m := by
    intro m hm
    simp only [inv, dif_pos hm]
    exact Classical.choose_spec (hsel m hm)
  refine ⟨(List.range r).map (fun m => f (inv m)), by simp, ?_⟩
  intro k hk
  have hlt := h1 k hk
  rw [List.getD_eq_getElem?_getD, List.getElem?_map, List.getElem?_range hlt]
  simp only [Option.map_some, Option.getD_some]
  congr 1
  obtain ⟨a, b⟩ := hinv (P k) hlt
  exact h2 _ _ a hk b

theorem getD_map_range {r k : Nat} (f : Nat → Int) (h : k < r) : ((List.range r).map f).getD k 0 = f k := by
  rw [List.getD_eq_getElem?_getD, List.getElem?_map, List.getElem?_range h]; rfl

end Mli
