import Verif.Model.Argmax
import Verif.Lemmas.Mem
import Mathlib.Data.List.Nodup
import Mathlib.Data.List.Basic

/-! # Loop nests that resume in the middle -/

namespace Mli

/-- `a, a + 1, ..., e - 1`. -/
def rangeI (a e : Int) : List Int := (List.range (e - a).toNat).map fun (k : Nat) => a + (k : Int)

theorem mem_rangeI {a e x : Int} : x ∈ rangeI a e ↔ a ≤ x ∧ x < e := by
  simp only [rangeI, List.mem_map, List.mem_range]
  constructor
  · rintro ⟨k, h, rfl⟩; omega
  · intro h; exact ⟨(x - a).toNat, by omega, by omega⟩

theorem rangeI_cons {a e : Int} (h : a < e) : rangeI a e = a :: rangeI (a + 1) e := by
  unfold rangeI
  rw [show (e - a).toNat = (e - (a + 1)).toNat + 1 by omega, List.range_succ_eq_map, List.map_cons, List.map_map]
  congr 1
  · simp
  · apply List.map_congr_left; intro k _; simp; omega

theorem rangeI_nil {a e : Int} (h : e ≤ a) : rangeI a e = [] := by
  unfold rangeI; rw [show (e - a).toNat = 0 by omega]; rfl

theorem nodup_rangeI (a e : Int) : (rangeI a e).Nodup := by
  unfold rangeI
  exact List.Nodup.map (fun x y h => by have h : a + (x : Int) = a + (y : Int) := h; omega) List.nodup_range

theorem forFrom_eq {σ : Type} (a e : Int) (f : Int → σ → Option σ) (s : σ) :
    forFrom a e f s = (rangeI a e).foldlM (fun s x => f x s) s := by
  unfold forFrom rangeI
  rw [forRange_eq_foldlM, List.foldlM_map]

/-- All pairs of an index in `[l, h)` and an element of `rest`, in lexicographic order. -/
def box {β : Type} (l h : Int) (rest : List β) : List (Int × β) := (rangeI l h).flatMap fun a => rest.map fun b => (a, b)

/-- The same from `a` on, with only `first` for `a` itself. -/
def lexFrom {β : Type} (h : Int) (first rest : List β) (a : Int) : List (Int × β) :=
  if a < h then first.map (fun b => (a, b)) ++ box (a + 1) h rest else []

theorem box_cons {β : Type} {l h : Int} (hl : l < h) (rest : List β) : box l h rest = rest.map (fun b => (l, b)) ++ box (l + 1) h rest := by
  unfold box; rw [rangeI_cons hl, List.flatMap_cons]

theorem lexFrom_full {β : Type} (l h : Int) (rest : List β) : lexFrom h rest rest l = box l h rest := by
  unfold lexFrom
  by_cases hl : l < h
  · rw [if_pos hl, box_cons hl]
  · rw [if_neg hl]; unfold box; rw [rangeI_nil (by omega)]; rfl

theorem mem_box {β : Type} {l h : Int} {rest : List β} {p : Int × β} : p ∈ box l h rest ↔ (l ≤ p.1 ∧ p.1 < h) ∧ p.2 ∈ rest := by
  simp only [box, List.mem_flatMap, List.mem_map, mem_rangeI]
  constructor
  · rintro ⟨a, ha, b, hb, rfl⟩; exact ⟨ha, hb⟩
  · rintro ⟨ha, hb⟩; exact ⟨p.1, ha, p.2, hb, rfl⟩

theorem nodup_box {β : Type} (l h : Int) {rest : List β} (hr : rest.Nodup) : (box l h rest).Nodup := by
  unfold box
  rw [List.nodup_flatMap]
  refine ⟨fun a _ => hr.map fun x y e => by simpa using e, ?_⟩
  refine (nodup_rangeI l h).imp fun {a b} hab => ?_
  intro x h1 h2
  simp only [List.mem_map] at h1 h2
  obtain ⟨_, _, rfl⟩ := h1
  obtain ⟨_, _, h2⟩ := h2
  exact hab (by simpa using (congrArg Prod.fst h2).symm)

theorem length_box {β : Type} (l h : Int) (rest : List β) : (box l h rest).length = (h - l).toNat * rest.length := by
  unfold box
  rw [List.length_flatMap]
  simp [rangeI, Function.comp_def, List.map_const']

/-- What is left of the enumeration from its `k`-th element on. -/
theorem box_drop {β : Type} {h : Int} {rest : List β} {a : Int} {b : β} (n : Nat) : ∀ (l : Int) (k : Nat), (h - l).toNat = n →
    (box l h rest)[k]? = some (a, b) →
    ∃ k', rest[k']? = some b ∧ a < h ∧ (box l h rest).drop k = lexFrom h (rest.drop k') rest a := by
  induction n with
  | zero =>
    intro l k hn hk
    unfold box at hk
    rw [rangeI_nil (by omega)] at hk
    simp at hk
  | succ n ih =>
    intro l k hn hk
    have hl : l < h := by omega
    rw [box_cons hl] at hk ⊢
    by_cases hlt : k < rest.length
    · rw [List.getElem?_append_left (by simpa using hlt), List.getElem?_map] at hk
      obtain ⟨b', e1, e2⟩ := Option.map_eq_some_iff.1 hk
      simp only [Prod.mk.injEq] at e2
      obtain ⟨rfl, rfl⟩ := e2
      refine ⟨k, e1, hl, ?_⟩
      rw [List.drop_append_of_le_length (by simp; omega)]
      unfold lexFrom
      rw [if_pos hl, List.map_drop]
    · rw [List.getElem?_append_right (by simp; omega)] at hk
      simp only [List.length_map] at hk
      obtain ⟨k', e1, e2, e3⟩ := ih (l + 1) (k - rest.length) (by omega) hk
      refine ⟨k', e1, e2, ?_⟩
      rw [List.drop_append, List.drop_eq_nil_of_le (by simp; omega), List.nil_append, List.length_map]
      exact e3

theorem rangeI_drop {h p : Int} (n : Nat) : ∀ l : Int, (rangeI l h)[n]? = some p → (rangeI l h).drop n = rangeI p h := by
  induction n with
  | zero =>
    intro l hp
    by_cases hl : l < h
    · rw [rangeI_cons hl] at hp ⊢
      simp only [List.getElem?_cons_zero, Option.some.injEq] at hp
      subst hp
      rw [List.drop_zero, rangeI_cons hl]
    · rw [rangeI_nil (by omega)] at hp; simp at hp
  | succ n ih =>
    intro l hp
    by_cases hl : l < h
    · rw [rangeI_cons hl] at hp ⊢
      exact ih (l + 1) (by simpa using hp)
    · rw [rangeI_nil (by omega)] at hp; simp at hp

/-- A loop whose inner starting point `t` is reset to `c` after the first round. -/
theorem carry_loop {σ τ β : Type} (a h : Int) (ha : a < h) (f : Int → τ × σ → Option (τ × σ)) (c t0 : τ) (g : τ → List β)
    (step : σ → Int × β → Option σ)
    (hf : ∀ x t s, (t = t0 ∨ t = c) → f x (t, s) = ((g t).foldlM (fun s b => step s (x, b)) s).map fun s => (c, s)) (s : σ) :
    forFrom a h f (t0, s) = ((lexFrom h (g t0) (g c) a).foldlM step s).map fun s => (c, s) := by
  have rest : ∀ (L : List Int) (s : σ), L.foldlM (fun s x => f x s) (c, s) =
      ((L.flatMap fun x => (g c).map fun b => (x, b)).foldlM step s).map fun s => (c, s) := by
    intro L
    induction L with
    | nil => intro s; rfl
    | cons x L ih =>
      intro s
      rw [List.foldlM_cons, hf x c s (Or.inr rfl), List.flatMap_cons, List.foldlM_append, List.foldlM_map]
      simp only [Option.bind_eq_bind]
      cases (g c).foldlM (fun s b => step s (x, b)) s with
      | none => rfl
      | some s' => simp only [Option.map_some, Option.bind_some]; exact ih s'
  rw [forFrom_eq, rangeI_cons ha, List.foldlM_cons, hf a t0 s (Or.inl rfl)]
  unfold lexFrom
  rw [if_pos ha, List.foldlM_append, List.foldlM_map]
  simp only [Option.bind_eq_bind]
  cases (g t0).foldlM (fun s b => step s (a, b)) s with
  | none => rfl
  | some s' => simp only [Option.map_some, Option.bind_some]; exact rest _ s'

end Mli
