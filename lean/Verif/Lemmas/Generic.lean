import Verif.Model.Permute
import Verif.Lemmas.Tensor
import Verif.Lemmas.Mem
import Mathlib.Data.List.Perm.Subperm
import Mathlib.Algebra.BigOperators.Group.List.Basic

/-! # Generic (rank 4) views: addresses of loop points -/

namespace Mli

open Spec

/-- A loop carrying a running pointer is a loop with a computed address. -/
theorem forRange_ptr {σ : Type} (n : Nat) (f : Nat → σ × Int → Option (σ × Int))
    (g : Nat → Int → σ → Option σ) (c : Int)
    (hf : ∀ i, i < n → ∀ s p, f i (s, p) = (g i p s).map (fun s' => (s', p + c))) (s : σ) (p : Int) :
    forRange n f (s, p) =
      (forRange n (fun i s => g i (p + i * c) s) s).map (fun s' => (s', p + n * c)) := by
  induction n with
  | zero => simp [forRange]
  | succ n ih =>
    rw [forRange, ih (fun i hi => hf i (by omega)), forRange]
    cases h : forRange n (fun i s => g i (p + i * c) s) s with
    | none => simp
    | some s' =>
      simp only [Option.map_some, Option.bind_some]
      rw [hf n (by omega)]
      congr 1
      funext x
      simp only [Prod.mk.injEq, true_and]
      push_cast; ring

/-- Offsets as sums over positions. -/
theorem offset_eq_sum : ∀ (ss is : List Int), ss.length = is.length →
    offset ss is = ((List.range ss.length).map fun m => is.getD m 0 * ss.getD m 0).sum := by
  intro ss
  induction ss with
  | nil => intro is h; cases is <;> simp_all [offset]
  | cons s ss ih =>
    intro is h
    cases is with
    | nil => simp at h
    | cons i is =>
      rw [offset, ih is (by simpa using h), List.length_cons, List.range_succ_eq_map, List.map_cons,
        List.sum_cons, List.map_map]
      rfl

/-- A loop point of the rank-4 view as a multi-index of a tensor of rank `r`. -/
def idx4 (r : Nat) (p : Nat × Nat × Nat × Nat) : List Int :=
  [(p.1 : Int), p.2.1, p.2.2.1, p.2.2.2].take r

/-- The loop points of the rank-4 view of a tensor. -/
def Tensor.pts (t : Tensor) : List (Nat × Nat × Nat × Nat) :=
  pts4 (t.gShape 0).toNat (t.gShape 1).toNat (t.gShape 2).toNat (t.gShape 3).toNat

/-- Address of a loop point. -/
def Tensor.addr4 (t : Tensor) (p : Nat × Nat × Nat × Nat) : Int :=
  p.1 * t.gStride 0 + p.2.1 * t.gStride 1 + p.2.2.1 * t.gStride 2 + p.2.2.2 * t.gStride 3

theorem list_le4_cases {α : Type} (l : List α) (h : l.length ≤ 4) :
    l = [] ∨ (∃ a, l = [a]) ∨ (∃ a b, l = [a, b]) ∨ (∃ a b c, l = [a, b, c]) ∨ (∃ a b c d, l = [a, b, c, d]) := by
  match l, h with
  | [], _ => exact Or.inl rfl
  | [a], _ => exact Or.inr (Or.inl ⟨a, rfl⟩)
  | [a, b], _ => exact Or.inr (Or.inr (Or.inl ⟨a, b, rfl⟩))
  | [a, b, c], _ => exact Or.inr (Or.inr (Or.inr (Or.inl ⟨a, b, c, rfl⟩)))
  | [a, b, c, d], _ => exact Or.inr (Or.inr (Or.inr (Or.inr ⟨a, b, c, d, rfl⟩)))
  | _ :: _ :: _ :: _ :: _ :: _, h => simp at h

/-- Loop points are multi-indices, with the right address. -/
theorem pts_inShape {t : Tensor} (h : t.dims.length ≤ 4) {p : Nat × Nat × Nat × Nat} (hp : p ∈ t.pts) :
    InShape t.shape (idx4 t.dims.length p) ∧ offset t.strides (idx4 t.dims.length p) = t.addr4 p := by
  obtain ⟨p0, p1, p2, p3⟩ := p
  rw [Tensor.pts, mem_pts4] at hp
  obtain ⟨dims, base, cap, es⟩ := t
  rcases list_le4_cases dims h with rfl | ⟨a, rfl⟩ | ⟨a, b, rfl⟩ | ⟨a, b, c, rfl⟩ | ⟨a, b, c, d, rfl⟩ <;>
    simp only [Tensor.gShape, Tensor.gStride, Tensor.shape, Tensor.strides, Tensor.addr4, idx4,
      List.getElem?_nil, List.getElem?_cons_zero, List.getElem?_cons_succ, Option.map_some, Option.map_none,
      Option.getD_some, Option.getD_none, List.map_cons, List.map_nil, List.length_cons, List.length_nil,
      List.take_succ_cons, List.take_zero, List.take_nil, InShape, offset, Nat.reduceAdd] at hp ⊢ <;>
    (try simp only [and_true]) <;> (try constructor) <;> first | trivial | omega

/-- Every multi-index is a loop point. -/
theorem pts_onto {t : Tensor} (h : t.dims.length ≤ 4) {is : List Int} (hi : InShape t.shape is) :
    ∃ p ∈ t.pts, idx4 t.dims.length p = is := by
  obtain ⟨dims, base, cap, es⟩ := t
  simp only [Tensor.pts, mem_pts4]
  rcases list_le4_cases dims h with rfl | ⟨a, rfl⟩ | ⟨a, b, rfl⟩ | ⟨a, b, c, rfl⟩ | ⟨a, b, c, d, rfl⟩
  · cases is with
    | nil => exact ⟨(0, 0, 0, 0), by simp [Tensor.gShape], rfl⟩
    | cons _ _ => exact hi.elim
  · match is, hi with
    | [i], hi =>
      simp only [Tensor.shape, List.map_cons, List.map_nil, InShape] at hi
      refine ⟨(i.toNat, 0, 0, 0), ?_, ?_⟩
      · simp [Tensor.gShape]; omega
      · simp [idx4]; omega
    | [], hi => exact hi.elim
    | _ :: _ :: _, hi => exact hi.2.elim
  · match is, hi with
    | [i, j], hi =>
      simp only [Tensor.shape, List.map_cons, List.map_nil, InShape] at hi
      refine ⟨(i.toNat, j.toNat, 0, 0), ?_, ?_⟩
      · simp [Tensor.gShape]; omega
      · simp [idx4]; omega
    | [], hi => exact hi.elim
    | [_], hi => exact hi.2.elim
    | _ :: _ :: _ :: _, hi => exact hi.2.2.elim
  · match is, hi with
    | [i, j, k], hi =>
      simp only [Tensor.shape, List.map_cons, List.map_nil, InShape] at hi
      refine ⟨(i.toNat, j.toNat, k.toNat, 0), ?_, ?_⟩
      · simp [Tensor.gShape]; omega
      · simp [idx4]; omega
    | [], hi => exact hi.elim
    | [_], hi => exact hi.2.elim
    | [_, _], hi => exact hi.2.2.elim
    | _ :: _ :: _ :: _ :: _, hi => exact hi.2.2.2.elim
  · match is, hi with
    | [i, j, k, l], hi =>
      simp only [Tensor.shape, List.map_cons, List.map_nil, InShape] at hi
      refine ⟨(i.toNat, j.toNat, k.toNat, l.toNat), ?_, ?_⟩
      · simp [Tensor.gShape]; omega
      · simp [idx4]; omega
    | [], hi => exact hi.elim
    | [_], hi => exact hi.2.elim
    | [_, _], hi => exact hi.2.2.elim
    | [_, _, _], hi => exact hi.2.2.2.elim
    | _ :: _ :: _ :: _ :: _ :: _, hi => exact hi.2.2.2.2.elim

end Mli
