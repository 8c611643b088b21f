import Verif.Lemmas.Mem
import Verif.Lemmas.Math
import Verif.Spec.Conv
import Mathlib.Algebra.BigOperators.Ring.Finset
import Mathlib.Algebra.Order.BigOperators.Group.Finset

/-! # Loops that add up -/

namespace Mli

open Spec

/-- Started from any accumulator that is at least `T` away from the ends of the range, `f` adds `v`
(at most `T` in absolute value). -/
def Adds (aw : Nat) (f : Int → Option Int) (v T : Int) : Prop :=
  |v| ≤ T ∧ ∀ a, lo aw + T ≤ a → a ≤ hi aw - T → f a = some (a + v)

theorem Adds.nonneg {aw : Nat} {f : Int → Option Int} {v T : Int} (h : Adds aw f v T) : 0 ≤ T :=
  le_trans (abs_nonneg v) h.1

theorem Adds.weaken {aw : Nat} {f : Int → Option Int} {v T U : Int} (h : Adds aw f v T) (hTU : T ≤ U) :
    Adds aw f v U :=
  ⟨le_trans h.1 hTU, fun a h1 h2 => h.2 a (by omega) (by omega)⟩

theorem Adds.id (aw : Nat) : Adds aw some 0 0 := ⟨by simp, fun a _ _ => by simp⟩

theorem Adds.comp {aw : Nat} {f g : Int → Option Int} {v w T U : Int} (h1 : Adds aw f v T) (h2 : Adds aw g w U) :
    Adds aw (fun a => (f a).bind g) (v + w) (T + U) := by
  have t0 := h1.nonneg
  have u0 := h2.nonneg
  refine ⟨le_trans (abs_add_le v w) (by have := h1.1; have := h2.1; omega), fun a ha hb => ?_⟩
  have e := abs_le.1 h1.1
  simp only [h1.2 a (by omega) (by omega), Option.bind_some, h2.2 (a + v) (by omega) (by omega)]
  congr 1; ring

theorem Adds.mac {aw : Nat} {L R T : Int} (h : |L * R| ≤ T) : Adds aw (fun a => macFx aw a L R) (L * R) T := by
  refine ⟨h, fun a h1 h2 => ?_⟩
  have e := abs_le.1 h
  show ckd aw (a + L * R) = _
  unfold ckd
  rw [if_pos ⟨by omega, by omega⟩]

theorem Adds.forRange {aw : Nat} (n : Nat) (f : Nat → Int → Option Int) (v : Nat → Int) (T : Int)
    (h : ∀ i, i < n → Adds aw (f i) (v i) T) :
    Adds aw (forRange n f) (∑ i ∈ Finset.range n, v i) (n * T) := by
  induction n with
  | zero => simpa [Mli.forRange] using Adds.id aw
  | succ n ih =>
    rw [Finset.sum_range_succ]
    have := (ih fun i hi => h i (by omega)).comp (h n (by omega))
    have e : ((n + 1 : Nat) : Int) * T = n * T + T := by push_cast; ring
    rw [e]
    exact this

/-- A loop that moves pointers along is a loop over their positions. -/
theorem forRange_state {σ τ : Type} (n : Nat) (f : Nat → σ × τ → Option (σ × τ)) (g : Nat → τ → Option τ) (ptr : Nat → σ)
    (h : ∀ i s, f i (ptr i, s) = (g i s).map fun s => (ptr (i + 1), s)) (s : τ) :
    Mli.forRange n f (ptr 0, s) = (Mli.forRange n g s).map fun s => (ptr n, s) := by
  induction n with
  | zero => rfl
  | succ n ih =>
    simp only [Mli.forRange, ih]
    cases Mli.forRange n g s with
    | none => rfl
    | some v => simp only [Option.map_some, Option.bind_some]; exact h n v

end Mli
