import Verif.Model.Mem

/-! # Loop rules -/

namespace Mli

theorem Buf.rd_some {b : Buf} {a : Int} (h : 0 ≤ a ∧ a < b.size) : b.rd a = some (b.get a) := by
  simp [Buf.rd, h]

theorem Buf.rd_eq_some {b : Buf} {a v : Int} : b.rd a = some v ↔ (0 ≤ a ∧ a < b.size) ∧ b.get a = v := by
  unfold Buf.rd; split <;> simp_all <;> omega

theorem Buf.wr_some {b : Buf} {a v : Int} (h : 0 ≤ a ∧ a < b.size) :
    b.wr a v = some { b with get := fun x => if x = a then v else b.get x } := by
  simp [Buf.wr, h]

/-- Invariant rule for loops. -/
theorem forRange_inv {σ : Type} {n : Nat} {f : Nat → σ → Option σ} {s : σ} (P : Nat → σ → Prop)
    (h0 : P 0 s) (hstep : ∀ i s, i < n → P i s → ∃ s', f i s = some s' ∧ P (i + 1) s') :
    ∃ s', forRange n f s = some s' ∧ P n s' := by
  induction n with
  | zero => exact ⟨s, rfl, h0⟩
  | succ n ih =>
    obtain ⟨s1, h1, h2⟩ := ih (fun i s hi hp => hstep i s (by omega) hp)
    obtain ⟨s2, h3, h4⟩ := hstep n s1 (by omega) h2
    exact ⟨s2, by simp [forRange, h1, h3], h4⟩

/-- A loop is a monadic fold over its iteration points. -/
theorem forRange_eq_foldlM {σ : Type} (n : Nat) (f : Nat → σ → Option σ) (s : σ) :
    forRange n f s = (List.range n).foldlM (fun s i => f i s) s := by
  induction n with
  | zero => rfl
  | succ n ih =>
    rw [List.range_succ, List.foldlM_append, ← ih]
    simp [forRange]

theorem forRange_congr {σ : Type} {n : Nat} {f g : Nat → σ → Option σ} (h : ∀ i, i < n → f i = g i) (s : σ) : forRange n f s = forRange n g s := by
  rw [forRange_eq_foldlM, forRange_eq_foldlM]
  have : ∀ (L : List Nat), (∀ i ∈ L, i < n) → ∀ s, L.foldlM (fun s i => f i s) s = L.foldlM (fun s i => g i s) s := by
    intro L
    induction L with
    | nil => intro _ s; rfl
    | cons i L ih =>
      intro hL s
      simp only [List.foldlM_cons, h i (hL i (by simp))]
      congr 1
      funext s'
      exact ih (fun j hj => hL j (by simp [hj])) s'
  exact this _ (fun i hi => List.mem_range.mp hi) s

/-- Nesting loops is folding over the product of the iteration points. -/
theorem foldlM_nest {σ α β : Type} (L : List α) (g : α → List β) (f : α → β → σ → Option σ) (s : σ) :
    L.foldlM (fun s a => (g a).foldlM (fun s b => f a b s) s) s =
      (L.flatMap fun a => (g a).map fun b => (a, b)).foldlM (fun s p => f p.1 p.2 s) s := by
  induction L generalizing s with
  | nil => rfl
  | cons a L ih =>
    rw [List.foldlM_cons, List.flatMap_cons, List.foldlM_append]
    have : (List.map (fun b => (a, b)) (g a)).foldlM (fun s p => f p.1 p.2 s) s
        = (g a).foldlM (fun s b => f a b s) s := by
      rw [List.foldlM_map]
    rw [this]
    congr 1
    funext s'
    exact ih s'

/-- Outcome of a sequence of stores `dst[addr p] := val p`, `p ∈ L`. -/
structure Stored {α : Type} (L : List α) (addr val : α → Int) (d d' : Buf) : Prop where
  size : d'.size = d.size
  hit : ∀ p ∈ L, d'.get (addr p) = val p
  frame : ∀ a, (∀ p ∈ L, addr p ≠ a) → d'.get a = d.get a

/-- Rule for loops that store, at every iteration point, a value which does not depend on the
destination: if all stores are in bounds and points that share an address agree on the value, then
the loop succeeds, every address holds its value and nothing else changes. -/
theorem foldlM_stores {α : Type} (addr val : α → Int) :
    ∀ (L : List α) (f : Buf → α → Option Buf) (d : Buf),
    (∀ p ∈ L, ∀ d' : Buf, d'.size = d.size → f d' p = d'.wr (addr p) (val p)) →
    (∀ p ∈ L, 0 ≤ addr p ∧ addr p < d.size) →
    (∀ p ∈ L, ∀ q ∈ L, addr p = addr q → val p = val q) →
    ∃ d', L.foldlM f d = some d' ∧ Stored L addr val d d' := by
  intro L
  induction L with
  | nil =>
    intro f d _ _ _
    exact ⟨d, rfl, rfl, by simp, by simp⟩
  | cons p L ih =>
    intro f d hf hb hc
    have hw := hf p (by simp) d rfl
    rw [Buf.wr_some (hb p (by simp))] at hw
    obtain ⟨d', h1, h2, h3, h4⟩ := ih f { d with get := fun x => if x = addr p then val p else d.get x }
      (fun q hq d' hd' => hf q (by simp [hq]) d' hd') (fun q hq => hb q (by simp [hq]))
      (fun q hq r hr => hc q (by simp [hq]) r (by simp [hr]))
    refine ⟨d', ?_, h2, ?_, ?_⟩
    · rw [List.foldlM_cons, hw]; exact h1
    · intro q hq
      rcases List.mem_cons.mp hq with rfl | hq
      · by_cases hex : ∃ r ∈ L, addr r = addr q
        · obtain ⟨r, hr, he⟩ := hex
          rw [← he, h3 r hr]
          exact hc r (by simp [hr]) q (by simp) he
        · rw [h4 (addr q) (fun r hr he => hex ⟨r, hr, he⟩)]
          simp
      · exact h3 q hq
    · intro a ha
      rw [h4 a (fun r hr => ha r (by simp [hr]))]
      have := ha p (by simp)
      simp only [ite_eq_right_iff]
      intro h; exact absurd h.symm this

/-- Points of a four-fold loop nest. -/
def pts4 (n0 n1 n2 n3 : Nat) : List (Nat × Nat × Nat × Nat) :=
  (List.range n0).flatMap fun a => ((List.range n1).flatMap fun b => ((List.range n2).flatMap fun c =>
    (List.range n3).map fun d => (c, d)).map fun t => (b, t)).map fun t => (a, t)

theorem mem_pts4 {n0 n1 n2 n3 : Nat} {p : Nat × Nat × Nat × Nat} :
    p ∈ pts4 n0 n1 n2 n3 ↔ p.1 < n0 ∧ p.2.1 < n1 ∧ p.2.2.1 < n2 ∧ p.2.2.2 < n3 := by
  obtain ⟨a, b, c, d⟩ := p
  simp only [pts4, List.mem_flatMap, List.mem_map, List.mem_range]
  constructor
  · rintro ⟨a', ha, t, ⟨b', hb, u, ⟨c', hc, d', hd, rfl⟩, rfl⟩, h⟩
    simp only [Prod.mk.injEq] at h
    obtain ⟨rfl, rfl, rfl, rfl⟩ := h
    exact ⟨ha, hb, hc, hd⟩
  · rintro ⟨ha, hb, hc, hd⟩
    exact ⟨a, ha, (b, c, d), ⟨b, hb, (c, d), ⟨c, hc, d, hd, rfl⟩, rfl⟩, rfl⟩

theorem nest4_eq_foldlM {σ : Type} (n0 n1 n2 n3 : Nat) (f : Nat → Nat → Nat → Nat → σ → Option σ) (s : σ) :
    forRange n0 (fun a => forRange n1 (fun b => forRange n2 (fun c => forRange n3 (fun d => f a b c d)))) s =
      (pts4 n0 n1 n2 n3).foldlM (fun s p => f p.1 p.2.1 p.2.2.1 p.2.2.2 s) s := by
  simp only [forRange_eq_foldlM]
  unfold pts4
  have e1 : ∀ a b s, (List.range n2).foldlM (fun s c => (List.range n3).foldlM (fun s d => f a b c d s) s) s
      = ((List.range n2).flatMap fun c => (List.range n3).map fun d => (c, d)).foldlM
          (fun s p => f a b p.1 p.2 s) s := by
    intro a b s; exact foldlM_nest _ (fun _ => List.range n3) (fun c d s => f a b c d s) s
  simp only [e1]
  have e2 : ∀ a s, (List.range n1).foldlM (fun s b =>
        ((List.range n2).flatMap fun c => (List.range n3).map fun d => (c, d)).foldlM
          (fun s p => f a b p.1 p.2 s) s) s
      = ((List.range n1).flatMap fun b => (((List.range n2).flatMap fun c =>
          (List.range n3).map fun d => (c, d))).map fun t => (b, t)).foldlM
          (fun s p => f a p.1 p.2.1 p.2.2 s) s := by
    intro a s
    exact foldlM_nest _ (fun _ => _) (fun b (t : Nat × Nat) s => f a b t.1 t.2 s) s
  simp only [e2]
  exact foldlM_nest (List.range n0) (fun _ => _) (fun a (t : Nat × Nat × Nat) s => f a t.1 t.2.1 t.2.2 s) s

/-- Four nested loops of stores. -/
theorem nest4_stores (n0 n1 n2 n3 : Nat) (f : Nat → Nat → Nat → Nat → Buf → Option Buf)
    (addr val : Nat × Nat × Nat × Nat → Int) (d : Buf)
    (hf : ∀ p ∈ pts4 n0 n1 n2 n3, ∀ d' : Buf, d'.size = d.size →
      f p.1 p.2.1 p.2.2.1 p.2.2.2 d' = d'.wr (addr p) (val p))
    (hb : ∀ p ∈ pts4 n0 n1 n2 n3, 0 ≤ addr p ∧ addr p < d.size)
    (hc : ∀ p ∈ pts4 n0 n1 n2 n3, ∀ q ∈ pts4 n0 n1 n2 n3, addr p = addr q → val p = val q) :
    ∃ d', forRange n0 (fun a => forRange n1 (fun b => forRange n2 (fun c => forRange n3 (fun e => f a b c e)))) d
        = some d' ∧ Stored (pts4 n0 n1 n2 n3) addr val d d' := by
  rw [nest4_eq_foldlM]
  exact foldlM_stores addr val _ _ d (fun p hp d' hd' => hf p hp d' hd') hb hc

end Mli
