import Verif.Model.Argmax
import Verif.Lemmas.Mem
import Mathlib.Logic.Equiv.Basic
import Mathlib.Order.Basic
import Mathlib.Order.Nat
import Mathlib.Data.Int.Order.Basic

/-! # Heaps of indices in a buffer -/

namespace Mli

/-- The value behind entry `j` of the index array at `db`. -/
def keyAt (src : Buf) (sb db : Int) (d : Buf) (j : Nat) : Int := src.get (sb + d.get (db + j))

/-- `d'` is `d` with the entries of the array of size `n` at `db` rearranged. -/
structure Rearr (db : Int) (n : Nat) (d d' : Buf) : Prop where
  size : d'.size = d.size
  frame : ∀ a, a < db ∨ db + n ≤ a → d'.get a = d.get a
  perm : ∃ σ : Equiv.Perm Nat, (∀ j, n ≤ j → σ j = j) ∧ ∀ j : Nat, d'.get (db + j) = d.get (db + (σ j : Nat))

/-- The array is inside of its buffer and its entries are valid positions. -/
structure IdxArr (src : Buf) (sb db : Int) (n : Nat) (d : Buf) : Prop where
  lo : 0 ≤ db
  hi : db + n ≤ d.size
  val : ∀ j : Nat, j < n → 0 ≤ sb + d.get (db + j) ∧ sb + d.get (db + j) < src.size

theorem perm_lt {n : Nat} {σ : Equiv.Perm Nat} (h : ∀ j, n ≤ j → σ j = j) {j : Nat} (hj : j < n) : σ j < n := by
  by_contra hc
  have h1 := h (σ j) (by omega)
  have := σ.injective h1
  omega

theorem Rearr.refl (db : Int) (n : Nat) (d : Buf) : Rearr db n d d := ⟨rfl, fun _ _ => rfl, Equiv.refl _, fun _ _ => rfl, fun _ => rfl⟩

theorem Rearr.trans {db : Int} {n : Nat} {a b c : Buf} (h : Rearr db n a b) (h' : Rearr db n b c) : Rearr db n a c := by
  obtain ⟨s1, f1, σ, p1, q1⟩ := h
  obtain ⟨s2, f2, τ, p2, q2⟩ := h'
  refine ⟨s2.trans s1, fun x hx => (f2 x hx).trans (f1 x hx), τ.trans σ, ?_, ?_⟩
  · intro j hj
    simp [p2 j hj, p1 j hj]
  · intro j
    rw [q2, q1]; rfl

theorem Rearr.mono {db : Int} {n n' : Nat} {a b : Buf} (h : Rearr db n a b) (hn : n ≤ n') : Rearr db n' a b := by
  obtain ⟨s1, f1, σ, p1, q1⟩ := h
  exact ⟨s1, fun x hx => f1 x (by omega), σ, fun j hj => p1 j (by omega), q1⟩

theorem Rearr.arr {src : Buf} {sb db : Int} {n : Nat} {a b : Buf} (h : Rearr db n a b) (hA : IdxArr src sb db n a) : IdxArr src sb db n b := by
  obtain ⟨s1, f1, σ, p1, q1⟩ := h
  refine ⟨hA.lo, by rw [s1]; exact hA.hi, fun j hj => ?_⟩
  rw [q1]
  exact hA.val _ (perm_lt p1 hj)

theorem idxKey_some {src : Buf} {sb db : Int} {n : Nat} {d : Buf} (hA : IdxArr src sb db n d) {j : Nat} (hj : j < n) :
    idxKey src sb db d j = some (keyAt src sb db d j) := by
  have h1 := hA.lo
  have h2 := hA.hi
  have h3 := hA.val j hj
  unfold idxKey Buf.rd
  rw [if_pos (by omega), Option.bind_some, if_pos h3]
  rfl

theorem smallerChild_some {src : Buf} {sb db : Int} {n : Nat} {d : Buf} (hA : IdxArr src sb db n d) {j sm : Nat} (hs : sm < n) :
    smallerChild src sb n db d j sm = some (if j < n ∧ keyAt src sb db d j < keyAt src sb db d sm then j else sm) := by
  unfold smallerChild
  by_cases hj : j < n
  · rw [if_pos hj, idxKey_some hA hj, idxKey_some hA hs]
    simp [hj]
  · rw [if_neg hj]; simp [hj]

theorem swapIdx_some {db : Int} {n : Nat} {d : Buf} (h0 : 0 ≤ db) (h1 : db + n ≤ d.size) {i j : Nat} (hi : i < n) (hj : j < n) :
    ∃ d', swapIdx db i j d = some d' ∧ Rearr db n d d' ∧ ∀ x : Nat, d'.get (db + x) = d.get (db + (Equiv.swap i j x : Nat)) := by
  have key : ∃ d', swapIdx db i j d = some d' ∧ d'.size = d.size ∧
      ∀ a, d'.get a = if a = db + j then d.get (db + i) else if a = db + i then d.get (db + j) else d.get a := by
    unfold swapIdx Buf.rd Buf.wr
    rw [if_pos (by omega), Option.bind_some, if_pos (by omega), Option.bind_some, if_pos (by omega), Option.bind_some]
    simp only []
    rw [if_pos (by omega)]
    exact ⟨_, rfl, rfl, fun a => rfl⟩
  obtain ⟨d', e, s, g⟩ := key
  have hx : ∀ x : Nat, d'.get (db + x) = d.get (db + (Equiv.swap i j x : Nat)) := by
    intro x
    rw [g]
    by_cases h1 : x = j
    · subst h1; rw [if_pos rfl, Equiv.swap_apply_right]
    by_cases h2 : x = i
    · subst h2; rw [if_neg (by omega), if_pos rfl, Equiv.swap_apply_left]
    rw [if_neg (by omega), if_neg (by omega), Equiv.swap_apply_of_ne_of_ne h2 h1]
  refine ⟨d', e, ⟨s, ?_, Equiv.swap i j, ?_, hx⟩, hx⟩
  · intro a ha
    rw [g, if_neg (by omega), if_neg (by omega)]
  · intro x hx
    exact Equiv.swap_apply_of_ne_of_ne (by omega) (by omega)

/-- The heap order between every entry from `lo` on and its children below `n`. -/
def HeapFrom (F : Nat → Int) (lo n : Nat) : Prop := ∀ j, 0 < j → j < n → lo ≤ (j - 1) / 2 → F ((j - 1) / 2) ≤ F j

/-- The same, except at `r`. -/
def HeapBut (F : Nat → Int) (lo n r : Nat) : Prop :=
  (∀ j, 0 < j → j < n → lo ≤ (j - 1) / 2 → (j - 1) / 2 ≠ r → F ((j - 1) / 2) ≤ F j) ∧
  (0 < r → lo ≤ (r - 1) / 2 → ∀ j, 0 < j → j < n → (j - 1) / 2 = r → F ((r - 1) / 2) ≤ F j)

theorem heapBut_done {F : Nat → Int} {lo n r : Nat} (h : HeapBut F lo n r) (hr : ∀ j, 0 < j → j < n → (j - 1) / 2 = r → F r ≤ F j) :
    HeapFrom F lo n := by
  intro j h0 h1 h2
  by_cases h3 : (j - 1) / 2 = r
  · rw [h3]; exact hr j h0 h1 h3
  · exact h.1 j h0 h1 h2 h3

theorem heapBut_step {F : Nat → Int} {lo n r sm : Nat} (h : HeapBut F lo n r) (hlo : lo ≤ r) (h0 : 0 < sm) (hs : sm < n)
    (hp : (sm - 1) / 2 = r) (hlt : F sm < F r) (hmin : ∀ j, 0 < j → j < n → (j - 1) / 2 = r → F sm ≤ F j) :
    HeapBut (fun x => F (Equiv.swap r sm x)) lo n sm := by
  have er : F (Equiv.swap r sm r) = F sm := by rw [Equiv.swap_apply_left]
  have es : F (Equiv.swap r sm sm) = F r := by rw [Equiv.swap_apply_right]
  have eo : ∀ x, x ≠ r → x ≠ sm → F (Equiv.swap r sm x) = F x := fun x a b => by rw [Equiv.swap_apply_of_ne_of_ne a b]
  constructor
  · intro j h1 h2 h3 h4
    simp only []
    by_cases h5 : (j - 1) / 2 = r
    · rw [h5, er]
      by_cases h6 : j = sm
      · subst h6; rw [es]; omega
      · rw [eo j (by omega) h6]; exact hmin j h1 h2 h5
    · rw [eo _ h5 h4]
      by_cases h6 : j = r
      · subst h6; rw [er]
        exact h.2 h1 h3 sm h0 hs hp
      · rw [eo j h6 (by rintro rfl; omega)]
        exact h.1 j h1 h2 h3 h5
  · intro h1 h2 j h3 h4 h5
    simp only []
    rw [hp, er, eo j (by omega) (by omega)]
    have := h.1 j h3 h4 (by omega) (by omega)
    rw [h5] at this
    exact this

theorem heapify_spec {src : Buf} {sb db : Int} {n : Nat} (fuel : Nat) : ∀ (r lo : Nat) (d : Buf), IdxArr src sb db n d → lo ≤ r → n - r < fuel →
    HeapBut (keyAt src sb db d) lo n r →
    ∃ d', heapify src sb n db fuel r d = some d' ∧ Rearr db n d d' ∧ HeapFrom (keyAt src sb db d') lo n := by
  induction fuel with
  | zero => intro r lo d _ _ h; omega
  | succ fuel ih =>
    intro r lo d hA hlo hf hH
    unfold heapify
    by_cases hr : r < n / 2
    · rw [if_pos hr, smallerChild_some hA (by omega), Option.bind_some, smallerChild_some hA (by split <;> omega), Option.bind_some]
      generalize hs1 : (if 2 * r + 1 < n ∧ keyAt src sb db d (2 * r + 1) < keyAt src sb db d r then 2 * r + 1 else r) = s1
      generalize hs2 : (if 2 * r + 2 < n ∧ keyAt src sb db d (2 * r + 2) < keyAt src sb db d s1 then 2 * r + 2 else s1) = s2
      have hc : ∀ j, 0 < j → (j - 1) / 2 = r → j = 2 * r + 1 ∨ j = 2 * r + 2 := by omega
      have H : (s2 = r ∨ s2 = 2 * r + 1 ∨ s2 = 2 * r + 2) ∧ s2 < n ∧ (s2 ≠ r → keyAt src sb db d s2 < keyAt src sb db d r) ∧
          keyAt src sb db d s2 ≤ keyAt src sb db d r ∧
          ∀ j, 0 < j → j < n → (j - 1) / 2 = r → keyAt src sb db d s2 ≤ keyAt src sb db d j := by
        by_cases c1 : 2 * r + 1 < n ∧ keyAt src sb db d (2 * r + 1) < keyAt src sb db d r
        · rw [if_pos c1] at hs1; subst hs1
          by_cases c2 : 2 * r + 2 < n ∧ keyAt src sb db d (2 * r + 2) < keyAt src sb db d (2 * r + 1)
          · rw [if_pos c2] at hs2; subst hs2
            refine ⟨by omega, c2.1, fun _ => by omega, by omega, fun j j1 j2 j3 => ?_⟩
            rcases hc j j1 j3 with rfl | rfl <;> omega
          · rw [if_neg c2] at hs2; subst hs2
            refine ⟨by omega, c1.1, fun _ => by omega, by omega, fun j j1 j2 j3 => ?_⟩
            rcases hc j j1 j3 with rfl | rfl <;> omega
        · rw [if_neg c1] at hs1; subst hs1
          by_cases c2 : 2 * r + 2 < n ∧ keyAt src sb db d (2 * r + 2) < keyAt src sb db d r
          · rw [if_pos c2] at hs2; subst hs2
            refine ⟨by omega, c2.1, fun _ => by omega, by omega, fun j j1 j2 j3 => ?_⟩
            rcases hc j j1 j3 with rfl | rfl <;> omega
          · rw [if_neg c2] at hs2; subst hs2
            refine ⟨by omega, by omega, fun h => absurd rfl h, Int.le_refl _, fun j j1 j2 j3 => ?_⟩
            rcases hc j j1 j3 with rfl | rfl <;> omega
      obtain ⟨H1, H2, H3, H4, H5⟩ := H
      by_cases hne : s2 = r
      · rw [if_neg (by simpa using hne)]
        subst hne
        exact ⟨d, rfl, Rearr.refl _ _ _, heapBut_done hH H5⟩
      · rw [if_pos hne]
        obtain ⟨d1, e1, R1, g1⟩ := swapIdx_some hA.lo hA.hi (show r < n by omega) H2
        have ek : keyAt src sb db d1 = fun x => keyAt src sb db d (Equiv.swap r s2 x) := by
          funext x; unfold keyAt; rw [g1]
        obtain ⟨d2, e2, R2, H6⟩ := ih s2 lo d1 (R1.arr hA) (by omega) (by omega) (by
          rw [ek]
          exact heapBut_step hH hlo (by omega) H2 (by omega) (H3 hne) H5)
        exact ⟨d2, by rw [e1]; exact e2, R1.trans R2, H6⟩
    · rw [if_neg hr]
      exact ⟨d, rfl, Rearr.refl _ _ _, heapBut_done hH (fun j _ _ _ => by omega)⟩

theorem buildHeap_spec {src : Buf} {sb db : Int} {n : Nat} {d : Buf} (hA : IdxArr src sb db n d) :
    ∃ d', buildHeap src sb n db d = some d' ∧ Rearr db n d d' ∧ HeapFrom (keyAt src sb db d') 0 n := by
  obtain ⟨d', e, h1, h2⟩ := forRange_inv (n := n / 2) (f := fun t => heapify src sb n db (n + 1) (n / 2 - 1 - t)) (s := d)
    (fun t d' => Rearr db n d d' ∧ HeapFrom (keyAt src sb db d') (n / 2 - t) n)
    ⟨Rearr.refl _ _ _, fun j _ _ _ => by omega⟩
    (fun t d' ht ⟨R, H⟩ => by
      obtain ⟨d2, e2, R2, H2⟩ := heapify_spec (src := src) (sb := sb) (n + 1) (n / 2 - 1 - t) (n / 2 - 1 - t) d' (R.arr hA) (Nat.le_refl _) (by omega)
        ⟨fun j a b c e => H j a b (by omega), fun a b => by omega⟩
      exact ⟨d2, e2, R.trans R2, by rw [show n / 2 - (t + 1) = n / 2 - 1 - t by omega]; exact H2⟩)
  exact ⟨d', e, h1, by simpa using h2⟩

/-- The root of a heap is a smallest entry. -/
theorem heap_root {F : Nat → Int} {n : Nat} (h : HeapFrom F 0 n) : ∀ j, j < n → F 0 ≤ F j := by
  intro j
  induction j using Nat.strongRecOn with
  | ind j ih =>
    intro hj
    by_cases h0 : j = 0
    · rw [h0]
    · exact (ih ((j - 1) / 2) (by omega) (by omega)).trans (h j (by omega) hj (by omega))

theorem heapSort_spec {src : Buf} {sb db : Int} {n : Nat} {d : Buf} (hA : IdxArr src sb db n d) :
    ∃ d', heapSort src sb n db d = some d' ∧ Rearr db n d d' ∧
      ∀ i j, i < j → j < n → keyAt src sb db d' j ≤ keyAt src sb db d' i := by
  obtain ⟨d0, e0, R0, H0⟩ := buildHeap_spec hA
  obtain ⟨d', e, h1, h2, h3⟩ := forRange_inv (n := n - 1) (f := fun t d =>
      (swapIdx db 0 (n - 1 - t) d).bind (heapify src sb (n - 1 - t) db (n + 1) 0)) (s := d0)
    (fun t d' => Rearr db n d d' ∧ HeapFrom (keyAt src sb db d') 0 (n - t) ∧
      ∀ i j, i < j → n - t ≤ j → j < n → keyAt src sb db d' j ≤ keyAt src sb db d' i)
    ⟨R0, H0, fun i j _ _ _ => by omega⟩
    (fun t d1 ht ⟨R, H, S⟩ => by
      have A1 := R.arr hA
      obtain ⟨d2, e2, R2, g2⟩ := swapIdx_some A1.lo A1.hi (show 0 < n by omega) (show n - 1 - t < n by omega)
      have ek : ∀ x, keyAt src sb db d2 x = keyAt src sb db d1 (Equiv.swap 0 (n - 1 - t) x) := by
        intro x; unfold keyAt; rw [g2]
      have kf : ∀ x, x ≠ 0 → x ≠ n - 1 - t → keyAt src sb db d2 x = keyAt src sb db d1 x := by
        intro x a b; rw [ek, Equiv.swap_apply_of_ne_of_ne a b]
      have kl : keyAt src sb db d2 (n - 1 - t) = keyAt src sb db d1 0 := by rw [ek, Equiv.swap_apply_right]
      have k0 : keyAt src sb db d2 0 = keyAt src sb db d1 (n - 1 - t) := by rw [ek, Equiv.swap_apply_left]
      have A2 := R2.arr A1
      obtain ⟨d3, e3, R3, H3⟩ := heapify_spec (src := src) (sb := sb) (db := db) (n := n - 1 - t) (n + 1) 0 0 d2
        ⟨A2.lo, by have := A2.hi; omega, fun j hj => A2.val j (by omega)⟩ (Nat.le_refl _) (by omega)
        ⟨fun j a b c f => by
          rw [kf j (by omega) (by omega), kf _ (by omega) (by omega)]
          exact H j a (by omega) (by omega), fun a => by omega⟩
      refine ⟨d3, by rw [e2]; exact e3, R.trans (R2.trans (R3.mono (by omega))), by rw [show n - (t + 1) = n - 1 - t by omega]; exact H3, ?_⟩
      obtain ⟨-, -, σ, p3, q3⟩ := R3
      have k3 : ∀ x, keyAt src sb db d3 x = keyAt src sb db d2 (σ x) := by intro x; unfold keyAt; rw [q3]
      have hmin : ∀ x, x < n - t → keyAt src sb db d1 0 ≤ keyAt src sb db d2 x := by
        intro x hx
        by_cases x0 : x = 0
        · rw [x0, k0]; exact heap_root H _ (by omega)
        by_cases x1 : x = n - 1 - t
        · rw [x1, kl]
        · rw [kf x x0 x1]; exact heap_root H _ hx
      intro i j hij hj hjn
      rw [k3 j, k3 i, p3 j (by omega)]
      by_cases hj' : j = n - 1 - t
      · rw [hj', kl]
        exact hmin _ (by have := perm_lt p3 (show i < n - 1 - t by omega); omega)
      · rw [kf j (by omega) hj']
        have hall : ∀ x, x < j → keyAt src sb db d1 j ≤ keyAt src sb db d2 x := by
          intro x hx
          by_cases x0 : x = 0
          · rw [x0, k0]; exact S _ _ (by omega) (by omega) hjn
          by_cases x1 : x = n - 1 - t
          · rw [x1, kl]; exact S _ _ (by omega) (by omega) hjn
          · rw [kf x x0 x1]; exact S _ _ hx (by omega) hjn
        apply hall
        by_cases hi : i < n - 1 - t
        · have := perm_lt p3 hi; omega
        · rw [p3 i (by omega)]; exact hij)
  refine ⟨d', by unfold heapSort; rw [e0]; exact e, h1, fun i j hij hj => ?_⟩
  by_cases hn : n - (n - 1) ≤ j
  · exact h3 i j hij hn hj
  · omega

end Mli
