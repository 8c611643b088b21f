import Verif.Lemmas.RnnCell

/-! # The loop of the recurrent cells over the time steps -/

namespace Mli

open Spec

/-- Two ranges of addresses do not meet. -/
def Apart (p n q m : Int) : Prop := p + n ≤ q ∨ q + m ≤ p

/-- Address of the input of step `t`. -/
def CellArgs.xAt (a : CellArgs) (t : Int) : Int := a.tin.base + (if a.backward then a.seq - 1 - t else t) * a.k

/-- Number of output rows. -/
def CellArgs.rows (a : CellArgs) : Int := if a.all then a.seq else 1

/-- Output and cell before step `t`: `P first X H C` are output and cell after a step with the input `X`. -/
def cellTrace (P : Bool → (Int → Int) → (Int → Int) → (Int → Int) → (Int → Int) × (Int → Int)) (X : Nat → Int → Int) (H C : Int → Int) :
    Nat → (Int → Int) × (Int → Int)
  | 0 => (H, C)
  | t + 1 => P (decide (t = 0)) (X t) (cellTrace P X H C t).1 (cellTrace P X H C t).2

/-- The conditions of a step, in terms of memory: input `X`, recurrent input `H` and cell `C` (`m` elements at `c`). -/
structure StepIn (a : CellArgs) (G w : Nat) (R : Int → Int → Prop) (c m : Int) (sz : Int) (X H C : Int → Int) (s : CellSt) : Prop where
  size : s.mem.size = sz
  bx : 0 ≤ s.xp ∧ s.xp + a.k ≤ sz
  bh : 0 ≤ s.hp ∧ s.hp + a.n ≤ sz
  bo : 0 ≤ s.op ∧ s.op + a.n ≤ sz
  dx : Apart s.xp a.k a.scr (G * a.n)
  dh : Apart s.hp a.n a.scr (G * a.n)
  dO : Apart s.op a.n a.scr (G * a.n)
  dco : Apart c m s.op a.n
  dxo : Apart s.xp a.k s.op a.n
  sep : R s.hp s.op
  vx : ∀ i, 0 ≤ i → i < a.k → s.mem.get (s.xp + i) = X i
  vh : ∀ i, 0 ≤ i → i < a.n → s.mem.get (s.hp + i) = H i
  vc : ∀ i, 0 ≤ i → i < m → s.mem.get (c + i) = C i
  rx : RowIn w a.k X
  rh : RowIn w a.n H

theorem cellLoop {a : CellArgs} {step : CellSt → Option CellSt} {G w : Nat} {R : Int → Int → Prop} {c m : Int} {mem : Buf}
    (P : Bool → (Int → Int) → (Int → Int) → (Int → Int) → (Int → Int) × (Int → Int))
    (hPr : ∀ f X H C i, InRange w ((P f X H C).1 i))
    (hstep : ∀ s X H C, StepIn a G w R c m mem.size X H C s → ∃ d', step s = some (a.next s d') ∧ d'.size = mem.size ∧
      (∀ i, 0 ≤ i → i < m → d'.get (c + i) = (P s.first X H C).2 i) ∧
      (∀ i, 0 ≤ i → i < a.n → d'.get (s.op + i) = (P s.first X H C).1 i) ∧
      ∀ x, (x < a.scr ∨ a.scr + G * a.n ≤ x) → (x < c ∨ c + m ≤ x) → (x < s.op ∨ s.op + a.n ≤ x) → d'.get x = s.mem.get x)
    (n1 : 1 ≤ a.n) (k1 : 1 ≤ a.k) (s1 : 1 ≤ a.seq) (hst : a.tin.strides.getD 0 0 = a.k)
    (bx : 0 ≤ a.tin.base ∧ a.tin.base + a.seq * a.k ≤ mem.size) (bh : 0 ≤ a.tprev.base ∧ a.tprev.base + a.n ≤ mem.size)
    (bo : 0 ≤ a.tout.base ∧ a.tout.base + a.rows * a.n ≤ mem.size)
    (dx : Apart a.tin.base (a.seq * a.k) a.scr (G * a.n)) (dh : Apart a.tprev.base a.n a.scr (G * a.n))
    (dO : Apart a.tout.base (a.rows * a.n) a.scr (G * a.n)) (dc : Apart c m a.scr (G * a.n)) (dco : Apart c m a.tout.base (a.rows * a.n))
    (dxo : Apart a.tin.base (a.seq * a.k) a.tout.base (a.rows * a.n)) (dxc : Apart a.tin.base (a.seq * a.k) c m)
    (hR : R a.tprev.base a.tout.base) (hR1 : ∀ x, R x x) (hR2 : ∀ x, R x (x + a.n))
    (X : Nat → Int → Int) (H C : Int → Int)
    (vx : ∀ t : Nat, (t : Int) < a.seq → ∀ i, 0 ≤ i → i < a.k → mem.get (a.xAt t + i) = X t i)
    (vh : ∀ i, 0 ≤ i → i < a.n → mem.get (a.tprev.base + i) = H i)
    (vc : ∀ i, 0 ≤ i → i < m → mem.get (c + i) = C i)
    (rx : ∀ t : Nat, (t : Int) < a.seq → RowIn w a.k (X t)) (rh : RowIn w a.n H) :
    ∃ s', forRange a.seq.toNat (fun _ s => step s) (a.start mem) = some s' ∧ s'.mem.size = mem.size ∧
      (∀ i, 0 ≤ i → i < m → s'.mem.get (c + i) = (cellTrace P X H C a.seq.toNat).2 i) ∧
      (a.all = true → ∀ t : Nat, (t : Int) < a.seq → ∀ i, 0 ≤ i → i < a.n → s'.mem.get (a.tout.base + t * a.n + i) = (cellTrace P X H C (t + 1)).1 i) ∧
      (a.all = false → ∀ i, 0 ≤ i → i < a.n → s'.mem.get (a.tout.base + i) = (cellTrace P X H C a.seq.toNat).1 i) ∧
      ∀ x, (x < a.scr ∨ a.scr + G * a.n ≤ x) → (x < c ∨ c + m ≤ x) → (x < a.tout.base ∨ a.tout.base + a.rows * a.n ≤ x) →
        s'.mem.get x = mem.get x := by
  unfold Apart at *
  -- the output row of step `t`
  have hop : ∀ t : Nat, (t : Int) < a.seq → 0 ≤ (if a.all then (t : Int) * a.n else 0) ∧ (if a.all then (t : Int) * a.n else 0) + a.n ≤ a.rows * a.n := by
    intro t ht
    unfold CellArgs.rows
    cases a.all
    · simp
    · have h1 : ((t : Int) + 1) * a.n ≤ a.seq * a.n := mul_le_mul_of_nonneg_right (by omega) (by omega)
      have h2 : ((t : Int) + 1) * a.n = t * a.n + a.n := by ring
      have h3 : 0 ≤ (t : Int) * a.n := mul_nonneg (by omega) (by omega)
      simp only [if_true]
      omega
  have hxa : ∀ t : Nat, (t : Int) < a.seq → a.tin.base ≤ a.xAt t ∧ a.xAt t + a.k ≤ a.tin.base + a.seq * a.k := by
    intro t ht
    unfold CellArgs.xAt
    have key : ∀ u : Int, 0 ≤ u → u < a.seq → 0 ≤ u * a.k ∧ u * a.k + a.k ≤ a.seq * a.k := fun u h0 h1 => by
      have h2 : (u + 1) * a.k ≤ a.seq * a.k := mul_le_mul_of_nonneg_right (by omega) (by omega)
      have h3 : (u + 1) * a.k = u * a.k + a.k := by ring
      have h4 : 0 ≤ u * a.k := mul_nonneg (by omega) (by omega)
      omega
    split
    · have := key (a.seq - 1 - t) (by omega) (by omega); omega
    · have := key t (by omega) (by omega); omega
  have hfr : ∀ x, a.tin.base ≤ x → x < a.tin.base + a.seq * a.k → (x < a.scr ∨ a.scr + G * a.n ≤ x) ∧ (x < c ∨ c + m ≤ x) ∧
      (x < a.tout.base ∨ a.tout.base + a.rows * a.n ≤ x) := by
    intro x y1 y2
    clear hop hxa dh dO dc dco
    exact ⟨by clear dxo dxc; omega, by clear dx dxo; omega, by clear dx dxc; omega⟩
  obtain ⟨s', h1, h2⟩ := forRange_inv (n := a.seq.toNat) (f := fun _ s => step s) (s := a.start mem)
    (fun t s => s.mem.size = mem.size ∧ s.first = decide (t = 0) ∧ (s.xp = a.xAt t) ∧
      s.op = a.tout.base + (if a.all then (t : Int) * a.n else 0) ∧
      (t = 0 → s.hp = a.tprev.base ∧ s.mem = mem) ∧
      (∀ u : Nat, t = u + 1 → s.hp = a.tout.base + (if a.all then (u : Int) * a.n else 0)) ∧
      (∀ i, 0 ≤ i → i < a.n → s.mem.get (s.hp + i) = (cellTrace P X H C t).1 i) ∧
      (∀ i, 0 ≤ i → i < m → s.mem.get (c + i) = (cellTrace P X H C t).2 i) ∧
      (a.all = true → ∀ u : Nat, u < t → ∀ i, 0 ≤ i → i < a.n → s.mem.get (a.tout.base + u * a.n + i) = (cellTrace P X H C (u + 1)).1 i) ∧
      ∀ x, (x < a.scr ∨ a.scr + G * a.n ≤ x) → (x < c ∨ c + m ≤ x) → (x < a.tout.base ∨ a.tout.base + a.rows * a.n ≤ x) →
        s.mem.get x = mem.get x)
    (by
      refine ⟨rfl, rfl, ?_, ?_, fun _ => ⟨rfl, rfl⟩, fun u h => by omega, vh, vc, fun _ u h => by omega, fun _ _ _ _ => rfl⟩
      · simp only [CellArgs.start, CellArgs.xAt, hst]
        split <;> simp
      · simp [CellArgs.start])
    (by
      rintro t s ht ⟨k1', k2, k3, k4, k5, k6, k7, k8, k9, k10⟩
      have ht' : (t : Int) < a.seq := by omega
      obtain ⟨o1, o2⟩ := hop t ht'
      obtain ⟨x1, x2⟩ := hxa t ht'
      have hph : s.hp = a.tprev.base ∧ t = 0 ∨ ∃ u : Nat, t = u + 1 ∧ s.hp = a.tout.base + (if a.all then (u : Int) * a.n else 0) := by
        cases t with
        | zero => exact Or.inl ⟨(k5 rfl).1, rfl⟩
        | succ u => exact Or.inr ⟨u, rfl, k6 u rfl⟩
      have hin : StepIn a G w R c m mem.size (X t) (cellTrace P X H C t).1 (cellTrace P X H C t).2 s := by
        refine ⟨k1', by omega, ?_, by omega, by unfold Apart; omega, ?_, by unfold Apart; omega, by unfold Apart; omega, by unfold Apart; omega, ?_, ?_,
          k7, k8, rx t ht', ?_⟩
        · rcases hph with ⟨e, -⟩ | ⟨u, e1, e2⟩
          · omega
          · have := hop u (by omega); omega
        · unfold Apart
          rcases hph with ⟨e, -⟩ | ⟨u, e1, e2⟩
          · omega
          · have := hop u (by omega); omega
        · rcases hph with ⟨e, rfl⟩ | ⟨u, e1, e2⟩
          · rw [e, k4]
            simpa using hR
          · rw [e2, k4, e1]
            cases a.all
            · exact hR1 _
            · simp only [if_true]
              rw [show a.tout.base + ((u + 1 : Nat) : Int) * a.n = a.tout.base + (u : Int) * a.n + a.n by push_cast; ring]
              exact hR2 _
        · intro i h0 h1
          obtain ⟨y1, y2, y3⟩ := hfr (a.xAt t + i) (by omega) (by omega)
          rw [k3, k10 _ y1 y2 y3, vx t ht' i h0 h1]
        · cases t with
          | zero => exact rh
          | succ u => exact fun i _ _ => hPr _ _ _ _ _
      obtain ⟨d', e1, e2, e3, e4, e5⟩ := hstep s _ _ _ hin
      refine ⟨_, e1, e2, by simp [CellArgs.next], ?_, ?_, fun h => by omega, ?_, ?_, ?_, ?_, ?_⟩
      · simp only [CellArgs.next, hst, k3, CellArgs.xAt]
        split
        · push_cast; ring
        · push_cast; ring
      · simp only [CellArgs.next, k4]
        split
        · push_cast; ring
        · rfl
      · intro u hu
        obtain rfl : t = u := by omega
        simp only [CellArgs.next, k4]
      · intro i h0 h1
        show d'.get (s.op + i) = (P (decide (t = 0)) _ _ _).1 i
        rw [e4 i h0 h1, k2]
      · intro i h0 h1
        show d'.get (c + i) = (P (decide (t = 0)) _ _ _).2 i
        rw [e3 i h0 h1, k2]
      · intro hall u hu i h0 h1
        rw [hall, if_pos rfl] at k4
        by_cases e : u = t
        · subst e
          show d'.get _ = (P (decide (u = 0)) _ _ _).1 i
          rw [← k4, e4 i h0 h1, k2]
        · have g1 : ((u : Int) + 1) * a.n ≤ t * a.n := mul_le_mul_of_nonneg_right (by omega) (by omega)
          have g2 : ((u : Int) + 1) * a.n = u * a.n + a.n := by ring
          have g3 : 0 ≤ (u : Int) * a.n := mul_nonneg (by omega) (by omega)
          rw [hall, if_pos rfl] at o1 o2
          show d'.get _ = _
          rw [e5 _ (by omega) (by omega) (by omega), k9 hall u (by omega) i h0 h1]
      · intro x y1 y2 y3
        show d'.get x = _
        rw [e5 x y1 y2 (by omega), k10 x y1 y2 y3])
  obtain ⟨g1, -, -, -, -, g6, g7, g8, g9, g10⟩ := h2
  refine ⟨s', h1, g1, g8, fun ha t ht => g9 ha t (by omega), ?_, g10⟩
  intro ha i h0 h1
  have := g6 (a.seq.toNat - 1) (by omega)
  rw [ha] at this
  rw [← g7 i h0 h1, this]
  simp

end Mli
