import Verif.Lemmas.LstmAll

/-! # A sequence processed in two calls -/

namespace Mli

open Spec

/-- Equal in the first `n` places. -/
def Agree (n : Int) (X Y : Int → Int) : Prop := ∀ i, 0 ≤ i → i < n → X i = Y i

/-- `a1` on `mem` and then `a2` on `mem1` process the inputs of `a` in two parts, with the weights of `a`: `a1` starts from the previous output of
`a`, `a2` from the last output of `a1`. -/
structure CellArgs.Split (a a1 a2 : CellArgs) (mem mem1 : Buf) : Prop where
  w1 : a1.twi = a.twi ∧ a1.two = a.two ∧ a1.tb = a.tb ∧ a1.wi = a.wi ∧ a1.wo = a.wo ∧ a1.bias = a.bias
  w2 : a2.twi = a.twi ∧ a2.two = a.two ∧ a2.tb = a.tb ∧ a2.wi = a.wi ∧ a2.wo = a.wo ∧ a2.bias = a.bias
  seq : a.seq = a1.seq + a2.seq
  all : a1.all = a.all ∧ a2.all = a.all
  in1 : ∀ t : Nat, (t : Int) < a1.seq → ∀ i, 0 ≤ i → i < a.k → a1.input mem t i = a.input mem t i
  in2 : ∀ t : Nat, (t : Int) < a2.seq → ∀ i, 0 ≤ i → i < a.k → a2.input mem1 t i = a.input mem (a1.seq.toNat + t) i
  prev : ∀ i, 0 ≤ i → i < a.n → mem.get (a1.tprev.addr [i]) = mem.get (a.tprev.addr [i])
  link : ∀ i, 0 ≤ i → i < a.n → mem1.get (a2.tprev.addr [i]) = mem1.get (a1.outDesc.addr [if a.all then a1.seq - 1 else 0, i])

/-- The results of the two calls, `mem1` and `mem2`, are those of the one call, `mem'`. -/
structure CellArgs.Joined (a a1 a2 : CellArgs) (cell : List Tensor) (mem1 mem2 mem' : Buf) : Prop where
  state : ∀ c ∈ cell, ∀ i, InShape c.shape [i] → mem2.get (c.addr [i]) = mem'.get (c.addr [i])
  first : a.all = true → ∀ r i, InShape a1.outDesc.shape [r, i] → mem1.get (a1.outDesc.addr [r, i]) = mem'.get (a.outDesc.addr [r, i])
  second : a.all = true → ∀ r i, InShape a2.outDesc.shape [r, i] → mem2.get (a2.outDesc.addr [r, i]) = mem'.get (a.outDesc.addr [a1.seq + r, i])
  last : a.all = false → ∀ i, InShape a.outDesc.shape [0, i] → mem2.get (a2.outDesc.addr [0, i]) = mem'.get (a.outDesc.addr [0, i])

abbrev CellFun := Bool → (Int → Int) → (Int → Int) → (Int → Int) → (Int → Int) × (Int → Int)

/-- The first `T` steps. -/
theorem cellTrace_agree {P P1 : CellFun} {k n m : Int} {T : Nat}
    (hP : ∀ f X X' H H' C C', Agree k X X' → Agree n H H' → Agree m C C' → Agree n (P1 f X H C).1 (P f X' H' C').1 ∧ Agree m (P1 f X H C).2 (P f X' H' C').2)
    {X X1 : Nat → Int → Int} {H H1 C C1 : Int → Int} (hX : ∀ t, t < T → Agree k (X1 t) (X t)) (hH : Agree n H1 H) (hC : Agree m C1 C) :
    ∀ t, t ≤ T → Agree n (cellTrace P1 X1 H1 C1 t).1 (cellTrace P X H C t).1 ∧ Agree m (cellTrace P1 X1 H1 C1 t).2 (cellTrace P X H C t).2 := by
  intro t
  induction t with
  | zero => exact fun _ => ⟨hH, hC⟩
  | succ t ih =>
    intro ht
    obtain ⟨i1, i2⟩ := ih (by omega)
    exact hP _ _ _ _ _ _ _ (hX t (by omega)) i1 i2

/-- The steps after `T ≥ 1`. -/
theorem cellTrace_rest {P P2 : CellFun} {k n m : Int} {S T : Nat} (hT : 1 ≤ T)
    (hP : ∀ f X X' H H' C C', Agree k X X' → Agree n H H' → Agree m C C' →
      Agree n (P2 f X H C).1 (P false X' H' C').1 ∧ Agree m (P2 f X H C).2 (P false X' H' C').2)
    {X X2 : Nat → Int → Int} {H H2 C C2 : Int → Int} (hX : ∀ t, t < S → Agree k (X2 t) (X (T + t))) (hH : Agree n H2 (cellTrace P X H C T).1)
    (hC : Agree m C2 (cellTrace P X H C T).2) :
    ∀ t, t ≤ S → Agree n (cellTrace P2 X2 H2 C2 t).1 (cellTrace P X H C (T + t)).1 ∧ Agree m (cellTrace P2 X2 H2 C2 t).2 (cellTrace P X H C (T + t)).2 := by
  intro t
  induction t with
  | zero => exact fun _ => ⟨hH, hC⟩
  | succ t ih =>
    intro ht
    obtain ⟨i1, i2⟩ := ih (by omega)
    have e : cellTrace P X H C (T + (t + 1)) = P false (X (T + t)) (cellTrace P X H C (T + t)).1 (cellTrace P X H C (T + t)).2 := by
      show cellTrace P X H C (T + t + 1) = _
      unfold cellTrace
      rw [show decide (T + t = 0) = false by simp; omega]
      cases h : T + t with
      | zero => omega
      | succ u => rfl
    rw [e]
    exact hP _ _ _ _ _ _ _ (hX t (by omega)) i1 i2

/-- Equal weights and sizes give equal gates. -/
theorem CellDense.val_eq {D : CellDense} {a a1 : CellArgs} (h : a1.twi = a.twi ∧ a1.two = a.two ∧ a1.tb = a.tb ∧ a1.wi = a.wi ∧ a1.wo = a.wo ∧ a1.bias = a.bias)
    (hk : a1.k = a.k) (hn : a1.n = a.n) (first : Bool) (g : Nat) (X H : Int → Int) : D.val a1 first g X H = D.val a first g X H := by
  funext o
  unfold CellDense.val
  rw [h.1, h.2.1, h.2.2.1, h.2.2.2.1, h.2.2.2.2.1, h.2.2.2.2.2, hk, hn]

theorem CellArgs.Shapes.same {a a1 : CellArgs} {G : Nat} {cell cell1 : List Tensor} (h : a.Shapes G cell) (h1 : a1.Shapes G cell1) (e : a1.twi = a.twi) :
    a1.k = a.k ∧ a1.n = a.n := by
  obtain ⟨_, _, e0⟩ := h.wi
  obtain ⟨_, _, e1⟩ := h1.wi
  rw [e, e0] at e1
  simp at e1
  exact ⟨e1.2.1.1.symm, e1.2.2.symm⟩

theorem inRows {a : CellArgs} {r i : Int} : InShape a.outDesc.shape [r, i] ↔ (0 ≤ r ∧ r < a.rows) ∧ 0 ≤ i ∧ i < a.n := by
  show InShape [a.rows, a.n] [r, i] ↔ _
  simp [InShape]

/-- From the traces of the three calls to their results. -/
theorem CellArgs.Split.joined {a a1 a2 : CellArgs} {G : Nat} {cell : List Tensor} {mem mem1 mem2 mem' : Buf} {P P1 P2 : CellFun} {m : Int} (S : a.Split a1 a2 mem mem1)
    (hsh : a.Shapes G cell) (h1 : a1.Shapes G cell) (h2 : a2.Shapes G cell) {C C1 C2 : Int → Int}
    (hm : cell ≠ [] → m = a.n) (hC1 : Agree m C1 C)
    (hC2 : ∀ (K : Int → Int), (∀ c ∈ cell, ∀ i, InShape c.shape [i] → mem1.get (c.addr [i]) = K i) → Agree m C2 K)
    (hP1 : ∀ f X X' H H' C C', Agree a.k X X' → Agree a.n H H' → Agree m C C' →
      Agree a.n (P1 f X H C).1 (P f X' H' C').1 ∧ Agree m (P1 f X H C).2 (P f X' H' C').2)
    (hP2 : ∀ f X X' H H' C C', Agree a.k X X' → Agree a.n H H' → Agree m C C' →
      Agree a.n (P2 f X H C).1 (P false X' H' C').1 ∧ Agree m (P2 f X H C).2 (P false X' H' C').2)
    (r : a.Result G cell mem (fun t => (cellTrace P (a.input mem) (fun i => mem.get (a.tprev.addr [i])) C t).1)
      (cellTrace P (a.input mem) (fun i => mem.get (a.tprev.addr [i])) C a.seq.toNat).2 mem')
    (r1 : a1.Result G cell mem (fun t => (cellTrace P1 (a1.input mem) (fun i => mem.get (a1.tprev.addr [i])) C1 t).1)
      (cellTrace P1 (a1.input mem) (fun i => mem.get (a1.tprev.addr [i])) C1 a1.seq.toNat).2 mem1)
    (r2 : a2.Result G cell mem1 (fun t => (cellTrace P2 (a2.input mem1) (fun i => mem1.get (a2.tprev.addr [i])) C2 t).1)
      (cellTrace P2 (a2.input mem1) (fun i => mem1.get (a2.tprev.addr [i])) C2 a2.seq.toNat).2 mem2) :
    a.Joined a1 a2 cell mem1 mem2 mem' := by
  obtain ⟨k1, n1⟩ := hsh.same h1 S.w1.1
  obtain ⟨k2, n2⟩ := hsh.same h2 S.w2.1
  have s0 := hsh.s1
  have s1 := h1.s1
  have s2 := h2.s1
  have sq := S.seq
  have sn : a.seq.toNat = a1.seq.toNat + a2.seq.toNat := by omega
  have A := cellTrace_agree (T := a1.seq.toNat) hP1 (X := a.input mem) (X1 := a1.input mem) (H := fun i => mem.get (a.tprev.addr [i]))
    (fun t ht => S.in1 t (by omega)) S.prev hC1
  have link : Agree a.n (fun i => mem1.get (a2.tprev.addr [i]))
      (cellTrace P (a.input mem) (fun i => mem.get (a.tprev.addr [i])) C a1.seq.toNat).1 := by
    intro i i0 i1
    show mem1.get (a2.tprev.addr [i]) = _
    rw [S.link i i0 i1]
    have hin : InShape a1.outDesc.shape [if a.all then a1.seq - 1 else 0, i] := by
      rw [inRows]
      unfold CellArgs.rows
      rw [S.all.1]
      exact ⟨by split <;> omega, i0, by omega⟩
    rw [r1.out _ _ hin, S.all.1, ← (A a1.seq.toNat le_rfl).1 i i0 i1]
    show (cellTrace _ _ _ _ _).1 i = _
    cases a.all
    · rfl
    · simp only [if_true]
      rw [show (a1.seq - 1).toNat + 1 = a1.seq.toNat by omega]
  have hC2' : Agree m C2 (cellTrace P (a.input mem) (fun i => mem.get (a.tprev.addr [i])) C a1.seq.toNat).2 := by
    intro i i0 i1
    rw [hC2 _ r1.state i i0 i1]
    exact (A a1.seq.toNat le_rfl).2 i i0 i1
  have B := cellTrace_rest (T := a1.seq.toNat) (S := a2.seq.toNat) (by omega) hP2 (X2 := a2.input mem1) (fun t ht => S.in2 t (by omega)) link hC2'
  refine ⟨?_, ?_, ?_, ?_⟩
  · intro c hc i hi
    rw [r.state c hc i hi, r2.state c hc i hi, sn]
    have hcd := hsh.cell c hc
    simp only [Tensor.shape, hcd, List.map_cons, List.map_nil] at hi
    obtain ⟨⟨i0, i1⟩, -⟩ := hi
    exact (B a2.seq.toNat le_rfl).2 i i0 (by rw [hm (List.ne_nil_of_mem hc)]; exact i1)
  · intro hall q i hq
    have ha1 : a1.all = true := by rw [S.all.1, hall]
    have hq' := inRows.1 hq
    rw [CellArgs.rows, if_pos ha1] at hq'
    have hq2 : InShape a.outDesc.shape [q, i] := by
      rw [inRows, CellArgs.rows, if_pos hall]
      omega
    rw [r1.out q i hq, r.out q i hq2, if_pos ha1, if_pos hall]
    exact (A (q.toNat + 1) (by omega)).1 i hq'.2.1 (by omega)
  · intro hall q i hq
    have ha2 : a2.all = true := by rw [S.all.2, hall]
    have hq' := inRows.1 hq
    rw [CellArgs.rows, if_pos ha2] at hq'
    have hq2 : InShape a.outDesc.shape [a1.seq + q, i] := by
      rw [inRows, CellArgs.rows, if_pos hall]
      omega
    rw [r2.out q i hq, r.out _ i hq2, if_pos ha2, if_pos hall, show (a1.seq + q).toNat + 1 = a1.seq.toNat + (q.toNat + 1) by omega]
    exact (B (q.toNat + 1) (by omega)).1 i hq'.2.1 (by omega)
  · intro hall i hi
    have ha2 : a2.all = false := by rw [S.all.2, hall]
    have hi' := (inRows.1 hi).2
    have hi2 : InShape a2.outDesc.shape [0, i] := by
      rw [inRows, CellArgs.rows, if_neg (by simp [ha2])]
      omega
    rw [r2.out 0 i hi2, r.out 0 i hi, if_neg (by simp [ha2]), if_neg (by simp [hall]), sn]
    exact (B a2.seq.toNat le_rfl).1 i hi'.1 hi'.2

/-- The step function of the LSTM only depends on the elements. -/
theorem lstmPure_agree {D D' : CellDense} {F : LstmFn} {a a1 : CellArgs} {sg th ac : Int → Int} {f f' : Bool}
    (hv : ∀ g X H, D'.val a1 f g X H = D.val a f' g X H) {X X' H H' C C' : Int → Int} (hx : Agree a.k X X') (hh : Agree a.n H H') (hc : Agree a.n C C') :
    Agree a.n (lstmPure D' F a1 sg th ac f X H C).1 (lstmPure D F a sg th ac f' X' H' C').1 ∧
      Agree a.n (lstmPure D' F a1 sg th ac f X H C).2 (lstmPure D F a sg th ac f' X' H' C').2 := by
  have e : (fun g => D'.val a1 f g X H) = fun g => D.val a f' g X' H' := by
    funext g
    rw [hv, D.val_congr a f' g hx hh]
  have e2 : ∀ i, 0 ≤ i → i < a.n → F.cell sg th (fun g => D'.val a1 f g X H) C i = F.cell sg th (fun g => D.val a f' g X' H') C' i := by
    intro i i0 i1
    rw [e]
    unfold LstmFn.cell
    rw [hc i i0 i1]
  refine ⟨fun i i0 i1 => ?_, e2⟩
  show F.mulOut (ac (F.cell sg th (fun g => D'.val a1 f g X H) C i)) (sg ((fun g => D'.val a1 f g X H) 3 i)) = F.mulOut (ac _) (sg (_))
  rw [e2 i i0 i1, e]

end Mli
