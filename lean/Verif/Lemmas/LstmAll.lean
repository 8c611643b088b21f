import Verif.Lemmas.CellChk
import Verif.Lemmas.Lstm

/-! # The LSTM kernel after its checks, for tensors -/

namespace Mli

open Spec

/-- Element `i` of the input of step `t`: row `t`, or row `t` from the end in the backward direction. -/
def CellArgs.input (a : CellArgs) (mem : Buf) (t : Nat) (i : Int) : Int :=
  mem.get (a.tin.addr [if a.backward then a.seq - 1 - t else t, i])

/-- What a call leaves in memory, for outputs `H 1`, `H 2`, ... of the steps and the final cell `C`: row `t` of the returned output tensor is that of
step `t + 1`, or its only row is that of the last step; nothing changes outside of the output rows, the cell and the scratch buffer. -/
structure CellArgs.Result (a : CellArgs) (G : Int) (cell : List Tensor) (mem : Buf) (H : Nat → Int → Int) (C : Int → Int) (mem' : Buf) : Prop where
  size : mem'.size = mem.size
  out : ∀ r i, InShape a.outDesc.shape [r, i] → mem'.get (a.outDesc.addr [r, i]) = H (if a.all then r.toNat + 1 else a.seq.toNat) i
  state : ∀ c ∈ cell, ∀ i, InShape c.shape [i] → mem'.get (c.addr [i]) = C i
  frame : ∀ x, (x < a.scr ∨ a.scr + G * a.n ≤ x) → (∀ c ∈ cell, ∀ i, InShape c.shape [i] → x ≠ c.addr [i]) →
    (∀ r i, InShape a.outDesc.shape [r, i] → x ≠ a.outDesc.addr [r, i]) → mem'.get x = mem.get x

/-- Where the tensors of an accepted call are. -/
theorem CellArgs.Placed.bounds {a : CellArgs} {G : Nat} {cell : List Tensor} {mem : Buf} (P : a.Placed G mem cell) (h : a.Shapes G cell) :
    (a.tin.strides.getD 0 0 = a.k) ∧ (0 ≤ a.tin.base ∧ a.tin.base + a.seq * a.k ≤ mem.size) ∧ (0 ≤ a.tprev.base ∧ a.tprev.base + a.n ≤ mem.size) ∧
      (0 ≤ a.tout.base ∧ a.tout.base + a.rows * a.n ≤ mem.size) ∧ (a.n * a.tin.es ≤ a.tout.cap ∧ a.tout.cap ≤ int32Max) := by
  have n1 := h.n1
  have k1 := h.k1
  have s1 := h.s1
  have hes : 1 ≤ a.tin.es := by have := P.es; omega
  refine ⟨by simp [Tensor.strides, h.tin], ⟨P.vi.fits.1, ?_⟩, ?_, ⟨P.vo.fits.1, ?_⟩, ?_, ?_⟩
  · have hs : InShape a.tin.shape [a.seq - 1, a.k - 1] := by
      simp only [Tensor.shape, h.tin, List.map_cons, List.map_nil]
      exact ⟨⟨by omega, by omega⟩, ⟨by omega, by omega⟩, trivial⟩
    have := (P.vi.inBounds hs).2
    simp only [Tensor.addr, Tensor.strides, h.tin, List.map_cons, List.map_nil, offset] at this
    have e : (a.seq - 1) * a.k = a.seq * a.k - a.k := by ring
    omega
  · exact (rowT_of P.vh h.tprev n1 (by rw [P.esh]; exact P.es)).2
  · have h1 := P.vo.fits.2
    have h2 := P.room
    rw [P.eso] at h1
    have : (a.tout.base + a.rows * a.n) * a.tin.es ≤ mem.size * a.tin.es := by rw [Int.add_mul]; omega
    exact le_of_mul_le_mul_right this (by omega)
  · have h2 := P.room
    have h3 : 1 ≤ a.rows := by unfold CellArgs.rows; split <;> omega
    have h4 : 1 * (a.n * a.tin.es) ≤ a.rows * (a.n * a.tin.es) := mul_le_mul_of_nonneg_right h3 (mul_nonneg (by omega) (by omega))
    rw [Int.one_mul] at h4
    rw [Int.mul_assoc] at h2
    omega
  · exact (checkTensorPrivate_ok P.vo.accepted).2.1

/-- The kernel after its checks: outputs and cells of the steps. -/
theorem lstm_all {D : CellDense} {F : LstmFn} {a : CellArgs} {tc : Tensor} {w ww : Nat} {B : Int} {sg th ac : Int → Int} {mem : Buf}
    (P : a.Placed 4 mem [tc]) (hsh : a.Shapes 4 [tc]) (hs : D.Safe a 4 w ww B) (hF : F.Ok w sg th ac)
    (hi : a.tin.Holds mem w) (hh : a.tprev.Holds mem w) (hc : tc.Holds mem w) :
    let T := cellTrace (lstmPure D F a sg th ac) (a.input mem) (fun i => mem.get (a.tprev.addr [i])) fun i => mem.get (tc.addr [i])
    ∃ s', lstmRun D F a tc mem = some s' ∧ a.Result 4 [tc] mem (fun t => (T t).1) (T a.seq.toNat).2 s'.mem ∧
      ∀ t : Nat, (t : Int) < a.seq → RowIn w a.k (a.input mem t) ∧ RowIn w a.n (T t).1 ∧ RowIn w a.n (T t).2 := by
  intro T
  have n1 := hsh.n1
  have s1 := hsh.s1
  obtain ⟨b0, b1, b2, b3, b4⟩ := P.bounds hsh
  have hcd := hsh.cell tc (by simp)
  obtain ⟨hct, hcb⟩ := rowT_of (P.vc tc (by simp)) hcd n1 (by rw [P.esc tc (by simp)]; exact P.es)
  have ex : ∀ t : Nat, (fun i => mem.get (a.xAt t + i)) = a.input mem t := by
    intro t
    funext i
    unfold CellArgs.input CellArgs.xAt
    simp only [Tensor.addr, Tensor.strides, hsh.tin, List.map_cons, List.map_nil, offset]
    congr 1
    ring
  have e1 : ∀ (t : Tensor), t.dims = [⟨a.n, 1⟩] → (fun i => mem.get (t.base + i)) = fun i => mem.get (t.addr [i]) := by
    intro t ht
    funext i
    simp only [Tensor.addr, Tensor.strides, ht, List.map_cons, List.map_nil, offset]
    congr 1
    ring
  have inI : ∀ t : Nat, (t : Int) < a.seq → ∀ i, 0 ≤ i → i < a.k → InShape a.tin.shape [if a.backward then a.seq - 1 - t else t, i] := by
    intro t ht i h0 h1
    simp only [Tensor.shape, hsh.tin, List.map_cons, List.map_nil]
    exact ⟨⟨by split <;> omega, by split <;> omega⟩, ⟨h0, h1⟩, trivial⟩
  have in1 : ∀ (t : Tensor), t.dims = [⟨a.n, 1⟩] → ∀ i, 0 ≤ i → i < a.n → InShape t.shape [i] := by
    intro t ht i h0 h1
    simp only [Tensor.shape, ht, List.map_cons, List.map_nil]
    exact ⟨⟨h0, h1⟩, trivial⟩
  have rx : ∀ t : Nat, (t : Int) < a.seq → RowIn w a.k (a.input mem t) := fun t ht i h0 h1 => hi _ (inI t ht i h0 h1)
  have rh : RowIn w a.n fun i => mem.get (a.tprev.addr [i]) := fun i h0 h1 => hh _ (in1 _ hsh.tprev i h0 h1)
  have rc : RowIn w a.n fun i => mem.get (tc.addr [i]) := fun i h0 h1 => hc _ (in1 _ hcd i h0 h1)
  have main := lstmRun_ok (tc := tc) (c := tc.base) (hsh.ok P (by omega) (by omega)) hs hF hct hcd b4 s1 b0 b1 b2 b3 hcb P.dis P.dhs P.dos (P.dcs tc (by simp))
    (P.dco tc (by simp)) P.dio (P.dic tc (by simp)) (fun t ht => by rw [ex]; exact rx t ht) (by rw [e1 _ hsh.tprev]; exact rh)
  rw [e1 _ hsh.tprev, e1 _ hcd, show (fun (t : Nat) i => mem.get (a.xAt t + i)) = a.input mem from funext ex] at main
  obtain ⟨s', h1, h2, h3, h4, h5, h6⟩ := main
  have ed : a.outDesc.dims = [⟨a.rows, a.n⟩, ⟨a.n, 1⟩] := rfl
  have ad : ∀ r i, a.outDesc.addr [r, i] = a.tout.base + r * a.n + i := by
    intro r i
    simp only [Tensor.addr, Tensor.strides, ed, List.map_cons, List.map_nil, offset]
    show a.tout.base + _ = _
    ring
  refine ⟨s', h1, ⟨h2, ?_, ?_, ?_⟩, fun t ht => ⟨rx t ht, ?_, ?_⟩⟩
  · intro r i hri
    simp only [Tensor.shape, ed, List.map_cons, List.map_nil] at hri
    obtain ⟨⟨r0, r1⟩, ⟨i0, i1⟩, -⟩ := hri
    rw [ad]
    by_cases e : a.all = true
    · have er : a.rows = a.seq := by unfold CellArgs.rows; rw [if_pos e]
      have := h4 e r.toNat (by omega) i i0 i1
      rw [Int.toNat_of_nonneg r0] at this
      rw [this, if_pos e]
    · have er : a.rows = 1 := by unfold CellArgs.rows; rw [if_neg e]
      have e' : a.all = false := by simpa using e
      obtain rfl : r = 0 := by omega
      rw [Int.zero_mul, Int.add_zero, h5 e' i i0 i1, if_neg e]
  · intro c hcm i hci
    obtain rfl := List.mem_singleton.1 hcm
    simp only [Tensor.shape, hcd, List.map_cons, List.map_nil] at hci
    obtain ⟨⟨i0, i1⟩, -⟩ := hci
    rw [← h3 i i0 i1]
    simp only [Tensor.addr, Tensor.strides, hcd, List.map_cons, List.map_nil, offset]
    congr 1
    ring
  · intro x hx hxc hxo
    apply h6 x hx
    · by_contra hn
      apply hxc tc (by simp) (x - tc.base) (in1 _ hcd _ (by omega) (by omega))
      simp only [Tensor.addr, Tensor.strides, hcd, List.map_cons, List.map_nil, offset]
      omega
    · by_contra hn
      have q := Int.emod_add_mul_ediv (x - a.tout.base) a.n
      have q0 := Int.emod_nonneg (x - a.tout.base) (show a.n ≠ 0 by omega)
      have q1 := Int.emod_lt_of_pos (x - a.tout.base) (show 0 < a.n by omega)
      refine hxo ((x - a.tout.base) / a.n) ((x - a.tout.base) % a.n) ?_ ?_
      · simp only [Tensor.shape, ed, List.map_cons, List.map_nil]
        exact ⟨⟨Int.ediv_nonneg (by omega) (by omega), Int.ediv_lt_of_lt_mul (by omega) (by omega)⟩, ⟨q0, q1⟩, trivial⟩
      · rw [ad, Int.mul_comm]; omega
  · cases t with
    | zero => exact rh
    | succ t => exact fun i _ _ => hF.mulOut _ _
  · cases t with
    | zero => exact rc
    | succ t => exact fun i _ _ => hF.addC _ _

end Mli
