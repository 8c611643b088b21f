import Verif.Lemmas.CellLoop
import Verif.Model.Lstm

/-! # The steps of the LSTM cell -/

namespace Mli

open Spec

/-- The functions of a step on elements: sigmoid, hyperbolic tangent, activation of the output. -/
structure LstmFn.Ok (F : LstmFn) (w : Nat) (sg th ac : Int → Int) : Prop where
  sigm : ActOk w F.sigm sg
  tanh : ActOk w F.tanh th
  addC : ∀ x y, InRange w (F.addC x y)
  mulOut : ∀ x y, InRange w (F.mulOut x y)
  none : F.act = .none → ac = id
  some : ∀ f, F.act = .some f → ActOk w f ac

/-- The next cell, for the dense parts `V` of the gates. -/
def LstmFn.cell (F : LstmFn) (sg th : Int → Int) (V : Nat → Int → Int) (C : Int → Int) (i : Int) : Int :=
  F.addC (F.mulC (C i) (sg (V 2 i))) (F.mulG (th (V 1 i)) (sg (V 0 i)))

/-- The output, for the next cell `C'`. -/
def LstmFn.out (F : LstmFn) (sg ac : Int → Int) (V : Nat → Int → Int) (C' : Int → Int) (i : Int) : Int :=
  F.mulOut (ac (C' i)) (sg (V 3 i))

/-- One step of the cell. -/
theorem lstmStep_ok {D : CellDense} {F : LstmFn} {a : CellArgs} {tc : Tensor} {w ww : Nat} {B : Int} {sg th ac : Int → Int} {s : CellSt}
    (hok : a.Ok 4 s.mem.size) (hs : D.Safe a 4 w ww B) (hF : F.Ok w sg th ac) {c : Int} (hc : RowT tc a.n c) (hcd : tc.dims = [⟨a.n, 1⟩])
    (hcap : a.n * a.tin.es ≤ a.tout.cap ∧ a.tout.cap ≤ int32Max)
    (bx : 0 ≤ s.xp ∧ s.xp + a.k ≤ s.mem.size) (bh : 0 ≤ s.hp ∧ s.hp + a.n ≤ s.mem.size) (bc : 0 ≤ c ∧ c + a.n ≤ s.mem.size)
    (bo : 0 ≤ s.op ∧ s.op + a.n ≤ s.mem.size)
    (dx : Apart s.xp a.k a.scr (4 * a.n)) (dh : Apart s.hp a.n a.scr (4 * a.n)) (dc : Apart c a.n a.scr (4 * a.n))
    (do' : Apart s.op a.n a.scr (4 * a.n)) (dco : Apart c a.n s.op a.n)
    (rx : RowIn w a.k fun i => s.mem.get (s.xp + i)) (rh : RowIn w a.n fun i => s.mem.get (s.hp + i)) :
    ∃ d', lstmStep D F a tc s = some (a.next s d') ∧ d'.size = s.mem.size ∧
      (∀ i, 0 ≤ i → i < a.n → d'.get (c + i) = F.cell sg th
        (fun g => D.val a s.first g (fun i => s.mem.get (s.xp + i)) fun i => s.mem.get (s.hp + i)) (fun i => s.mem.get (c + i)) i) ∧
      (∀ i, 0 ≤ i → i < a.n → d'.get (s.op + i) = F.out sg ac
        (fun g => D.val a s.first g (fun i => s.mem.get (s.xp + i)) fun i => s.mem.get (s.hp + i)) (fun i => d'.get (c + i)) i) ∧
      ∀ x, (x < a.scr ∨ a.scr + 4 * a.n ≤ x) → (x < c ∨ c + a.n ≤ x) → (x < s.op ∨ s.op + a.n ≤ x) → d'.get x = s.mem.get x := by
  have n1 := hok.n1
  unfold Apart at *
  have r0 := hok.row (g := 0) (by omega)
  have r1 := hok.row (g := 1) (by omega)
  have r2 := hok.row (g := 2) (by omega)
  have r3 := hok.row (g := 3) (by omega)
  rw [show a.scr + ((0 : Nat) : Int) * a.n = a.scr by simp] at r0
  rw [show a.scr + ((1 : Nat) : Int) * a.n = a.scr + a.n by simp] at r1
  rw [show a.scr + ((2 : Nat) : Int) * a.n = a.scr + 2 * a.n by simp] at r2
  rw [show a.scr + ((3 : Nat) : Int) * a.n = a.scr + 3 * a.n by simp] at r3
  have hscr := hok.scr
  push_cast at hscr
  unfold lstmStep
  rw [hok.gate (g := 0) (by omega), Option.bind_some, hok.gate (g := 1) (by omega), Option.bind_some, hok.gate (g := 2) (by omega), Option.bind_some,
    hok.gate (g := 3) (by omega), Option.bind_some]
  obtain ⟨d1, e1, z1, v1, f1⟩ := rnnStacked_puts hok hs (first := s.first) (xp := s.xp) (hp := s.hp) (gates := 4) (by omega) bx bh (by push_cast; omega)
    (by push_cast; omega) rx rh
  generalize hV : (fun g => D.val a s.first g (fun i => s.mem.get (s.xp + i)) fun i => s.mem.get (s.hp + i)) = V
  have hVg : ∀ g, D.val a s.first g (fun i => s.mem.get (s.xp + i)) (fun i => s.mem.get (s.hp + i)) = V g := fun g => by rw [← hV]
  have hVr : ∀ g i, InRange w (V g i) := fun g i => by rw [← hV]; exact hs.store _
  have v0 : ∀ i, 0 ≤ i → i < a.n → d1.get (a.scr + i) = V 0 i := fun i h0 h1 => by
    have := v1 0 (by omega) i h0 h1
    rw [hVg] at this
    simpa using this
  have v1' : ∀ i, 0 ≤ i → i < a.n → d1.get (a.scr + a.n + i) = V 1 i := fun i h0 h1 => by
    have := v1 1 (by omega) i h0 h1
    rw [hVg] at this
    simpa using this
  have v2 : ∀ i, 0 ≤ i → i < a.n → d1.get (a.scr + 2 * a.n + i) = V 2 i := fun i h0 h1 => by
    have := v1 2 (by omega) i h0 h1
    rw [hVg] at this
    simpa using this
  have v3 : ∀ i, 0 ≤ i → i < a.n → d1.get (a.scr + 3 * a.n + i) = V 3 i := fun i h0 h1 => by
    have := v1 3 (by omega) i h0 h1
    rw [hVg] at this
    simpa using this
  push_cast at f1
  rw [e1, Option.bind_some]
  clear e1 v1
  -- sigmoid of the input gate
  obtain ⟨d2, e2, p2⟩ := hF.sigm.run (d := d1) r0 r0 rfl (by omega) (by omega) (Or.inl rfl) (fun i h0 h1 => by rw [v0 i h0 h1]; exact hVr _ _)
  rw [e2, Option.bind_some]; clear e2
  -- tanh of the new information
  have g1 : ∀ i, 0 ≤ i → i < a.n → d2.get (a.scr + a.n + i) = V 1 i := fun i h0 h1 => by rw [p2.frame _ (by omega), v1' i h0 h1]
  obtain ⟨d3, e3, p3⟩ := hF.tanh.run (d := d2) r1 r1 rfl (by rw [p2.size]; omega) (by rw [p2.size]; omega) (Or.inl rfl)
    (fun i h0 h1 => by rw [g1 i h0 h1]; exact hVr _ _)
  rw [e3, Option.bind_some]; clear e3
  -- sigmoid of the forget gate
  have g2 : ∀ i, 0 ≤ i → i < a.n → d3.get (a.scr + 2 * a.n + i) = V 2 i := fun i h0 h1 => by
    rw [p3.frame _ (by omega), p2.frame _ (by omega), v2 i h0 h1]
  have z3 : d3.size = s.mem.size := by rw [p3.size, p2.size, z1]
  obtain ⟨d4, e4, p4⟩ := hF.sigm.run (d := d3) r2 r2 rfl (by omega) (by omega) (Or.inl rfl) (fun i h0 h1 => by rw [g2 i h0 h1]; exact hVr _ _)
  rw [e4, Option.bind_some]; clear e4
  -- sigmoid of the output gate
  have g3 : ∀ i, 0 ≤ i → i < a.n → d4.get (a.scr + 3 * a.n + i) = V 3 i := fun i h0 h1 => by
    rw [p4.frame _ (by omega), p3.frame _ (by omega), p2.frame _ (by omega), v3 i h0 h1]
  have z4 : d4.size = s.mem.size := by rw [p4.size, z3]
  obtain ⟨d5, e5, p5⟩ := hF.sigm.run (d := d4) r3 r3 rfl (by omega) (by omega) (Or.inl rfl) (fun i h0 h1 => by rw [g3 i h0 h1]; exact hVr _ _)
  rw [e5, Option.bind_some]; clear e5
  have z5 : d5.size = s.mem.size := by rw [p5.size, z4]
  -- the contents after the activations
  have q0 : ∀ i, 0 ≤ i → i < a.n → d5.get (a.scr + i) = sg (V 0 i) := fun i h0 h1 => by
    rw [p5.frame _ (by omega), p4.frame _ (by omega), p3.frame _ (by omega), p2.hit i h0 h1, v0 i h0 h1]
  have q1 : ∀ i, 0 ≤ i → i < a.n → d5.get (a.scr + a.n + i) = th (V 1 i) := fun i h0 h1 => by
    rw [p5.frame _ (by omega), p4.frame _ (by omega), p3.hit i h0 h1, g1 i h0 h1]
  have q2 : ∀ i, 0 ≤ i → i < a.n → d5.get (a.scr + 2 * a.n + i) = sg (V 2 i) := fun i h0 h1 => by
    rw [p5.frame _ (by omega), p4.hit i h0 h1, g2 i h0 h1]
  have q3 : ∀ i, 0 ≤ i → i < a.n → d5.get (a.scr + 3 * a.n + i) = sg (V 3 i) := fun i h0 h1 => by
    rw [p5.hit i h0 h1, g3 i h0 h1]
  have q5 : ∀ x, (x < a.scr ∨ a.scr + 4 * a.n ≤ x) → d5.get x = s.mem.get x := fun x hx => by
    rw [p5.frame _ (by omega), p4.frame _ (by omega), p3.frame _ (by omega), p2.frame _ (by omega), f1 x hx]
  clear p2 p3 p4 p5 v0 v1' v2 v3 g1 g2 g3 f1
  have hcl : (tc.shape.getLast?).getD 0 = a.n := by simp [Tensor.shape, hcd]
  -- the cell
  obtain ⟨d6, e6, p6⟩ := elt1D_puts (f := F.mulC) (d := d5) (p2 := a.scr + 2 * a.n) (po := c) hcl hc.base (by omega) (by omega) (by omega) (by omega)
    (Or.inl rfl) (by unfold RowSep; omega)
  rw [show elt1D F.mulC tc (a.gateT 2).base tc.base d5 = some d6 by rw [r2.base, hc.base]; exact e6, Option.bind_some]; clear e6
  obtain ⟨d7, e7, p7⟩ := elt1D_puts (f := F.mulG) (t1 := a.gateT 1) (d := d6) (p2 := a.scr) (po := a.scr + a.n) (n := a.n) rfl r1.base (by omega)
    (by rw [p6.size]; omega) (by rw [p6.size]; omega) (by rw [p6.size]; omega) (Or.inl rfl) (by unfold RowSep; omega)
  rw [show elt1D F.mulG (a.gateT 1) (a.gateT 0).base (a.gateT 1).base d6 = some d7 by rw [r0.base, r1.base]; exact e7, Option.bind_some]; clear e7
  obtain ⟨d8, e8, p8⟩ := elt1D_puts (f := F.addC) (d := d7) (p2 := a.scr + a.n) (po := c) hcl hc.base (by omega) (by rw [p7.size, p6.size]; omega)
    (by rw [p7.size, p6.size]; omega) (by rw [p7.size, p6.size]; omega) (Or.inl rfl) (by unfold RowSep; omega)
  rw [show elt1D F.addC tc (a.gateT 1).base tc.base d7 = some d8 by rw [r1.base, hc.base]; exact e8, Option.bind_some]; clear e8
  have z8 : d8.size = s.mem.size := by rw [p8.size, p7.size, p6.size, z5]
  have c8 : ∀ i, 0 ≤ i → i < a.n → d8.get (c + i) = F.cell sg th V (fun i => s.mem.get (c + i)) i := fun i h0 h1 => by
    rw [p8.hit i h0 h1, p7.hit i h0 h1, p7.frame (c + i) (by omega), p6.hit i h0 h1, q5 _ (by omega), q2 i h0 h1, p6.frame _ (by omega),
      p6.frame _ (by omega), q1 i h0 h1, q0 i h0 h1]
    rfl
  have o8 : ∀ i, 0 ≤ i → i < a.n → d8.get (a.scr + 3 * a.n + i) = sg (V 3 i) := fun i h0 h1 => by
    rw [p8.frame _ (by omega), p7.frame _ (by omega), p6.frame _ (by omega), q3 i h0 h1]
  have f8 : ∀ x, (x < a.scr ∨ a.scr + 4 * a.n ≤ x) → (x < c ∨ c + a.n ≤ x) → d8.get x = s.mem.get x := fun x hx hxc => by
    rw [p8.frame _ (by omega), p7.frame _ (by omega), p6.frame _ (by omega), q5 x hx]
  clear p6 p7 p8 q0 q1 q2 q3 q5
  -- the output
  have fin : ∃ d', (match F.act with
      | .none => elt1D F.mulOut tc (a.gateT 3).base s.op d8
      | .some f => (runAct f tc (a.outT s.op) d8).bind fun d => elt1D F.mulOut (a.outT s.op) (a.gateT 3).base s.op d) = some d' ∧
      d8.Puts s.op a.n (fun i => F.mulOut (ac (d8.get (c + i))) (sg (V 3 i))) d' := by
    rw [r3.base]
    cases hact : F.act with
    | none =>
      obtain ⟨d9, e9, p9⟩ := elt1D_puts (f := F.mulOut) (d := d8) (p2 := a.scr + 3 * a.n) (po := s.op) hcl hc.base (by omega) (by omega) (by omega)
        (by omega) (by unfold RowSep; omega) (by unfold RowSep; omega)
      refine ⟨d9, e9, p9.size, fun i h0 h1 => ?_, p9.frame⟩
      rw [p9.hit i h0 h1, o8 i h0 h1, hF.none hact]
      rfl
    | some f =>
      have ro : RowT (a.outT s.op) a.n s.op := ⟨Or.inl rfl, rfl, hok.es, n1, hcap.1, hcap.2⟩
      obtain ⟨d9, e9, p9⟩ := (hF.some f hact).run (d := d8) hc ro hcd (by omega) (by omega) (by unfold RowSep; omega)
        (fun i h0 h1 => by rw [c8 i h0 h1]; exact hF.addC _ _)
      obtain ⟨d10, e10, p10⟩ := elt1D_puts (f := F.mulOut) (t1 := a.outT s.op) (n := a.n) (p1 := s.op) (d := d9) (p2 := a.scr + 3 * a.n) (po := s.op) rfl rfl
        (by omega) (by rw [p9.size]; omega) (by rw [p9.size]; omega) (by rw [p9.size]; omega) (Or.inl rfl) (by unfold RowSep; omega)
      refine ⟨d10, by show (runAct f tc (a.outT s.op) d8).bind _ = _; rw [e9, Option.bind_some]; exact e10, p10.size.trans p9.size, ?_, ?_⟩
      · intro i h0 h1
        rw [p10.hit i h0 h1, p9.hit i h0 h1, p9.frame (a.scr + 3 * a.n + i) (by omega), o8 i h0 h1]
      · intro x hx
        rw [p10.frame x hx, p9.frame x hx]
  obtain ⟨d', e', p'⟩ := fin
  refine ⟨d', congrArg (Option.map fun d => a.next s d) e', p'.size.trans z8, ?_, ?_, ?_⟩
  · intro i h0 h1
    rw [p'.frame _ (by omega), c8 i h0 h1]
  · intro i h0 h1
    rw [p'.hit i h0 h1]
    show _ = F.mulOut (ac (d'.get (c + i))) (sg (V 3 i))
    rw [p'.frame (c + i) (by omega)]
  · intro x hx hxc hxo
    rw [p'.frame x hxo, f8 x hx hxc]

/-- A step on elements: output and cell. -/
def lstmPure (D : CellDense) (F : LstmFn) (a : CellArgs) (sg th ac : Int → Int) (first : Bool) (X H C : Int → Int) : (Int → Int) × (Int → Int) :=
  (F.out sg ac (fun g => D.val a first g X H) (F.cell sg th (fun g => D.val a first g X H) C), F.cell sg th (fun g => D.val a first g X H) C)

/-- The kernel after its checks. -/
theorem lstmRun_ok {D : CellDense} {F : LstmFn} {a : CellArgs} {tc : Tensor} {w ww : Nat} {B : Int} {sg th ac : Int → Int} {mem : Buf}
    (hok : a.Ok 4 mem.size) (hs : D.Safe a 4 w ww B) (hF : F.Ok w sg th ac) {c : Int} (hc : RowT tc a.n c) (hcd : tc.dims = [⟨a.n, 1⟩])
    (hcap : a.n * a.tin.es ≤ a.tout.cap ∧ a.tout.cap ≤ int32Max)
    (s1 : 1 ≤ a.seq) (hst : a.tin.strides.getD 0 0 = a.k)
    (bx : 0 ≤ a.tin.base ∧ a.tin.base + a.seq * a.k ≤ mem.size) (bh : 0 ≤ a.tprev.base ∧ a.tprev.base + a.n ≤ mem.size)
    (bo : 0 ≤ a.tout.base ∧ a.tout.base + a.rows * a.n ≤ mem.size) (bc : 0 ≤ c ∧ c + a.n ≤ mem.size)
    (dx : Apart a.tin.base (a.seq * a.k) a.scr (4 * a.n)) (dh : Apart a.tprev.base a.n a.scr (4 * a.n))
    (dO : Apart a.tout.base (a.rows * a.n) a.scr (4 * a.n)) (dc : Apart c a.n a.scr (4 * a.n)) (dco : Apart c a.n a.tout.base (a.rows * a.n))
    (dxo : Apart a.tin.base (a.seq * a.k) a.tout.base (a.rows * a.n)) (dxc : Apart a.tin.base (a.seq * a.k) c a.n)
    (rx : ∀ t : Nat, (t : Int) < a.seq → RowIn w a.k fun i => mem.get (a.xAt t + i)) (rh : RowIn w a.n fun i => mem.get (a.tprev.base + i)) :
    let T := cellTrace (lstmPure D F a sg th ac) (fun t i => mem.get (a.xAt t + i)) (fun i => mem.get (a.tprev.base + i)) fun i => mem.get (c + i)
    ∃ s', lstmRun D F a tc mem = some s' ∧ s'.mem.size = mem.size ∧
      (∀ i, 0 ≤ i → i < a.n → s'.mem.get (c + i) = (T a.seq.toNat).2 i) ∧
      (a.all = true → ∀ t : Nat, (t : Int) < a.seq → ∀ i, 0 ≤ i → i < a.n → s'.mem.get (a.tout.base + t * a.n + i) = (T (t + 1)).1 i) ∧
      (a.all = false → ∀ i, 0 ≤ i → i < a.n → s'.mem.get (a.tout.base + i) = (T a.seq.toNat).1 i) ∧
      ∀ x, (x < a.scr ∨ a.scr + 4 * a.n ≤ x) → (x < c ∨ c + a.n ≤ x) → (x < a.tout.base ∨ a.tout.base + a.rows * a.n ≤ x) →
        s'.mem.get x = mem.get x := by
  refine cellLoop (a := a) (G := 4) (w := w) (R := fun _ _ => True) (c := c) (m := a.n) (lstmPure D F a sg th ac) (fun _ _ _ _ _ => hF.mulOut _ _)
    (fun s X H C hi => ?_) hok.n1 hok.k1 s1 hst bx bh bo dx dh dO dc dco dxo dxc trivial (fun _ => trivial) (fun _ => trivial) _ _ _
    (fun _ _ _ _ _ => rfl) (fun _ _ _ => rfl) (fun _ _ _ => rfl) rx rh
  have hsz := hi.size
  obtain ⟨d', h1, h2, h3, h4, h5⟩ := lstmStep_ok (s := s) (by rw [hsz]; exact hok) hs hF hc hcd hcap (by rw [hsz]; exact hi.bx) (by rw [hsz]; exact hi.bh)
    (by rw [hsz]; exact bc) (by rw [hsz]; exact hi.bo) hi.dx hi.dh dc hi.dO hi.dco
    (fun i g0 g1 => by show InRange w (s.mem.get (s.xp + i)); rw [hi.vx i g0 g1]; exact hi.rx i g0 g1)
    (fun i g0 g1 => by show InRange w (s.mem.get (s.hp + i)); rw [hi.vh i g0 g1]; exact hi.rh i g0 g1)
  have e : (fun g => D.val a s.first g (fun i => s.mem.get (s.xp + i)) fun i => s.mem.get (s.hp + i)) = fun g => D.val a s.first g X H := by
    funext g
    exact D.val_congr a s.first g hi.vx hi.vh
  rw [e] at h3 h4
  have h3' : ∀ i, 0 ≤ i → i < a.n → d'.get (c + i) = F.cell sg th (fun g => D.val a s.first g X H) C i := fun i g0 g1 => by
    rw [h3 i g0 g1]
    show F.addC (F.mulC (s.mem.get (c + i)) _) _ = _
    rw [hi.vc i g0 g1]
    rfl
  refine ⟨d', h1, h2.trans hsz, h3', fun i g0 g1 => ?_, h5⟩
  rw [h4 i g0 g1]
  unfold LstmFn.out
  show F.mulOut (ac (d'.get (c + i))) _ = _
  rw [h3' i g0 g1]
  rfl

end Mli
