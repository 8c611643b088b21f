import Verif.Lemmas.LstmAll
import Verif.Model.Gru

/-! # The steps of the GRU cell -/

namespace Mli

open Spec

/-- The functions of a step on elements: sigmoid and hyperbolic tangent. -/
structure GruFn.Ok (F : GruFn) (w : Nat) (sg th : Int → Int) : Prop where
  sigm : ActOk w F.sigm sg
  tanh : ActOk w F.tanh th
  mulR : ∀ f x y, InRange w (F.mulR f x y)
  addO : ∀ f x y, InRange w (F.addO f x y)

/-- Product of reset gate and hidden state. -/
def gruReset (D : CellDense) (F : GruFn) (a : CellArgs) (sg : Int → Int) (first : Bool) (X H : Int → Int) (i : Int) : Int :=
  F.mulR first (sg (D.val a first 1 X H i)) (H i)

/-- The output of a step. -/
def gruOut (D : CellDense) (F : GruFn) (a : CellArgs) (sg th : Int → Int) (first : Bool) (X H : Int → Int) (i : Int) : Int :=
  F.addO first (F.mulN (th (D.val a first 2 X (gruReset D F a sg first X H) i)) (F.subU (sg (D.val a first 0 X H i))))
    (F.mulH first (H i) (sg (D.val a first 0 X H i)))

theorem eltOne_puts {f : Int → Int} {t : Tensor} {n p : Int} {d : Buf} (hn : (t.shape.getLast?).getD 0 = n) (hp : t.base = p) (h0 : 0 ≤ n)
    (b : 0 ≤ p ∧ p + n ≤ d.size) : ∃ d', eltOne f t d = some d' ∧ d.Puts p n (fun i => f (d.get (p + i))) d' := by
  unfold eltOne
  rw [hn, hp]
  apply forRange_puts _ _ h0 b
  intro i hi d' hd hfr
  rw [Buf.rd_some (by omega), Option.bind_some, hfr _ (by omega)]

theorem CellArgs.Ok.newBias {a : CellArgs} {sz : Int} (h : a.Ok 3 sz) : a.newBias = some (a.tb.base + 2 * a.tb.strides.getD 0 0) := by
  obtain ⟨b0, eb⟩ := h.tb
  have n1 := h.n1
  have hn := (h.vb.typed.1 ⟨a.n, 1⟩ (by simp [eb])).2.1
  simp only at hn
  have hsub : subCfgOk a.tb.dims [2, 0] [1, a.tb.shape.getD 1 0] = true := by
    simp only [eb, Tensor.shape, List.map_cons, List.map_nil, List.getD_cons_succ, List.getD_cons_zero, subCfgOk, Bool.and_eq_true, decide_eq_true_eq, and_true]
    refine ⟨⟨by norm_num, by norm_num⟩, by omega, ?_⟩
    rw [Int.emod_eq_of_lt (by omega) (by omega)]; omega
  have hlen : ¬ 2 > a.tb.dims.length := by simp [eb]
  unfold CellArgs.newBias createSubtensor
  simp only [h.vb.accepted, Option.bind_eq_bind, Option.bind_some, ne_eq, not_true_eq_false, if_false, hlen, hsub, Bool.not_true,
    Bool.false_eq_true, Option.pure_def]
  simp [eb, Tensor.strides, bufOffset]

/-- One step of the cell. -/
theorem gruStep_ok {D : CellDense} {F : GruFn} {a : CellArgs} {w ww : Nat} {B : Int} {sg th : Int → Int} {s : CellSt}
    (hok : a.Ok 3 s.mem.size) (hs : D.Safe a 3 w ww B) (hF : F.Ok w sg th) (hpr : a.tprev.dims = [⟨a.n, 1⟩])
    (bx : 0 ≤ s.xp ∧ s.xp + a.k ≤ s.mem.size) (bh : 0 ≤ s.hp ∧ s.hp + a.n ≤ s.mem.size) (bo : 0 ≤ s.op ∧ s.op + a.n ≤ s.mem.size)
    (dx : Apart s.xp a.k a.scr (3 * a.n)) (dh : Apart s.hp a.n a.scr (3 * a.n)) (do' : Apart s.op a.n a.scr (3 * a.n))
    (dxo : Apart s.xp a.k s.op a.n) (dho : RowSep a.n s.hp s.op)
    (rx : RowIn w a.k fun i => s.mem.get (s.xp + i)) (rh : RowIn w a.n fun i => s.mem.get (s.hp + i)) :
    ∃ d', gruStep D F a s = some (a.next s d') ∧ d'.size = s.mem.size ∧
      (∀ i, 0 ≤ i → i < a.n → d'.get (s.op + i) = gruOut D F a sg th s.first (fun i => s.mem.get (s.xp + i)) (fun i => s.mem.get (s.hp + i)) i) ∧
      ∀ x, (x < a.scr ∨ a.scr + 3 * a.n ≤ x) → (x < s.op ∨ s.op + a.n ≤ x) → d'.get x = s.mem.get x := by
  have n1 := hok.n1
  unfold Apart at *
  have r0 := hok.row (g := 0) (by omega)
  have r1 := hok.row (g := 1) (by omega)
  have r2 := hok.row (g := 2) (by omega)
  rw [show a.scr + ((0 : Nat) : Int) * a.n = a.scr by simp] at r0
  rw [show a.scr + ((1 : Nat) : Int) * a.n = a.scr + a.n by simp] at r1
  rw [show a.scr + ((2 : Nat) : Int) * a.n = a.scr + 2 * a.n by simp] at r2
  have hscr := hok.scr
  push_cast at hscr
  unfold gruStep
  rw [hok.gate (g := 0) (by omega), Option.bind_some, hok.gate (g := 1) (by omega), Option.bind_some, hok.gate (g := 2) (by omega), Option.bind_some,
    hok.newBias, Option.bind_some]
  obtain ⟨d1, e1, z1, v1, f1⟩ := rnnStacked_puts hok hs (first := s.first) (xp := s.xp) (hp := s.hp) (gates := 2) (by omega) bx bh (by push_cast; omega)
    (by push_cast; omega) rx rh
  have v0 := v1 0 (by omega)
  have v1' := v1 1 (by omega)
  simp only [Nat.cast_zero, Int.zero_mul, Int.add_zero, Nat.cast_one, Int.one_mul] at v0 v1'
  generalize hX : (fun i => s.mem.get (s.xp + i)) = X at *
  generalize hH : (fun i => s.mem.get (s.hp + i)) = H at *
  have gH : ∀ i, s.mem.get (s.hp + i) = H i := fun i => by rw [← hH]
  have gX : ∀ i, s.mem.get (s.xp + i) = X i := fun i => by rw [← hX]
  have hVr : ∀ g X H i, InRange w (D.val a s.first g X H i) := fun g X H i => hs.store _
  push_cast at f1
  rw [e1, Option.bind_some]
  clear e1 v1
  -- sigmoid of the update gate
  obtain ⟨d2, e2, p2⟩ := hF.sigm.run (d := d1) r0 r0 rfl (by omega) (by omega) (Or.inl rfl) (fun i h0 h1 => by rw [v0 i h0 h1]; exact hVr _ _ _ _)
  rw [e2, Option.bind_some]; clear e2
  have z2 : d2.size = s.mem.size := by rw [p2.size, z1]
  -- sigmoid of the reset gate
  have g1 : ∀ i, 0 ≤ i → i < a.n → d2.get (a.scr + a.n + i) = D.val a s.first 1 X H i := fun i h0 h1 => by rw [p2.frame _ (by omega), v1' i h0 h1]
  obtain ⟨d3, e3, p3⟩ := hF.sigm.run (d := d2) r1 r1 rfl (by omega) (by omega) (Or.inl rfl) (fun i h0 h1 => by rw [g1 i h0 h1]; exact hVr _ _ _ _)
  rw [e3, Option.bind_some]; clear e3
  have z3 : d3.size = s.mem.size := by rw [p3.size, z2]
  have q0 : ∀ i, 0 ≤ i → i < a.n → d3.get (a.scr + i) = sg (D.val a s.first 0 X H i) := fun i h0 h1 => by
    rw [p3.frame _ (by omega), p2.hit i h0 h1, v0 i h0 h1]
  have q1 : ∀ i, 0 ≤ i → i < a.n → d3.get (a.scr + a.n + i) = sg (D.val a s.first 1 X H i) := fun i h0 h1 => by
    rw [p3.hit i h0 h1, g1 i h0 h1]
  have q3 : ∀ x, (x < a.scr ∨ a.scr + 3 * a.n ≤ x) → d3.get x = s.mem.get x := fun x hx => by
    rw [p3.frame _ (by omega), p2.frame _ (by omega), f1 x (by omega)]
  clear p2 p3 v0 v1' g1 f1
  -- product of reset gate and hidden state
  obtain ⟨d4, e4, p4⟩ := elt1D_puts (f := F.mulR s.first) (t1 := a.gateT 1) (d := d3) (p2 := s.hp) (po := a.scr + a.n) (n := a.n) rfl r1.base (by omega)
    (by omega) (by omega) (by omega) (Or.inl rfl) (by unfold RowSep; omega)
  rw [show elt1D (F.mulR s.first) (a.gateT 1) s.hp (a.gateT 1).base d3 = some d4 by rw [r1.base]; exact e4, Option.bind_some]; clear e4
  have z4 : d4.size = s.mem.size := by rw [p4.size, z3]
  have w1 : ∀ i, 0 ≤ i → i < a.n → d4.get (a.scr + a.n + i) = gruReset D F a sg s.first X H i := fun i h0 h1 => by
    rw [p4.hit i h0 h1, q1 i h0 h1, q3 _ (by omega), gH]; rfl
  have w0 : ∀ i, 0 ≤ i → i < a.n → d4.get (a.scr + i) = sg (D.val a s.first 0 X H i) := fun i h0 h1 => by rw [p4.frame _ (by omega), q0 i h0 h1]
  have w3 : ∀ x, (x < a.scr ∨ a.scr + 3 * a.n ≤ x) → d4.get x = s.mem.get x := fun x hx => by rw [p4.frame _ (by omega), q3 x hx]
  clear p4 q0 q1 q3
  -- product of hidden state and update gate
  have hhid : ((a.hidT s.hp).shape.getLast?).getD 0 = a.n := by simp [CellArgs.hidT, Tensor.shape, hpr]
  obtain ⟨d5, e5, p5⟩ := elt1D_puts (f := F.mulH s.first) (t1 := a.hidT s.hp) (d := d4) (p1 := s.hp) (p2 := a.scr) (po := s.op) (n := a.n) hhid rfl (by omega)
    (by omega) (by omega) (by omega) dho (by unfold RowSep; omega)
  rw [show elt1D (F.mulH s.first) (a.hidT s.hp) (a.gateT 0).base s.op d4 = some d5 by rw [r0.base]; exact e5, Option.bind_some]; clear e5
  have z5 : d5.size = s.mem.size := by rw [p5.size, z4]
  have o5 : ∀ i, 0 ≤ i → i < a.n → d5.get (s.op + i) = F.mulH s.first (H i) (sg (D.val a s.first 0 X H i)) := fun i h0 h1 => by
    rw [p5.hit i h0 h1, w3 _ (by omega), gH, w0 i h0 h1]
  have x0 : ∀ i, 0 ≤ i → i < a.n → d5.get (a.scr + i) = sg (D.val a s.first 0 X H i) := fun i h0 h1 => by rw [p5.frame _ (by omega), w0 i h0 h1]
  have x1 : ∀ i, 0 ≤ i → i < a.n → d5.get (a.scr + a.n + i) = gruReset D F a sg s.first X H i := fun i h0 h1 => by rw [p5.frame _ (by omega), w1 i h0 h1]
  have x3 : ∀ x, (x < a.scr ∨ a.scr + 3 * a.n ≤ x) → (x < s.op ∨ s.op + a.n ≤ x) → d5.get x = s.mem.get x := fun x hx hxo => by
    rw [p5.frame _ hxo, w3 x hx]
  clear p5 w0 w1 w3 dh dho
  -- one minus the update gate
  obtain ⟨d6, e6, p6⟩ := eltOne_puts (f := F.subU) (t := a.gateT 0) (d := d5) (n := a.n) rfl r0.base (by omega) (by omega)
  rw [e6, Option.bind_some]; clear e6
  have z6 : d6.size = s.mem.size := by rw [p6.size, z5]
  have y0 : ∀ i, 0 ≤ i → i < a.n → d6.get (a.scr + i) = F.subU (sg (D.val a s.first 0 X H i)) := fun i h0 h1 => by rw [p6.hit i h0 h1, x0 i h0 h1]
  have y1 : ∀ i, 0 ≤ i → i < a.n → d6.get (a.scr + a.n + i) = gruReset D F a sg s.first X H i := fun i h0 h1 => by rw [p6.frame _ (by omega), x1 i h0 h1]
  have o6 : ∀ i, 0 ≤ i → i < a.n → d6.get (s.op + i) = F.mulH s.first (H i) (sg (D.val a s.first 0 X H i)) := fun i h0 h1 => by
    rw [p6.frame _ (by omega), o5 i h0 h1]
  have y3 : ∀ x, (x < a.scr ∨ a.scr + 3 * a.n ≤ x) → (x < s.op ∨ s.op + a.n ≤ x) → d6.get x = s.mem.get x := fun x hx hxo => by
    rw [p6.frame _ (by omega), x3 x hx hxo]
  have yx : ∀ i, 0 ≤ i → i < a.k → d6.get (s.xp + i) = X i := fun i h0 h1 => by rw [y3 _ (by omega) (by omega), gX]
  clear p6 x0 x1 x3 o5
  -- dense part of the new gate
  obtain ⟨d7, e7, p7⟩ := cellGate_puts (d := d6) (by rw [z6]; exact hok) hs (first := s.first) (xp := s.xp) (hp := a.scr + a.n) (g := 2) (by omega) (by omega) (by omega)
    (by push_cast; omega) (by push_cast; omega) (fun i h0 h1 => by show InRange w (d6.get (s.xp + i)); rw [yx i h0 h1]; exact rx i h0 h1)
    (fun i h0 h1 => by show InRange w (d6.get (a.scr + a.n + i)); rw [y1 i h0 h1]; exact hF.mulR _ _ _)
  have ec : cellGate D a s.first s.xp (a.scr + a.n) 2 d6 = rnnDenseMem D.aw (cellIns D a s.first s.xp (a.gateT 1).base 2) D.biasAdd D.store a.bias
      (a.tb.base + 2 * a.tb.strides.getD 0 0) (a.gateT 2).base a.n d6 := by
    obtain ⟨b0, eb⟩ := hok.tb
    have hn := (hok.vb.typed.1 ⟨a.n, 1⟩ (by simp [eb])).2.1
    have en : countElemNumPart a.tb 1 = a.n := by
      simp only at hn
      simp only [countElemNumPart, eb, List.drop_succ_cons, List.drop_zero, List.map_cons, List.map_nil, List.foldl_cons, List.foldl_nil]
      rw [Int.one_mul, Int.emod_eq_of_lt (by omega) hn]
    have es : a.tb.shape.getD 1 0 = a.n := by simp [Tensor.shape, eb]
    unfold cellGate
    rw [en, es, r1.base, r2.base]
    push_cast
    rfl
  rw [← ec, e7, Option.bind_some]; clear e7 ec
  rw [D.val_congr a s.first 2 yx y1] at p7
  push_cast at p7
  have z7 : d7.size = s.mem.size := by rw [p7.size, z6]
  -- tanh of the new gate
  have g2 : ∀ i, 0 ≤ i → i < a.n → d7.get (a.scr + 2 * a.n + i) = D.val a s.first 2 X (gruReset D F a sg s.first X H) i := fun i h0 h1 => p7.hit i h0 h1
  obtain ⟨d8, e8, p8⟩ := hF.tanh.run (d := d7) r2 r2 rfl (by omega) (by omega) (Or.inl rfl) (fun i h0 h1 => by rw [g2 i h0 h1]; exact hVr _ _ _ _)
  rw [e8, Option.bind_some]; clear e8
  have z8 : d8.size = s.mem.size := by rw [p8.size, z7]
  -- product with one minus the update gate
  obtain ⟨d9, e9, p9⟩ := elt1D_puts (f := F.mulN) (t1 := a.gateT 2) (d := d8) (p2 := a.scr) (po := a.scr + 2 * a.n) (n := a.n) rfl r2.base (by omega)
    (by omega) (by omega) (by omega) (Or.inl rfl) (by unfold RowSep; omega)
  rw [show elt1D F.mulN (a.gateT 2) (a.gateT 0).base (a.gateT 2).base d8 = some d9 by rw [r0.base, r2.base]; exact e9, Option.bind_some]; clear e9
  have z9 : d9.size = s.mem.size := by rw [p9.size, z8]
  have t2 : ∀ i, 0 ≤ i → i < a.n → d9.get (a.scr + 2 * a.n + i) =
      F.mulN (th (D.val a s.first 2 X (gruReset D F a sg s.first X H) i)) (F.subU (sg (D.val a s.first 0 X H i))) := fun i h0 h1 => by
    rw [p9.hit i h0 h1, p8.hit i h0 h1, g2 i h0 h1, p8.frame _ (by omega), p7.frame _ (by omega), y0 i h0 h1]
  have o9 : ∀ i, 0 ≤ i → i < a.n → d9.get (s.op + i) = F.mulH s.first (H i) (sg (D.val a s.first 0 X H i)) := fun i h0 h1 => by
    rw [p9.frame _ (by omega), p8.frame _ (by omega), p7.frame _ (by omega), o6 i h0 h1]
  have f9 : ∀ x, (x < a.scr ∨ a.scr + 3 * a.n ≤ x) → (x < s.op ∨ s.op + a.n ≤ x) → d9.get x = s.mem.get x := fun x hx hxo => by
    rw [p9.frame _ (by omega), p8.frame _ (by omega), p7.frame _ (by omega), y3 x hx hxo]
  clear p7 p8 p9 y0 y1 y3 yx o6 g2
  -- the output
  obtain ⟨d', e', p'⟩ := elt1D_puts (f := F.addO s.first) (t1 := a.gateT 2) (d := d9) (p2 := s.op) (po := s.op) (n := a.n) rfl r2.base (by omega)
    (by omega) (by omega) (by omega) (by unfold RowSep; omega) (Or.inl rfl)
  refine ⟨d', by rw [e']; rfl, p'.size.trans z9, fun i h0 h1 => ?_, fun x hx hxo => by rw [p'.frame x hxo, f9 x hx hxo]⟩
  rw [p'.hit i h0 h1, t2 i h0 h1, o9 i h0 h1]
  rfl

/-- A step on elements; a GRU has no cell. -/
def gruPure (D : CellDense) (F : GruFn) (a : CellArgs) (sg th : Int → Int) (first : Bool) (X H _C : Int → Int) : (Int → Int) × (Int → Int) :=
  (gruOut D F a sg th first X H, fun _ => 0)

/-- The step only depends on the elements. -/
theorem gruOut_congr {D D' : CellDense} {F F' : GruFn} {a a' : CellArgs} {sg th : Int → Int} {f f' : Bool}
    (hv : ∀ g X H, D'.val a' f g X H = D.val a f' g X H) (hR : F'.mulR f = F.mulR f') (hH : F'.mulH f = F.mulH f') (hO : F'.addO f = F.addO f')
    (hU : F'.subU = F.subU) (hN : F'.mulN = F.mulN) {X X' H H' : Int → Int}
    (hx : ∀ i, 0 ≤ i → i < a.k → X i = X' i) (hh : ∀ i, 0 ≤ i → i < a.n → H i = H' i) (i : Int) (h0 : 0 ≤ i) (h1 : i < a.n) :
    gruOut D' F' a' sg th f X H i = gruOut D F a sg th f' X' H' i := by
  have e1 : ∀ g, D'.val a' f g X H = D.val a f' g X' H' := fun g => by rw [hv, D.val_congr a f' g hx hh]
  have e2 : D'.val a' f 2 X (gruReset D' F' a' sg f X H) = D.val a f' 2 X' (gruReset D F a sg f' X' H') := by
    rw [hv]
    apply D.val_congr a f' 2 hx
    intro i h0 h1
    unfold gruReset
    rw [e1, hR, hh i h0 h1]
  unfold gruOut
  rw [e2, e1, hH, hO, hU, hN, hh i h0 h1]

/-- The kernel after its checks: the outputs of the steps. -/
theorem gru_all {D : CellDense} {F : GruFn} {a : CellArgs} {w ww : Nat} {B : Int} {sg th : Int → Int} {mem : Buf}
    (P : a.Placed 3 mem []) (hsh : a.Shapes 3 []) (hs : D.Safe a 3 w ww B) (hF : F.Ok w sg th) (hsep : RowSep a.n a.tprev.base a.tout.base)
    (hi : a.tin.Holds mem w) (hh : a.tprev.Holds mem w) :
    let T := cellTrace (gruPure D F a sg th) (a.input mem) (fun i => mem.get (a.tprev.addr [i])) fun _ => 0
    ∃ s', gruRun D F a mem = some s' ∧ a.Result 3 [] mem (fun t => (T t).1) (T a.seq.toNat).2 s'.mem ∧
      ∀ t : Nat, (t : Int) < a.seq → RowIn w a.k (a.input mem t) ∧ RowIn w a.n (T t).1 := by
  intro T
  have n1 := hsh.n1
  have s1 := hsh.s1
  obtain ⟨b0, b1, b2, b3, b4⟩ := P.bounds hsh
  have hok := hsh.ok (G := 3) P (by omega) (by omega)
  have ex : ∀ (t : Nat) i, mem.get (a.xAt t + i) = a.input mem t i := by
    intro t i
    unfold CellArgs.input CellArgs.xAt
    simp only [Tensor.addr, Tensor.strides, hsh.tin, List.map_cons, List.map_nil, offset]
    congr 1
    ring
  have eh : ∀ i, mem.get (a.tprev.base + i) = mem.get (a.tprev.addr [i]) := by
    intro i
    simp only [Tensor.addr, Tensor.strides, hsh.tprev, List.map_cons, List.map_nil, offset]
    congr 1
    ring
  have rx : ∀ t : Nat, (t : Int) < a.seq → RowIn w a.k (a.input mem t) := fun t ht i h0 h1 => hi _ (by
    simp only [Tensor.shape, hsh.tin, List.map_cons, List.map_nil]
    exact ⟨⟨by split <;> omega, by split <;> omega⟩, ⟨h0, h1⟩, trivial⟩)
  have rh : RowIn w a.n fun i => mem.get (a.tprev.addr [i]) := fun i h0 h1 => hh _ (by
    simp only [Tensor.shape, hsh.tprev, List.map_cons, List.map_nil]
    exact ⟨⟨h0, h1⟩, trivial⟩)
  have main := cellLoop (a := a) (step := gruStep D F a) (G := 3) (w := w) (R := RowSep a.n) (c := 0) (m := 0) (mem := mem) (gruPure D F a sg th)
    (fun _ _ _ _ _ => hF.addO _ _ _) (fun s X H C hi => by
      have hsz := hi.size
      obtain ⟨d', h1, h2, h3, h4⟩ := gruStep_ok (s := s) (by rw [hsz]; exact hok) hs hF hsh.tprev (by rw [hsz]; exact hi.bx) (by rw [hsz]; exact hi.bh)
        (by rw [hsz]; exact hi.bo) hi.dx hi.dh hi.dO hi.dxo hi.sep
        (fun i g0 g1 => by show InRange w (s.mem.get (s.xp + i)); rw [hi.vx i g0 g1]; exact hi.rx i g0 g1)
        (fun i g0 g1 => by show InRange w (s.mem.get (s.hp + i)); rw [hi.vh i g0 g1]; exact hi.rh i g0 g1)
      refine ⟨d', h1, h2.trans hsz, fun i g0 g1 => by omega, fun i g0 g1 => ?_, fun x y1 _ y3 => h4 x y1 y3⟩
      rw [h3 i g0 g1]
      exact gruOut_congr (fun _ _ _ => rfl) rfl rfl rfl rfl rfl hi.vx hi.vh i g0 g1)
    n1 hsh.k1 s1 b0 b1 b2 b3 P.dis P.dhs P.dos (Or.inl (by have := P.scr.1; omega)) (Or.inl (by omega)) P.dio (Or.inr (by omega)) hsep (fun x => Or.inl rfl)
    (fun x => Or.inr (Or.inl le_rfl)) (a.input mem) (fun i => mem.get (a.tprev.addr [i])) (fun _ => 0)
    (fun t _ i _ _ => ex t i) (fun i _ _ => eh i) (fun i _ _ => by omega) rx rh
  obtain ⟨s', h1, h2, h3, h4, h5, h6⟩ := main
  have ed : a.outDesc.dims = [⟨a.rows, a.n⟩, ⟨a.n, 1⟩] := rfl
  have ad : ∀ r i, a.outDesc.addr [r, i] = a.tout.base + r * a.n + i := by
    intro r i
    simp only [Tensor.addr, Tensor.strides, ed, List.map_cons, List.map_nil, offset]
    show a.tout.base + _ = _
    ring
  refine ⟨s', h1, ⟨h2, ?_, fun c hc => (by cases hc), ?_⟩, fun t ht => ⟨rx t ht, ?_⟩⟩
  · intro r i hri
    simp only [Tensor.shape, ed, List.map_cons, List.map_nil] at hri
    obtain ⟨⟨r0, r1⟩, ⟨i0, i1⟩, -⟩ := hri
    rw [ad]
    by_cases e : a.all = true
    · have er : a.rows = a.seq := by unfold CellArgs.rows; rw [if_pos e]
      have := h4 e r.toNat (by omega) i i0 i1
      rw [Int.toNat_of_nonneg r0] at this
      rw [this, if_pos e]
    · have er : a.rows = 1 := by unfold CellArgs.rows; rw [if_neg e]
      have e' : a.all = false := by simpa using e
      obtain rfl : r = 0 := by omega
      rw [Int.zero_mul, Int.add_zero, h5 e' i i0 i1, if_neg e]
  · intro x hx _ hxo
    apply h6 x hx (by omega)
    by_contra hn
    have q := Int.emod_add_mul_ediv (x - a.tout.base) a.n
    have q0 := Int.emod_nonneg (x - a.tout.base) (show a.n ≠ 0 by omega)
    have q1 := Int.emod_lt_of_pos (x - a.tout.base) (show 0 < a.n by omega)
    refine hxo ((x - a.tout.base) / a.n) ((x - a.tout.base) % a.n) ?_ ?_
    · simp only [Tensor.shape, ed, List.map_cons, List.map_nil]
      exact ⟨⟨Int.ediv_nonneg (by omega) (by omega), Int.ediv_lt_of_lt_mul (by omega) (by omega)⟩, ⟨q0, q1⟩, trivial⟩
    · rw [ad, Int.mul_comm]; omega
  · cases t with
    | zero => exact rh
    | succ t => exact fun i _ _ => hF.addO _ _ _

end Mli
