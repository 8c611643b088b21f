import Verif.Lemmas.Rows

/-! # The dense part of the recurrent cells -/

namespace Mli

open Spec

/-- What the check of a recurrent cell with `G` gates guarantees about the shapes, and where the data is. -/
structure CellArgs.Ok (a : CellArgs) (G : Nat) (sz : Int) : Prop where
  n1 : 1 ≤ a.n
  k1 : 1 ≤ a.k
  wi : ∃ s0 s1, a.twi.dims = [⟨G, s0⟩, ⟨a.k, s1⟩, ⟨a.n, 1⟩]
  wo : ∃ s0 s1, a.two.dims = [⟨G, s0⟩, ⟨a.n, s1⟩, ⟨a.n, 1⟩]
  tb : ∃ s0, a.tb.dims = [⟨G, s0⟩, ⟨a.n, 1⟩]
  vi : a.twi.Valid a.wi
  vo : a.two.Valid a.wo
  vb : a.tb.Valid a.bias
  es : a.tin.es = 1 ∨ a.tin.es = 2
  need : G * a.n * a.tin.es ≤ a.scrCap
  cap : a.scrCap ≤ int32Max
  scr : 0 ≤ a.scr ∧ a.scr + G * a.n ≤ sz

/-- The dense part of gate `g` for the input `X` and the recurrent input `H`. -/
def CellDense.val (D : CellDense) (a : CellArgs) (first : Bool) (g : Nat) (X H : Int → Int) (o : Int) : Int :=
  D.store (addFx D.aw
    (addFx D.aw 0 (D.req first g 0 (D.biasAdd (a.bias.get (a.tb.addr [(g : Int), o])) +
      dotSum a.k (fun i => X i - D.zx first 0) fun i => a.wi.get (a.twi.addr [(g : Int), i, o]))))
    (D.req first g 1 (dotSum a.n (fun i => H i - D.zx first 1) fun i => a.wo.get (a.two.addr [(g : Int), i, o]))))

/-- No accumulator overflows, whatever the `w`-bit inputs. -/
structure CellDense.Safe (D : CellDense) (a : CellArgs) (G w ww : Nat) (B : Int) : Prop where
  hwi : a.twi.Holds a.wi ww
  hwo : a.two.Holds a.wo ww
  zw : ∀ i, D.zw i = 0
  zx : ∀ f i, wrap 16 (-(D.zx f i)) = -(D.zx f i)
  b1 : ∀ x y, InRange w x → InRange ww y → |x * y| ≤ B
  b2 : ∀ f i x y, InRange w x → InRange ww y → |(x - D.zx f i) * y| ≤ B
  bias : ∀ g o, InShape a.tb.shape [g, o] → |D.biasAdd (a.bias.get (a.tb.addr [g, o]))| + a.k * B ≤ hi D.aw
  recur : a.n * B ≤ hi D.aw
  store : ∀ x, InRange w (D.store x)

/-- Elements of a row in range. -/
def RowIn (w : Nat) (n : Int) (X : Int → Int) : Prop := ∀ i, 0 ≤ i → i < n → InRange w (X i)

theorem dotSum_congr {n : Int} {X X' W W' : Int → Int} (h : ∀ i, 0 ≤ i → i < n → X i = X' i ∧ W i = W' i) : dotSum n X W = dotSum n X' W' := by
  unfold dotSum
  apply Finset.sum_congr rfl
  intro i hi
  have := Finset.mem_range.1 hi
  obtain ⟨h1, h2⟩ := h i (by omega) (by omega)
  rw [h1, h2]

theorem rowW {t : Tensor} {b : Buf} (v : t.Valid b) {G k n s0 s1 : Int} (e : t.dims = [⟨G, s0⟩, ⟨k, s1⟩, ⟨n, 1⟩]) {g i o : Int}
    (hg : 0 ≤ g ∧ g < G) (hi : 0 ≤ i ∧ i < k) (ho : 0 ≤ o ∧ o < n) :
    InShape t.shape [g, i, o] ∧ b.rd (t.base + g * t.strides.getD 0 0 + o + t.strides.getD 1 0 * i) = some (b.get (t.addr [g, i, o])) := by
  have hs : InShape t.shape [g, i, o] := by
    simp only [Tensor.shape, e, List.map_cons, List.map_nil]
    exact ⟨hg, hi, ho, trivial⟩
  refine ⟨hs, ?_⟩
  rw [← v.rd hs rfl]
  congr 1
  simp only [Tensor.addr, Tensor.strides, e, List.map_cons, List.map_nil, offset, List.getD_cons_zero, List.getD_cons_succ]
  ring

theorem rowB {t : Tensor} {b : Buf} (v : t.Valid b) {G n s0 : Int} (e : t.dims = [⟨G, s0⟩, ⟨n, 1⟩]) {g o : Int}
    (hg : 0 ≤ g ∧ g < G) (ho : 0 ≤ o ∧ o < n) :
    InShape t.shape [g, o] ∧ t.addr [g, o] = t.base + g * t.strides.getD 0 0 + o ∧ 0 ≤ t.addr [g, o] ∧ t.addr [g, o] < b.size := by
  have hs : InShape t.shape [g, o] := by
    simp only [Tensor.shape, e, List.map_cons, List.map_nil]
    exact ⟨hg, ho, trivial⟩
  refine ⟨hs, ?_, v.inBounds hs⟩
  simp only [Tensor.addr, Tensor.strides, e, List.map_cons, List.map_nil, offset, List.getD_cons_zero]
  ring

/-- One gate of the dense part. -/
theorem cellGate_puts {D : CellDense} {a : CellArgs} {G w ww : Nat} {B : Int} {d : Buf} (hok : a.Ok G d.size) (hs : D.Safe a G w ww B)
    {first : Bool} {xp hp : Int} {g : Nat} (hg : g < G) (bx : 0 ≤ xp ∧ xp + a.k ≤ d.size) (bh : 0 ≤ hp ∧ hp + a.n ≤ d.size)
    (dx : xp + a.k ≤ a.scr + g * a.n ∨ a.scr + (g + 1) * a.n ≤ xp) (dh : hp + a.n ≤ a.scr + g * a.n ∨ a.scr + (g + 1) * a.n ≤ hp)
    (rx : RowIn w a.k fun i => d.get (xp + i)) (rh : RowIn w a.n fun i => d.get (hp + i)) :
    ∃ d', cellGate D a first xp hp g d = some d' ∧
      d.Puts (a.scr + g * a.n) a.n (D.val a first g (fun i => d.get (xp + i)) fun i => d.get (hp + i)) d' := by
  obtain ⟨i0, i1, ei⟩ := hok.wi
  obtain ⟨o0, o1, eo⟩ := hok.wo
  obtain ⟨b0, eb⟩ := hok.tb
  have n1 := hok.n1
  have k1 := hok.k1
  have hGn : ((g : Int) + 1) * a.n ≤ G * a.n := mul_le_mul_of_nonneg_right (by omega) (by omega)
  have hg0 : 0 ≤ (g : Int) * a.n := mul_nonneg (by omega) (by omega)
  have hexp : ((g : Int) + 1) * a.n = g * a.n + a.n := by ring
  have hsc := hok.scr
  have ec : countElemNumPart a.tb 1 = a.n := by
    have : a.n < 2 ^ 32 := by
      have := hok.vb.typed.1 ⟨a.n, 1⟩ (by rw [eb]; simp)
      exact this.2.1
    simp only [countElemNumPart, eb, List.drop_succ_cons, List.drop_zero, List.map_cons, List.map_nil, List.foldl_cons, List.foldl_nil]
    rw [Int.one_mul, Int.emod_eq_of_lt (by omega) this]
  have es : a.tb.shape.getD 1 0 = a.n := by simp [Tensor.shape, eb]
  unfold cellGate
  rw [ec, es]
  have hgi : 0 ≤ (g : Int) ∧ (g : Int) < G := ⟨by omega, by omega⟩
  set X : Int → Int := fun i => d.get (xp + i) with hX
  set H : Int → Int := fun i => d.get (hp + i) with hH
  set Wi : Int → Int → Int := fun i o => a.wi.get (a.twi.addr [(g : Int), i, o]) with hWi
  set Wo : Int → Int → Int := fun i o => a.wo.get (a.two.addr [(g : Int), i, o]) with hWo
  have bofs : ∀ o : Int, 0 ≤ o → o < a.n → a.tb.addr [(g : Int), o] = a.tb.base + g * a.tb.strides.getD 0 0 + o := fun o h0 h1 =>
    (rowB hok.vb eb hgi ⟨h0, h1⟩).2.1
  obtain ⟨d', h1, h2⟩ := rnnDenseMem_puts (aw := D.aw) (ins := cellIns D a first xp hp g) (biasAdd := D.biasAdd) (store := D.store)
    (bias := a.bias) (bp := a.tb.base + g * a.tb.strides.getD 0 0) (op := a.scr + g * a.n) (m := a.n) (d := d) 2
    (fun o k => if k = 0 then D.req first g 0 (D.biasAdd (a.bias.get (a.tb.addr [(g : Int), o])) + dotSum a.k (fun i => X i - D.zx first 0) fun i => Wi i o)
      else D.req first g 1 (dotSum a.n (fun i => H i - D.zx first 1) fun i => Wo i o))
    (by omega) (by constructor <;> omega) (by
      obtain ⟨-, e1, e2, e3⟩ := rowB hok.vb eb hgi (o := 0) ⟨le_refl _, by omega⟩
      obtain ⟨-, f1, f2, f3⟩ := rowB hok.vb eb hgi (o := a.n - 1) ⟨by omega, by omega⟩
      constructor <;> omega)
    (fun _ => rfl) (by
      intro i hi
      simp only [cellIns, List.mem_cons, List.not_mem_nil, or_false] at hi
      rcases hi with rfl | rfl <;> exact hs.zw _) (by
      intro d' hd hfr o ho k hk
      have okx : RnnIn.Ok (cellIns D a first xp hp g d')[0] a.n X Wi B := by
        refine ⟨hs.zw _, hs.zx _ _, ?_, ?_, ?_, ?_⟩
        · intro i hi
          have hi : i < a.k.toNat := hi
          show d'.rd (xp + i) = some (d.get (xp + i))
          rw [Buf.rd_some (by omega), hfr _ (by omega)]
        · intro o i ho hi
          have hi : i < a.k.toNat := hi
          exact (rowW hok.vi ei hgi ⟨by omega, by omega⟩ ⟨by omega, ho⟩).2
        · intro o i ho hi
          have hi : i < a.k.toNat := hi
          exact hs.b1 _ _ (rx i (by omega) (by omega)) (hs.hwi _ (rowW hok.vi ei hgi ⟨by omega, by omega⟩ ⟨by omega, ho⟩).1)
        · intro o i ho hi
          have hi : i < a.k.toNat := hi
          exact hs.b2 _ _ _ _ (rx i (by omega) (by omega)) (hs.hwi _ (rowW hok.vi ei hgi ⟨by omega, by omega⟩ ⟨by omega, ho⟩).1)
      have okh : RnnIn.Ok ((cellIns D a first xp hp g d')[1]'(by show 1 < 2; omega)) a.n H Wo B := by
        refine ⟨hs.zw _, hs.zx _ _, ?_, ?_, ?_, ?_⟩
        · intro i hi
          have hi : i < a.n.toNat := hi
          show d'.rd (hp + i) = some (d.get (hp + i))
          rw [Buf.rd_some (by omega), hfr _ (by omega)]
        · intro o i ho hi
          have hi : i < a.n.toNat := hi
          exact (rowW hok.vo eo hgi ⟨by omega, by omega⟩ ⟨by omega, ho⟩).2
        · intro o i ho hi
          have hi : i < a.n.toNat := hi
          exact hs.b1 _ _ (rh i (by omega) (by omega)) (hs.hwo _ (rowW hok.vo eo hgi ⟨by omega, by omega⟩ ⟨by omega, ho⟩).1)
        · intro o i ho hi
          have hi : i < a.n.toNat := hi
          exact hs.b2 _ _ _ _ (rh i (by omega) (by omega)) (hs.hwo _ (rowW hok.vo eo hgi ⟨by omega, by omega⟩ ⟨by omega, ho⟩).1)
      have hk2 : k < 2 := hk
      have hib := rowB hok.vb eb hgi (o := o) ⟨by omega, ho⟩
      rcases (by omega : k = 0 ∨ k = 1) with rfl | rfl
      · rw [if_pos rfl, if_pos rfl, ← hib.2.1]
        apply rnnTerm_eq D.aw okx ho
        have := hs.bias _ _ hib.1
        show _ + ((a.k.toNat : Nat) : Int) * B ≤ _
        rw [Int.toNat_of_nonneg (by omega)]
        exact this
      · rw [if_neg (by omega), if_neg (by omega)]
        rw [rnnTerm_eq D.aw okh ho (a := 0) (by
          have := hs.recur
          show |(0 : Int)| + ((a.n.toNat : Nat) : Int) * B ≤ _
          rw [Int.toNat_of_nonneg (by omega), abs_zero, Int.zero_add]
          exact this), Int.zero_add]
        rfl)
  refine ⟨d', h1, h2.size, ?_, h2.frame⟩
  intro o ho0 ho1
  rw [h2.hit o ho0 ho1]
  rfl

theorem CellDense.val_congr (D : CellDense) (a : CellArgs) (first : Bool) (g : Nat) {X X' H H' : Int → Int}
    (hx : ∀ i, 0 ≤ i → i < a.k → X i = X' i) (hh : ∀ i, 0 ≤ i → i < a.n → H i = H' i) : D.val a first g X H = D.val a first g X' H' := by
  funext o
  unfold CellDense.val
  rw [dotSum_congr (n := a.k) (X := fun i => X i - D.zx first 0) (X' := fun i => X' i - D.zx first 0) fun i h0 h1 => ⟨by
      show X i - _ = X' i - _; rw [hx i h0 h1], rfl⟩,
    dotSum_congr (n := a.n) (X := fun i => H i - D.zx first 1) (X' := fun i => H' i - D.zx first 1) fun i h0 h1 => ⟨by
      show H i - _ = H' i - _; rw [hh i h0 h1], rfl⟩]

/-- All gates of the dense part. -/
theorem rnnStacked_puts {D : CellDense} {a : CellArgs} {G w ww : Nat} {B : Int} {d : Buf} (hok : a.Ok G d.size) (hs : D.Safe a G w ww B)
    {first : Bool} {xp hp : Int} {gates : Nat} (hg : gates ≤ G) (bx : 0 ≤ xp ∧ xp + a.k ≤ d.size) (bh : 0 ≤ hp ∧ hp + a.n ≤ d.size)
    (dx : xp + a.k ≤ a.scr ∨ a.scr + G * a.n ≤ xp) (dh : hp + a.n ≤ a.scr ∨ a.scr + G * a.n ≤ hp)
    (rx : RowIn w a.k fun i => d.get (xp + i)) (rh : RowIn w a.n fun i => d.get (hp + i)) :
    ∃ d', rnnStacked D a first xp hp gates d = some d' ∧ d'.size = d.size ∧
      (∀ g : Nat, g < gates → ∀ i, 0 ≤ i → i < a.n →
        d'.get (a.scr + g * a.n + i) = D.val a first g (fun i => d.get (xp + i)) (fun i => d.get (hp + i)) i) ∧
      ∀ x, x < a.scr ∨ a.scr + gates * a.n ≤ x → d'.get x = d.get x := by
  have n1 := hok.n1
  obtain ⟨d', h1, h2, h3, h4⟩ := forRange_inv (n := gates) (f := cellGate D a first xp hp) (s := d)
    (fun g d' => d'.size = d.size ∧ (∀ g' : Nat, g' < g → ∀ i, 0 ≤ i → i < a.n →
        d'.get (a.scr + g' * a.n + i) = D.val a first g' (fun i => d.get (xp + i)) (fun i => d.get (hp + i)) i) ∧
      ∀ x, x < a.scr ∨ a.scr + g * a.n ≤ x → d'.get x = d.get x) ⟨rfl, fun g h => by omega, fun _ _ => rfl⟩ (by
    rintro g d1 hgg ⟨k1, k2, k3⟩
    have hGn : ((g : Int) + 1) * a.n ≤ G * a.n := mul_le_mul_of_nonneg_right (by omega) (by omega)
    have hg0 : 0 ≤ (g : Int) * a.n := mul_nonneg (by omega) (by omega)
    have hexp : ((g : Int) + 1) * a.n = g * a.n + a.n := by ring
    have hfx : ∀ i, 0 ≤ i → i < a.k → d1.get (xp + i) = d.get (xp + i) := fun i h0 h1 => k3 _ (by omega)
    have hfh : ∀ i, 0 ≤ i → i < a.n → d1.get (hp + i) = d.get (hp + i) := fun i h0 h1 => k3 _ (by omega)
    obtain ⟨d2, m1, m2⟩ := cellGate_puts (d := d1) (first := first) (xp := xp) (hp := hp) (by rw [k1]; exact hok) hs (g := g) (by omega)
      (by omega) (by omega) (by omega) (by omega) (fun i h0 h1 => by show InRange w (d1.get (xp + i)); rw [hfx i h0 h1]; exact rx i h0 h1)
      (fun i h0 h1 => by show InRange w (d1.get (hp + i)); rw [hfh i h0 h1]; exact rh i h0 h1)
    refine ⟨d2, m1, m2.size.trans k1, ?_, ?_⟩
    · intro g' hg' i h0 h1
      by_cases e : g' = g
      · rw [e, m2.hit i h0 h1, D.val_congr a first g hfx hfh]
      · have hlt : ((g' : Int) + 1) * a.n ≤ g * a.n := mul_le_mul_of_nonneg_right (by omega) (by omega)
        have hexp' : ((g' : Int) + 1) * a.n = g' * a.n + a.n := by ring
        rw [m2.frame _ (by omega), k2 g' (by omega) i h0 h1]
    · intro x hx
      push_cast at hx
      rw [m2.frame x (by omega), k3 x (by omega)])
  exact ⟨d', h1, h2, h3, h4⟩

/-- The tensor of gate `g`. -/
def CellArgs.gateT (a : CellArgs) (g : Nat) : Tensor :=
  { dims := [⟨1, a.n⟩, ⟨a.n, 1⟩], base := a.scr + g * a.n, cap := a.scrCap - g * a.n * a.tin.es, es := a.tin.es }

theorem CellArgs.Ok.gate {a : CellArgs} {G : Nat} {sz : Int} (h : a.Ok G sz) {g : Nat} (hg : g < G) : a.gate g = some (a.gateT g) := by
  obtain ⟨b0, eb⟩ := h.tb
  have es0 : a.tb.shape.getD 0 0 = G := by simp [Tensor.shape, eb]
  have es1 : a.tb.shape.getD 1 0 = a.n := by simp [Tensor.shape, eb]
  have n1 := h.n1
  have e1 : 1 ≤ a.tin.es := by have := h.es; omega
  have hG : (1 : Int) ≤ G := by omega
  have hnG : a.n ≤ G * a.n := by nlinarith
  have hGG : (G : Int) ≤ G * a.n := by nlinarith
  have hes : G * a.n ≤ G * a.n * a.tin.es := by nlinarith
  have hc := h.cap
  have hnd := h.need
  simp only [int32Max] at hc
  have hf : a.irT.footprint = G * a.n * a.tin.es := by
    rw [footprint_eq]
    simp only [CellArgs.irT, es0, es1, span, List.map_cons, List.map_nil, List.sum_cons, List.sum_nil]
    ring
  have hw : a.irT.WellTyped := by
    refine ⟨?_, by show 0 ≤ a.scrCap; omega, by show a.scrCap < _; omega, ?_⟩
    · intro d hd
      simp only [CellArgs.irT, es0, es1, List.mem_cons, List.not_mem_nil, or_false] at hd
      rcases hd with rfl | rfl
      · exact ⟨by show (0 : Int) ≤ G; omega, by show (G : Int) < _; omega, ⟨by show lo 32 ≤ a.n; simp only [lo]; omega, by show a.n ≤ hi 32; simp only [hi]; omega⟩⟩
      · exact ⟨by show (0 : Int) ≤ a.n; omega, by show a.n < _; omega, by show InRange 32 1; decide⟩
    · show a.tin.es = 1 ∨ a.tin.es = 2 ∨ a.tin.es = 4
      have := h.es; omega
  have hacc : checkTensorPrivate a.irT = some .ok := by
    refine (c10_check_decision_partial a.irT hw (by rw [hf]; simp only [int32Max]; omega) ?_).1.2 ⟨⟨by simp [CellArgs.irT], ?_, ?_, ?_⟩, ?_⟩
    · intro d hd
      simp only [CellArgs.irT, es0, es1, List.mem_cons, List.not_mem_nil, or_false] at hd
      rcases hd with rfl | rfl <;> simp only [int32Max] <;> omega
    · show a.scrCap ≤ _; simp only [int32Max]; omega
    · intro d hd
      simp only [CellArgs.irT, es0, es1, List.mem_cons, List.not_mem_nil, or_false] at hd
      rcases hd with rfl | rfl <;> simp only [int32Max] <;> omega
    · simp [CellArgs.irT, Tensor.shape, Tensor.strides, StridesNested]
    · rw [hf]; exact hnd
  unfold CellArgs.gate createSubtensor
  have hsub : subCfgOk a.irT.dims [(g : Int), 0] [1, a.tb.shape.getD 1 0] = true := by
    simp only [CellArgs.irT, es0, es1, subCfgOk, Bool.and_eq_true, decide_eq_true_eq, and_true]
    refine ⟨⟨by omega, ?_⟩, by omega, ?_⟩ <;> rw [Int.emod_eq_of_lt (by omega) (by omega)] <;> omega
  have hlen : ¬ 2 > a.irT.dims.length := by simp [CellArgs.irT]
  simp only [hacc, Option.bind_eq_bind, Option.bind_some, ne_eq, not_true_eq_false, if_false, hlen, hsub, Bool.not_true,
    Bool.false_eq_true, Option.pure_def]
  have es2 : a.tb.shape[1]?.getD 0 = a.n := by simp [Tensor.shape, eb]
  simp [CellArgs.irT, CellArgs.gateT, es2, subDims, bufOffset]

theorem CellArgs.Ok.row {a : CellArgs} {G : Nat} {sz : Int} (h : a.Ok G sz) {g : Nat} (hg : g < G) :
    RowT (a.gateT g) a.n (a.scr + g * a.n) := by
  have n1 := h.n1
  have hGn : ((g : Int) + 1) * a.n ≤ G * a.n := mul_le_mul_of_nonneg_right (by omega) (by omega)
  have hexp : ((g : Int) + 1) * a.n = g * a.n + a.n := by ring
  have e1 : 1 ≤ a.tin.es := by have := h.es; omega
  have h0 : 0 ≤ (g : Int) * a.n * a.tin.es := by positivity
  have hm := mul_le_mul_of_nonneg_right hGn (show 0 ≤ a.tin.es by omega)
  have hc := h.cap
  have hn := h.need
  rw [hexp, Int.add_mul] at hm
  exact ⟨Or.inr rfl, rfl, h.es, n1, by show a.n * a.tin.es ≤ a.scrCap - g * a.n * a.tin.es; omega, by
    show a.scrCap - g * a.n * a.tin.es ≤ _; omega⟩

end Mli
