import Verif.Lemmas.CellFx
import Verif.Props.Rnn
import Verif.Model.Lstm
import Verif.Props.EltSa

/-! # The 8-bit parts of the recurrent cells -/

namespace Mli

open Spec

/-! ## Activations -/

/-- One element of the activation of 8-bit elements. -/
theorem Approx.elem_sa {l : Lut} {g : ℝ → ℝ} {E C B L : ℝ} (h : Approx l g E C B L) (hL : 0 ≤ L) (hsm : l.Small) (m : Rnd)
    (hl : l.Ok) (hd : l.Smooth) (hfr : InRange 8 (l.inFrac + 8)) (hof : l.outFrac = 15)
    (o sc sh oo osh : Int) (hzp : InRange 8 o) (hsc : InRange 16 sc) (hoo : InRange 8 oo) (hos : osh ≤ 15) {v : Int} (hv : InRange 8 v) :
    ∃ y, lutElem m l (.sa o sc sh) (.sa oo osh) 0 v = some y ∧ InRange 8 y ∧
      |(y : ℝ) - limitReal 8 (2 ^ osh * g (fxReal ((v - o) * sc) sh) + oo)| ≤
        1 / 2 + (max B (E + C + 1 / 2) + 64 * L / 2 ^ l.inFrac) / 2 ^ (15 - osh) := by
  have ef : lutFrac l (.sa o sc sh) 0 = l.inFrac + 8 := by
    unfold lutFrac
    simp only []
    rw [show 15 - (7 - l.inFrac) = l.inFrac + 8 by omega]
    exact wrap_of_inRange (by omega) hfr
  obtain ⟨x, hx1, hx2⟩ := lutInput_sa m o sc sh (l.inFrac + 8) _ hv hzp hsc
  have hvr : InRange 32 (clamp 32 x) := clamp_inRange _ _
  obtain ⟨r, h1, h2⟩ := c29_interpolated m l (l.inFrac + 8) _ hvr hl hd (by omega)
  obtain ⟨r', h1', hr⟩ := c28_interpolate_in_table m l (l.inFrac + 8) _ hvr hl (by omega)
  obtain rfl : r = r' := by rw [h1] at h1'; exact Option.some.inj h1'
  obtain ⟨q, h3, h4⟩ := lutOutput_sa m l oo osh r hr hoo (by omega)
  rw [show l.inFrac + 8 - l.inFrac = 8 by omega] at h2
  norm_num at h2
  refine ⟨clamp 8 (q + oo), ?_, clamp_inRange _ _, ?_⟩
  · unfold lutElem
    simp only []
    rw [interp_lutInterpolates (by rw [ef]; omega), if_pos rfl, ef, hx2, h1, Option.bind_some, h4]
  have k5 := h.sa hL hsm m hl _ sh x r hx1 h2
  rw [clamp_limitReal]
  refine (limitReal_lip 8 _ _).trans ?_
  have k6 := scaled_real h3
  rw [hof] at k6
  generalize max B (E + C + 1 / 2) + 64 * L / 2 ^ l.inFrac = D at *
  generalize g (fxReal ((v - o) * sc) sh) = G at *
  have hP : (0:ℝ) < (2:ℝ) ^ (15 - osh) := by positivity
  have k7 : |fxReal r (15 - osh) - 2 ^ osh * G| ≤ D / 2 ^ (15 - osh) := by
    have e : fxReal r (15 - osh) - 2 ^ osh * G = (r - 2 ^ 15 * G) / 2 ^ (15 - osh) := by
      unfold fxReal
      rw [sub_div]
      congr 1
      rw [eq_div_iff hP.ne', mul_assoc, mul_comm G, ← mul_assoc, ← zpow_add₀ (by norm_num), show osh + (15 - osh) = (15 : Int) by ring]
      norm_num
    rw [e, abs_div, abs_of_pos hP]
    gcongr
  have e : ((q + oo : Int) : ℝ) - (2 ^ osh * G + oo) = (q - fxReal r (15 - osh)) + (fxReal r (15 - osh) - 2 ^ osh * G) := by push_cast; ring
  rw [e]
  exact (abs_add_le _ _).trans (add_le_add k6 k7)

theorem actSa {m : Rnd} {l : Lut} {o sc sh oo osh : Int} {Q : Int → Int → Prop}
    (h : ∀ v, InRange 8 v → ∃ y, lutElem m l (.sa o sc sh) (.sa oo osh) 0 v = some y ∧ InRange 8 y ∧ Q v y) :
    ∃ sg, ActOk 8 (krnActivationSa m l o sc sh oo osh) sg ∧ ∀ v, InRange 8 v → Q v (sg v) := by
  have key : ∀ v : Int, ∃ y : Int, InRange 8 v → lutElem m l (.sa o sc sh) (.sa oo osh) 0 v = some y ∧ InRange 8 y ∧ Q v y := by
    intro v
    by_cases hv : InRange 8 v
    · obtain ⟨y, hy⟩ := h v hv
      exact ⟨y, fun _ => hy⟩
    · exact ⟨0, fun h => absurd h hv⟩
  choose sg hsg using key
  refine ⟨sg, actOk_lut (m := m) (l := l) (ci := .sa o sc sh) (co := .sa oo osh) (fr := 0) (fun v hv => (hsg v hv).2.1) (fun v hv => (hsg v hv).1) ?_,
    fun v hv => (hsg v hv).2.2⟩
  intro ti tu d hchk
  unfold krnActivationSa
  simp only [hchk, Option.bind_eq_bind, Option.bind_some, ne_eq, not_true_eq_false, if_false]
  cases activationLut m l (.sa o sc sh) (.sa oo osh) 0 ti tu d <;> rfl

theorem sigmSa (m : Rnd) {o sc sh : Int} (hzp : InRange 8 o) (hsc : InRange 16 sc) :
    ∃ sg, ActOk 8 (krnActivationSa m sigmoidLut o sc sh (-128) 8) sg ∧ ∀ v, InRange 8 v → SigmSa ⟨o, sc, sh⟩ v (sg v) := by
  refine actSa fun v hv => ?_
  obtain ⟨y, h1, h2, h3⟩ := sigmoid_approx.elem_sa (by norm_num) sigmoid_small m sigmoid_ok.1 sigmoid_ok.2.1 (by decide) rfl o sc sh (-128) 8 hzp hsc
    (by decide) (by decide) hv
  refine ⟨y, h1, h2, ?_⟩
  unfold SigmSa Near
  simp only [sigmoidLut] at h3
  have e : (2 : ℝ) ^ (8 : Int) * Real.sigmoid (fxReal ((v - o) * sc) sh) + ((-128 : Int) : ℝ) =
      2 ^ 8 * Real.sigmoid (fxReal ((v - o) * sc) sh) - 128 := by
    norm_num; ring
  rw [e] at h3
  refine h3.trans ?_
  rw [show (2 : ℝ) ^ ((15 : Int) - 8) = 2 ^ 7 by norm_num]
  norm_num

theorem tanhSa (m : Rnd) {o sc sh : Int} (hzp : InRange 8 o) (hsc : InRange 16 sc) :
    ∃ sg, ActOk 8 (krnActivationSa m tanhLut o sc sh 0 7) sg ∧ ∀ v, InRange 8 v → TanhSa ⟨o, sc, sh⟩ v (sg v) := by
  refine actSa fun v hv => ?_
  obtain ⟨y, h1, h2, h3⟩ := tanh_approx.elem_sa (by norm_num) tanh_small m tanh_ok.1 tanh_ok.2.1 (by decide) rfl o sc sh 0 7 hzp hsc
    (by decide) (by decide) hv
  refine ⟨y, h1, h2, ?_⟩
  unfold TanhSa Near
  simp only [tanhLut] at h3
  have e : (2 : ℝ) ^ (7 : Int) * Real.tanh (fxReal ((v - o) * sc) sh) + ((0 : Int) : ℝ) = 2 ^ 7 * Real.tanh (fxReal ((v - o) * sc) sh) := by
    norm_num
  rw [e] at h3
  refine h3.trans ?_
  rw [show (2 : ℝ) ^ ((15 : Int) - 7) = 2 ^ 8 by norm_num]
  norm_num

/-! ## Products and sums -/

/-- The format of the specification. -/
def SaParams.fmt (q : SaParams) : SaFmt := ⟨q.zp, q.scale, q.frac⟩

theorem saSigm_ok : saSigm.Ok := ⟨by decide, by decide, by decide⟩
theorem saTanh_ok : saTanh.Ok := ⟨by decide, by decide, by decide⟩

theorem eltSaOut_range (m : Rnd) (x o : Int) : InRange 8 (eltSaOut m x o) := by
  unfold eltSaOut
  exact wrap_inRange _

theorem mulSa_range (m : Rnd) (p : EltParams) (a b : Int) : InRange 8 (eltSa m .mul p a b) := eltSaOut_range _ _ _
theorem addSa_range (m : Rnd) (p : EltParams) (a b : Int) : InRange 8 (eltSa m .add p a b) := eltSaOut_range _ _ _

theorem prodSa (m : Rnd) {q1 q2 qo : SaParams} (h1 : q1.Ok) (h2 : q2.Ok) (ho : qo.Ok) {a b : Int} (ha : InRange 8 a) (hb : InRange 8 b) :
    qo.fmt.Close (3 / 5) (q1.fmt.real a * q2.fmt.real b) (eltSa m .mul (eltParamsSa m .mul q1 q2 qo) a b) :=
  eltSa_spec m .mul h1 h2 ho (by simp) ha hb

theorem sumSa (m : Rnd) {q1 q2 qo : SaParams} (h1 : q1.Ok) (h2 : q2.Ok) (ho : qo.Ok) {a b : Int} (ha : InRange 8 a) (hb : InRange 8 b) :
    qo.fmt.Close (1 + (|q1.fmt.real a / qo.fmt.step| + |q2.fmt.real b / qo.fmt.step|) / 8192) (q1.fmt.real a + q2.fmt.real b)
      (eltSa m .add (eltParamsSa m .add q1 q2 qo) a b) :=
  eltSa_spec m .add h1 h2 ho (by simp) ha hb

/-! ## Dense part -/

theorem storeSa_range (m : Rnd) (q : SaQ) (x : Int) : InRange 8 (rnnStoreSa m q x) := by
  have h := castFx_range m 16 8 (addFx 16 (castFx0 32 16 x) (q.zpAt 0)) 0
  obtain ⟨a, b⟩ := h
  unfold rnnStoreSa
  simp only [lo, hi] at a b
  simp only [reluLimits, applyLimits, show wrap 16 (lo 8) = -2 ^ 7 by decide, show wrap 16 (hi 8) = 2 ^ 7 - 1 by decide]
  constructor <;> simp only [lo, hi] <;> split <;> split <;> omega

/-- The formats of the specification. -/
def CellSa.fmt (q : CellSa) : CellSaFmt :=
  { x := q.qi.params.fmt, o := q.qo.params.fmt, c := q.qc.params.fmt
    wi := fun g => scaleVal (q.qwi.scaleAt g) (q.qwi.fracAt g), wo := fun g => scaleVal (q.qwo.scaleAt g) (q.qwo.fracAt g) }

/-- The parameters are typed as in include/mli_types.h. -/
def CellSa.Typed (q : CellSa) : Prop := q.qi.Typed ∧ q.qh.Typed ∧ q.qwi.Typed ∧ q.qwo.Typed ∧ q.qc.Typed ∧ q.qo.Typed

instance (q : CellSa) : Decidable q.Typed := by unfold CellSa.Typed; infer_instance

/-- What the check of the quantization parameters guarantees. -/
structure CellSa.Ok (q : CellSa) (G : Nat) : Prop where
  i : q.qi.params.Ok
  h : q.qh.params.Ok
  o : q.qo.params.Ok
  wi : ∀ g : Nat, g < G → 0 < q.qwi.scaleAt g ∧ InRange 16 (q.qwi.scaleAt g)
  wo : ∀ g : Nat, g < G → 0 < q.qwo.scaleAt g ∧ InRange 16 (q.qwo.scaleAt g)
  zi : q.qwi.zpAt 0 = 0
  zo : q.qwo.zpAt 0 = 0

theorem params_ok {t : Tensor} {q : SaQ} (h : chkQuant t q 7 = .ok) (hd : q.dim < 0) (ht : q.Typed) : q.params.Ok := by
  obtain ⟨i1, i2, i3⟩ := chkQuant_ok h (k := 0) (Or.inl hd)
  simp only [show ¬ ((7 : Nat) = 0) by decide, if_false] at i2 i3
  exact ⟨⟨i2, i3⟩, i1, ht.scaleAt 0⟩

theorem weights_ok {t : Tensor} {q : SaQ} {G : Nat} (h : chkQuant t q 0 = .ok) (hd : q.dim < 0 ∨ q.dim = 0) (hG : t.shape.getD 0 0 = G) (h1 : 1 ≤ G) (ht : q.Typed) :
    (∀ g : Nat, g < G → 0 < q.scaleAt g ∧ InRange 16 (q.scaleAt g)) ∧ q.zpAt 0 = 0 := by
  have key : ∀ g : Nat, g < G → q.dim < 0 ∨ 0 ≤ (g : Int) ∧ (g : Int) < t.shape.getD q.dim.toNat 0 := fun g hg => by
    rcases hd with h | h
    · exact Or.inl h
    · rw [h, Int.toNat_zero, hG]; right; omega
  refine ⟨fun g hg => ⟨(chkQuant_ok h (key g hg)).1, ht.scaleAt g⟩, ?_⟩
  obtain ⟨-, w2, w3⟩ := chkQuant_ok h (key 0 (by omega))
  simp only [if_true] at w2 w3
  have e : ((0 : Nat) : Int) = 0 := rfl
  rw [e] at w2 w3
  omega

theorem chkCellSaQ_ok {m : Rnd} {q : CellSa} {a : CellArgs} {cell : List Tensor} {G : Nat} (hsh : a.Shapes G cell) (h1 : 1 ≤ G) (hlen : cell.length ≤ 1)
    (ht : q.Typed) (h : chkCellSaQ m q a cell = some .ok) : q.Ok G ∧ (cell ≠ [] → q.qc.params.Ok) := by
  unfold chkCellSaQ at h
  obtain ⟨⟨d1, d2, d3, d4, d5⟩, h⟩ := if_ok (by decide) h
  have step : ∀ {s : Status} {f : Option Status}, (if s ≠ .ok then some s else f) = some .ok → s = .ok ∧ f = some .ok := by
    intro s f h
    by_cases e : s = .ok
    · rw [if_neg (not_not.2 e)] at h; exact ⟨e, h⟩
    · rw [if_pos e] at h; exact absurd (Option.some.inj h) e
  obtain ⟨c1, h⟩ := step h
  obtain ⟨c2, h⟩ := step h
  obtain ⟨c3, hx⟩ := step h
  have hcell : (∀ c ∈ cell, chkQuant c q.qc 7 = .ok) ∧ (if chkQuant a.twi q.qwi 0 ≠ .ok then some (chkQuant a.twi q.qwi 0)
      else if chkQuant a.two q.qwo 0 ≠ .ok then some (chkQuant a.two q.qwo 0)
      else if chkQuant a.tb q.qb 0 ≠ .ok then some (chkQuant a.tb q.qb 0)
      else chkBiasLoop m q.qi q.qwi q.qb (if 0 ≤ q.qwi.dim then (a.twi.shape.getD q.qwi.dim.toNat 0).toNat else 1) 0) = some .ok := by
    by_cases e : ∀ c ∈ cell, chkQuant c q.qc 7 = .ok
    · rw [if_neg (not_not.2 e)] at hx; exact ⟨e, hx⟩
    · rw [if_pos e] at hx
      exfalso
      apply e
      intro c hc
      cases cell with
      | nil => cases hc
      | cons c' l =>
        simp only [List.head?_cons, Option.map_some, Option.some.injEq] at hx
        obtain rfl : l = [] := List.eq_nil_of_length_eq_zero (by simpa using hlen)
        obtain rfl := List.mem_singleton.1 hc
        exact hx
  obtain ⟨c4, h⟩ := hcell
  obtain ⟨c5, h⟩ := step h
  obtain ⟨c6, h⟩ := step h
  obtain ⟨t1, t2, t3, t4, t5, t6⟩ := ht
  obtain ⟨s0, s1, ei⟩ := hsh.wi
  obtain ⟨u0, u1, eo⟩ := hsh.wo
  have dw : (q.qwi.dim < 0 ∨ q.qwi.dim = 0) ∧ (q.qwo.dim < 0 ∨ q.qwo.dim = 0) := by
    split at d5
    · rename_i g; exact ⟨Or.inl g, Or.inl d5.1⟩
    · exact ⟨Or.inr d5.1, Or.inr d5.2.1⟩
  obtain ⟨w1, w2⟩ := weights_ok c5 dw.1 (G := G) (by simp [Tensor.shape, ei]) h1 t3
  obtain ⟨w3, w4⟩ := weights_ok c6 dw.2 (G := G) (by simp [Tensor.shape, eo]) h1 t4
  refine ⟨⟨params_ok c1 d1 t1, params_ok c3 d3 t2, params_ok c2 d2 t6, w1, w3, w2, w4⟩, fun hne => ?_⟩
  cases cell with
  | nil => exact absurd rfl hne
  | cons c l => exact params_ok (c4 c (by simp)) (d4 hne) t5

/-- The bias of an 8-bit call, when it is not too large. -/
theorem biasS8_abs (full : Bool) {b : Int} (hb : |b| < 2 ^ 30 - 2 ^ 17) :
    BiasFor full b (biasS8 full b 0) ∧ |biasS8 full b 0| < 2 ^ 30 - 2 ^ 16 := by
  have h1 := abs_lt.1 hb
  obtain ⟨b', e1, e2⟩ := biasFor full (b := b) (acc := 0) (by constructor <;> simp only [lo, hi] <;> omega) (by decide)
  have h2 := e2.2
  have h3 : |b' - b| ≤ 2 ^ 16 := by omega
  have h3 := abs_le.1 h3
  have h4 : |b'| < 2 ^ 30 - 2 ^ 16 := by rw [abs_lt]; omega
  have h4' := abs_lt.1 h4
  rw [e1, Int.zero_add, clamp_of_inRange (by constructor <;> simp only [lo, hi] <;> omega)]
  exact ⟨e2, h4⟩

/-- Inputs, outputs and biases that are not too large for the 32-bit accumulators. -/
structure CellArgs.SaFits (a : CellArgs) : Prop where
  k : a.k ≤ 2 ^ 15
  n : a.n ≤ 2 ^ 15
  bias : ∀ g o, InShape a.tb.shape [g, o] → |a.bias.get (a.tb.addr [g, o])| < 2 ^ 30 - 2 ^ 17

/-- The dense part of 8-bit elements is defined, no accumulator overflows, and it computes the gates. -/
theorem CellSa.dense_ok (m : Rnd) (full : Bool) {q : CellSa} {a : CellArgs} {G : Nat} {cell : List Tensor} (hsh : a.Shapes G cell) (hq : q.Ok G)
    {ir : SaQ} (hir : ir.params.Ok) (hz : ir.zpAt 0 = 0) (hfit : a.SaFits) (hwi : a.twi.Holds a.wi 8) (hwo : a.two.Holds a.wo 8) :
    ∃ D, q.dense m full ir = some D ∧ D.Safe a G 8 8 (2 ^ 15) ∧
      ∀ (first : Bool) (X H : Int → Int), RowIn 8 a.k X → RowIn 8 a.n H → ∀ g, g < G → ∀ o, 0 ≤ o → o < a.n →
        GateSa full q.fmt (scaleVal (ir.scaleAt 0) (ir.fracAt 0)) (if first then q.qh.params.fmt else q.qo.params.fmt) a.k a.n a.w X H g o
          (D.val a first g X H o) := by
  have n1 := hsh.n1
  have k1 := hsh.k1
  have hk := hfit.k
  have hn := hfit.n
  have hs := hir.scale
  have hp := hir.pos
  obtain ⟨ri, si, gi, -⟩ := c46_in_to_out m (q.qi.scaleAt 0) (q.qi.fracAt 0) (ir.scaleAt 0) (ir.fracAt 0) hq.i.pos hq.i.scale hp hs
  obtain ⟨rh, sh, gh, -⟩ := c46_in_to_out m (q.qh.scaleAt 0) (q.qh.fracAt 0) (ir.scaleAt 0) (ir.fracAt 0) hq.h.pos hq.h.scale hp hs
  obtain ⟨ro, so, go, -⟩ := c46_in_to_out m (q.qo.scaleAt 0) (q.qo.fracAt 0) (ir.scaleAt 0) (ir.fracAt 0) hq.o.pos hq.o.scale hp hs
  have zx : ∀ (f : Bool) (i : Nat), InRange 8 (if i = 0 then q.qi.zpAt 0 else if f then q.qh.zpAt 0 else q.qo.zpAt 0) := by
    intro f i
    split
    · exact hq.i.zp
    · split
      · exact hq.h.zp
      · exact hq.o.zp
  refine ⟨_, by unfold CellSa.dense; simp only []; rw [gi, Option.bind_some, gh, Option.bind_some, go, Option.map_some], ?_, ?_⟩
  · refine ⟨hwi, hwo, fun i => ?_, fun f i => ?_, fun x y hx hy => (abs_mul_le (by omega) (by omega) hx hy).trans (by decide),
      fun f i x y hx hy => zp_mul_le hx (zx f i) hy, fun g o ho => ?_, ?_, storeSa_range m ir⟩
    · show (if i = 0 then q.qwi.zpAt 0 else q.qwo.zpAt 0) = 0
      rw [hq.zi, hq.zo, ite_self]
    · obtain ⟨a, b⟩ := zx f i
      apply wrap_of_inRange (by omega)
      simp only [lo, hi] at a b
      constructor <;> simp only [lo, hi] <;> omega
    · have := (biasS8_abs full (hfit.bias g o ho)).2
      have e : hi 32 = 2 ^ 31 - 1 := by decide
      show |biasS8 full _ 0| + a.k * 2 ^ 15 ≤ hi 32
      rw [e]; omega
    · have e : hi 32 = 2 ^ 31 - 1 := by decide
      show a.n * 2 ^ 15 ≤ hi 32
      rw [e]; omega
  · intro first X H rx rh' g hg o h0 h1
    obtain ⟨s0, s1, ei⟩ := hsh.wi
    obtain ⟨t0, t1, eo⟩ := hsh.wo
    obtain ⟨u0, eb⟩ := hsh.tb
    have inI : ∀ i, 0 ≤ i → i < a.k → InShape a.twi.shape [(g : Int), i, o] := fun i g0 g1 => by
      simp only [Tensor.shape, ei, List.map_cons, List.map_nil]
      exact ⟨⟨by omega, by omega⟩, ⟨g0, g1⟩, ⟨h0, h1⟩, trivial⟩
    have inO : ∀ i, 0 ≤ i → i < a.n → InShape a.two.shape [(g : Int), i, o] := fun i g0 g1 => by
      simp only [Tensor.shape, eo, List.map_cons, List.map_nil]
      exact ⟨⟨by omega, by omega⟩, ⟨g0, g1⟩, ⟨h0, h1⟩, trivial⟩
    have inB : InShape a.tb.shape [(g : Int), o] := by
      simp only [Tensor.shape, eb, List.map_cons, List.map_nil]
      exact ⟨⟨by omega, by omega⟩, ⟨h0, h1⟩, trivial⟩
    obtain ⟨bf, bl⟩ := biasS8_abs full (hfit.bias _ _ inB)
    set b' := biasS8 full (a.bias.get (a.tb.addr [(g : Int), o])) 0 with hb'
    have hqh : (if first then q.qh.params else q.qo.params).Ok := by split; exacts [hq.h, hq.o]
    have gho : inToOut m (if first then q.qh.params else q.qo.params).scale (if first then q.qh.params else q.qo.params).frac (ir.scaleAt 0) (ir.fracAt 0) =
        some (if first then (rh, sh) else (ro, so)) := by
      split
      · exact gh
      · exact go
    rw [show (if first then q.qh.params.fmt else q.qo.params.fmt) = (if first then q.qh.params else q.qo.params).fmt by split <;> rfl]
    have d1 : |dotSum a.k (fun i => X i - q.qi.zpAt 0) fun i => a.w.wi g i o| ≤ a.k * 2 ^ 15 := abs_dotSum_le (by omega) fun i g0 g1 =>
      zp_mul_le (rx i g0 g1) hq.i.zp (hwi _ (inI i g0 g1))
    have d2 : |dotSum a.n (fun i => H i - (if first then q.qh.params else q.qo.params).zp) fun i => a.w.wo g i o| ≤ a.n * 2 ^ 15 :=
      abs_dotSum_le (by omega) fun i g0 g1 => zp_mul_le (rh' i g0 g1) hqh.zp (hwo _ (inO i g0 g1))
    set S0 := dotSum a.k (fun i => X i - q.qi.zpAt 0) fun i => a.w.wi g i o with hS0
    set S1 := dotSum a.n (fun i => H i - (if first then q.qh.params else q.qo.params).zp) fun i => a.w.wo g i o with hS1
    have l1 := abs_le.1 d1
    have l2 := abs_le.1 d2
    have l3 := abs_lt.1 bl
    obtain ⟨v0, p0, p1⟩ := rnnReqSa_spec m full (q.qi.scaleAt 0) (q.qi.fracAt 0) (q.qwi.scaleAt g) (q.qwi.fracAt g) (ir.scaleAt 0) (ir.fracAt 0)
      ⟨hq.i.pos, hq.i.scale⟩ (hq.wi g hg) ⟨hp, hs⟩ (acc := b' + S0) (by constructor <;> simp only [lo, hi] <;> omega) gi
    obtain ⟨v1, p2, p3⟩ := rnnReqSa_spec m full _ _ (q.qwo.scaleAt g) (q.qwo.fracAt g) (ir.scaleAt 0) (ir.fracAt 0)
      ⟨hqh.pos, hqh.scale⟩ (hq.wo g hg) ⟨hp, hs⟩ (acc := S1) (by constructor <;> simp only [lo, hi] <;> omega) gho
    refine ⟨b', _, _, bf, rfl, rfl, ?_⟩
    have q0 : ((S0 + b' : Int) : ℚ) * (q.fmt.x.step * q.fmt.wi g / scaleVal (ir.scaleAt 0) (ir.fracAt 0)) =
        ((b' + S0 : Int) : ℚ) * (scaleVal (q.qi.scaleAt 0) (q.qi.fracAt 0) * scaleVal (q.qwi.scaleAt g) (q.qwi.fracAt g) / scaleVal (ir.scaleAt 0) (ir.fracAt 0)) := by
      rw [Int.add_comm b']; rfl
    have q1 : (S1 : ℚ) * ((if first then q.qh.params else q.qo.params).fmt.step * q.fmt.wo g / scaleVal (ir.scaleAt 0) (ir.fracAt 0)) =
        (S1 : ℚ) * (scaleVal (if first then q.qh.params else q.qo.params).scale (if first then q.qh.params else q.qo.params).frac *
          scaleVal (q.qwo.scaleAt g) (q.qwo.fracAt g) / scaleVal (ir.scaleAt 0) (ir.fracAt 0)) := rfl
    show |((S0 + b' : Int) : ℚ) * (q.fmt.x.step * q.fmt.wi g / scaleVal (ir.scaleAt 0) (ir.fracAt 0))| ≤ _ →
      |(S1 : ℚ) * ((if first then q.qh.params else q.qo.params).fmt.step * q.fmt.wo g / scaleVal (ir.scaleAt 0) (ir.fracAt 0))| ≤ _ →
      |_ - limitQ _ _ (((S0 + b' : Int) : ℚ) * (q.fmt.x.step * q.fmt.wi g / scaleVal (ir.scaleAt 0) (ir.fracAt 0)) +
        (S1 : ℚ) * ((if first then q.qh.params else q.qo.params).fmt.step * q.fmt.wo g / scaleVal (ir.scaleAt 0) (ir.fracAt 0)))| ≤
      1 + (|((S0 + b' : Int) : ℚ) * (q.fmt.x.step * q.fmt.wi g / scaleVal (ir.scaleAt 0) (ir.fracAt 0))| +
        |(S1 : ℚ) * ((if first then q.qh.params else q.qo.params).fmt.step * q.fmt.wo g / scaleVal (ir.scaleAt 0) (ir.fracAt 0))|) / 2 ^ 13
    rw [q0, q1]
    generalize ((b' + S0 : Int) : ℚ) * (scaleVal (q.qi.scaleAt 0) (q.qi.fracAt 0) * scaleVal (q.qwi.scaleAt g) (q.qwi.fracAt g) / scaleVal (ir.scaleAt 0) (ir.fracAt 0)) = e0 at *
    generalize (S1 : ℚ) * (scaleVal (if first then q.qh.params else q.qo.params).scale (if first then q.qh.params else q.qo.params).frac *
          scaleVal (q.qwo.scaleAt g) (q.qwo.fracAt g) / scaleVal (ir.scaleAt 0) (ir.fracAt 0)) = e1 at *
    intro E0 E1
    have small : ∀ {v : Int} {e : ℚ}, |e| ≤ 2 ^ 28 → |(v : ℚ) - e| ≤ 1 / 2 + |e| / 2 ^ 13 → -(2 ^ 29) ≤ v ∧ v ≤ 2 ^ 29 := by
      intro v e h1 h2
      have h2 := abs_le.1 h2
      have h3 := abs_le.1 h1
      have h4 : (v : ℚ) ≤ 2 ^ 29 := by norm_num at *; linarith
      have h5 : -(2 ^ 29) ≤ (v : ℚ) := by norm_num at *; linarith
      exact ⟨by exact_mod_cast h5, by exact_mod_cast h4⟩
    have b0 := small E0 p1
    have b1 := small E1 p3
    have rr : ∀ x : Int, -(2 ^ 30) ≤ x → x ≤ 2 ^ 30 → InRange 32 x := fun x _ _ => by constructor <;> simp only [lo, hi] <;> omega
    rw [clamp_of_inRange (rr v0 (by omega) (by omega))] at p0
    rw [clamp_of_inRange (rr v1 (by omega) (by omega))] at p2
    have ev : CellDense.val { aw := 32, zx := fun first i => if i = 0 then q.qi.zpAt 0 else if first then q.qh.zpAt 0 else q.qo.zpAt 0
                              zw := fun i => if i = 0 then q.qwi.zpAt 0 else q.qwo.zpAt 0
                              req := fun first g i => if i = 0 then rnnReqSa m full (ri, si) (q.qwi.scaleAt g) (q.qwi.fracAt g)
                                else rnnReqSa m full (if first then (rh, sh) else (ro, so)) (q.qwo.scaleAt g) (q.qwo.fracAt g)
                              biasAdd := fun b => biasS8 full b 0, store := rnnStoreSa m ir : CellDense } a first g X H o =
        rnnStoreSa m ir (addFx 32 (addFx 32 0 (rnnReqSa m full (ri, si) (q.qwi.scaleAt g) (q.qwi.fracAt g) (b' + S0)))
          (rnnReqSa m full (if first then (rh, sh) else (ro, so)) (q.qwo.scaleAt g) (q.qwo.fracAt g) S1)) := by
      have ez : (if first then q.qh.params else q.qo.params).zp = if first then q.qh.zpAt 0 else q.qo.zpAt 0 := by split <;> rfl
      rw [ez] at hS1
      simp only [CellDense.val, if_true, Nat.one_ne_zero, if_false, hS0, hS1, hb', CellArgs.w]
    rw [ev, p0, p2, addFx_eq (by decide) (rr v0 (by omega) (by omega)), Int.zero_add, clamp_of_inRange (rr v0 (by omega) (by omega)),
      addFx_eq (rr v0 (by omega) (by omega)) (rr v1 (by omega) (by omega)), clamp_of_inRange (rr _ (by omega) (by omega)),
      rnnStoreSa_eq m (by rw [hz]; decide) (rr _ (by omega) (by omega)), hz, Int.add_zero, clamp8_cast]
    refine (limitQ_sub _ _ _ _).trans ?_
    rw [Int.cast_add, show ((v0 : ℚ) + v1) - (e0 + e1) = (v0 - e0) + (v1 - e1) by ring]
    refine (abs_add_le _ _).trans ?_
    linarith

end Mli
