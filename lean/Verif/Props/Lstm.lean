import Verif.Lemmas.LstmAll
import Verif.Lemmas.CellFx
import Verif.Lemmas.CellSa
import Verif.Lemmas.CellSplit
import Verif.Props.ConvMore

/-! # C66: the LSTM cell -/

namespace Mli

open Spec

/-- Sufficient conditions on the fractional bits of an LSTM cell with 16-bit elements, besides those the library checks: gates have at most as many
fractional bits as the products, and at most 39 fewer; the cell has at most 30 fractional bits; in builds that round half up the output has at
most 31 fractional bits less than the product. -/
structure CellFx.Lstm (f : CellFx) (m : Rnd) (act : RnnAct) : Prop where
  h : 0 ≤ f.fh + f.fwo - min 10 (f.fi + f.fwi)
  o : 0 ≤ f.fo + f.fwo - min 10 (f.fi + f.fwi)
  fc : 0 ≤ f.fc ∧ f.fc ≤ 30
  fo : m = .convergent ∨ (if act = .none then f.fc else 15) + 15 - f.fo ≤ 31

theorem CellFx.irLstm_le (f : CellFx) : f.irLstm ≤ f.fi + f.fwi := min_le_right _ _

/-- The element functions of an LSTM cell with 16-bit elements. -/
theorem lstmFnFx_ok (m : Rnd) (f : CellFx) (act : RnnAct) :
    ∃ sg th ac, (lstmFnFx m f act).Ok 16 sg th ac ∧
      (∀ v, InRange 16 v → Near 2.7 (2 ^ 15 * Real.sigmoid (fxReal v f.irLstm)) (sg v)) ∧
      (∀ v, InRange 16 v → Near 4.4 (2 ^ 15 * Real.tanh (fxReal v f.irLstm)) (th v)) ∧
      (∀ v, InRange 16 v → InRange 16 (ac v) ∧ ActFx act f.fc v (ac v)) := by
  obtain ⟨sg, s1, s2⟩ := sigmFx m f.irLstm
  obtain ⟨th, t1, t2⟩ := tanhFx m f.irLstm
  cases act with
  | none =>
    exact ⟨sg, th, id, ⟨s1, t1, fun _ _ => addFx_range _ _ _ _ _, fun _ _ => mulFx_range _ _ _ _ _, fun _ => rfl, fun f h => by cases h⟩, s2, t2,
      fun v hv => ⟨hv, rfl⟩⟩
  | sigm =>
    obtain ⟨ac, a1, a2⟩ := sigmFx m f.fc
    exact ⟨sg, th, ac, ⟨s1, t1, fun _ _ => addFx_range _ _ _ _ _, fun _ _ => mulFx_range _ _ _ _ _, fun h => (by cases h),
      fun f h => by obtain rfl := Option.some.inj h; exact a1⟩, s2, t2, fun v hv => ⟨a1.range v hv, a2 v hv⟩⟩
  | tanh =>
    obtain ⟨ac, a1, a2⟩ := tanhFx m f.fc
    exact ⟨sg, th, ac, ⟨s1, t1, fun _ _ => addFx_range _ _ _ _ _, fun _ _ => mulFx_range _ _ _ _ _, fun h => (by cases h),
      fun f h => by obtain rfl := Option.some.inj h; exact a1⟩, s2, t2, fun v hv => ⟨a1.range v hv, a2 v hv⟩⟩

/-- The elementwise part of a step is that of the specification. -/
theorem lstm_fx_elem {m : Rnd} {f : CellFx} {act : RnnAct} (hf : f.Lstm m act) {sg th ac : Int → Int} (hF : (lstmFnFx m f act).Ok 16 sg th ac)
    (hac : ∀ v, InRange 16 v → InRange 16 (ac v) ∧ ActFx act f.fc v (ac v)) {v0 v1 v2 v3 c : Int}
    (r0 : InRange 16 v0) (r1 : InRange 16 v1) (r2 : InRange 16 v2) (r3 : InRange 16 v3) (hc : InRange 16 c) :
    ∃ p q y c' h', ProdFx m f.fc 15 f.fc c (sg v2) p ∧ ProdFx m 15 15 15 (th v1) (sg v0) q ∧ SumFx m f.fc 15 f.fc p q c' ∧
      ActFx act f.fc c' y ∧ ProdFx m (if act = .none then f.fc else 15) 15 f.fo y (sg v3) h' ∧
      c' = (lstmFnFx m f act).addC ((lstmFnFx m f act).mulC c (sg v2)) ((lstmFnFx m f act).mulG (th v1) (sg v0)) ∧
      h' = (lstmFnFx m f act).mulOut (ac c') (sg v3) := by
  have fc := hf.fc
  have hp := mulFx_range m 16 (eltParamsFx 16 .mul f.fc 15 f.fc) c (sg v2)
  have hq := mulFx_range m 16 (eltParamsFx 16 .mul 15 15 15) (th v1) (sg v0)
  have hc' := addFx_range m 16 (eltParamsFx 16 .add f.fc 15 f.fc) (eltFx m 16 .mul (eltParamsFx 16 .mul f.fc 15 f.fc) c (sg v2))
    (eltFx m 16 .mul (eltParamsFx 16 .mul 15 15 15) (th v1) (sg v0))
  exact ⟨_, _, _, _, _, prodFx m hc (hF.sigm.range _ r2) (Or.inr (by omega)), prodFx m (hF.tanh.range _ r1) (hF.sigm.range _ r0) (Or.inr (by omega)),
    sumFx m hp hq (by rw [abs_le]; omega) (by omega), (hac _ hc').2, prodFx m (hac _ hc').1 (hF.sigm.range _ r3) hf.fo, rfl, rfl⟩

/-- One step on elements is the step of the specification. -/
theorem lstm_fx_step {m : Rnd} {D : CellDense} {f : CellFx} {act : RnnAct} {a : CellArgs} (hf : f.Lstm m act) {sg th ac : Int → Int}
    (hF : (lstmFnFx m f act).Ok 16 sg th ac)
    (hsg : ∀ v, InRange 16 v → Near 2.7 (2 ^ 15 * Real.sigmoid (fxReal v f.irLstm)) (sg v))
    (hth : ∀ v, InRange 16 v → Near 4.4 (2 ^ 15 * Real.tanh (fxReal v f.irLstm)) (th v))
    (hac : ∀ v, InRange 16 v → InRange 16 (ac v) ∧ ActFx act f.fc v (ac v)) {first : Bool} {X H C : Int → Int} {fh : Int}
    (hg : ∀ g, g < 4 → ∀ o, 0 ≤ o → o < a.n → GateFx m f f.irLstm fh a.k a.n a.w X H g o (D.val a first g X H o))
    (hr : ∀ g o, InRange 16 (D.val a first g X H o)) (hC : RowIn 16 a.n C) :
    LstmFxStep m f f.irLstm fh act a.k a.n a.w X H C (lstmPure D (lstmFnFx m f act) a sg th ac first X H C).1
      (lstmPure D (lstmFnFx m f act) a sg th ac first X H C).2 := by
  refine ⟨fun g => D.val a first g X H, fun o h0 h1 => ⟨fun g hgl => hg g hgl o h0 h1, ?_⟩⟩
  obtain ⟨p, q, y, c', h', e1, e2, e3, e4, e5, e6, e7⟩ := lstm_fx_elem hf hF hac (hr 0 o) (hr 1 o) (hr 2 o) (hr 3 o) (hC o h0 h1)
  have f6 : (lstmPure D (lstmFnFx m f act) a sg th ac first X H C).2 o = c' := e6.symm
  have f7 : (lstmPure D (lstmFnFx m f act) a sg th ac first X H C).1 o = h' := by rw [e7, e6]; rfl
  rw [f6, f7]
  exact ⟨_, _, _, _, p, q, y, hsg _ (hr 0 o), hth _ (hr 1 o), hsg _ (hr 2 o), hsg _ (hr 3 o), e1, e2, e3, e4, e5⟩

theorem chkLstmFx_ok {f : CellFx} {a : CellArgs} {tc : Tensor} {mem : Buf} (P : a.Placed 4 mem [tc]) (h : chkLstmFx f a tc = some .ok) :
    a.Shapes 4 [tc] ∧ f.fb ≤ f.fi + f.fwi := by
  obtain ⟨h1, h2⟩ := bind_ok h
  exact ⟨chkCell_ok (G := 4) P h1, (if_ok (by decide) h2).1⟩

/-- The kernels with 16-bit elements, for safe weights. -/
theorem lstm_fx {m : Rnd} {aw : Nat} {f : CellFx} {act : RnnAct} {a : CellArgs} {tc : Tensor} {mem : Buf} {ww : Nat} {B : Int} (P : a.Placed 4 mem [tc])
    (hi : a.tin.Holds mem 16) (hh : a.tprev.Holds mem 16) (hc : tc.Holds mem 16) (hchk : chkLstmFx f a tc = some .ok) (hf : f.Lstm m act)
    (hs : (f.dense m aw f.irLstm).Safe a 4 16 ww B)
    (hg : ∀ first X H, RowIn 16 a.k X → RowIn 16 a.n H → ∀ g, g < 4 → ∀ o, 0 ≤ o → o < a.n →
      GateFx m f f.irLstm (if first then f.fh else f.fo) a.k a.n a.w X H g o ((f.dense m aw f.irLstm).val a first g X H o)) :
    ∃ mem', ∃ H C : Nat → Int → Int, krnLstmFx m aw f act a tc mem = some (.ok, mem', a.outDesc) ∧
      (∀ i, H 0 i = mem.get (a.tprev.addr [i])) ∧ (∀ i, C 0 i = mem.get (tc.addr [i])) ∧
      (∀ t : Nat, (t : Int) < a.seq →
        LstmFxStep m f f.irLstm (if t = 0 then f.fh else f.fo) act a.k a.n a.w (a.input mem t) (H t) (C t) (H (t + 1)) (C (t + 1))) ∧
      a.Result 4 [tc] mem H (C a.seq.toNat) mem' := by
  obtain ⟨hsh, -⟩ := chkLstmFx_ok P hchk
  obtain ⟨sg, th, ac, hF, hsg, hth, hac⟩ := lstmFnFx_ok m f act
  obtain ⟨s', h1, h2, h3⟩ := lstm_all P hsh hs hF hi hh hc
  set T := cellTrace (lstmPure (f.dense m aw f.irLstm) (lstmFnFx m f act) a sg th ac) (a.input mem) (fun i => mem.get (a.tprev.addr [i]))
    fun i => mem.get (tc.addr [i]) with hT
  refine ⟨s'.mem, fun t => (T t).1, fun t => (T t).2, ?_, fun i => ?_, fun i => ?_, fun t ht => ?_, h2⟩
  · unfold krnLstmFx
    rw [hchk, Option.bind_some, if_neg (not_not.2 rfl), h1]
    rfl
  · rfl
  · rfl
  · obtain ⟨rx, rh, rc⟩ := h3 t ht
    have := lstm_fx_step (a := a) hf hF hsg hth hac (first := decide (t = 0)) (hg (decide (t = 0)) _ _ rx rh) (fun g o => hs.store _) rc
    simp only [decide_eq_true_eq] at this
    exact this

/-- A call of the kernel with 16-bit elements, weights and bias: tensors placed and filled as the user has to, accepted by the library, and with
suitable fractional bits. -/
structure CellArgs.Lstm16 (a : CellArgs) (m : Rnd) (f : CellFx) (act : RnnAct) (tc : Tensor) (mem : Buf) : Prop where
  P : a.Placed 4 mem [tc]
  hi : a.tin.Holds mem 16
  hh : a.tprev.Holds mem 16
  hc : tc.Holds mem 16
  hwi : a.twi.Holds a.wi 16
  hwo : a.two.Holds a.wo 16
  hb : a.tb.Holds a.bias 16
  hchk : chkLstmFx f a tc = some .ok
  hf : f.Lstm m act
  hbs : f.fi + f.fwi - f.fb ≤ 16
  h39 : f.fi + f.fwi - min 10 (f.fi + f.fwi) ≤ 39 ∧ f.fh + f.fwo - min 10 (f.fi + f.fwi) ≤ 39 ∧ f.fo + f.fwo - min 10 (f.fi + f.fwi) ≤ 39

/-- A call of the kernel with 16-bit elements and 8-bit weights and bias; here the sums must fit 32 bits. -/
structure CellArgs.Lstm168 (a : CellArgs) (m : Rnd) (f : CellFx) (act : RnnAct) (tc : Tensor) (mem : Buf) : Prop where
  P : a.Placed 4 mem [tc]
  hi : a.tin.Holds mem 16
  hh : a.tprev.Holds mem 16
  hc : tc.Holds mem 16
  hwi : a.twi.Holds a.wi 8
  hwo : a.two.Holds a.wo 8
  hb : a.tb.Holds a.bias 8
  hchk : chkLstmFx f a tc = some .ok
  hf : f.Lstm m act
  hfit : f.Fits m a

/-- C66, 16-bit elements, weights and bias: an accepted call runs the cell over the sequence, in the direction asked for.  The outputs `H 1`, `H 2`,
... and cells `C 1`, `C 2`, ... follow from the previous output and the cell given by one step of the specification each; the last cell replaces
the cell and the outputs (all, or only the last) are in the output tensor; nothing else changes but the scratch buffer.  Partial: the conditions
on fractional bits. -/
theorem c66_lstm_fx16_partial (m : Rnd) (f : CellFx) (act : RnnAct) (a : CellArgs) (tc : Tensor) (mem : Buf) (A : a.Lstm16 m f act tc mem) :
    ∃ mem', ∃ H C : Nat → Int → Int, krnLstmFx m 64 f act a tc mem = some (.ok, mem', a.outDesc) ∧
      (∀ i, H 0 i = mem.get (a.tprev.addr [i])) ∧ (∀ i, C 0 i = mem.get (tc.addr [i])) ∧
      (∀ t : Nat, (t : Int) < a.seq →
        LstmFxStep m f (min 10 (f.fi + f.fwi)) (if t = 0 then f.fh else f.fo) act a.k a.n a.w (a.input mem t) (H t) (C t) (H (t + 1)) (C (t + 1))) ∧
      a.Result 4 [tc] mem H (C a.seq.toNat) mem' := by
  obtain ⟨P, hi, hh, hc, hwi, hwo, hb, hchk, hf, hbs, h39⟩ := A
  obtain ⟨hsh, hfb⟩ := chkLstmFx_ok P hchk
  have hS : f.Shifts f.irLstm := ⟨hfb, f.irLstm_le, hf.h, hf.o⟩
  exact lstm_fx P hi hh hc hchk hf (CellFx.safe64 m hsh (by omega) hS hbs hwi hwo hb)
    (fun first X H rx rh g hg o h0 h1 => CellFx.val64 m hsh (by omega) hS hbs h39 hwi hwo hb first rx rh hg h0 h1)

/-- C66, 16-bit elements with 8-bit weights and bias, accumulated in 32 bits.  Partial: the conditions on fractional bits, and sums that fit. -/
theorem c66_lstm_fx16_fx8_partial (m : Rnd) (f : CellFx) (act : RnnAct) (a : CellArgs) (tc : Tensor) (mem : Buf) (A : a.Lstm168 m f act tc mem) :
    ∃ mem', ∃ H C : Nat → Int → Int, krnLstmFx m 32 f act a tc mem = some (.ok, mem', a.outDesc) ∧
      (∀ i, H 0 i = mem.get (a.tprev.addr [i])) ∧ (∀ i, C 0 i = mem.get (tc.addr [i])) ∧
      (∀ t : Nat, (t : Int) < a.seq →
        LstmFxStep m f (min 10 (f.fi + f.fwi)) (if t = 0 then f.fh else f.fo) act a.k a.n a.w (a.input mem t) (H t) (C t) (H (t + 1)) (C (t + 1))) ∧
      a.Result 4 [tc] mem H (C a.seq.toNat) mem' := by
  obtain ⟨P, hi, hh, hc, hwi, hwo, hb, hchk, hf, hfit⟩ := A
  obtain ⟨hsh, hfb⟩ := chkLstmFx_ok P hchk
  have hS : f.Shifts f.irLstm := ⟨hfb, f.irLstm_le, hf.h, hf.o⟩
  exact lstm_fx P hi hh hc hchk hf (CellFx.safe32 m hsh hS hfit hwi hwo hb)
    (fun first X H rx rh g hg o h0 h1 => CellFx.val32 m hsh hS hfit hwi hwo hb first rx rh hg h0 h1)

/-! ## 8-bit elements -/

/-- The element functions of an LSTM cell with 8-bit elements. -/
theorem lstmFnSa_ok (m : Rnd) {qc qo : SaParams} (hc : qc.Ok) (act : RnnAct) :
    ∃ sg th ac, (lstmFnSa m qc qo act).Ok 8 sg th ac ∧ (∀ v, InRange 8 v → SigmSa ⟨0, 1, 4⟩ v (sg v)) ∧ (∀ v, InRange 8 v → TanhSa ⟨0, 1, 4⟩ v (th v)) ∧
      (∀ v, InRange 8 v → InRange 8 (ac v) ∧ ActSa act qc.fmt v (ac v)) := by
  obtain ⟨sg, s1, s2⟩ := sigmSa m (o := 0) (sc := 1) (sh := 4) (by decide) (by decide)
  obtain ⟨th, t1, t2⟩ := tanhSa m (o := 0) (sc := 1) (sh := 4) (by decide) (by decide)
  cases act with
  | none =>
    exact ⟨sg, th, id, ⟨s1, t1, fun _ _ => addSa_range _ _ _ _, fun _ _ => mulSa_range _ _ _ _, fun _ => rfl, fun f h => by cases h⟩, s2, t2,
      fun v hv => ⟨hv, rfl⟩⟩
  | sigm =>
    obtain ⟨ac, a1, a2⟩ := sigmSa m (sh := qc.frac) hc.zp hc.scale
    exact ⟨sg, th, ac, ⟨s1, t1, fun _ _ => addSa_range _ _ _ _, fun _ _ => mulSa_range _ _ _ _, fun h => (by cases h),
      fun f h => by obtain rfl := Option.some.inj h; exact a1⟩, s2, t2, fun v hv => ⟨a1.range v hv, a2 v hv⟩⟩
  | tanh =>
    obtain ⟨ac, a1, a2⟩ := tanhSa m (sh := qc.frac) hc.zp hc.scale
    exact ⟨sg, th, ac, ⟨s1, t1, fun _ _ => addSa_range _ _ _ _, fun _ _ => mulSa_range _ _ _ _, fun h => (by cases h),
      fun f h => by obtain rfl := Option.some.inj h; exact a1⟩, s2, t2, fun v hv => ⟨a1.range v hv, a2 v hv⟩⟩

attribute [local irreducible] eltSa eltParamsSa in
/-- The elementwise part of a step is that of the specification. -/
theorem lstm_sa_elem {m : Rnd} {qc qo : SaParams} {act : RnnAct} (hc : qc.Ok) (ho : qo.Ok) {sg th ac : Int → Int} (hF : (lstmFnSa m qc qo act).Ok 8 sg th ac)
    (hac : ∀ v, InRange 8 v → InRange 8 (ac v) ∧ ActSa act qc.fmt v (ac v)) {v0 v1 v2 v3 c : Int}
    (r0 : InRange 8 v0) (r1 : InRange 8 v1) (r2 : InRange 8 v2) (r3 : InRange 8 v3) (hcr : InRange 8 c) :
    ∃ p q y c' h', qc.fmt.Close (3 / 5) (qc.fmt.real c * fmtSigm.real (sg v2)) p ∧ fmtTanh.Close (3 / 5) (fmtTanh.real (th v1) * fmtSigm.real (sg v0)) q ∧
      qc.fmt.Close (1 + (|qc.fmt.real p / qc.fmt.step| + |fmtTanh.real q / qc.fmt.step|) / 8192) (qc.fmt.real p + fmtTanh.real q) c' ∧
      ActSa act qc.fmt c' y ∧ qo.fmt.Close (3 / 5) ((actFmt act qc.fmt).real y * fmtSigm.real (sg v3)) h' ∧
      c' = (lstmFnSa m qc qo act).addC ((lstmFnSa m qc qo act).mulC c (sg v2)) ((lstmFnSa m qc qo act).mulG (th v1) (sg v0)) ∧
      h' = (lstmFnSa m qc qo act).mulOut (ac c') (sg v3) := by
  have hp := mulSa_range m (eltParamsSa m .mul qc saSigm qc) c (sg v2)
  have hq := mulSa_range m (eltParamsSa m .mul saTanh saSigm saTanh) (th v1) (sg v0)
  have e1 := prodSa m hc saSigm_ok hc hcr (hF.sigm.range _ r2)
  have e2 := prodSa m saTanh_ok saSigm_ok saTanh_ok (hF.tanh.range _ r1) (hF.sigm.range _ r0)
  have e3 := sumSa m hc saTanh_ok hc hp hq
  have hc' := addSa_range m (eltParamsSa m .add qc saTanh qc) (eltSa m .mul (eltParamsSa m .mul qc saSigm qc) c (sg v2))
    (eltSa m .mul (eltParamsSa m .mul saTanh saSigm saTanh) (th v1) (sg v0))
  have q3 := hF.sigm.range _ r3
  have q4 := (hac _ hc').1
  have e5 := (hac _ hc').2
  have es : saSigm.fmt = fmtSigm := rfl
  have et : saTanh.fmt = fmtTanh := rfl
  rw [es] at e1
  rw [es, et] at e2
  rw [et] at e3
  have ea : (lstmFnSa m qc qo act).addC = eltSa m .add (eltParamsSa m .add qc saTanh qc) := rfl
  have ec : (lstmFnSa m qc qo act).mulC = eltSa m .mul (eltParamsSa m .mul qc saSigm qc) := rfl
  have eg : (lstmFnSa m qc qo act).mulG = eltSa m .mul (eltParamsSa m .mul saTanh saSigm saTanh) := rfl
  rw [ea, ec, eg]
  clear ea ec eg hp hq
  generalize eltSa m .add (eltParamsSa m .add qc saTanh qc) (eltSa m .mul (eltParamsSa m .mul qc saSigm qc) c (sg v2))
    (eltSa m .mul (eltParamsSa m .mul saTanh saSigm saTanh) (th v1) (sg v0)) = c' at *
  generalize eltSa m .mul (eltParamsSa m .mul qc saSigm qc) c (sg v2) = p at *
  generalize eltSa m .mul (eltParamsSa m .mul saTanh saSigm saTanh) (th v1) (sg v0) = q at *
  refine ⟨p, q, ac c', c', (lstmFnSa m qc qo act).mulOut (ac c') (sg v3), e1, e2, e3, e5, ?_, rfl, rfl⟩
  clear hF hac
  rw [← es]
  cases act with
  | none => exact prodSa m hc saSigm_ok ho q4 q3
  | sigm => exact prodSa m saSigm_ok saSigm_ok ho q4 q3
  | tanh => exact prodSa m saTanh_ok saSigm_ok ho q4 q3

/-- One step on elements is the step of the specification. -/
theorem lstm_sa_step {m : Rnd} {full : Bool} {D : CellDense} {q : CellSa} {act : RnnAct} {a : CellArgs} (hc : q.qc.params.Ok) (ho : q.qo.params.Ok)
    {sg th ac : Int → Int} (hF : (lstmFnSa m q.qc.params q.qo.params act).Ok 8 sg th ac)
    (hsg : ∀ v, InRange 8 v → SigmSa ⟨0, 1, 4⟩ v (sg v)) (hth : ∀ v, InRange 8 v → TanhSa ⟨0, 1, 4⟩ v (th v))
    (hac : ∀ v, InRange 8 v → InRange 8 (ac v) ∧ ActSa act q.qc.params.fmt v (ac v)) {first : Bool} {X H C : Int → Int} {h : SaFmt}
    (hg : ∀ g, g < 4 → ∀ o, 0 ≤ o → o < a.n → GateSa full q.fmt (1 / 16) h a.k a.n a.w X H g o (D.val a first g X H o))
    (hr : ∀ g o, InRange 8 (D.val a first g X H o)) (hC : RowIn 8 a.n C) :
    LstmSaStep full q.fmt h act a.k a.n a.w X H C (lstmPure D (lstmFnSa m q.qc.params q.qo.params act) a sg th ac first X H C).1
      (lstmPure D (lstmFnSa m q.qc.params q.qo.params act) a sg th ac first X H C).2 := by
  refine ⟨fun g => D.val a first g X H, fun o h0 h1 => ⟨fun g hgl => hg g hgl o h0 h1, ?_⟩⟩
  obtain ⟨p, r, y, c', h', e1, e2, e3, e4, e5, e6, e7⟩ := lstm_sa_elem hc ho hF hac (hr 0 o) (hr 1 o) (hr 2 o) (hr 3 o) (hC o h0 h1)
  have f6 : (lstmPure D (lstmFnSa m q.qc.params q.qo.params act) a sg th ac first X H C).2 o = c' := e6.symm
  have f7 : (lstmPure D (lstmFnSa m q.qc.params q.qo.params act) a sg th ac first X H C).1 o = h' := by rw [e7, e6]; rfl
  rw [f6, f7]
  exact ⟨_, _, _, _, p, r, y, hsg _ (hr 0 o), hth _ (hr 1 o), hsg _ (hr 2 o), hsg _ (hr 3 o), e1, e2, e3, e4, e5⟩

/-- A call of the kernel with 8-bit elements; the weights have one scale or one scale per gate. -/
structure CellArgs.Lstm8 (a : CellArgs) (m : Rnd) (q : CellSa) (tc : Tensor) (mem : Buf) : Prop where
  P : a.Placed 4 mem [tc]
  hi : a.tin.Holds mem 8
  hh : a.tprev.Holds mem 8
  hc : tc.Holds mem 8
  hwi : a.twi.Holds a.wi 8
  hwo : a.two.Holds a.wo 8
  hchk : chkLstmSa m q a tc = some .ok
  ht : q.Typed
  dim : -1 ≤ q.qwi.dim ∧ -1 ≤ q.qwo.dim
  hfit : a.SaFits

theorem chkLstmSa_ok {m : Rnd} {q : CellSa} {a : CellArgs} {tc : Tensor} {mem : Buf} (P : a.Placed 4 mem [tc]) (ht : q.Typed)
    (h : chkLstmSa m q a tc = some .ok) : a.Shapes 4 [tc] ∧ q.Ok 4 ∧ q.qc.params.Ok := by
  obtain ⟨h1, h2⟩ := bind_ok h
  have hsh := chkCell_ok (G := 4) P h1
  obtain ⟨h3, h4⟩ := chkCellSaQ_ok hsh (by omega) (by simp) ht h2
  exact ⟨hsh, h3, h4 (by simp)⟩

theorem lstmIr_step : scaleVal (lstmIr.scaleAt 0) (lstmIr.fracAt 0) = 1 / 16 := by
  show scaleVal 1 4 = _
  unfold scaleVal
  norm_num

/-- C66, 8-bit elements: an accepted call runs the cell over the sequence, step by step as specified.  Partial: at most `2^15` inputs and outputs,
biases below `2^30`, and no quantized dimension of the weights below -1. -/
theorem c66_lstm_sa8_partial (m : Rnd) (full : Bool) (q : CellSa) (act : RnnAct) (a : CellArgs) (tc : Tensor) (mem : Buf) (A : a.Lstm8 m q tc mem) :
    ∃ mem', ∃ H C : Nat → Int → Int, krnLstmSa m full q act a tc mem = some (.ok, mem', a.outDesc) ∧
      (∀ i, H 0 i = mem.get (a.tprev.addr [i])) ∧ (∀ i, C 0 i = mem.get (tc.addr [i])) ∧
      (∀ t : Nat, (t : Int) < a.seq →
        LstmSaStep full q.fmt (if t = 0 then q.qh.params.fmt else q.qo.params.fmt) act a.k a.n a.w (a.input mem t) (H t) (C t) (H (t + 1)) (C (t + 1))) ∧
      a.Result 4 [tc] mem H (C a.seq.toNat) mem' := by
  obtain ⟨P, hi, hh, hc, hwi, hwo, hchk, ht, hdim, hfit⟩ := A
  obtain ⟨hsh, hq, hqc⟩ := chkLstmSa_ok P ht hchk
  obtain ⟨D, hD, hs, hg⟩ := CellSa.dense_ok m full hsh hq (ir := lstmIr) ⟨by decide, by decide, by decide⟩ rfl hfit hwi hwo
  obtain ⟨sg, th, ac, hF, hsg, hth, hac⟩ := lstmFnSa_ok m (qo := q.qo.params) hqc act
  obtain ⟨s', h1, h2, h3⟩ := lstm_all P hsh hs hF hi hh hc
  set T := cellTrace (lstmPure D (lstmFnSa m q.qc.params q.qo.params act) a sg th ac) (a.input mem) (fun i => mem.get (a.tprev.addr [i]))
    fun i => mem.get (tc.addr [i]) with hT
  refine ⟨s'.mem, fun t => (T t).1, fun t => (T t).2, ?_, fun i => rfl, fun i => rfl, fun t ht => ?_, h2⟩
  · unfold krnLstmSa
    rw [hchk, Option.bind_some, if_neg (not_not.2 rfl), if_neg (show ¬ (q.qwi.dim < -1 ∨ q.qwo.dim < -1) by omega), hD, Option.bind_some, h1]
    rfl
  · obtain ⟨rx, rh, rc⟩ := h3 t ht
    have := lstm_sa_step (a := a) (full := full) hqc hq.o hF hsg hth hac (first := decide (t = 0))
      (fun g hgl o h0 h1 => by have := hg (decide (t = 0)) _ _ rx rh g hgl o h0 h1; rw [lstmIr_step] at this; exact this) (fun g o => hs.store _) rc
    simp only [decide_eq_true_eq] at this
    exact this

/-! ## A sequence in two calls -/

/-- Two calls after one another leave the outputs and the cell of one call. -/
theorem lstm_split {D D2 : CellDense} {F : LstmFn} {a a1 a2 : CellArgs} {tc : Tensor} {mem : Buf} {s1 : CellSt} {w ww : Nat} {B B1 B2 : Int} {sg th ac : Int → Int}
    (hF : F.Ok w sg th ac) (hD : ∀ a first g X H, D2.val a first g X H = D.val a false g X H)
    (P : a.Placed 4 mem [tc]) (hsh : a.Shapes 4 [tc]) (hs : D.Safe a 4 w ww B) (hi : a.tin.Holds mem w) (hh : a.tprev.Holds mem w) (hc : tc.Holds mem w)
    (P1 : a1.Placed 4 mem [tc]) (hsh1 : a1.Shapes 4 [tc]) (hs1 : D.Safe a1 4 w ww B1) (hi1 : a1.tin.Holds mem w) (hh1 : a1.tprev.Holds mem w)
    (h1 : lstmRun D F a1 tc mem = some s1)
    (P2 : a2.Placed 4 s1.mem [tc]) (hsh2 : a2.Shapes 4 [tc]) (hs2 : D2.Safe a2 4 w ww B2) (hi2 : a2.tin.Holds s1.mem w) (hh2 : a2.tprev.Holds s1.mem w)
    (hc2 : tc.Holds s1.mem w) (S : a.Split a1 a2 mem s1.mem) :
    ∃ s' s2, lstmRun D F a tc mem = some s' ∧ lstmRun D2 F a2 tc s1.mem = some s2 ∧ a.Joined a1 a2 [tc] s1.mem s2.mem s'.mem := by
  obtain ⟨s', g1, g2, -⟩ := lstm_all P hsh hs hF hi hh hc
  obtain ⟨s1', k1, k2, -⟩ := lstm_all P1 hsh1 hs1 hF hi1 hh1 hc
  obtain ⟨s2, l1, l2, -⟩ := lstm_all P2 hsh2 hs2 hF hi2 hh2 hc2
  obtain rfl : s1' = s1 := Option.some.inj (k1.symm.trans h1)
  obtain ⟨ek1, en1⟩ := hsh.same hsh1 S.w1.1
  obtain ⟨ek2, en2⟩ := hsh.same hsh2 S.w2.1
  refine ⟨s', s2, g1, l1, S.joined hsh hsh1 hsh2 (m := a.n) (fun _ => rfl) (fun i _ _ => rfl) ?_ ?_ ?_ g2 k2 l2⟩
  · intro K hK i i0 i1
    refine hK tc (by simp) i ?_
    simp only [Tensor.shape, hsh.cell tc (by simp), List.map_cons, List.map_nil]
    exact ⟨⟨i0, i1⟩, trivial⟩
  · intro f X X' H H' C C' hx hh hc
    exact lstmPure_agree (fun g X H => CellDense.val_eq S.w1 ek1 en1 f g X H) hx hh hc
  · intro f X X' H H' C C' hx hh hc
    exact lstmPure_agree (fun g X H => by rw [CellDense.val_eq S.w2 ek2 en2 f g X H, hD]) hx hh hc

/-- C66, 16-bit elements, weights and bias: processing a sequence in two calls (the second starting from the last output of the first and the cell it
left) gives the outputs and the cell of processing it in one call. -/
theorem c66_split_fx16_partial (m : Rnd) (f : CellFx) (act : RnnAct) (a a1 a2 : CellArgs) (tc o1 : Tensor) (mem mem1 : Buf)
    (A : a.Lstm16 m f act tc mem) (A1 : a1.Lstm16 m f act tc mem) (h1 : krnLstmFx m 64 f act a1 tc mem = some (.ok, mem1, o1))
    (A2 : a2.Lstm16 m { f with fh := f.fo } act tc mem1) (S : a.Split a1 a2 mem mem1) :
    ∃ mem' mem2, krnLstmFx m 64 f act a tc mem = some (.ok, mem', a.outDesc) ∧
      krnLstmFx m 64 { f with fh := f.fo } act a2 tc mem1 = some (.ok, mem2, a2.outDesc) ∧ a.Joined a1 a2 [tc] mem1 mem2 mem' := by
  obtain ⟨P, hi, hh, hc, hwi, hwo, hb, hchk, hf, hbs, h39⟩ := A
  obtain ⟨P1, hi1, hh1, hc1, hwi1, hwo1, hb1, hchk1, hf1, hbs1, h391⟩ := A1
  obtain ⟨P2, hi2, hh2, hc2, hwi2, hwo2, hb2, hchk2, hf2, hbs2, h392⟩ := A2
  obtain ⟨hsh, hfb⟩ := chkLstmFx_ok P hchk
  obtain ⟨hsh1, hfb1⟩ := chkLstmFx_ok P1 hchk1
  obtain ⟨hsh2, hfb2⟩ := chkLstmFx_ok P2 hchk2
  have hS : f.Shifts f.irLstm := ⟨hfb, f.irLstm_le, hf.h, hf.o⟩
  have hS2 : CellFx.Shifts { f with fh := f.fo } f.irLstm := ⟨hfb2, f.irLstm_le, hf2.h, hf2.o⟩
  obtain ⟨sg, th, ac, hF, -⟩ := lstmFnFx_ok m f act
  unfold krnLstmFx at h1
  rw [hchk1, Option.bind_some, if_neg (not_not.2 rfl), Option.map_eq_some_iff] at h1
  obtain ⟨s1, h1, e1⟩ := h1
  obtain ⟨-, e1⟩ := Prod.mk.inj e1
  obtain ⟨rfl, -⟩ := Prod.mk.inj e1
  obtain ⟨s', s2, r1, r2, r3⟩ := lstm_split hF (D2 := CellFx.dense m 64 { f with fh := f.fo } f.irLstm) (fun a first g X H => by cases first <;> rfl)
    P hsh (CellFx.safe64 m hsh (by omega) hS hbs hwi hwo hb) hi hh hc
    P1 hsh1 (CellFx.safe64 m hsh1 (by omega) hS hbs hwi1 hwo1 hb1) hi1 hh1 h1
    P2 hsh2 (CellFx.safe64 m hsh2 (by omega) hS2 hbs2 hwi2 hwo2 hb2) hi2 hh2 hc2 S
  refine ⟨s'.mem, s2.mem, ?_, ?_, r3⟩
  · unfold krnLstmFx
    rw [hchk, Option.bind_some, if_neg (not_not.2 rfl), r1]
    rfl
  · unfold krnLstmFx
    rw [hchk2, Option.bind_some, if_neg (not_not.2 rfl)]
    show (lstmRun (CellFx.dense m 64 { f with fh := f.fo } f.irLstm) (lstmFnFx m f act) a2 tc s1.mem).map _ = _
    rw [r2]
    rfl

/-- C66, 16-bit elements with 8-bit weights and bias: the same. -/
theorem c66_split_fx16_fx8_partial (m : Rnd) (f : CellFx) (act : RnnAct) (a a1 a2 : CellArgs) (tc o1 : Tensor) (mem mem1 : Buf)
    (A : a.Lstm168 m f act tc mem) (A1 : a1.Lstm168 m f act tc mem) (h1 : krnLstmFx m 32 f act a1 tc mem = some (.ok, mem1, o1))
    (A2 : a2.Lstm168 m { f with fh := f.fo } act tc mem1) (S : a.Split a1 a2 mem mem1) :
    ∃ mem' mem2, krnLstmFx m 32 f act a tc mem = some (.ok, mem', a.outDesc) ∧
      krnLstmFx m 32 { f with fh := f.fo } act a2 tc mem1 = some (.ok, mem2, a2.outDesc) ∧ a.Joined a1 a2 [tc] mem1 mem2 mem' := by
  obtain ⟨P, hi, hh, hc, hwi, hwo, hb, hchk, hf, hfit⟩ := A
  obtain ⟨P1, hi1, hh1, hc1, hwi1, hwo1, hb1, hchk1, hf1, hfit1⟩ := A1
  obtain ⟨P2, hi2, hh2, hc2, hwi2, hwo2, hb2, hchk2, hf2, hfit2⟩ := A2
  obtain ⟨hsh, hfb⟩ := chkLstmFx_ok P hchk
  obtain ⟨hsh1, hfb1⟩ := chkLstmFx_ok P1 hchk1
  obtain ⟨hsh2, hfb2⟩ := chkLstmFx_ok P2 hchk2
  have hS : f.Shifts f.irLstm := ⟨hfb, f.irLstm_le, hf.h, hf.o⟩
  have hS2 : CellFx.Shifts { f with fh := f.fo } f.irLstm := ⟨hfb2, f.irLstm_le, hf2.h, hf2.o⟩
  obtain ⟨sg, th, ac, hF, -⟩ := lstmFnFx_ok m f act
  unfold krnLstmFx at h1
  rw [hchk1, Option.bind_some, if_neg (not_not.2 rfl), Option.map_eq_some_iff] at h1
  obtain ⟨s1, h1, e1⟩ := h1
  obtain ⟨-, e1⟩ := Prod.mk.inj e1
  obtain ⟨rfl, -⟩ := Prod.mk.inj e1
  obtain ⟨s', s2, r1, r2, r3⟩ := lstm_split hF (D2 := CellFx.dense m 32 { f with fh := f.fo } f.irLstm) (fun a first g X H => by cases first <;> rfl)
    P hsh (CellFx.safe32 m hsh hS hfit hwi hwo hb) hi hh hc
    P1 hsh1 (CellFx.safe32 m hsh1 hS hfit1 hwi1 hwo1 hb1) hi1 hh1 h1
    P2 hsh2 (CellFx.safe32 m hsh2 hS2 hfit2 hwi2 hwo2 hb2) hi2 hh2 hc2 S
  refine ⟨s'.mem, s2.mem, ?_, ?_, r3⟩
  · unfold krnLstmFx
    rw [hchk, Option.bind_some, if_neg (not_not.2 rfl), r1]
    rfl
  · unfold krnLstmFx
    rw [hchk2, Option.bind_some, if_neg (not_not.2 rfl)]
    show (lstmRun (CellFx.dense m 32 { f with fh := f.fo } f.irLstm) (lstmFnFx m f act) a2 tc s1.mem).map _ = _
    rw [r2]
    rfl

/-- The second call finds its previous output in the format of the output. -/
theorem CellSa.dense_next {m : Rnd} {full : Bool} {q : CellSa} {ir : SaQ} {D D2 : CellDense} (h : q.dense m full ir = some D)
    (h2 : CellSa.dense m full { q with qh := q.qo } ir = some D2) (a : CellArgs) (first : Bool) (g : Nat) (X H : Int → Int) :
    D2.val a first g X H = D.val a false g X H := by
  unfold CellSa.dense at h h2
  simp only [Option.bind_eq_some_iff, Option.map_eq_some_iff] at h h2
  obtain ⟨ri, hri, rh, hrh, ro, hro, rfl⟩ := h
  obtain ⟨ri', hri', rh', hrh', ro', hro', rfl⟩ := h2
  obtain rfl : ri' = ri := Option.some.inj (hri'.symm.trans hri)
  obtain rfl : ro' = ro := Option.some.inj (hro'.symm.trans hro)
  obtain rfl : rh' = ro' := Option.some.inj (hrh'.symm.trans hro')
  cases first <;> rfl

/-- C66, 8-bit elements: the same. -/
theorem c66_split_sa8_partial (m : Rnd) (full : Bool) (q : CellSa) (act : RnnAct) (a a1 a2 : CellArgs) (tc o1 : Tensor) (mem mem1 : Buf)
    (A : a.Lstm8 m q tc mem) (A1 : a1.Lstm8 m q tc mem) (h1 : krnLstmSa m full q act a1 tc mem = some (.ok, mem1, o1))
    (A2 : a2.Lstm8 m { q with qh := q.qo } tc mem1) (S : a.Split a1 a2 mem mem1) :
    ∃ mem' mem2, krnLstmSa m full q act a tc mem = some (.ok, mem', a.outDesc) ∧
      krnLstmSa m full { q with qh := q.qo } act a2 tc mem1 = some (.ok, mem2, a2.outDesc) ∧ a.Joined a1 a2 [tc] mem1 mem2 mem' := by
  obtain ⟨P, hi, hh, hc, hwi, hwo, hchk, ht, hdim, hfit⟩ := A
  obtain ⟨P1, hi1, hh1, hc1, hwi1, hwo1, hchk1, ht1, hdim1, hfit1⟩ := A1
  obtain ⟨P2, hi2, hh2, hc2, hwi2, hwo2, hchk2, ht2, hdim2, hfit2⟩ := A2
  obtain ⟨hsh, hq, hqc⟩ := chkLstmSa_ok P ht hchk
  obtain ⟨hsh1, hq1, -⟩ := chkLstmSa_ok P1 ht1 hchk1
  obtain ⟨hsh2, hq2, -⟩ := chkLstmSa_ok P2 ht2 hchk2
  obtain ⟨D, hD, hs, -⟩ := CellSa.dense_ok m full hsh hq (ir := lstmIr) ⟨by decide, by decide, by decide⟩ rfl hfit hwi hwo
  obtain ⟨D1, hD1, hs1, -⟩ := CellSa.dense_ok m full hsh1 hq1 (ir := lstmIr) ⟨by decide, by decide, by decide⟩ rfl hfit1 hwi1 hwo1
  obtain ⟨D2, hD2, hs2, -⟩ := CellSa.dense_ok m full hsh2 hq2 (ir := lstmIr) ⟨by decide, by decide, by decide⟩ rfl hfit2 hwi2 hwo2
  obtain rfl : D1 = D := Option.some.inj (hD1.symm.trans hD)
  obtain ⟨sg, th, ac, hF, -⟩ := lstmFnSa_ok m (qo := q.qo.params) hqc act
  unfold krnLstmSa at h1
  rw [hchk1, Option.bind_some, if_neg (not_not.2 rfl), if_neg (show ¬ (q.qwi.dim < -1 ∨ q.qwo.dim < -1) by omega), hD, Option.bind_some,
    Option.map_eq_some_iff] at h1
  obtain ⟨s1, h1, e1⟩ := h1
  obtain ⟨-, e1⟩ := Prod.mk.inj e1
  obtain ⟨rfl, -⟩ := Prod.mk.inj e1
  obtain ⟨s', s2, r1, r2, r3⟩ := lstm_split hF (CellSa.dense_next hD hD2) P hsh hs hi hh hc P1 hsh1 hs1 hi1 hh1 h1 P2 hsh2 hs2 hi2 hh2 hc2 S
  refine ⟨s'.mem, s2.mem, ?_, ?_, r3⟩
  · unfold krnLstmSa
    rw [hchk, Option.bind_some, if_neg (not_not.2 rfl), if_neg (show ¬ (q.qwi.dim < -1 ∨ q.qwo.dim < -1) by omega), hD, Option.bind_some, r1]
    rfl
  · unfold krnLstmSa
    rw [hchk2, Option.bind_some, if_neg (not_not.2 rfl)]
    show (if q.qwi.dim < -1 ∨ q.qwo.dim < -1 then _ else _) = _
    rw [if_neg (show ¬ (q.qwi.dim < -1 ∨ q.qwo.dim < -1) by omega), hD2, Option.bind_some]
    show (lstmRun D2 (lstmFnSa m q.qc.params q.qo.params act) a2 tc s1.mem).map _ = _
    rw [r2]
    rfl

/-! ## Status -/

/-- C66: a call with 16-bit elements reports success exactly for the calls it accepts; otherwise nothing is written. -/
theorem c66_status_fx (m : Rnd) (aw : Nat) (f : CellFx) (act : RnnAct) (a : CellArgs) (tc o : Tensor) (mem mem' : Buf) (st : Status)
    (h : krnLstmFx m aw f act a tc mem = some (st, mem', o)) :
    (st ≠ .ok → mem' = mem ∧ o = a.tout) ∧ (st = .ok → chkLstmFx f a tc = some .ok ∧ o = a.outDesc) := by
  unfold krnLstmFx at h
  rw [Option.bind_eq_some_iff] at h
  obtain ⟨s, hs, h⟩ := h
  by_cases e : s = .ok
  · rw [if_neg (not_not.2 e), Option.map_eq_some_iff] at h
    obtain ⟨d, -, h⟩ := h
    cases h
    exact ⟨fun h => absurd rfl h, fun _ => ⟨by rw [hs, e], rfl⟩⟩
  · rw [if_pos e] at h
    cases h
    exact ⟨fun _ => ⟨rfl, rfl⟩, fun h => absurd h e⟩

/-- C66: the same for 8-bit elements. -/
theorem c66_status_sa8 (m : Rnd) (full : Bool) (q : CellSa) (act : RnnAct) (a : CellArgs) (tc o : Tensor) (mem mem' : Buf) (st : Status)
    (h : krnLstmSa m full q act a tc mem = some (st, mem', o)) :
    (st ≠ .ok → mem' = mem ∧ o = a.tout) ∧ (st = .ok → chkLstmSa m q a tc = some .ok ∧ o = a.outDesc) := by
  unfold krnLstmSa at h
  rw [Option.bind_eq_some_iff] at h
  obtain ⟨s, hs, h⟩ := h
  by_cases e : s = .ok
  · rw [if_neg (not_not.2 e)] at h
    split at h
    · cases h
    · rw [Option.bind_eq_some_iff] at h
      obtain ⟨D, -, h⟩ := h
      rw [Option.map_eq_some_iff] at h
      obtain ⟨d, -, h⟩ := h
      cases h
      exact ⟨fun h => absurd rfl h, fun _ => ⟨by rw [hs, e], rfl⟩⟩
  · rw [if_pos e] at h
    cases h
    exact ⟨fun _ => ⟨rfl, rfl⟩, fun h => absurd h e⟩

/-- C66: what an accepted call of the LSTM requires of the shapes. -/
theorem c66_check {a : CellArgs} {tc : Tensor} {mem : Buf} (P : a.Placed 4 mem [tc]) (h : chkCell 4 a [tc] = some .ok) :
    ∃ s k n : Int, 1 ≤ s ∧ 1 ≤ k ∧ 1 ≤ n ∧ a.tin.shape = [s, k] ∧ a.tprev.shape = [n] ∧ a.twi.shape = [4, k, n] ∧ a.two.shape = [4, n, n] ∧
      a.tb.shape = [4, n] ∧ tc.shape = [n] := by
  have h' := chkCell_ok (G := 4) P h
  obtain ⟨_, _, e1⟩ := h'.wi
  obtain ⟨_, _, e2⟩ := h'.wo
  obtain ⟨_, e3⟩ := h'.tb
  exact ⟨a.seq, a.k, a.n, h'.s1, h'.k1, h'.n1, by simp [Tensor.shape, h'.tin], by simp [Tensor.shape, h'.tprev], by simp [Tensor.shape, e1],
    by simp [Tensor.shape, e2], by simp [Tensor.shape, e3], by simp [Tensor.shape, h'.cell tc (by simp)]⟩

/-! ## Cases that meet the hypotheses -/

/-- A call for two inputs and two outputs over two steps: input at 0, previous output at 4, cell at 6, output at 8, scratch buffer at 12. -/
def exLstm : CellArgs :=
  { tin := { dims := [⟨2, 2⟩, ⟨2, 1⟩], cap := 8, es := 2 }
    tprev := { dims := [⟨2, 1⟩], base := 4, cap := 4, es := 2 }
    twi := { dims := [⟨4, 4⟩, ⟨2, 2⟩, ⟨2, 1⟩], cap := 32, es := 2 }
    two := { dims := [⟨4, 4⟩, ⟨2, 2⟩, ⟨2, 1⟩], cap := 32, es := 2 }
    tb := { dims := [⟨4, 2⟩, ⟨2, 1⟩], cap := 16, es := 2 }
    tout := { dims := [⟨4, 1⟩], base := 8, cap := 8, es := 2 }
    wi := Buf.ofList [900, -800, 700, 600, -500, 400, 300, 200, 100, 50, -60, 70, 80, 90, 1000, -1100]
    wo := Buf.ofList [90, 800, -70, 600, 500, -40, 30, 20, 10, 500, 600, -700, 80, 900, 100, 110]
    bias := Buf.ofList [10, 20, 30, -40, 50, 60, 70, 80]
    scr := 12, scrCap := 16, backward := false, all := true }
def exLstmC : Tensor := { dims := [⟨2, 1⟩], base := 6, cap := 4, es := 2 }
def exLstmMem : Buf := Buf.ofList [1000, -2000, 3000, 4000, 500, -600, 7000, -8000, 99, 99, 99, 99, 0, 0, 0, 0, 0, 0, 0, 0]
def exLstmF : CellFx := { fi := 11, fh := 12, fwi := 9, fwo := 9, fb := 8, fc := 13, fo := 14 }

/-- The first and second step of `exLstm` as calls of their own. -/
def exLstm1 : CellArgs := { exLstm with tin := { dims := [⟨1, 2⟩, ⟨2, 1⟩], cap := 4, es := 2 }, tout := { dims := [⟨2, 1⟩], base := 8, cap := 4, es := 2 } }
def exLstm2 : CellArgs := { exLstm with tin := { dims := [⟨1, 2⟩, ⟨2, 1⟩], base := 2, cap := 4, es := 2 }, tprev := { dims := [⟨2, 1⟩], base := 8, cap := 4, es := 2 },
                                        tout := { dims := [⟨2, 1⟩], base := 10, cap := 4, es := 2 } }

theorem exLstm_ok : exLstm.Lstm16 .up exLstmF .tanh exLstmC exLstmMem where
  P := ⟨⟨by decide, by decide, by decide, by decide⟩, ⟨by decide, by decide, by decide, by decide⟩, ⟨by decide, by decide, by decide, by decide⟩,
    fun c hc => by obtain rfl := List.mem_singleton.1 hc; exact ⟨by decide, by decide, by decide, by decide⟩,
    ⟨by decide, by decide, by decide, by decide⟩, ⟨by decide, by decide, by decide, by decide⟩, ⟨by decide, by decide, by decide, by decide⟩,
    by decide, by decide, by decide, by decide, by decide, by decide, by decide, by unfold Apart; decide, by unfold Apart; decide, by unfold Apart; decide, by unfold Apart; decide,
    by unfold Apart; decide, by unfold Apart; decide, by unfold Apart; decide⟩
  hi := holds_ofList (by decide) _
  hh := holds_ofList (by decide) _
  hc := holds_ofList (by decide) _
  hwi := holds_ofList (by decide) _
  hwo := holds_ofList (by decide) _
  hb := holds_ofList (by decide) _
  hchk := by decide +kernel
  hf := ⟨by decide, by decide, by decide, by decide⟩
  hbs := by decide
  h39 := by decide

/-- The call computes outputs and cell. -/
example : (krnLstmFx .up 64 exLstmF .tanh exLstm exLstmC exLstmMem).map (fun p => (List.range 12).map fun i => p.2.1.get i) =
    some [1000, -2000, 3000, 4000, 500, -600, -638, -1143, 574, -8497, -1255, -56] := by decide +kernel

theorem exLstm1_ok : exLstm1.Lstm16 .up exLstmF .tanh exLstmC exLstmMem where
  P := ⟨⟨by decide, by decide, by decide, by decide⟩, ⟨by decide, by decide, by decide, by decide⟩, ⟨by decide, by decide, by decide, by decide⟩,
    fun c hc => by obtain rfl := List.mem_singleton.1 hc; exact ⟨by decide, by decide, by decide, by decide⟩,
    ⟨by decide, by decide, by decide, by decide⟩, ⟨by decide, by decide, by decide, by decide⟩, ⟨by decide, by decide, by decide, by decide⟩,
    by decide, by decide, by decide, by decide, by decide, by decide, by decide, by unfold Apart; decide, by unfold Apart; decide, by unfold Apart; decide, by unfold Apart; decide,
    by unfold Apart; decide, by unfold Apart; decide, by unfold Apart; decide⟩
  hi := holds_ofList (by decide) _
  hh := holds_ofList (by decide) _
  hc := holds_ofList (by decide) _
  hwi := holds_ofList (by decide) _
  hwo := holds_ofList (by decide) _
  hb := holds_ofList (by decide) _
  hchk := by decide +kernel
  hf := ⟨by decide, by decide, by decide, by decide⟩
  hbs := by decide
  h39 := by decide

/-- A buffer with the elements of a list. -/
def Buf.Lists (b : Buf) (l : List Int) : Prop := b.size = l.length ∧ ∀ i : Nat, i < l.length → b.get i = l.getD i 0

theorem Buf.Lists.holds {b : Buf} {l : List Int} {w : Nat} (h : b.Lists l) (hl : ∀ v ∈ l, InRange w v) {t : Tensor} (hb : ∀ is, InShape t.shape is → 0 ≤ t.addr is ∧ t.addr is < l.length) :
    t.Holds b w := by
  intro is hs
  obtain ⟨h0, h1⟩ := hb is hs
  have := h.2 (t.addr is).toNat (by omega)
  rw [Int.toNat_of_nonneg h0] at this
  rw [this, List.getD_eq_getElem?_getD, List.getElem?_eq_getElem (by omega)]
  exact hl _ (List.getElem_mem _)

theorem Tensor.Valid.size {t : Tensor} {b b' : Buf} (h : t.Valid b) (e : b'.size = b.size) : t.Valid b' :=
  ⟨h.typed, h.small, h.accepted, by have := h.fits; unfold Tensor.Fits at *; rw [e]; exact this⟩

theorem exLstm2_ok {mem1 : Buf} (h : mem1.Lists [1000, -2000, 3000, 4000, 500, -600, 1686, -5115, 574, -8497, 99, 99, 13179, 4611, -8905, -785, 18311, 20147, 5656, 30664]) :
    exLstm2.Lstm16 .up { exLstmF with fh := exLstmF.fo } .tanh exLstmC mem1 := by
  have es : mem1.size = exLstmMem.size := h.1
  have v1 : exLstm2.tin.Valid exLstmMem := ⟨by decide, by decide, by decide, by decide⟩
  have v2 : exLstm2.tprev.Valid exLstmMem := ⟨by decide, by decide, by decide, by decide⟩
  have v3 : exLstm2.tout.Valid exLstmMem := ⟨by decide, by decide, by decide, by decide⟩
  have v4 : exLstmC.Valid exLstmMem := ⟨by decide, by decide, by decide, by decide⟩
  have ho : ∀ {t : Tensor}, t.Valid exLstmMem → t.Holds mem1 16 := fun v => h.holds (by decide) fun is hs => v.inBounds hs
  exact {
    P := ⟨v1.size es, v2.size es, v3.size es, fun c hc => by obtain rfl := List.mem_singleton.1 hc; exact v4.size es,
      ⟨by decide, by decide, by decide, by decide⟩, ⟨by decide, by decide, by decide, by decide⟩, ⟨by decide, by decide, by decide, by decide⟩,
      by decide, by decide, by decide, by decide, by decide, by rw [es]; decide, by decide, by unfold Apart; decide, by unfold Apart; decide, by unfold Apart; decide,
      by unfold Apart; decide, by unfold Apart; decide, by unfold Apart; decide, by unfold Apart; decide⟩
    hi := ho v1
    hh := ho v2
    hc := ho v4
    hwi := holds_ofList (by decide) _
    hwo := holds_ofList (by decide) _
    hb := holds_ofList (by decide) _
    hchk := by decide +kernel
    hf := ⟨by decide, by decide, by decide, by decide⟩
    hbs := by decide
    h39 := by decide }

theorem Buf.lists_of {b : Buf} {l : List Int} (hs : b.size = l.length) (h : (List.range l.length).map (fun i : Nat => b.get (i : Int)) = l) : b.Lists l := by
  refine ⟨hs, fun i hi => ?_⟩
  have := congrArg (fun l => l.getD i 0) h
  simpa only [List.getD_eq_getElem?_getD, List.getElem?_map, List.getElem?_range hi, Option.map_some, Option.getD_some] using this

/-- The two steps as two calls. -/
example : ∃ mem1, krnLstmFx .up 64 exLstmF .tanh exLstm1 exLstmC exLstmMem = some (.ok, mem1, exLstm1.outDesc) ∧
    exLstm2.Lstm16 .up { exLstmF with fh := exLstmF.fo } .tanh exLstmC mem1 ∧ exLstm.Split exLstm1 exLstm2 exLstmMem mem1 := by
  obtain ⟨mem1, H, C, h1, -, -, -, hr⟩ := c66_lstm_fx16_partial _ _ _ _ _ _ exLstm1_ok
  have hl : mem1.Lists [1000, -2000, 3000, 4000, 500, -600, 1686, -5115, 574, -8497, 99, 99, 13179, 4611, -8905, -785, 18311, 20147, 5656, 30664] := by
    refine Buf.lists_of hr.size ?_
    have e : (krnLstmFx .up 64 exLstmF .tanh exLstm1 exLstmC exLstmMem).map (fun p => (List.range 20).map fun i : Nat => p.2.1.get (i : Int)) =
        some [1000, -2000, 3000, 4000, 500, -600, 1686, -5115, 574, -8497, 99, 99, 13179, 4611, -8905, -785, 18311, 20147, 5656, 30664] := by decide +kernel
    rw [h1] at e
    exact Option.some.inj e
  refine ⟨mem1, h1, exLstm2_ok hl, ⟨by decide, rfl, rfl, rfl, rfl, rfl⟩, ⟨by decide, rfl, rfl, rfl, rfl, rfl⟩, by decide, by decide, ?_, ?_, ?_, ?_⟩
  · intro t ht i h0 h1
    have : (t : Int) < 1 := ht
    obtain rfl : t = 0 := by omega
    rfl
  · intro t ht i h0 h1
    have : (t : Int) < 1 := ht
    have h1 : i < 2 := h1
    obtain rfl : t = 0 := by omega
    obtain rfl | rfl : i = 0 ∨ i = 1 := by omega
    · exact hl.2 2 (by decide)
    · exact hl.2 3 (by decide)
  · intro i h0 h1
    rfl
  · intro i h0 h1
    have h1 : i < 2 := h1
    obtain rfl | rfl : i = 0 ∨ i = 1 := by omega
    · rfl
    · rfl

/-- The call with 8-bit weights and bias. -/
def exLstm168 : CellArgs :=
  { exLstm with
    twi := { dims := [⟨4, 4⟩, ⟨2, 2⟩, ⟨2, 1⟩], cap := 16, es := 1 }
    two := { dims := [⟨4, 4⟩, ⟨2, 2⟩, ⟨2, 1⟩], cap := 16, es := 1 }
    tb := { dims := [⟨4, 2⟩, ⟨2, 1⟩], cap := 8, es := 1 }
    wi := Buf.ofList [90, -80, 70, 60, -50, 40, 30, 20, 100, 50, -60, 70, 80, 90, 100, -110]
    wo := Buf.ofList [90, 80, -70, 60, 50, -40, 30, 20, 10, 50, 60, -70, 80, 90, 100, 110]
    backward := true, all := false }

example : exLstm168.Lstm168 .up exLstmF .none exLstmC exLstmMem where
  P := ⟨⟨by decide, by decide, by decide, by decide⟩, ⟨by decide, by decide, by decide, by decide⟩, ⟨by decide, by decide, by decide, by decide⟩,
    fun c hc => by obtain rfl := List.mem_singleton.1 hc; exact ⟨by decide, by decide, by decide, by decide⟩,
    ⟨by decide, by decide, by decide, by decide⟩, ⟨by decide, by decide, by decide, by decide⟩, ⟨by decide, by decide, by decide, by decide⟩,
    by decide, by decide, by decide, by decide, by decide, by decide, by decide, by unfold Apart; decide, by unfold Apart; decide, by unfold Apart; decide, by unfold Apart; decide,
    by unfold Apart; decide, by unfold Apart; decide, by unfold Apart; decide⟩
  hi := holds_ofList (by decide) _
  hh := holds_ofList (by decide) _
  hc := holds_ofList (by decide) _
  hwi := holds_ofList (by decide) _
  hwo := holds_ofList (by decide) _
  hb := holds_ofList (by decide) _
  hchk := by decide +kernel
  hf := ⟨by decide, by decide, by decide, by decide⟩
  hfit := by
    refine ⟨fun g o h => ?_, by decide⟩
    have := holds_ofList (w := 8) (l := [10, 20, 30, -40, 50, 60, 70, 80]) (by decide) exLstm168.tb _ h
    have h1 : |exLstm168.bias.get (exLstm168.tb.addr [g, o])| ≤ 128 := abs_le.2 ⟨this.1, this.2.trans (by decide)⟩
    show |exLstm168.bias.get (exLstm168.tb.addr [g, o])| * 2 ^ 12 + 2 * 2 ^ 22 < 2 ^ 30
    omega

/-- A call with 8-bit elements and scales for every gate. -/
def exLstm8 : CellArgs :=
  { tin := { dims := [⟨2, 2⟩, ⟨2, 1⟩], cap := 4, es := 1 }
    tprev := { dims := [⟨2, 1⟩], base := 4, cap := 2, es := 1 }
    twi := { dims := [⟨4, 4⟩, ⟨2, 2⟩, ⟨2, 1⟩], cap := 16, es := 1 }
    two := { dims := [⟨4, 4⟩, ⟨2, 2⟩, ⟨2, 1⟩], cap := 16, es := 1 }
    tb := { dims := [⟨4, 2⟩, ⟨2, 1⟩], cap := 32, es := 4 }
    tout := { dims := [⟨4, 1⟩], base := 8, cap := 4, es := 1 }
    wi := Buf.ofList [90, -80, 70, 60, -50, 40, 30, 20, 100, 50, -60, 70, 80, 90, 100, -110]
    wo := Buf.ofList [90, 80, -70, 60, 50, -40, 30, 20, 10, 50, 60, -70, 80, 90, 100, 110]
    bias := Buf.ofList [1000, 2000, 300, -4000, 500, 600, 700, 800]
    scr := 12, scrCap := 8, backward := false, all := true }
def exLstmC8 : Tensor := { dims := [⟨2, 1⟩], base := 6, cap := 2, es := 1 }
def exLstmMem8 : Buf := Buf.ofList [100, -20, 30, 40, 50, -60, 70, -80, 99, 99, 99, 99, 0, 0, 0, 0, 0, 0, 0, 0]
def exLstmQ : CellSa :=
  { qi := ⟨-1, [3], [16384], [19]⟩, qh := ⟨-1, [0], [1], [7]⟩, qwi := ⟨0, [0, 0, 0, 0], [16384, 16384, 20000, 16384], [20, 20, 20, 21]⟩
    qwo := ⟨0, [0, 0, 0, 0], [16384, 24000, 16384, 16384], [20, 20, 20, 21]⟩, qb := ⟨0, [0, 0, 0, 0], [16384, 16384, 20000, 16384], [25, 25, 25, 26]⟩
    qc := ⟨-1, [5], [16384], [20]⟩, qo := ⟨-1, [-1], [16384], [21]⟩ }

theorem exLstm8_ok : exLstm8.Lstm8 .convergent exLstmQ exLstmC8 exLstmMem8 where
  P := ⟨⟨by decide, by decide, by decide, by decide⟩, ⟨by decide, by decide, by decide, by decide⟩, ⟨by decide, by decide, by decide, by decide⟩,
    fun c hc => by obtain rfl := List.mem_singleton.1 hc; exact ⟨by decide, by decide, by decide, by decide⟩,
    ⟨by decide, by decide, by decide, by decide⟩, ⟨by decide, by decide, by decide, by decide⟩, ⟨by decide, by decide, by decide, by decide⟩,
    by decide, by decide, by decide, by decide, by decide, by decide, by decide, by unfold Apart; decide, by unfold Apart; decide, by unfold Apart; decide, by unfold Apart; decide,
    by unfold Apart; decide, by unfold Apart; decide, by unfold Apart; decide⟩
  hi := holds_ofList (by decide) _
  hh := holds_ofList (by decide) _
  hc := holds_ofList (by decide) _
  hwi := holds_ofList (by decide) _
  hwo := holds_ofList (by decide) _
  hchk := by decide +kernel
  ht := by decide
  dim := by decide
  hfit := by
    refine ⟨by decide, by decide, fun g o h => ?_⟩
    have := holds_ofList (w := 16) (l := [1000, 2000, 300, -4000, 500, 600, 700, 800]) (by decide) exLstm8.tb _ h
    have h1 : |exLstm8.bias.get (exLstm8.tb.addr [g, o])| ≤ 32768 := abs_le.2 ⟨this.1, this.2.trans (by decide)⟩
    omega

/-! ## Violations -/

/-- C66 fails for large outputs: the sizes are multiplied in 32 bits, so that a call with `2^30` outputs of 4 bytes each, `2^32` bytes in all, passes the
check with an output tensor of 4 bytes. -/
theorem c66_capacity_violated :
    ∃ (a : CellArgs) (tc : Tensor), chkCell 4 a [tc] = some .ok ∧ a.all = true ∧ a.tout.cap = 4 ∧ a.seq * a.n * a.tout.es = 2 ^ 32 :=
  ⟨{ tin := { dims := [⟨2 ^ 30, 1⟩, ⟨1, 1⟩], cap := 2 ^ 30, es := 1 }
     tprev := { dims := [⟨4, 1⟩], base := 2 ^ 30, cap := 4, es := 1 }
     twi := { dims := [⟨4, 4⟩, ⟨1, 4⟩, ⟨4, 1⟩], cap := 16, es := 1 }
     two := { dims := [⟨4, 16⟩, ⟨4, 4⟩, ⟨4, 1⟩], cap := 64, es := 1 }
     tb := { dims := [⟨4, 4⟩, ⟨4, 1⟩], cap := 64, es := 4 }
     tout := { dims := [⟨4, 1⟩], base := 2 ^ 30 + 8, cap := 4, es := 1 }
     wi := Buf.ofList [], wo := Buf.ofList [], bias := Buf.ofList []
     scr := 2 ^ 30 + 16, scrCap := 16, backward := false, all := true }, { dims := [⟨4, 1⟩], base := 2 ^ 30 + 4, cap := 4, es := 1 }, by decide +kernel⟩

/-- C66 fails for 8-bit weights whose quantized dimension is below -1: the call is accepted, but has no result. -/
theorem c66_dim_violated :
    chkLstmSa .convergent { exLstmQ with qwi := ⟨-2, [0], [16384], [20]⟩, qwo := ⟨-2, [0], [16384], [20]⟩, qb := ⟨-2, [0], [16384], [25]⟩ } exLstm8 exLstmC8 = some .ok ∧
      krnLstmSa .convergent false { exLstmQ with qwi := ⟨-2, [0], [16384], [20]⟩, qwo := ⟨-2, [0], [16384], [20]⟩, qb := ⟨-2, [0], [16384], [25]⟩ } .tanh exLstm8 exLstmC8
        exLstmMem8 = none := by
  decide +kernel

end Mli
