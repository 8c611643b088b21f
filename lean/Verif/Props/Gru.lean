import Verif.Lemmas.Gru
import Verif.Props.Lstm

/-! # C67: the GRU cell -/

namespace Mli

open Spec

/-- Sufficient conditions on the fractional bits of a GRU cell with 16-bit elements, besides those the library checks: gates have at most as many
fractional bits as the products; previous output and output differ by at most 15; in builds that round half up the output has no more than one
integer bit beyond its width. -/
structure CellFx.Gru (f : CellFx) (m : Rnd) : Prop where
  h : 0 ≤ f.fh + f.fwo - min 11 (f.fi + f.fwi)
  o : 0 ≤ f.fo + f.fwo - min 11 (f.fi + f.fwi)
  d : |f.fo - f.fh| ≤ 15
  fo : m = .convergent ∨ -1 ≤ f.fo

theorem CellFx.irGru_le (f : CellFx) : f.irGru ≤ f.fi + f.fwi := min_le_right _ _

/-- The element functions of a GRU cell with 16-bit elements. -/
theorem gruFnFx_ok (m : Rnd) (f : CellFx) :
    ∃ sg th, (gruFnFx m f).Ok 16 sg th ∧ (∀ v, InRange 16 v → Near 2.7 (2 ^ 15 * Real.sigmoid (fxReal v f.irGru)) (sg v)) ∧
      (∀ v, InRange 16 v → Near 4.4 (2 ^ 15 * Real.tanh (fxReal v f.irGru)) (th v)) := by
  obtain ⟨sg, s1, s2⟩ := sigmFx m f.irGru
  obtain ⟨th, t1, t2⟩ := tanhFx m f.irGru
  exact ⟨sg, th, ⟨s1, t1, fun _ _ _ => mulFx_range _ _ _ _ _, fun _ _ _ => addFx_range _ _ _ _ _⟩, s2, t2⟩

/-- One minus the update gate. -/
theorem oneMinusFx (m : Rnd) {u : Int} (hu : InRange 16 u) : eltFx m 16 .sub (eltParamsFx 16 .sub 15 15 15) 32767 u = clamp 16 (32767 - u) := by
  obtain ⟨q, h1, h2⟩ := c31_fx_exact_partial m 16 (Or.inr rfl) .sub 15 15 15 32767 u (by decide) hu (fun _ => ⟨by decide, by decide⟩) (by simp) (by simp)
  rw [h1]
  congr 1
  refine scaled_unique h2 ?_
  have e : (32767 : Int) * 2 ^ (max (15 : Int) 15 - 15).toNat - u * 2 ^ (max (15 : Int) 15 - 15).toNat = 32767 - u := by norm_num
  rw [e]
  cases m <;> simp [Scaled, RoundHalfUp, RoundHalfEven]

/-- One step on elements is the step of the specification. -/
theorem gru_fx_step {m : Rnd} {D : CellDense} {f : CellFx} {a : CellArgs} (hf : f.Gru m) {sg th : Int → Int}
    (hF : (gruFnFx m f).Ok 16 sg th)
    (hsg : ∀ v, InRange 16 v → Near 2.7 (2 ^ 15 * Real.sigmoid (fxReal v f.irGru)) (sg v))
    (hth : ∀ v, InRange 16 v → Near 4.4 (2 ^ 15 * Real.tanh (fxReal v f.irGru)) (th v)) {first : Bool} {X H : Int → Int}
    (hg : ∀ H', RowIn 16 a.n H' → ∀ g, g < 3 → ∀ o, 0 ≤ o → o < a.n →
      GateFx m f f.irGru (if first then f.fh else f.fo) a.k a.n a.w X H' g o (D.val a first g X H' o))
    (hr : ∀ g H o, InRange 16 (D.val a first g X H o)) (hH : RowIn 16 a.n H) :
    GruFxStep m f f.irGru (if first then f.fh else f.fo) a.k a.n a.w X H (gruOut D (gruFnFx m f) a sg th first X H) := by
  have hR : RowIn 16 a.n (gruReset D (gruFnFx m f) a sg first X H) := fun i _ _ => hF.mulR _ _ _
  have hd := hf.d
  have hd2 : |f.fo - (if first then f.fh else f.fo)| ≤ 15 := by cases first <;> simp [hd]
  have hmx : max f.fo (if first then f.fh else f.fo) - f.fo ≤ 31 := by
    rw [abs_le] at hd2; omega
  refine ⟨fun g => if g = 2 then D.val a first 2 X (gruReset D (gruFnFx m f) a sg first X H) else D.val a first g X H,
    gruReset D (gruFnFx m f) a sg first X H, fun o h0 h1 => ⟨hg H hH 0 (by omega) o h0 h1, hg H hH 1 (by omega) o h0 h1, hg _ hR 2 (by omega) o h0 h1, ?_⟩⟩
  have ru := hF.sigm.range _ (hr 0 H o)
  have rr := hF.sigm.range _ (hr 1 H o)
  have rn := hF.tanh.range _ (hr 2 (gruReset D (gruFnFx m f) a sg first X H) o)
  have e1 : (gruFnFx m f).subU (sg (D.val a first 0 X H o)) = clamp 16 (32767 - sg (D.val a first 0 X H o)) := oneMinusFx m ru
  refine ⟨sg (D.val a first 0 X H o), sg (D.val a first 1 X H o), th (D.val a first 2 X (gruReset D (gruFnFx m f) a sg first X H) o),
    (gruFnFx m f).mulH first (H o) (sg (D.val a first 0 X H o)),
    (gruFnFx m f).mulN (th (D.val a first 2 X (gruReset D (gruFnFx m f) a sg first X H) o)) (clamp 16 (32767 - sg (D.val a first 0 X H o))),
    hsg _ (hr 0 H o), hsg _ (hr 1 H o), hth _ (hr 2 _ o), prodFx m rr (hH o h0 h1) (Or.inr (by omega)), prodFx m (hH o h0 h1) ru (Or.inr (by omega)),
    prodFx m rn (clamp_inRange _ _) (hf.fo.imp_right fun h => by omega), ?_⟩
  unfold gruOut
  rw [e1]
  exact sumFx m (mulFx_range _ _ _ _ _) (mulFx_range _ _ _ _ _) hd2 hmx

theorem chkGruFx_ok {f : CellFx} {a : CellArgs} {mem : Buf} (P : a.Placed 3 mem []) (h : chkGruFx f a = some .ok) :
    a.Shapes 3 [] ∧ f.fb ≤ f.fi + f.fwi := by
  obtain ⟨h1, h2⟩ := bind_ok h
  exact ⟨chkCell_ok (G := 3) P h1, (if_ok (by decide) h2).1⟩

/-- The kernels with 16-bit elements, for safe weights. -/
theorem gru_fx {m : Rnd} {aw : Nat} {f : CellFx} {a : CellArgs} {mem : Buf} {ww : Nat} {B : Int} (P : a.Placed 3 mem [])
    (hsep : RowSep a.n a.tprev.base a.tout.base) (hi : a.tin.Holds mem 16) (hh : a.tprev.Holds mem 16) (hchk : chkGruFx f a = some .ok) (hf : f.Gru m)
    (hs : (f.dense m aw f.irGru).Safe a 3 16 ww B)
    (hg : ∀ first X H, RowIn 16 a.k X → RowIn 16 a.n H → ∀ g, g < 3 → ∀ o, 0 ≤ o → o < a.n →
      GateFx m f f.irGru (if first then f.fh else f.fo) a.k a.n a.w X H g o ((f.dense m aw f.irGru).val a first g X H o)) :
    ∃ mem', ∃ H : Nat → Int → Int, krnGruFx m aw f a mem = some (.ok, mem', a.outDesc) ∧
      (∀ i, H 0 i = mem.get (a.tprev.addr [i])) ∧
      (∀ t : Nat, (t : Int) < a.seq →
        GruFxStep m f f.irGru (if t = 0 then f.fh else f.fo) a.k a.n a.w (a.input mem t) (H t) (H (t + 1))) ∧
      a.Result 3 [] mem H (fun _ => 0) mem' := by
  obtain ⟨hsh, -⟩ := chkGruFx_ok P hchk
  obtain ⟨sg, th, hF, hsg, hth⟩ := gruFnFx_ok m f
  obtain ⟨s', h1, h2, h3⟩ := gru_all P hsh hs hF hsep hi hh
  set T := cellTrace (gruPure (f.dense m aw f.irGru) (gruFnFx m f) a sg th) (a.input mem) (fun i => mem.get (a.tprev.addr [i])) fun _ => 0 with hT
  refine ⟨s'.mem, fun t => (T t).1, ?_, fun i => rfl, fun t ht => ?_, ⟨h2.size, h2.out, fun c hc => (by cases hc), h2.frame⟩⟩
  · unfold krnGruFx
    rw [hchk, Option.bind_some, if_neg (not_not.2 rfl), h1]
    rfl
  · obtain ⟨rx, rh⟩ := h3 t ht
    have := gru_fx_step (a := a) hf hF hsg hth (first := decide (t = 0)) (fun H' rh' => hg (decide (t = 0)) _ _ rx rh') (fun g H o => hs.store _) rh
    simp only [decide_eq_true_eq] at this
    exact this

/-- A call of the kernel with 16-bit elements, weights and bias: tensors placed and filled as the user has to, accepted by the library, and with
suitable fractional bits.  The previous output may be the first row of the output, or apart from it. -/
structure CellArgs.Gru16 (a : CellArgs) (m : Rnd) (f : CellFx) (mem : Buf) : Prop where
  P : a.Placed 3 mem []
  sep : RowSep a.n a.tprev.base a.tout.base
  hi : a.tin.Holds mem 16
  hh : a.tprev.Holds mem 16
  hwi : a.twi.Holds a.wi 16
  hwo : a.two.Holds a.wo 16
  hb : a.tb.Holds a.bias 16
  hchk : chkGruFx f a = some .ok
  hf : f.Gru m
  hbs : f.fi + f.fwi - f.fb ≤ 16
  h39 : f.fi + f.fwi - min 11 (f.fi + f.fwi) ≤ 39 ∧ f.fh + f.fwo - min 11 (f.fi + f.fwi) ≤ 39 ∧ f.fo + f.fwo - min 11 (f.fi + f.fwi) ≤ 39

/-- A call of the kernel with 16-bit elements and 8-bit weights and bias; here the sums must fit 32 bits. -/
structure CellArgs.Gru168 (a : CellArgs) (m : Rnd) (f : CellFx) (mem : Buf) : Prop where
  P : a.Placed 3 mem []
  sep : RowSep a.n a.tprev.base a.tout.base
  hi : a.tin.Holds mem 16
  hh : a.tprev.Holds mem 16
  hwi : a.twi.Holds a.wi 8
  hwo : a.two.Holds a.wo 8
  hb : a.tb.Holds a.bias 8
  hchk : chkGruFx f a = some .ok
  hf : f.Gru m
  hfit : f.Fits m a

/-- C67, 16-bit elements, weights and bias: an accepted call runs the cell over the sequence, in the direction asked for.  The outputs `H 1`, `H 2`,
... follow from the previous output by one step of the specification each and are in the output tensor (all, or only the last); nothing else
changes but the scratch buffer.  Partial: the conditions on fractional bits. -/
theorem c67_gru_fx16_partial (m : Rnd) (f : CellFx) (a : CellArgs) (mem : Buf) (A : a.Gru16 m f mem) :
    ∃ mem', ∃ H : Nat → Int → Int, krnGruFx m 64 f a mem = some (.ok, mem', a.outDesc) ∧
      (∀ i, H 0 i = mem.get (a.tprev.addr [i])) ∧
      (∀ t : Nat, (t : Int) < a.seq →
        GruFxStep m f (min 11 (f.fi + f.fwi)) (if t = 0 then f.fh else f.fo) a.k a.n a.w (a.input mem t) (H t) (H (t + 1))) ∧
      a.Result 3 [] mem H (fun _ => 0) mem' := by
  obtain ⟨P, hsep, hi, hh, hwi, hwo, hb, hchk, hf, hbs, h39⟩ := A
  obtain ⟨hsh, hfb⟩ := chkGruFx_ok P hchk
  have hS : f.Shifts f.irGru := ⟨hfb, f.irGru_le, hf.h, hf.o⟩
  exact gru_fx P hsep hi hh hchk hf (CellFx.safe64 m hsh (by omega) hS hbs hwi hwo hb)
    (fun first X H rx rh g hg o h0 h1 => CellFx.val64 m hsh (by omega) hS hbs h39 hwi hwo hb first rx rh hg h0 h1)

/-- C67, 16-bit elements with 8-bit weights and bias, accumulated in 32 bits.  Partial: the conditions on fractional bits, and sums that fit. -/
theorem c67_gru_fx16_fx8_partial (m : Rnd) (f : CellFx) (a : CellArgs) (mem : Buf) (A : a.Gru168 m f mem) :
    ∃ mem', ∃ H : Nat → Int → Int, krnGruFx m 32 f a mem = some (.ok, mem', a.outDesc) ∧
      (∀ i, H 0 i = mem.get (a.tprev.addr [i])) ∧
      (∀ t : Nat, (t : Int) < a.seq →
        GruFxStep m f (min 11 (f.fi + f.fwi)) (if t = 0 then f.fh else f.fo) a.k a.n a.w (a.input mem t) (H t) (H (t + 1))) ∧
      a.Result 3 [] mem H (fun _ => 0) mem' := by
  obtain ⟨P, hsep, hi, hh, hwi, hwo, hb, hchk, hf, hfit⟩ := A
  obtain ⟨hsh, hfb⟩ := chkGruFx_ok P hchk
  have hS : f.Shifts f.irGru := ⟨hfb, f.irGru_le, hf.h, hf.o⟩
  exact gru_fx P hsep hi hh hchk hf (CellFx.safe32 m hsh hS hfit hwi hwo hb)
    (fun first X H rx rh g hg o h0 h1 => CellFx.val32 m hsh hS hfit hwi hwo hb first rx rh hg h0 h1)

/-! ## 8-bit elements -/

/-- The element functions of a GRU cell with 8-bit elements. -/
theorem gruFnSa_ok (m : Rnd) :
    ∃ sg th, (∀ qh qo, (gruFnSa m qh qo).Ok 8 sg th) ∧ (∀ v, InRange 8 v → SigmSa ⟨0, 21, 9⟩ v (sg v)) ∧ (∀ v, InRange 8 v → TanhSa ⟨0, 21, 9⟩ v (th v)) := by
  obtain ⟨sg, s1, s2⟩ := sigmSa m (o := 0) (sc := 21) (sh := 9) (by decide) (by decide)
  obtain ⟨th, t1, t2⟩ := tanhSa m (o := 0) (sc := 21) (sh := 9) (by decide) (by decide)
  refine ⟨sg, th, fun qh qo => ⟨s1, t1, fun f _ _ => ?_, fun f _ _ => ?_⟩, s2, t2⟩
  · cases f <;> exact mulSa_range _ _ _ _
  · cases f <;> exact addSa_range _ _ _ _

theorem oneMinusSa_all : ∀ i : Fin 256, eltSa .up .sub (eltParamsSa .up .sub saSigm saSigm saSigm) 127 (i - 128) = 127 - i ∧
    eltSa .convergent .sub (eltParamsSa .convergent .sub saSigm saSigm saSigm) 127 (i - 128) = 127 - i := by
  decide +kernel

/-- One minus the update gate, for all 256 values of the gate. -/
theorem oneMinusSa (m : Rnd) {u : Int} (hu : InRange 8 u) : eltSa m .sub (eltParamsSa m .sub saSigm saSigm saSigm) 127 u = -1 - u := by
  have h1 : -128 ≤ u := hu.1
  have h2 : u ≤ 127 := hu.2
  have h := oneMinusSa_all ⟨(u + 128).toNat, by omega⟩
  have e : (((u + 128).toNat : Nat) : Int) = u + 128 := Int.toNat_of_nonneg (by omega)
  simp only [e] at h
  rw [show u + 128 - 128 = u by ring, show 127 - (u + 128) = -1 - u by ring] at h
  cases m
  · exact h.1
  · exact h.2

attribute [local irreducible] eltSa eltParamsSa in
/-- The elementwise part of a step is that of the specification. -/
theorem gru_sa_elem {m : Rnd} {qh qo : SaParams} (hqh : qh.Ok) (hqo : qo.Ok) {first : Bool} {gu gr gn h : Int} (ru : InRange 8 gu) (rr : InRange 8 gr)
    (rn : InRange 8 gn) (rh : InRange 8 h) :
    (if first then qh else qo).fmt.Close (3 / 5) (fmtSigm.real gr * (if first then qh else qo).fmt.real h) ((gruFnSa m qh qo).mulR first gr h) ∧
    ∃ u p r, (if first then qh else qo).fmt.Close (3 / 5) ((if first then qh else qo).fmt.real h * fmtSigm.real gu) p ∧
      fmtSigm.real u = 255 / 256 - fmtSigm.real gu ∧ qo.fmt.Close (3 / 5) (fmtTanh.real gn * fmtSigm.real u) r ∧
      qo.fmt.Close (1 + (|qo.fmt.real r / qo.fmt.step| + |(if first then qh else qo).fmt.real p / qo.fmt.step|) / 8192)
        (qo.fmt.real r + (if first then qh else qo).fmt.real p)
        ((gruFnSa m qh qo).addO first ((gruFnSa m qh qo).mulN gn ((gruFnSa m qh qo).subU gu)) ((gruFnSa m qh qo).mulH first h gu)) := by
  have es : saSigm.fmt = fmtSigm := rfl
  have et : saTanh.fmt = fmtTanh := rfl
  have eu : (gruFnSa m qh qo).subU gu = -1 - gu := oneMinusSa m ru
  have rU : InRange 8 (-1 - gu) := by
    obtain ⟨h1, h2⟩ := ru
    constructor <;> simp only [lo, hi] at * <;> omega
  have eR : fmtSigm.real (-1 - gu) = 255 / 256 - fmtSigm.real gu := by
    simp only [fmtSigm, SaFmt.real, saReal, scaleVal]
    push_cast
    ring
  have er := prodSa m saTanh_ok saSigm_ok hqo rn rU
  rw [es, et] at er
  have hr := mulSa_range m (eltParamsSa m .mul saTanh saSigm qo) gn (-1 - gu)
  have en : (gruFnSa m qh qo).mulN gn ((gruFnSa m qh qo).subU gu) = eltSa m .mul (eltParamsSa m .mul saTanh saSigm qo) gn (-1 - gu) := by rw [eu]; rfl
  rw [en]
  clear en eu
  generalize eltSa m .mul (eltParamsSa m .mul saTanh saSigm qo) gn (-1 - gu) = r at *
  cases first with
  | true =>
    have e1 := prodSa m saSigm_ok hqh hqh rr rh
    have e2 := prodSa m hqh saSigm_ok hqh rh ru
    have e3 := sumSa m hqo hqh hqo hr (mulSa_range m (eltParamsSa m .mul qh saSigm qh) h gu)
    rw [es] at e1 e2
    exact ⟨e1, -1 - gu, eltSa m .mul (eltParamsSa m .mul qh saSigm qh) h gu, r, e2, eR, er, e3⟩
  | false =>
    have e1 := prodSa m saSigm_ok hqo hqo rr rh
    have e2 := prodSa m hqo saSigm_ok hqo rh ru
    have e3 := sumSa m hqo hqo hqo hr (mulSa_range m (eltParamsSa m .mul qo saSigm qo) h gu)
    rw [es] at e1 e2
    exact ⟨e1, -1 - gu, eltSa m .mul (eltParamsSa m .mul qo saSigm qo) h gu, r, e2, eR, er, e3⟩

/-- One step on elements is the step of the specification. -/
theorem gru_sa_step {m : Rnd} {full : Bool} {D : CellDense} {q : CellSa} {a : CellArgs} (hqh : q.qh.params.Ok) (ho : q.qo.params.Ok)
    {sg th : Int → Int} (hF : (gruFnSa m q.qh.params q.qo.params).Ok 8 sg th)
    (hsg : ∀ v, InRange 8 v → SigmSa ⟨0, 21, 9⟩ v (sg v)) (hth : ∀ v, InRange 8 v → TanhSa ⟨0, 21, 9⟩ v (th v)) {first : Bool} {X H : Int → Int}
    (hg : ∀ H', RowIn 8 a.n H' → ∀ g, g < 3 → ∀ o, 0 ≤ o → o < a.n →
      GateSa full q.fmt (21 / 512) (if first then q.qh.params else q.qo.params).fmt a.k a.n a.w X H' g o (D.val a first g X H' o))
    (hr : ∀ g H o, InRange 8 (D.val a first g X H o)) (hH : RowIn 8 a.n H) :
    GruSaStep full q.fmt (if first then q.qh.params else q.qo.params).fmt a.k a.n a.w X H
      (gruOut D (gruFnSa m q.qh.params q.qo.params) a sg th first X H) := by
  have hR : RowIn 8 a.n (gruReset D (gruFnSa m q.qh.params q.qo.params) a sg first X H) := fun i _ _ => hF.mulR _ _ _
  refine ⟨fun g => if g = 2 then D.val a first 2 X (gruReset D (gruFnSa m q.qh.params q.qo.params) a sg first X H) else D.val a first g X H,
    gruReset D (gruFnSa m q.qh.params q.qo.params) a sg first X H,
    fun o h0 h1 => ⟨hg H hH 0 (by omega) o h0 h1, hg H hH 1 (by omega) o h0 h1, hg _ hR 2 (by omega) o h0 h1, ?_⟩⟩
  have ru := hF.sigm.range _ (hr 0 H o)
  have rr := hF.sigm.range _ (hr 1 H o)
  have rn := hF.tanh.range _ (hr 2 (gruReset D (gruFnSa m q.qh.params q.qo.params) a sg first X H) o)
  obtain ⟨e1, u, p, r, e2, e3, e4, e5⟩ := gru_sa_elem (m := m) (first := first) hqh ho ru rr rn (hH o h0 h1)
  exact ⟨_, _, _, u, p, r, hsg _ (hr 0 H o), hsg _ (hr 1 H o), hth _ (hr 2 _ o), e1, e2, e3, e4, e5⟩

/-- A call of the kernel with 8-bit elements; the weights have a scale for each gate. -/
structure CellArgs.Gru8 (a : CellArgs) (m : Rnd) (q : CellSa) (mem : Buf) : Prop where
  P : a.Placed 3 mem []
  sep : RowSep a.n a.tprev.base a.tout.base
  hi : a.tin.Holds mem 8
  hh : a.tprev.Holds mem 8
  hwi : a.twi.Holds a.wi 8
  hwo : a.two.Holds a.wo 8
  hchk : chkGruSa m q a = some .ok
  ht : q.Typed
  dim : 0 ≤ q.qwi.dim ∧ 0 ≤ q.qwo.dim
  hfit : a.SaFits

theorem chkGruSa_ok {m : Rnd} {q : CellSa} {a : CellArgs} {mem : Buf} (P : a.Placed 3 mem []) (ht : q.Typed)
    (h : chkGruSa m q a = some .ok) : a.Shapes 3 [] ∧ q.Ok 3 := by
  obtain ⟨h1, h2⟩ := bind_ok h
  have hsh := chkCell_ok (G := 3) P h1
  exact ⟨hsh, (chkCellSaQ_ok hsh (by omega) (by simp) ht h2).1⟩

theorem gruIr_step : scaleVal (gruIr.scaleAt 0) (gruIr.fracAt 0) = 21 / 512 := by
  show scaleVal 21 9 = _
  unfold scaleVal
  norm_num

theorem gruW_eq {q : CellSa} (h : 0 ≤ q.qwi.dim ∧ 0 ≤ q.qwo.dim) : { q with qwi := gruW q.qwi, qwo := gruW q.qwo } = q := by
  unfold gruW
  rw [if_neg (by omega), if_neg (by omega)]

/-- The kernel after its checks. -/
theorem krnGruSa_run {m : Rnd} {full : Bool} {q : CellSa} {a : CellArgs} {mem : Buf} {D : CellDense} (hchk : chkGruSa m q a = some .ok)
    (hdim : 0 ≤ q.qwi.dim ∧ 0 ≤ q.qwo.dim) (hD : q.dense m full gruIr = some D) :
    krnGruSa m full q a mem = (gruRun D (gruFnSa m q.qh.params q.qo.params) a mem).map fun s => (.ok, s.mem, a.outDesc) := by
  unfold krnGruSa
  rw [hchk, Option.bind_some, if_neg (not_not.2 rfl), if_neg (show ¬ (q.qwi.dim < -1 ∨ q.qwo.dim < -1) by omega), gruW_eq hdim, hD, Option.bind_some]

/-- C67, 8-bit elements: an accepted call runs the cell over the sequence, step by step as specified.  Partial: weights with a scale for each gate
(see `c67_scale_violated`), at most `2^15` inputs and outputs, biases below `2^30`. -/
theorem c67_gru_sa8_partial (m : Rnd) (full : Bool) (q : CellSa) (a : CellArgs) (mem : Buf) (A : a.Gru8 m q mem) :
    ∃ mem', ∃ H : Nat → Int → Int, krnGruSa m full q a mem = some (.ok, mem', a.outDesc) ∧
      (∀ i, H 0 i = mem.get (a.tprev.addr [i])) ∧
      (∀ t : Nat, (t : Int) < a.seq →
        GruSaStep full q.fmt (if t = 0 then q.qh.params.fmt else q.qo.params.fmt) a.k a.n a.w (a.input mem t) (H t) (H (t + 1))) ∧
      a.Result 3 [] mem H (fun _ => 0) mem' := by
  obtain ⟨P, hsep, hi, hh, hwi, hwo, hchk, ht, hdim, hfit⟩ := A
  obtain ⟨hsh, hq⟩ := chkGruSa_ok P ht hchk
  obtain ⟨D, hD, hs, hg⟩ := CellSa.dense_ok m full hsh hq (ir := gruIr) ⟨by decide, by decide, by decide⟩ rfl hfit hwi hwo
  obtain ⟨sg, th, hFa, hsg, hth⟩ := gruFnSa_ok m
  have hF := hFa q.qh.params q.qo.params
  obtain ⟨s', h1, h2, h3⟩ := gru_all P hsh hs hF hsep hi hh
  set T := cellTrace (gruPure D (gruFnSa m q.qh.params q.qo.params) a sg th) (a.input mem) (fun i => mem.get (a.tprev.addr [i])) fun _ => 0 with hT
  refine ⟨s'.mem, fun t => (T t).1, ?_, fun i => rfl, fun t ht => ?_, ⟨h2.size, h2.out, fun c hc => (by cases hc), h2.frame⟩⟩
  · rw [krnGruSa_run hchk hdim hD, h1]
    rfl
  · obtain ⟨rx, rh⟩ := h3 t ht
    have e : ∀ b : Bool, (if b then q.qh.params else q.qo.params).fmt = if b then q.qh.params.fmt else q.qo.params.fmt := fun b => by cases b <;> rfl
    have := gru_sa_step (a := a) (full := full) hq.h hq.o hF hsg hth (first := decide (t = 0)) (X := a.input mem t) (H := (T t).1)
      (fun H' rh' g hgl o h0 h1 => by
        have := hg (decide (t = 0)) _ _ rx rh' g hgl o h0 h1
        rw [gruIr_step] at this
        rw [e]
        exact this) (fun g H o => hs.store _) rh
    rw [e] at this
    simp only [decide_eq_true_eq] at this
    exact this

/-! ## A sequence in two calls -/

theorem gruPure_agree {D D' : CellDense} {F F' : GruFn} {a a1 : CellArgs} {sg th : Int → Int} {f f' : Bool}
    (hv : ∀ g X H, D'.val a1 f g X H = D.val a f' g X H) (hR : F'.mulR f = F.mulR f') (hH : F'.mulH f = F.mulH f') (hO : F'.addO f = F.addO f')
    (hU : F'.subU = F.subU) (hN : F'.mulN = F.mulN) {X X' H H' C C' : Int → Int} (hx : Agree a.k X X') (hh : Agree a.n H H') {n : Int} :
    Agree a.n (gruPure D' F' a1 sg th f X H C).1 (gruPure D F a sg th f' X' H' C').1 ∧
      Agree n (gruPure D' F' a1 sg th f X H C).2 (gruPure D F a sg th f' X' H' C').2 :=
  ⟨fun i h0 h1 => gruOut_congr hv hR hH hO hU hN hx hh i h0 h1, fun _ _ _ => rfl⟩

/-- Two calls after one another leave the outputs of one call. -/
theorem gru_split {D D2 : CellDense} {F F2 : GruFn} {a a1 a2 : CellArgs} {mem : Buf} {s1 : CellSt} {w ww : Nat} {B B1 B2 : Int} {sg th : Int → Int}
    (hF : F.Ok w sg th) (hF2 : F2.Ok w sg th) (hD : ∀ a first g X H, D2.val a first g X H = D.val a false g X H)
    (hR : ∀ f, F2.mulR f = F.mulR false) (hH : ∀ f, F2.mulH f = F.mulH false) (hO : ∀ f, F2.addO f = F.addO false) (hU : F2.subU = F.subU) (hN : F2.mulN = F.mulN)
    (P : a.Placed 3 mem []) (hsep : RowSep a.n a.tprev.base a.tout.base) (hsh : a.Shapes 3 []) (hs : D.Safe a 3 w ww B) (hi : a.tin.Holds mem w) (hh : a.tprev.Holds mem w)
    (P1 : a1.Placed 3 mem []) (hsep1 : RowSep a1.n a1.tprev.base a1.tout.base) (hsh1 : a1.Shapes 3 []) (hs1 : D.Safe a1 3 w ww B1) (hi1 : a1.tin.Holds mem w)
    (hh1 : a1.tprev.Holds mem w) (h1 : gruRun D F a1 mem = some s1)
    (P2 : a2.Placed 3 s1.mem []) (hsep2 : RowSep a2.n a2.tprev.base a2.tout.base) (hsh2 : a2.Shapes 3 []) (hs2 : D2.Safe a2 3 w ww B2)
    (hi2 : a2.tin.Holds s1.mem w) (hh2 : a2.tprev.Holds s1.mem w) (S : a.Split a1 a2 mem s1.mem) :
    ∃ s' s2, gruRun D F a mem = some s' ∧ gruRun D2 F2 a2 s1.mem = some s2 ∧ a.Joined a1 a2 [] s1.mem s2.mem s'.mem := by
  obtain ⟨s', g1, g2, -⟩ := gru_all P hsh hs hF hsep hi hh
  obtain ⟨s1', k1, k2, -⟩ := gru_all P1 hsh1 hs1 hF hsep1 hi1 hh1
  obtain ⟨s2, l1, l2, -⟩ := gru_all P2 hsh2 hs2 hF2 hsep2 hi2 hh2
  obtain rfl : s1' = s1 := Option.some.inj (k1.symm.trans h1)
  obtain ⟨ek1, en1⟩ := hsh.same hsh1 S.w1.1
  obtain ⟨ek2, en2⟩ := hsh.same hsh2 S.w2.1
  refine ⟨s', s2, g1, l1, S.joined hsh hsh1 hsh2 (m := 0) (fun h => absurd rfl h) (fun i _ _ => rfl) ?_ ?_ ?_ g2 k2 l2⟩
  · intro K hK i i0 i1
    omega
  · intro f X X' H H' C C' hx hh hc
    exact gruPure_agree (fun g X H => CellDense.val_eq S.w1 ek1 en1 f g X H) rfl rfl rfl rfl rfl hx hh
  · intro f X X' H H' C C' hx hh hc
    exact gruPure_agree (fun g X H => by rw [CellDense.val_eq S.w2 ek2 en2 f g X H, hD]) (hR f) (hH f) (hO f) hU hN hx hh

/-- C67, 16-bit elements, weights and bias: processing a sequence in two calls (the second starting from the last output of the first) gives the
outputs of processing it in one call. -/
theorem c67_split_fx16_partial (m : Rnd) (f : CellFx) (a a1 a2 : CellArgs) (o1 : Tensor) (mem mem1 : Buf)
    (A : a.Gru16 m f mem) (A1 : a1.Gru16 m f mem) (h1 : krnGruFx m 64 f a1 mem = some (.ok, mem1, o1))
    (A2 : a2.Gru16 m { f with fh := f.fo } mem1) (S : a.Split a1 a2 mem mem1) :
    ∃ mem' mem2, krnGruFx m 64 f a mem = some (.ok, mem', a.outDesc) ∧
      krnGruFx m 64 { f with fh := f.fo } a2 mem1 = some (.ok, mem2, a2.outDesc) ∧ a.Joined a1 a2 [] mem1 mem2 mem' := by
  obtain ⟨P, hsep, hi, hh, hwi, hwo, hb, hchk, hf, hbs, h39⟩ := A
  obtain ⟨P1, hsep1, hi1, hh1, hwi1, hwo1, hb1, hchk1, hf1, hbs1, h391⟩ := A1
  obtain ⟨P2, hsep2, hi2, hh2, hwi2, hwo2, hb2, hchk2, hf2, hbs2, h392⟩ := A2
  obtain ⟨hsh, hfb⟩ := chkGruFx_ok P hchk
  obtain ⟨hsh1, hfb1⟩ := chkGruFx_ok P1 hchk1
  obtain ⟨hsh2, hfb2⟩ := chkGruFx_ok P2 hchk2
  have hS : f.Shifts f.irGru := ⟨hfb, f.irGru_le, hf.h, hf.o⟩
  have hS2 : CellFx.Shifts { f with fh := f.fo } f.irGru := ⟨hfb2, f.irGru_le, hf2.h, hf2.o⟩
  obtain ⟨sg, th, hF, -⟩ := gruFnFx_ok m f
  have hF2 : (gruFnFx m { f with fh := f.fo }).Ok 16 sg th := ⟨hF.sigm, hF.tanh, fun _ _ _ => mulFx_range _ _ _ _ _, fun _ _ _ => addFx_range _ _ _ _ _⟩
  unfold krnGruFx at h1
  rw [hchk1, Option.bind_some, if_neg (not_not.2 rfl), Option.map_eq_some_iff] at h1
  obtain ⟨s1, h1, e1⟩ := h1
  obtain ⟨-, e1⟩ := Prod.mk.inj e1
  obtain ⟨rfl, -⟩ := Prod.mk.inj e1
  obtain ⟨s', s2, r1, r2, r3⟩ := gru_split hF hF2 (D2 := CellFx.dense m 64 { f with fh := f.fo } f.irGru) (fun a first g X H => by cases first <;> rfl)
    (fun f => by cases f <;> rfl) (fun f => by cases f <;> rfl) (fun f => by cases f <;> rfl) rfl rfl
    P hsep hsh (CellFx.safe64 m hsh (by omega) hS hbs hwi hwo hb) hi hh
    P1 hsep1 hsh1 (CellFx.safe64 m hsh1 (by omega) hS hbs hwi1 hwo1 hb1) hi1 hh1 h1
    P2 hsep2 hsh2 (CellFx.safe64 m hsh2 (by omega) hS2 hbs2 hwi2 hwo2 hb2) hi2 hh2 S
  refine ⟨s'.mem, s2.mem, ?_, ?_, r3⟩
  · unfold krnGruFx
    rw [hchk, Option.bind_some, if_neg (not_not.2 rfl), r1]
    rfl
  · unfold krnGruFx
    rw [hchk2, Option.bind_some, if_neg (not_not.2 rfl)]
    show (gruRun (CellFx.dense m 64 { f with fh := f.fo } f.irGru) (gruFnFx m { f with fh := f.fo }) a2 s1.mem).map _ = _
    rw [r2]
    rfl

/-- C67, 16-bit elements with 8-bit weights and bias: the same. -/
theorem c67_split_fx16_fx8_partial (m : Rnd) (f : CellFx) (a a1 a2 : CellArgs) (o1 : Tensor) (mem mem1 : Buf)
    (A : a.Gru168 m f mem) (A1 : a1.Gru168 m f mem) (h1 : krnGruFx m 32 f a1 mem = some (.ok, mem1, o1))
    (A2 : a2.Gru168 m { f with fh := f.fo } mem1) (S : a.Split a1 a2 mem mem1) :
    ∃ mem' mem2, krnGruFx m 32 f a mem = some (.ok, mem', a.outDesc) ∧
      krnGruFx m 32 { f with fh := f.fo } a2 mem1 = some (.ok, mem2, a2.outDesc) ∧ a.Joined a1 a2 [] mem1 mem2 mem' := by
  obtain ⟨P, hsep, hi, hh, hwi, hwo, hb, hchk, hf, hfit⟩ := A
  obtain ⟨P1, hsep1, hi1, hh1, hwi1, hwo1, hb1, hchk1, hf1, hfit1⟩ := A1
  obtain ⟨P2, hsep2, hi2, hh2, hwi2, hwo2, hb2, hchk2, hf2, hfit2⟩ := A2
  obtain ⟨hsh, hfb⟩ := chkGruFx_ok P hchk
  obtain ⟨hsh1, hfb1⟩ := chkGruFx_ok P1 hchk1
  obtain ⟨hsh2, hfb2⟩ := chkGruFx_ok P2 hchk2
  have hS : f.Shifts f.irGru := ⟨hfb, f.irGru_le, hf.h, hf.o⟩
  have hS2 : CellFx.Shifts { f with fh := f.fo } f.irGru := ⟨hfb2, f.irGru_le, hf2.h, hf2.o⟩
  obtain ⟨sg, th, hF, -⟩ := gruFnFx_ok m f
  have hF2 : (gruFnFx m { f with fh := f.fo }).Ok 16 sg th := ⟨hF.sigm, hF.tanh, fun _ _ _ => mulFx_range _ _ _ _ _, fun _ _ _ => addFx_range _ _ _ _ _⟩
  unfold krnGruFx at h1
  rw [hchk1, Option.bind_some, if_neg (not_not.2 rfl), Option.map_eq_some_iff] at h1
  obtain ⟨s1, h1, e1⟩ := h1
  obtain ⟨-, e1⟩ := Prod.mk.inj e1
  obtain ⟨rfl, -⟩ := Prod.mk.inj e1
  obtain ⟨s', s2, r1, r2, r3⟩ := gru_split hF hF2 (D2 := CellFx.dense m 32 { f with fh := f.fo } f.irGru) (fun a first g X H => by cases first <;> rfl)
    (fun f => by cases f <;> rfl) (fun f => by cases f <;> rfl) (fun f => by cases f <;> rfl) rfl rfl
    P hsep hsh (CellFx.safe32 m hsh hS hfit hwi hwo hb) hi hh
    P1 hsep1 hsh1 (CellFx.safe32 m hsh1 hS hfit1 hwi1 hwo1 hb1) hi1 hh1 h1
    P2 hsep2 hsh2 (CellFx.safe32 m hsh2 hS2 hfit2 hwi2 hwo2 hb2) hi2 hh2 S
  refine ⟨s'.mem, s2.mem, ?_, ?_, r3⟩
  · unfold krnGruFx
    rw [hchk, Option.bind_some, if_neg (not_not.2 rfl), r1]
    rfl
  · unfold krnGruFx
    rw [hchk2, Option.bind_some, if_neg (not_not.2 rfl)]
    show (gruRun (CellFx.dense m 32 { f with fh := f.fo } f.irGru) (gruFnFx m { f with fh := f.fo }) a2 s1.mem).map _ = _
    rw [r2]
    rfl

attribute [local irreducible] eltSa eltParamsSa in
theorem gruFnSa_fields (m : Rnd) (qh qo : SaParams) :
    ((∀ f, (gruFnSa m qh qo).mulR f = if f then eltSa m .mul (eltParamsSa m .mul saSigm qh qh) else eltSa m .mul (eltParamsSa m .mul saSigm qo qo)) ∧
      ∀ f, (gruFnSa m qh qo).mulH f = if f then eltSa m .mul (eltParamsSa m .mul qh saSigm qh) else eltSa m .mul (eltParamsSa m .mul qo saSigm qo)) ∧
      (∀ f, (gruFnSa m qh qo).addO f = if f then eltSa m .add (eltParamsSa m .add qo qh qo) else eltSa m .add (eltParamsSa m .add qo qo qo)) ∧
      (gruFnSa m qh qo).subU = eltSa m .sub (eltParamsSa m .sub saSigm saSigm saSigm) 127 ∧
      (gruFnSa m qh qo).mulN = eltSa m .mul (eltParamsSa m .mul saTanh saSigm qo) :=
  ⟨⟨fun _ => rfl, fun _ => rfl⟩, fun _ => rfl, rfl, rfl⟩

/-- After the first step the previous output has the format of the output. -/
theorem gruFnSa_next (m : Rnd) (qh qo : SaParams) :
    (∀ f, (gruFnSa m qo qo).mulR f = (gruFnSa m qh qo).mulR false) ∧ (∀ f, (gruFnSa m qo qo).mulH f = (gruFnSa m qh qo).mulH false) ∧
      (∀ f, (gruFnSa m qo qo).addO f = (gruFnSa m qh qo).addO false) ∧ (gruFnSa m qo qo).subU = (gruFnSa m qh qo).subU ∧
      (gruFnSa m qo qo).mulN = (gruFnSa m qh qo).mulN := by
  obtain ⟨⟨a1, a2⟩, a3, a4, a5⟩ := gruFnSa_fields m qo qo
  obtain ⟨⟨b1, b2⟩, b3, b4, b5⟩ := gruFnSa_fields m qh qo
  exact ⟨fun f => by rw [a1, b1, ite_self, if_neg (by simp)], fun f => by rw [a2, b2, ite_self, if_neg (by simp)],
    fun f => by rw [a3, b3, ite_self, if_neg (by simp)], by rw [a4, b4], by rw [a5, b5]⟩

attribute [local irreducible] eltSa eltParamsSa in
/-- C67, 8-bit elements: the same. -/
theorem c67_split_sa8_partial (m : Rnd) (full : Bool) (q : CellSa) (a a1 a2 : CellArgs) (o1 : Tensor) (mem mem1 : Buf)
    (A : a.Gru8 m q mem) (A1 : a1.Gru8 m q mem) (h1 : krnGruSa m full q a1 mem = some (.ok, mem1, o1))
    (A2 : a2.Gru8 m { q with qh := q.qo } mem1) (S : a.Split a1 a2 mem mem1) :
    ∃ mem' mem2, krnGruSa m full q a mem = some (.ok, mem', a.outDesc) ∧
      krnGruSa m full { q with qh := q.qo } a2 mem1 = some (.ok, mem2, a2.outDesc) ∧ a.Joined a1 a2 [] mem1 mem2 mem' := by
  obtain ⟨P, hsep, hi, hh, hwi, hwo, hchk, ht, hdim, hfit⟩ := A
  obtain ⟨P1, hsep1, hi1, hh1, hwi1, hwo1, hchk1, ht1, hdim1, hfit1⟩ := A1
  obtain ⟨P2, hsep2, hi2, hh2, hwi2, hwo2, hchk2, ht2, hdim2, hfit2⟩ := A2
  obtain ⟨hsh, hq⟩ := chkGruSa_ok P ht hchk
  obtain ⟨hsh1, hq1⟩ := chkGruSa_ok P1 ht1 hchk1
  obtain ⟨hsh2, hq2⟩ := chkGruSa_ok P2 ht2 hchk2
  obtain ⟨D, hD, hs, -⟩ := CellSa.dense_ok m full hsh hq (ir := gruIr) ⟨by decide, by decide, by decide⟩ rfl hfit hwi hwo
  obtain ⟨D1, hD1, hs1, -⟩ := CellSa.dense_ok m full hsh1 hq1 (ir := gruIr) ⟨by decide, by decide, by decide⟩ rfl hfit1 hwi1 hwo1
  obtain ⟨D2, hD2, hs2, -⟩ := CellSa.dense_ok m full hsh2 hq2 (ir := gruIr) ⟨by decide, by decide, by decide⟩ rfl hfit2 hwi2 hwo2
  obtain rfl : D1 = D := Option.some.inj (hD1.symm.trans hD)
  obtain ⟨sg, th, hFa, -⟩ := gruFnSa_ok m
  have hF := hFa q.qh.params q.qo.params
  have hF2 := hFa q.qo.params q.qo.params
  rw [krnGruSa_run hchk1 hdim hD, Option.map_eq_some_iff] at h1
  obtain ⟨s1, h1, e1⟩ := h1
  obtain ⟨-, e1⟩ := Prod.mk.inj e1
  obtain ⟨rfl, -⟩ := Prod.mk.inj e1
  obtain ⟨n1, n2, n3, n4, n5⟩ := gruFnSa_next m q.qh.params q.qo.params
  obtain ⟨s', s2, r1, r2, r3⟩ := gru_split hF hF2 (CellSa.dense_next hD hD2) n1 n2 n3 n4 n5
    P hsep hsh hs hi hh P1 hsep1 hsh1 hs1 hi1 hh1 h1 P2 hsep2 hsh2 hs2 hi2 hh2 S
  refine ⟨s'.mem, s2.mem, ?_, ?_, r3⟩
  · rw [krnGruSa_run hchk hdim hD, r1]
    rfl
  · rw [krnGruSa_run hchk2 hdim2 hD2]
    have e : gruFnSa m (CellSa.qh { q with qh := q.qo }).params (CellSa.qo { q with qh := q.qo }).params = gruFnSa m q.qo.params q.qo.params := rfl
    rw [e, r2]
    rfl

/-! ## Status -/

/-- C67: a call with 16-bit elements reports success exactly for the calls it accepts; otherwise nothing is written. -/
theorem c67_status_fx (m : Rnd) (aw : Nat) (f : CellFx) (a : CellArgs) (o : Tensor) (mem mem' : Buf) (st : Status)
    (h : krnGruFx m aw f a mem = some (st, mem', o)) :
    (st ≠ .ok → mem' = mem ∧ o = a.tout) ∧ (st = .ok → chkGruFx f a = some .ok ∧ o = a.outDesc) := by
  unfold krnGruFx at h
  rw [Option.bind_eq_some_iff] at h
  obtain ⟨s, hs, h⟩ := h
  by_cases e : s = .ok
  · rw [if_neg (not_not.2 e), Option.map_eq_some_iff] at h
    obtain ⟨d, -, h⟩ := h
    cases h
    exact ⟨fun h => absurd rfl h, fun _ => ⟨by rw [hs, e], rfl⟩⟩
  · rw [if_pos e] at h
    cases h
    exact ⟨fun _ => ⟨rfl, rfl⟩, fun h => absurd h e⟩

/-- C67: the same for 8-bit elements. -/
theorem c67_status_sa8 (m : Rnd) (full : Bool) (q : CellSa) (a : CellArgs) (o : Tensor) (mem mem' : Buf) (st : Status)
    (h : krnGruSa m full q a mem = some (st, mem', o)) :
    (st ≠ .ok → mem' = mem ∧ o = a.tout) ∧ (st = .ok → chkGruSa m q a = some .ok ∧ o = a.outDesc) := by
  unfold krnGruSa at h
  rw [Option.bind_eq_some_iff] at h
  obtain ⟨s, hs, h⟩ := h
  by_cases e : s = .ok
  · rw [if_neg (not_not.2 e)] at h
    split at h
    · cases h
    · rw [Option.bind_eq_some_iff] at h
      obtain ⟨D, -, h⟩ := h
      rw [Option.map_eq_some_iff] at h
      obtain ⟨d, -, h⟩ := h
      cases h
      exact ⟨fun h => absurd rfl h, fun _ => ⟨by rw [hs, e], rfl⟩⟩
  · rw [if_pos e] at h
    cases h
    exact ⟨fun _ => ⟨rfl, rfl⟩, fun h => absurd h e⟩

/-- C67: what an accepted call of the GRU requires of the shapes. -/
theorem c67_check {a : CellArgs} {mem : Buf} (P : a.Placed 3 mem []) (h : chkCell 3 a [] = some .ok) :
    ∃ s k n : Int, 1 ≤ s ∧ 1 ≤ k ∧ 1 ≤ n ∧ a.tin.shape = [s, k] ∧ a.tprev.shape = [n] ∧ a.twi.shape = [3, k, n] ∧ a.two.shape = [3, n, n] ∧
      a.tb.shape = [3, n] := by
  have h' := chkCell_ok (G := 3) P h
  obtain ⟨_, _, e1⟩ := h'.wi
  obtain ⟨_, _, e2⟩ := h'.wo
  obtain ⟨_, e3⟩ := h'.tb
  exact ⟨a.seq, a.k, a.n, h'.s1, h'.k1, h'.n1, by simp [Tensor.shape, h'.tin], by simp [Tensor.shape, h'.tprev], by simp [Tensor.shape, e1],
    by simp [Tensor.shape, e2], by simp [Tensor.shape, e3]⟩

/-! ## Cases that meet the hypotheses -/

/-- A call for two inputs and two outputs over two steps: input at 0, previous output at 4, output at 6, scratch buffer at 10. -/
def exGru : CellArgs :=
  { tin := { dims := [⟨2, 2⟩, ⟨2, 1⟩], cap := 8, es := 2 }
    tprev := { dims := [⟨2, 1⟩], base := 4, cap := 4, es := 2 }
    twi := { dims := [⟨3, 4⟩, ⟨2, 2⟩, ⟨2, 1⟩], cap := 24, es := 2 }
    two := { dims := [⟨3, 4⟩, ⟨2, 2⟩, ⟨2, 1⟩], cap := 24, es := 2 }
    tb := { dims := [⟨3, 2⟩, ⟨2, 1⟩], cap := 12, es := 2 }
    tout := { dims := [⟨4, 1⟩], base := 6, cap := 8, es := 2 }
    wi := Buf.ofList [900, -800, 700, 600, -500, 400, 300, 200, 100, 50, -60, 70]
    wo := Buf.ofList [90, 800, -70, 600, 500, -40, 30, 20, 10, 500, 600, -700]
    bias := Buf.ofList [10, 20, 30, -40, 50, 60]
    scr := 10, scrCap := 12, backward := false, all := true }
def exGruMem : Buf := Buf.ofList [1000, -2000, 3000, 4000, 5000, -6000, 99, 99, 99, 99, 0, 0, 0, 0, 0, 0]
def exGruF : CellFx := { fi := 11, fh := 12, fwi := 9, fwo := 9, fb := 8, fc := 0, fo := 14 }

/-- The first and second step of `exGru` as calls of their own. -/
def exGru1 : CellArgs := { exGru with tin := { dims := [⟨1, 2⟩, ⟨2, 1⟩], cap := 4, es := 2 }, tout := { dims := [⟨2, 1⟩], base := 6, cap := 4, es := 2 } }
def exGru2 : CellArgs := { exGru with tin := { dims := [⟨1, 2⟩, ⟨2, 1⟩], base := 2, cap := 4, es := 2 }, tprev := { dims := [⟨2, 1⟩], base := 6, cap := 4, es := 2 },
                                      tout := { dims := [⟨2, 1⟩], base := 8, cap := 4, es := 2 } }
def exGru8 : CellArgs :=
  { tin := { dims := [⟨2, 2⟩, ⟨2, 1⟩], cap := 4, es := 1 }
    tprev := { dims := [⟨2, 1⟩], base := 4, cap := 2, es := 1 }
    twi := { dims := [⟨3, 4⟩, ⟨2, 2⟩, ⟨2, 1⟩], cap := 12, es := 1 }
    two := { dims := [⟨3, 4⟩, ⟨2, 2⟩, ⟨2, 1⟩], cap := 12, es := 1 }
    tb := { dims := [⟨3, 2⟩, ⟨2, 1⟩], cap := 24, es := 4 }
    tout := { dims := [⟨4, 1⟩], base := 6, cap := 4, es := 1 }
    wi := Buf.ofList [90, -80, 70, 60, -50, 40, 30, 20, 100, 50, -60, 70]
    wo := Buf.ofList [90, 80, -70, 60, 50, -40, 30, 20, 10, 50, 60, -70]
    bias := Buf.ofList [1000, 2000, 300, -4000, 500, 600]
    scr := 10, scrCap := 6, backward := false, all := true }
def exGruMem8 : Buf := Buf.ofList [100, -20, 30, 40, 50, -60, 99, 99, 99, 99, 0, 0, 0, 0, 0, 0]
def exGruQ : CellSa :=
  { qi := ⟨-1, [3], [16384], [19]⟩, qh := ⟨-1, [0], [1], [7]⟩, qwi := ⟨0, [0, 0, 0], [16384, 16384, 20000], [20, 20, 20]⟩
    qwo := ⟨0, [0, 0, 0], [16384, 24000, 16384], [20, 20, 20]⟩, qb := ⟨0, [0, 0, 0], [16384, 16384, 20000], [25, 25, 25]⟩
    qc := ⟨-1, [5], [16384], [20]⟩, qo := ⟨-1, [-1], [16384], [21]⟩ }
/-- The same with a single scale for all gates. -/
def exGruQ1 : CellSa :=
  { exGruQ with qwi := ⟨-1, [0], [16384], [20]⟩, qwo := ⟨-1, [0], [16384], [20]⟩, qb := ⟨-1, [0], [16384], [25]⟩ }
/-- The same, the scale being repeated for every gate. -/
def exGruQ3 : CellSa :=
  { exGruQ with qwi := ⟨0, [0, 0, 0], [16384, 16384, 16384], [20, 20, 20]⟩, qwo := ⟨0, [0, 0, 0], [16384, 16384, 16384], [20, 20, 20]⟩
                qb := ⟨0, [0, 0, 0], [16384, 16384, 16384], [25, 25, 25]⟩ }

theorem exGru_ok : exGru.Gru16 .up exGruF exGruMem where
  P := ⟨⟨by decide, by decide, by decide, by decide⟩, ⟨by decide, by decide, by decide, by decide⟩, ⟨by decide, by decide, by decide, by decide⟩,
    fun c hc => (by cases hc), ⟨by decide, by decide, by decide, by decide⟩, ⟨by decide, by decide, by decide, by decide⟩, ⟨by decide, by decide, by decide, by decide⟩,
    by decide, by decide, by decide, (fun c hc => by cases hc), by decide, by decide, by decide, by unfold Apart; decide, by unfold Apart; decide, by unfold Apart; decide, by unfold Apart; decide, (fun c hc => by cases hc),
    (fun c hc => by cases hc), (fun c hc => by cases hc)⟩
  sep := by unfold RowSep; decide
  hi := holds_ofList (by decide) _
  hh := holds_ofList (by decide) _
  hwi := holds_ofList (by decide) _
  hwo := holds_ofList (by decide) _
  hb := holds_ofList (by decide) _
  hchk := by decide +kernel
  hf := ⟨by decide, by decide, by decide, by decide⟩
  hbs := by decide
  h39 := by decide

/-- The call computes the outputs. -/
example : (krnGruFx .up 64 exGruF exGru exGruMem).map (fun p => (List.range 10).map fun i : Nat => p.2.1.get (i : Int)) =
    some [1000, -2000, 3000, 4000, 5000, -6000, 7406, 8822, 7423, 7949] := by decide +kernel

theorem exGru1_ok : exGru1.Gru16 .up exGruF exGruMem where
  P := ⟨⟨by decide, by decide, by decide, by decide⟩, ⟨by decide, by decide, by decide, by decide⟩, ⟨by decide, by decide, by decide, by decide⟩,
    fun c hc => (by cases hc), ⟨by decide, by decide, by decide, by decide⟩, ⟨by decide, by decide, by decide, by decide⟩, ⟨by decide, by decide, by decide, by decide⟩,
    by decide, by decide, by decide, (fun c hc => by cases hc), by decide, by decide, by decide, by unfold Apart; decide, by unfold Apart; decide, by unfold Apart; decide, by unfold Apart; decide, (fun c hc => by cases hc),
    (fun c hc => by cases hc), (fun c hc => by cases hc)⟩
  sep := by unfold RowSep; decide
  hi := holds_ofList (by decide) _
  hh := holds_ofList (by decide) _
  hwi := holds_ofList (by decide) _
  hwo := holds_ofList (by decide) _
  hb := holds_ofList (by decide) _
  hchk := by decide +kernel
  hf := ⟨by decide, by decide, by decide, by decide⟩
  hbs := by decide
  h39 := by decide

theorem exGru2_ok {mem1 : Buf} (h : mem1.Lists [1000, -2000, 3000, 4000, 5000, -6000, 7406, 8822, 99, 99, 16571, 27434, 2718, -2541, -2478, 12730]) : exGru2.Gru16 .up { exGruF with fh := exGruF.fo } mem1 := by
  have es : mem1.size = exGruMem.size := h.1
  have v1 : exGru2.tin.Valid exGruMem := ⟨by decide, by decide, by decide, by decide⟩
  have v2 : exGru2.tprev.Valid exGruMem := ⟨by decide, by decide, by decide, by decide⟩
  have v3 : exGru2.tout.Valid exGruMem := ⟨by decide, by decide, by decide, by decide⟩
  have ho : ∀ {t : Tensor}, t.Valid exGruMem → t.Holds mem1 16 := fun v => h.holds (by decide) fun is hs => v.inBounds hs
  exact {
    P := ⟨v1.size es, v2.size es, v3.size es, fun c hc => (by cases hc), ⟨by decide, by decide, by decide, by decide⟩, ⟨by decide, by decide, by decide, by decide⟩, ⟨by decide, by decide, by decide, by decide⟩,
      by decide, by decide, by decide, (fun c hc => by cases hc), by decide, by rw [es]; decide, by decide, by unfold Apart; decide, by unfold Apart; decide, by unfold Apart; decide,
      by unfold Apart; decide, (fun c hc => by cases hc), (fun c hc => by cases hc), (fun c hc => by cases hc)⟩
    sep := by unfold RowSep; decide
    hi := ho v1
    hh := ho v2
    hwi := holds_ofList (by decide) _
    hwo := holds_ofList (by decide) _
    hb := holds_ofList (by decide) _
    hchk := by decide +kernel
    hf := ⟨by decide, by decide, by decide, by decide⟩
    hbs := by decide
    h39 := by decide }

/-- The two steps as two calls. -/
example : ∃ mem1, krnGruFx .up 64 exGruF exGru1 exGruMem = some (.ok, mem1, exGru1.outDesc) ∧
    exGru2.Gru16 .up { exGruF with fh := exGruF.fo } mem1 ∧ exGru.Split exGru1 exGru2 exGruMem mem1 := by
  obtain ⟨mem1, H, h1, -, -, hr⟩ := c67_gru_fx16_partial _ _ _ _ exGru1_ok
  have hl : mem1.Lists [1000, -2000, 3000, 4000, 5000, -6000, 7406, 8822, 99, 99, 16571, 27434, 2718, -2541, -2478, 12730] := by
    refine Buf.lists_of hr.size ?_
    have e : (krnGruFx .up 64 exGruF exGru1 exGruMem).map (fun p => (List.range 16).map fun i : Nat => p.2.1.get (i : Int)) =
        some [1000, -2000, 3000, 4000, 5000, -6000, 7406, 8822, 99, 99, 16571, 27434, 2718, -2541, -2478, 12730] := by decide +kernel
    rw [h1] at e
    exact Option.some.inj e
  refine ⟨mem1, h1, exGru2_ok hl, ⟨by decide, rfl, rfl, rfl, rfl, rfl⟩, ⟨by decide, rfl, rfl, rfl, rfl, rfl⟩, by decide, by decide, ?_, ?_, ?_, ?_⟩
  · intro t ht i h0 h1
    have : (t : Int) < 1 := ht
    obtain rfl : t = 0 := by omega
    rfl
  · intro t ht i h0 h1
    have : (t : Int) < 1 := ht
    have h1 : i < 2 := h1
    obtain rfl : t = 0 := by omega
    obtain rfl | rfl : i = 0 ∨ i = 1 := by omega
    · exact hl.2 2 (by decide)
    · exact hl.2 3 (by decide)
  · intro i h0 h1
    rfl
  · intro i h0 h1
    have h1 : i < 2 := h1
    obtain rfl | rfl : i = 0 ∨ i = 1 := by omega
    · rfl
    · rfl

/-- The call with 8-bit weights and bias, backward, writing only the last output, over the previous output. -/
def exGru168 : CellArgs :=
  { exGru with
    tprev := { dims := [⟨2, 1⟩], base := 6, cap := 4, es := 2 }
    twi := { dims := [⟨3, 4⟩, ⟨2, 2⟩, ⟨2, 1⟩], cap := 12, es := 1 }
    two := { dims := [⟨3, 4⟩, ⟨2, 2⟩, ⟨2, 1⟩], cap := 12, es := 1 }
    tb := { dims := [⟨3, 2⟩, ⟨2, 1⟩], cap := 6, es := 1 }
    wi := Buf.ofList [90, -80, 70, 60, -50, 40, 30, 20, 100, 50, -60, 70]
    wo := Buf.ofList [90, 80, -70, 60, 50, -40, 30, 20, 10, 50, 60, -70]
    backward := true, all := false }

example : exGru168.Gru168 .up exGruF exGruMem where
  P := ⟨⟨by decide, by decide, by decide, by decide⟩, ⟨by decide, by decide, by decide, by decide⟩, ⟨by decide, by decide, by decide, by decide⟩,
    fun c hc => (by cases hc), ⟨by decide, by decide, by decide, by decide⟩, ⟨by decide, by decide, by decide, by decide⟩, ⟨by decide, by decide, by decide, by decide⟩,
    by decide, by decide, by decide, (fun c hc => by cases hc), by decide, by decide, by decide, by unfold Apart; decide, by unfold Apart; decide, by unfold Apart; decide, by unfold Apart; decide, (fun c hc => by cases hc),
    (fun c hc => by cases hc), (fun c hc => by cases hc)⟩
  sep := by unfold RowSep; decide
  hi := holds_ofList (by decide) _
  hh := holds_ofList (by decide) _
  hwi := holds_ofList (by decide) _
  hwo := holds_ofList (by decide) _
  hb := holds_ofList (by decide) _
  hchk := by decide +kernel
  hf := ⟨by decide, by decide, by decide, by decide⟩
  hfit := by
    refine ⟨fun g o h => ?_, by decide⟩
    have := holds_ofList (w := 8) (l := [10, 20, 30, -40, 50, 60]) (by decide) exGru168.tb _ h
    have h1 : |exGru168.bias.get (exGru168.tb.addr [g, o])| ≤ 128 := abs_le.2 ⟨this.1, this.2.trans (by decide)⟩
    show |exGru168.bias.get (exGru168.tb.addr [g, o])| * 2 ^ 12 + 2 * 2 ^ 22 < 2 ^ 30
    omega

theorem exGru8_ok : exGru8.Gru8 .convergent exGruQ exGruMem8 where
  P := ⟨⟨by decide, by decide, by decide, by decide⟩, ⟨by decide, by decide, by decide, by decide⟩, ⟨by decide, by decide, by decide, by decide⟩,
    fun c hc => (by cases hc), ⟨by decide, by decide, by decide, by decide⟩, ⟨by decide, by decide, by decide, by decide⟩, ⟨by decide, by decide, by decide, by decide⟩,
    by decide, by decide, by decide, (fun c hc => by cases hc), by decide, by decide, by decide, by unfold Apart; decide, by unfold Apart; decide, by unfold Apart; decide, by unfold Apart; decide, (fun c hc => by cases hc),
    (fun c hc => by cases hc), (fun c hc => by cases hc)⟩
  sep := by unfold RowSep; decide
  hi := holds_ofList (by decide) _
  hh := holds_ofList (by decide) _
  hwi := holds_ofList (by decide) _
  hwo := holds_ofList (by decide) _
  hchk := by decide +kernel
  ht := by decide
  dim := by decide
  hfit := by
    refine ⟨by decide, by decide, fun g o h => ?_⟩
    have := holds_ofList (w := 16) (l := [1000, 2000, 300, -4000, 500, 600]) (by decide) exGru8.tb _ h
    have h1 : |exGru8.bias.get (exGru8.tb.addr [g, o])| ≤ 32768 := abs_le.2 ⟨this.1, this.2.trans (by decide)⟩
    omega

/-! ## Violations -/

/-- C67 fails for 8-bit weights with a single scale: `exGruQ1` and `exGruQ3` give the same numbers to the weights, and both calls are accepted, but
with the single scale the new information is computed with about a quarter of the weights, and the outputs differ. -/
theorem c67_scale_violated :
    (∀ g < 3, exGruQ1.fmt.wi g = exGruQ3.fmt.wi g ∧ exGruQ1.fmt.wo g = exGruQ3.fmt.wo g) ∧
    (krnGruSa .convergent false exGruQ3 exGru8 exGruMem8).map (fun p => (p.1, (List.range 4).map fun i : Nat => p.2.1.get (6 + (i : Int)))) =
      some (.ok, [49, 117, 51, 117]) ∧
    (krnGruSa .convergent false exGruQ1 exGru8 exGruMem8).map (fun p => (p.1, (List.range 4).map fun i : Nat => p.2.1.get (6 + (i : Int)))) =
      some (.ok, [49, 53, 48, 54]) := by
  refine ⟨fun g hg => ?_, by decide +kernel, by decide +kernel⟩
  obtain rfl | rfl | rfl : g = 0 ∨ g = 1 ∨ g = 2 := by omega
  all_goals exact ⟨rfl, rfl⟩

/-- C67 fails for 8-bit weights whose quantized dimension is below -1: the call is accepted, but has no result. -/
theorem c67_dim_violated :
    chkGruSa .convergent { exGruQ with qwi := ⟨-2, [0], [16384], [20]⟩, qwo := ⟨-2, [0], [16384], [20]⟩, qb := ⟨-2, [0], [16384], [25]⟩ } exGru8 = some .ok ∧
      krnGruSa .convergent false { exGruQ with qwi := ⟨-2, [0], [16384], [20]⟩, qwo := ⟨-2, [0], [16384], [20]⟩, qb := ⟨-2, [0], [16384], [25]⟩ } exGru8
        exGruMem8 = none := by
  decide +kernel

end Mli
