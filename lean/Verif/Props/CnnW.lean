import Verif.Model.CnnW
import Verif.Props.Cnn
import Verif.Props.LayerRuntime
import Verif.Props.FcAbs

/-!
# C103: convolutional networks with 8-bit weights

The error of a network of convolutions, pooling and fully connected layers of any depth, with 16-bit data and 8-bit weights and biases.
-/

namespace Mli

open Spec

/-- Weights and bias are 8-bit elements in their buffers and the formats fit.  With rounding up the output shift must not be between 17 and 31 (see `c05_cast_up_violated`). -/
structure WtPar.OkW (m : Rnd) (fi : Int) (p : WtPar) : Prop where
  frac : p.f.fi = fi
  vw : p.tw.Valid p.wts
  vb : p.tb.Valid p.bias
  hw : p.tw.Holds p.wts 8
  hb : p.tb.Holds p.bias 8
  one : p.f.relu = .one → p.f.fo < 30
  up : m = .up → p.f.fi + p.f.fw - p.f.fo ≤ 16 ∨ 32 ≤ p.f.fi + p.f.fw - p.f.fo

/-- The sums fit the 32 bits of the accumulator whatever the input is, if `total k` bounds the sum of the absolute values of the weights of output channel `k`:
an input element is at most 2^15 (see `c36_fx8_overflow_violated`). -/
def WtPar.SumsFit (p : WtPar) (total : Int → Int) : Prop := ∀ k, 0 ≤ k → k < p.tw.shape.getLastD 0 →
  2 ^ 15 * total k + |p.bias.get (p.tb.addr [k]) * 2 ^ (p.f.fi + p.f.fw - p.f.fb).toNat| < 2 ^ 31

/-- What the kernel asks of its arguments, as `CnnLayer.Accepted`. -/
def CnnLayer.AcceptedW (m : Rnd) (fi : Int) (tin : Tensor) (l : CnnLayer) : Prop :=
  match l.op with
  | .conv p => p.OkW m fi ∧ chkConvFx false p.ks p.apart p.f tin p.tw p.tb p.c l.tout = some .ok ∧ p.c.Typed ∧
      RowsMeet (tin.shape.getD 0 0) (p.tw.shape.getD 0 0) (l.tout.shape.getD 0 0) p.c ∧
      p.SumsFit fun k => absSum (p.tw.shape.getD 0 0) (p.tw.shape.getD 1 0) (p.tw.shape.getD 2 0) (wtElem p.wts p.tw k)
  | .depthwise p => p.OkW m fi ∧ chkConvFx true p.ks p.apart p.f tin p.tw p.tb p.c l.tout = some .ok ∧ p.c.Typed ∧
      p.SumsFit fun _ => 2 ^ 7 * prod p.tw.shape.dropLast
  | .maxpool g => chkPool tin g l.tout = some .ok ∧ ∃ ih iw ic oh ow, PoolGeo tin g l.tout ih iw ic oh ow
  | .avepool _ g => chkPool tin g l.tout = some .ok ∧ ∃ ih iw ic oh ow, PoolGeo tin g l.tout ih iw ic oh ow
  | .dense p => p.OkW m fi ∧ chkFcFx p.apart p.f tin p.tw p.tb l.tout = some .ok ∧
      p.SumsFit fun k => absLine (p.tw.shape.getD 0 0) fun i => p.wts.get (p.tw.addr [i, k])

/-- What is shown of each layer. -/
def LayerGoodW (m : Rnd) (fi : Int) (tin : Tensor) (src : Buf) (l : CnnLayer) (x : List Int → ℚ) (e g : ℚ) : Prop :=
  0 ≤ g ∧ ∃ dst', l.runW m fi tin src = some (.ok, dst') ∧ dst'.size = l.dst.size ∧ l.tout.Valid dst' ∧ l.tout.Holds dst' 16 ∧
    l.tout.NearAt dst' (l.op.frac fi) (fun is => l.op.real tin.shape x is) (g * e + l.op.err fi)

theorem conv_goodW (m : Rnd) {fi : Int} {tin : Tensor} {src : Buf} {p : WtPar} {tout : Tensor} {dst : Buf} {x : List Int → ℚ} {e g : ℚ}
    (vi : tin.Valid src) (hi : tin.Holds src 16) (vo : tout.Valid dst) (h : CnnLayer.AcceptedW m fi tin ⟨.conv p, tout, dst⟩)
    (hg : (CnnOp.conv p).Gain tin.shape g) (he : 0 ≤ e) (hx : tin.NearAt src fi x e) : LayerGoodW m fi tin src ⟨.conv p, tout, dst⟩ x e g := by
  obtain ⟨P, hck, ct, hmeet, F⟩ := h
  replace hck : chkConvFx false p.ks p.apart p.f tin p.tw p.tb p.c tout = some .ok := hck
  replace hmeet : RowsMeet (tin.shape.getD 0 0) (p.tw.shape.getD 0 0) (tout.shape.getD 0 0) p.c := hmeet
  obtain ⟨ih, iw, ic, kh, kw, kc, kn, bn, oh, ow, oc, d1, d2, d3, d4, ⟨-, h6⟩, h7, -⟩ := chkConv_ok (chkConvFx_ok hck).2.2
  have h6 := h6 rfl
  have si : tin.shape = [ih.shape, iw.shape, ic.shape] := by simp [Tensor.shape, d1]
  have sk : p.tw.shape = [kh.shape, kw.shape, ic.shape, kn.shape] := by simp [Tensor.shape, d2, h6]
  have so : tout.shape = [oh.shape, ow.shape, kn.shape] := by simp [Tensor.shape, d4, h7]
  simp only [si, sk, so, List.getD_cons_zero] at hmeet
  simp only [CnnOp.Gain, si, sk, List.getD_cons_zero, List.getD_cons_succ] at hg
  have hk : 1 ≤ kn.shape := by have := vo.shape_pos oc (by rw [d4]; simp); omega
  have p1 : 1 ≤ kh.shape := P.vw.shape_pos kh (by rw [d2]; simp)
  have p2 : 1 ≤ kw.shape := P.vw.shape_pos kw (by rw [d2]; simp)
  have p3 : 1 ≤ ic.shape := vi.shape_pos ic (by rw [d1]; simp)
  have fits : ∀ k, 0 ≤ k → k < kn.shape → 2 ^ 15 * absSum kh.shape kw.shape ic.shape (wtElem p.wts p.tw k) +
      |p.bias.get (p.tb.addr [k]) * 2 ^ (p.f.fi + p.f.fw - p.f.fb).toNat| < 2 ^ 31 := by
    intro k k0 k1
    have := F k k0 (by rw [sk]; exact k1)
    simpa only [sk, List.getD_cons_zero, List.getD_cons_succ] using this
  have ht : ∀ k, 0 ≤ k → k < kn.shape → absSum kh.shape kw.shape ic.shape (wtElem p.wts p.tw k) ≤ 65535 := by
    intro k k0 k1
    have := fits k k0 k1
    have := abs_nonneg (p.bias.get (p.tb.addr [k]) * 2 ^ (p.f.fi + p.f.fw - p.f.fb).toNat)
    omega
  have A : ConvArgs tin p.tw p.tb tout p.c src p.wts p.bias dst 16 8 8 := ⟨vi, P.vw, P.vb, vo, hi, P.hw, P.hb, ct⟩
  obtain ⟨dst', val, r1, r2, r3⟩ := c36_conv2d_fx16_fx8_weights_partial m p.ks p.apart p.f src p.wts p.bias dst tin p.tw p.tb tout p.c _ _ _ _ _ _ _ _ A hck si sk so
    hmeet ht P.one P.up
  refine ⟨(Finset.sum_nonneg fun _ _ => Finset.sum_nonneg fun _ _ => Finset.sum_nonneg fun _ _ => abs_nonneg _).trans (hg 0 le_rfl (by omega)),
    dst', r1, r2.size, vo.of_size r2.size, ?_, ?_⟩
  · intro is his
    rw [r2.elem is his]
    simp only [so] at his
    obtain ⟨y, z, k, rfl, -⟩ := inShape_three his
    obtain ⟨r, -, h2⟩ := r3 y z k (by rw [so]; exact his)
    exact h2.1.1
  · intro is his
    rw [r2.elem is his]
    have his' := his
    simp only [so] at his'
    obtain ⟨y, z, k, rfl, -, -, k0, k1⟩ := inShape_three his'
    obtain ⟨r, h1, h2⟩ := r3 y z k his
    have e' := convSumQ_eq ((2 : ℚ) ^ (-p.f.fi)) ((2 : ℚ) ^ (-p.f.fw)) (kh := kh.shape) (kw := kw.shape) (ic := ic.shape)
      (X := padded ih.shape iw.shape 0 fun r q ch => src.get (tin.addr [r, q, ch])) (W := fun i j ch => p.wts.get (p.tw.addr [i, j, ch, k]))
      (XQ := paddedQ ih.shape iw.shape fun r q ch => fxNum p.f.fi (src.get (tin.addr [r, q, ch]))) (WQ := fun i j ch => fxNum p.f.fw (p.wts.get (p.tw.addr [i, j, ch, k])))
      (paddedQ_eq _ fun r q ch => rfl) (fun i j ch => rfl) p.c.sh p.c.sw p.c.pt p.c.pl p.c.dh p.c.dw y z
    have bound := convSum_absSum kh.shape kw.shape ic.shape ih.shape iw.shape (inElem src tin) (wtElem p.wts p.tw k) p.c.sh p.c.sw p.c.pt p.c.pl p.c.dh p.c.dw y z
      (2 ^ 15) (by decide)
      (fun r q c a1 a2 b1 b2 c1 c2 => inRange_abs (by decide) (hi [r, q, c] (by rw [si]; exact ⟨⟨a1, a2⟩, ⟨b1, b2⟩, ⟨c1, c2⟩, trivial⟩)))
    have main := fx32_real (m := m) (by decide) (chkConvFx_ok hck).1
      (by unfold SumFits; rw [if_pos rfl]; exact lt_of_le_of_lt (add_le_add_left bound _) (fits k k0 k1)) h1 h2
    unfold FxQ.Close inElem wtElem at main
    rw [← e', P.frac] at main
    simp only [CnnOp.real, CnnOp.err, CnnOp.frac, WtPar.convReal, si, sk, List.getD_cons_zero, List.getD_cons_succ]
    refine close_lip main (convSumQ_lip (kh := kh.shape) (kw := kw.shape) (ic := ic.shape)
      (X := paddedQ ih.shape iw.shape fun r q ch => fxNum fi (src.get (tin.addr [r, q, ch])))
      (x := paddedQ ih.shape iw.shape fun r q ch => x [r, q, ch]) (W := fun i j ch => fxNum p.f.fw (p.wts.get (p.tw.addr [i, j, ch, k]))) he
      (fun r q ch c0 c1 => paddedQ_near he fun a1 a2 b1 b2 => ?_) (hg k k0 k1) _ _ _ _ _ _ _ _)
    exact hx [r, q, ch] (by rw [si]; exact ⟨⟨a1, a2⟩, ⟨b1, b2⟩, ⟨c0, c1⟩, trivial⟩)

theorem depthwise_goodW (m : Rnd) {fi : Int} {tin : Tensor} {src : Buf} {p : WtPar} {tout : Tensor} {dst : Buf} {x : List Int → ℚ} {e g : ℚ}
    (vi : tin.Valid src) (hi : tin.Holds src 16) (vo : tout.Valid dst) (h : CnnLayer.AcceptedW m fi tin ⟨.depthwise p, tout, dst⟩)
    (hg : (CnnOp.depthwise p).Gain tin.shape g) (he : 0 ≤ e) (hx : tin.NearAt src fi x e) : LayerGoodW m fi tin src ⟨.depthwise p, tout, dst⟩ x e g := by
  obtain ⟨P, hck, ct, F⟩ := h
  replace hck : chkConvFx true p.ks p.apart p.f tin p.tw p.tb p.c tout = some .ok := hck
  obtain ⟨ih, iw, ic, kh, kw, kc, kn, bn, oh, ow, oc, d1, d2, d3, d4, ⟨h6, -⟩, h7, -⟩ := chkConv_ok (chkConvFx_ok hck).2.2
  obtain ⟨h6, h6'⟩ := h6 rfl
  have si : tin.shape = [ih.shape, iw.shape, ic.shape] := by simp [Tensor.shape, d1]
  have sk : p.tw.shape = [kh.shape, kw.shape, 1, ic.shape] := by simp [Tensor.shape, d2, h6, h6']
  have so : tout.shape = [oh.shape, ow.shape, ic.shape] := by simp [Tensor.shape, d4, h7, h6']
  simp only [CnnOp.Gain, sk, List.getD_cons_zero, List.getD_cons_succ] at hg
  have hk : 1 ≤ ic.shape := by have := vo.shape_pos oc (by rw [d4]; simp); omega
  have p1 : 1 ≤ kh.shape := P.vw.shape_pos kh (by rw [d2]; simp)
  have p2 : 1 ≤ kw.shape := P.vw.shape_pos kw (by rw [d2]; simp)
  have fits : ∀ k, 0 ≤ k → k < ic.shape → 1 * (kh.shape * kw.shape) * (2 ^ 15 * 2 ^ 7) +
      |p.bias.get (p.tb.addr [k]) * 2 ^ (p.f.fi + p.f.fw - p.f.fb).toNat| < 2 ^ 31 := by
    intro k k0 k1
    have := F k k0 (by rw [sk]; exact k1)
    simp only [sk] at this
    have ep : prod [kh.shape, kw.shape, 1, ic.shape].dropLast = 1 * (kh.shape * kw.shape) := by
      simp only [List.dropLast_cons_cons, List.dropLast_singleton, prod]
      ring
    rw [ep] at this
    omega
  have ht : kh.shape * kw.shape ≤ 511 := by
    have := fits 0 le_rfl (by omega)
    have := abs_nonneg (p.bias.get (p.tb.addr [0]) * 2 ^ (p.f.fi + p.f.fw - p.f.fb).toNat)
    omega
  have A : ConvArgs tin p.tw p.tb tout p.c src p.wts p.bias dst 16 8 8 := ⟨vi, P.vw, P.vb, vo, hi, P.hw, P.hb, ct⟩
  obtain ⟨dst', val, r1, r2, r3⟩ := c36_depthwise_fx16_fx8_partial m p.ks p.apart p.f src p.wts p.bias dst tin p.tw p.tb tout p.c _ _ _ _ _ _ _ A hck si sk so
    ht P.one P.up
  refine ⟨(Finset.sum_nonneg fun _ _ => Finset.sum_nonneg fun _ _ => abs_nonneg _).trans (hg 0 le_rfl (by omega)), dst', r1, r2.size, vo.of_size r2.size, ?_, ?_⟩
  · intro is his
    rw [r2.elem is his]
    simp only [so] at his
    obtain ⟨y, z, k, rfl, -⟩ := inShape_three his
    obtain ⟨r, -, h2⟩ := r3 y z k (by rw [so]; exact his)
    exact h2.1.1
  · intro is his
    rw [r2.elem is his]
    have his' := his
    simp only [so] at his'
    obtain ⟨y, z, k, rfl, -, -, k0, k1⟩ := inShape_three his'
    obtain ⟨r, h1, h2⟩ := r3 y z k his
    have e' := convSumQ_eq ((2 : ℚ) ^ (-p.f.fi)) ((2 : ℚ) ^ (-p.f.fw)) (kh := kh.shape) (kw := kw.shape) (ic := 1)
      (X := padded ih.shape iw.shape 0 fun r q _ => src.get (tin.addr [r, q, k])) (W := fun i j _ => p.wts.get (p.tw.addr [i, j, 0, k]))
      (XQ := paddedQ ih.shape iw.shape fun r q _ => fxNum p.f.fi (src.get (tin.addr [r, q, k]))) (WQ := fun i j _ => fxNum p.f.fw (p.wts.get (p.tw.addr [i, j, 0, k])))
      (paddedQ_eq _ fun r q _ => rfl) (fun i j _ => rfl) p.c.sh p.c.sw p.c.pt p.c.pl p.c.dh p.c.dw y z
    have bound := Rt.convSum_abs_pad kh.shape kw.shape 1 ih.shape iw.shape 0 (fun r q _ => inElem src tin r q k) (fun i j _ => wtElem p.wts p.tw k i j 0)
      p.c.sh p.c.sw p.c.pt p.c.pl p.c.dh p.c.dw y z (2 ^ 15) (2 ^ 7) (by omega) (by omega) (by omega) (by decide)
      (fun r q c a1 a2 b1 b2 c1 c2 => inRange_abs (by decide) (hi [r, q, k] (by rw [si]; exact ⟨⟨a1, a2⟩, ⟨b1, b2⟩, ⟨k0, k1⟩, trivial⟩)))
      (fun i j c a1 a2 b1 b2 c1 c2 => inRange_abs (by decide) (P.hw [i, j, 0, k] (by rw [sk]; exact ⟨⟨a1, a2⟩, ⟨b1, b2⟩, ⟨le_rfl, by decide⟩, ⟨k0, k1⟩, trivial⟩)))
    have main := fx32_real (m := m) (by decide) (chkConvFx_ok hck).1
      (by unfold SumFits; rw [if_pos rfl]; exact lt_of_le_of_lt (add_le_add_left bound _) (fits k k0 k1)) h1 h2
    unfold FxQ.Close inElem wtElem at main
    rw [← e', P.frac] at main
    simp only [CnnOp.real, CnnOp.err, CnnOp.frac, WtPar.convReal, si, sk, List.getD_cons_zero, List.getD_cons_succ]
    have one : ∀ (X : Int → Int → Int → ℚ) (W : Int → Int → Int → ℚ), convSumQ kh.shape kw.shape 1 X W p.c.sh p.c.sw p.c.pt p.c.pl p.c.dh p.c.dw y z =
        convSumQ kh.shape kw.shape 1 X (fun i j _ => W i j 0) p.c.sh p.c.sw p.c.pt p.c.pl p.c.dh p.c.dw y z := by
      intro X W
      unfold convSumQ
      simp
    rw [one _ fun i j ch => fxNum p.f.fw (p.wts.get (p.tw.addr [i, j, ch, k]))]
    refine close_lip main (convSumQ_lip he (fun r q ch c0 c1 => paddedQ_near he fun a1 a2 b1 b2 => ?_) ?_ _ _ _ _ _ _ _ _)
    · exact hx [r, q, k] (by rw [si]; exact ⟨⟨a1, a2⟩, ⟨b1, b2⟩, ⟨k0, k1⟩, trivial⟩)
    · simpa using hg k k0 k1

theorem dense_goodW (m : Rnd) {fi : Int} {tin : Tensor} {src : Buf} {p : WtPar} {tout : Tensor} {dst : Buf} {x : List Int → ℚ} {e g : ℚ}
    (vi : tin.Valid src) (hi : tin.Holds src 16) (vo : tout.Valid dst) (h : CnnLayer.AcceptedW m fi tin ⟨.dense p, tout, dst⟩)
    (hg : (CnnOp.dense p).Gain tin.shape g) (he : 0 ≤ e) (hx : tin.NearAt src fi x e) : LayerGoodW m fi tin src ⟨.dense p, tout, dst⟩ x e g := by
  obtain ⟨P, hck, F⟩ := h
  replace hck : chkFcFx p.apart p.f tin p.tw p.tb tout = some .ok := hck
  obtain ⟨wi, wo, bn, on, e1, e2, e3, hc, hbs, hos, -⟩ := chkFc_ok (chkFcFx_ok hck).2.2
  have hn : wi.shape = prod tin.shape := by rw [← hc, (countElemNum_eq vi).1]
  have sw : p.tw.shape = [wi.shape, wo.shape] := by simp [Tensor.shape, e1]
  have so : tout.shape = [wo.shape] := by simp [Tensor.shape, e3, hos]
  have hk : 1 ≤ wo.shape := by have := vo.shape_pos on (by rw [e3]; simp); omega
  simp only [CnnOp.Gain, sw, List.getD_cons_zero, List.getD_cons_succ] at hg
  have fits : ∀ k, 0 ≤ k → k < wo.shape → 2 ^ 15 * absLine wi.shape (fun i => p.wts.get (p.tw.addr [i, k])) +
      |p.bias.get (p.tb.addr [k]) * 2 ^ (p.f.fi + p.f.fw - p.f.fb).toNat| < 2 ^ 31 := by
    intro k k0 k1
    have := F k k0 (by rw [sw]; exact k1)
    simpa only [sw, List.getD_cons_zero] using this
  have ht : ∀ k, 0 ≤ k → k < wo.shape → absLine wi.shape (fun i => p.wts.get (p.tw.addr [i, k])) ≤ 65535 := by
    intro k k0 k1
    have := fits k k0 k1
    have := abs_nonneg (p.bias.get (p.tb.addr [k]) * 2 ^ (p.f.fi + p.f.fw - p.f.fb).toNat)
    omega
  obtain ⟨dst', val, X, hX, r1, r2, r3⟩ := c39_fx16_fx8_weights_partial m p.apart p.f src p.wts p.bias dst tin p.tw p.tb tout _ _
    ⟨vi, P.vw, P.vb, vo, hi, P.hw, P.hb⟩ hck sw ht P.one P.up
  refine ⟨(Finset.sum_nonneg fun _ _ => abs_nonneg _).trans (hg 0 le_rfl (by omega)), dst', r1, r2.size, vo.of_size r2.size, ?_, ?_⟩
  · intro is his
    rw [r2.elem is his]
    simp only [so] at his
    obtain ⟨o, rfl, -⟩ := inShape_one his
    obtain ⟨r, -, h2⟩ := r3 o (by rw [so]; exact his)
    exact h2.1.1
  · intro is his
    rw [r2.elem is his]
    have his' := his
    simp only [so] at his'
    obtain ⟨o, rfl, o0, o1⟩ := inShape_one his'
    obtain ⟨r, h1, h2⟩ := r3 o his
    have e' := dotSumQ_eq ((2 : ℚ) ^ (-p.f.fi)) ((2 : ℚ) ^ (-p.f.fw)) (n := wi.shape) (X := X) (W := fun i => p.wts.get (p.tw.addr [i, o]))
      (XQ := fun i => fxNum p.f.fi (X i)) (WQ := fun i => fxNum p.f.fw (p.wts.get (p.tw.addr [i, o]))) (fun i => rfl) (fun i => rfl)
    obtain ⟨-, bX, -⟩ := fc_operands vi hi P.hw hX sw hn ⟨o0, o1⟩
    have bound : |dotSum wi.shape X (fun i => p.wts.get (p.tw.addr [i, o]))| ≤ 2 ^ 15 * absLine wi.shape (fun i => p.wts.get (p.tw.addr [i, o])) := by
      unfold dotSum absLine
      rw [Finset.mul_sum]
      refine (Finset.abs_sum_le_sum_abs _ _).trans (Finset.sum_le_sum fun i hi => ?_)
      have hi := Finset.mem_range.1 hi
      rw [abs_mul]
      exact mul_le_mul_of_nonneg_right (inRange_abs (w := 16) (by decide) (bX i (by omega) (by omega))) (abs_nonneg _)
    have main := fx32_real (m := m) (by decide) (chkFcFx_ok hck).1
      (by unfold SumFits; rw [if_pos rfl]; exact lt_of_le_of_lt (add_le_add_left bound _) (fits o o0 o1)) h1 h2
    unfold FxQ.Close at main
    rw [← e', P.frac, hn] at main
    simp only [CnnOp.real, CnnOp.err, CnnOp.frac, List.getD_cons_zero]
    refine denseQ_close (X := fun i => fxNum fi (X i)) main (fun i a b => ?_) (hg o o0 o1) he
    have hp : ∀ n ∈ tin.shape, 1 ≤ n := by
      intro n hn
      obtain ⟨d, hd, rfl⟩ := List.mem_map.1 hn
      exact vi.shape_pos d hd
    obtain ⟨u1, u2⟩ := unflat_spec tin.shape hp i a b
    have := hx _ u1
    rwa [← hX _ u1, u2] at this

theorem layer_goodW (m : Rnd) {fi : Int} {tin : Tensor} {src : Buf} {l : CnnLayer} {x : List Int → ℚ} {e g : ℚ}
    (vi : tin.Valid src) (hi : tin.Holds src 16) (vo : l.tout.Valid l.dst) (h : l.AcceptedW m fi tin)
    (hg : l.op.Gain tin.shape g) (he : 0 ≤ e) (hx : tin.NearAt src fi x e) : LayerGoodW m fi tin src l x e g := by
  obtain ⟨op, tout, dst⟩ := l
  cases op
  · exact conv_goodW m vi hi vo h hg he hx
  · exact depthwise_goodW m vi hi vo h hg he hx
  · exact maxpool_good m vi hi vo h hg he hx
  · exact avepool_good m vi hi vo h hg he hx
  · exact dense_goodW m vi hi vo h hg he hx

/-- The layers of a network with their gains, from an input tensor with `fi` fractional bits. -/
def CnnNetW (m : Rnd) : Int → Tensor → List (CnnLayer × ℚ) → Prop
  | _, _, [] => True
  | fi, tin, (l, g) :: ls => l.tout.Valid l.dst ∧ l.AcceptedW m fi tin ∧ l.op.Gain tin.shape g ∧ CnnNetW m (l.op.frac fi) l.tout ls

/-- **C103**, 16-bit data with 8-bit weights and biases: a network of any number of convolutions (2D and depthwise), maximum and average pooling and fully
connected layers, each called with the output of the one before.  All calls succeed, and every output element stands for a number within `netErr` of what
the network makes of `x` in real numbers, if the input elements stand for numbers within `e` of `x`.  Partial: the conditions in `CnnLayer.AcceptedW` (sums
that fit 32 bits, windows that meet the input, paddings, output shifts with rounding up) of the kernels' theorems. -/
theorem c103_cnn_fx16_fx8_partial (m : Rnd) : ∀ (ls : List (CnnLayer × ℚ)) (fi : Int) (tin : Tensor) (src : Buf) (x : List Int → ℚ) (e : ℚ),
    CnnNetW m fi tin ls → tin.Valid src → tin.Holds src 16 → 0 ≤ e → tin.NearAt src fi x e →
    ∃ out, runCnnW m fi (ls.map (·.1)) tin src = some ((cnnLast fi tin ls).2, out) ∧
      (cnnLast fi tin ls).2.NearAt out (cnnLast fi tin ls).1 (cnnReal tin ls x) (netErr (cnnErrs fi ls) e)
  | [], fi, tin, src, x, e, _, _, _, _, hx => ⟨src, rfl, hx⟩
  | (l, g) :: ls, fi, tin, src, x, e, h, vi, hi, he, hx => by
    obtain ⟨vo, acc, hg, rest⟩ := h
    obtain ⟨g0, dst', r1, -, r2, r3, r4⟩ := layer_goodW m vi hi vo acc hg he hx
    obtain ⟨out, o1, o2⟩ := c103_cnn_fx16_fx8_partial m ls (l.op.frac fi) l.tout dst' _ _ rest r2 r3 (add_nonneg (mul_nonneg g0 he) (l.op.err_nonneg fi)) r4
    refine ⟨out, ?_, o2⟩
    simp only [List.map_cons, runCnnW, r1, Option.bind_some, if_true]
    exact o1

/-! ## Instance: the network of `exCnn` with weights and biases of one byte -/

/-- The same weights and biases as 8-bit elements. -/
def WtPar.asBytes (p : WtPar) : WtPar := { p with tw := p.tw.bytes, tb := p.tb.bytes }

def exCnnW : List (CnnLayer × ℚ) :=
  [(⟨.conv exCnn1.asBytes, exOut, Buf.ofList (List.replicate 8 99)⟩, 87 / 2), (⟨.depthwise exCnn2.asBytes, exOut, Buf.ofList (List.replicate 8 98)⟩, 7 / 2),
    (⟨.maxpool exGeo3, exRow, Buf.ofList [1, 2, 3, 4]⟩, 1), (⟨.avepool 1 exGeo4, exPix, Buf.ofList [1, 2]⟩, 1),
    (⟨.dense exCnn5.asBytes, exBias, Buf.ofList [1, 2]⟩, 7 / 2)]

/-- A condition on each output channel of a layer with two. -/
theorem SumsFit.two {p : WtPar} {total : Int → Int} (hn : p.tw.shape.getLastD 0 = 2)
    (h : ∀ k : Nat, k < 2 → 2 ^ 15 * total k + |p.bias.get (p.tb.addr [(k : Int)]) * 2 ^ (p.f.fi + p.f.fw - p.f.fb).toNat| < 2 ^ 31) : p.SumsFit total := by
  intro k h0 h1
  rw [hn] at h1
  lift k to ℕ using h0
  exact h k (by omega)

theorem exCnnW_ok : exCnn1.asBytes.OkW .up 3 ∧ exCnn2.asBytes.OkW .up 2 ∧ exCnn5.asBytes.OkW .up 1 := by
  exact ⟨⟨rfl, ⟨by decide, by decide, by decide, by decide⟩, ⟨by decide, by decide, by decide, by decide⟩, holds_ofList (by decide) _, holds_ofList (by decide) _,
      by decide, by decide⟩,
    ⟨rfl, ⟨by decide, by decide, by decide, by decide⟩, ⟨by decide, by decide, by decide, by decide⟩, holds_ofList (by decide) _, holds_ofList (by decide) _,
      by decide, by decide⟩,
    ⟨rfl, ⟨by decide, by decide, by decide, by decide⟩, ⟨by decide, by decide, by decide, by decide⟩, holds_ofList (by decide) _, holds_ofList (by decide) _,
      by decide, by decide⟩⟩

/-- The network meets the hypotheses of `c103_cnn_fx16_fx8_partial` (those on the input are the ones of `exCnn`). -/
theorem exCnnW_fits : CnnNetW .up 3 exIn exCnnW :=
  ⟨⟨by decide, by decide, by decide, by decide⟩, ⟨exCnnW_ok.1, by decide, by decide, exMeet, SumsFit.two rfl (by decide +kernel)⟩, exCnn_gain1,
    ⟨by decide, by decide, by decide, by decide⟩, ⟨exCnnW_ok.2.1, by decide, by decide, SumsFit.two rfl (by decide +kernel)⟩, exCnn_gain2,
    ⟨by decide, by decide, by decide, by decide⟩, ⟨by decide, _, _, _, _, _, exCnn_geo.1⟩, le_rfl,
    ⟨by decide, by decide, by decide, by decide⟩, ⟨by decide, _, _, _, _, _, exCnn_geo.2⟩, le_rfl,
    ⟨by decide, by decide, by decide, by decide⟩, ⟨exCnnW_ok.2.2, by decide, SumsFit.two rfl (by decide +kernel)⟩, exCnn_gain5, trivial⟩

example : ((runCnnW .convergent 3 (exCnnW.map (·.1)) exIn (Buf.ofList exSrc)).map fun p => p.2.toList) = some [238, 194] := by decide +kernel

end Mli
