import Verif.Model.CnnSa
import Verif.Props.Cnn
import Verif.Props.AvePoolSa
import Verif.Props.LayerRuntime

/-!
# C103: convolutional networks of 8-bit asymmetric layers
-/

namespace Mli

open Spec

/-! ## The layers in real numbers -/

/-- A convolution in real numbers; `inp` selects the input channels of an output channel. -/
def SaPar.convReal (p : SaPar) (ih iw kc : Int) (inp : Int → Int → Int) (x : List Int → ℚ) (is : List Int) : ℚ :=
  reluQ p.q.relu (limitQ (saNum p.q.qo 0 (-128)) (saNum p.q.qo 0 127)
    (convSumQ (p.tw.shape.getD 0 0) (p.tw.shape.getD 1 0) kc (paddedQ ih iw fun r q ch => x [r, q, inp (is.getD 2 0) ch])
      (fun i j ch => saNum p.q.qw (is.getD 2 0) (p.wts.get (p.tw.addr [i, j, ch, is.getD 2 0]))) p.c.sh p.c.sw p.c.pt p.c.pl p.c.dh p.c.dw
        (is.getD 0 0) (is.getD 1 0) +
      saNum p.q.qb (is.getD 2 0) (p.bias.get (p.tb.addr [is.getD 2 0]))))

/-- What a layer computes in real numbers from an input of the shape `ish`, limited to the range of the 8-bit output where it computes something. -/
def SaOp.real (ish : List Int) (x : List Int → ℚ) (is : List Int) : SaOp → ℚ
  | .conv p => p.convReal (ish.getD 0 0) (ish.getD 1 0) (ish.getD 2 0) (fun _ ch => ch) x is
  | .depthwise p => p.convReal (ish.getD 0 0) (ish.getD 1 0) 1 (fun k _ => k) x is
  | .maxpool g => maxQ (fun r q => x [r, q, is.getD 2 0]) (ish.getD 0 0) (ish.getD 1 0) g.kh g.kw g.sh g.sw g.pt g.pl (is.getD 0 0) (is.getD 1 0)
  | .avepool qo g => limitQ (saNum qo 0 (-128)) (saNum qo 0 127)
      (meanQ (fun r q => x [r, q, is.getD 2 0]) (ish.getD 0 0) (ish.getD 1 0) g.kh g.kw g.sh g.sw g.pt g.pl (is.getD 0 0) (is.getD 1 0))
  | .dense p => denseQ (prod ish) (fun o i => saNum p.q.qw o (p.wts.get (p.tw.addr [i, o]))) (fun o => saNum p.q.qb o (p.bias.get (p.tb.addr [o])))
      p.q.relu (saNum p.q.qo 0 (-128)) (saNum p.q.qo 0 127) (fun i => x (unflat ish i)) (is.getD 0 0)

/-- The layer amplifies errors at most by `g`: no output has weights whose absolute values add up to more; pooling does not amplify. -/
def SaOp.Gain (ish : List Int) (g : ℚ) : SaOp → Prop
  | .conv p => ∀ k, 0 ≤ k → k < p.tw.shape.getD 3 0 → ∑ i ∈ Finset.range (p.tw.shape.getD 0 0).toNat, ∑ j ∈ Finset.range (p.tw.shape.getD 1 0).toNat,
      ∑ ch ∈ Finset.range (ish.getD 2 0).toNat, |saNum p.q.qw k (p.wts.get (p.tw.addr [(i : Int), (j : Int), (ch : Int), k]))| ≤ g
  | .depthwise p => ∀ k, 0 ≤ k → k < p.tw.shape.getD 3 0 → ∑ i ∈ Finset.range (p.tw.shape.getD 0 0).toNat, ∑ j ∈ Finset.range (p.tw.shape.getD 1 0).toNat,
      |saNum p.q.qw k (p.wts.get (p.tw.addr [(i : Int), (j : Int), 0, k]))| ≤ g
  | .maxpool _ => 1 ≤ g
  | .avepool _ _ => 1 ≤ g
  | .dense p => ∀ o, InShape [p.tw.shape.getD 1 0] [o] →
      ∑ i ∈ Finset.range (prod ish).toNat, |saNum p.q.qw o (p.wts.get (p.tw.addr [(i : Int), o]))| ≤ g

/-- Parameters, weights and bias of a layer with weights: the sums of `taps` products fit the accumulator for each of the `chans` outputs, and rounding and
bias format (C100) cost at most `d`. -/
structure SaPar.Ok (full : Bool) (qi : SaQ) (taps chans : Int) (p : SaPar) (d : ℚ) : Prop where
  quant : p.q.qi = qi
  typed : p.q.qi.Typed ∧ p.q.qw.Typed ∧ p.q.qo.Typed
  vw : p.tw.Valid p.wts
  vb : p.tb.Valid p.bias
  hw : p.tw.Holds p.wts 8
  hb : p.tb.Holds p.bias 32
  six : p.q.relu = .six → p.q.qo.zpAt 0 = 0 ∨ p.q.qo.fracAt 0 < 28
  one : p.q.relu = .one → p.q.qo.fracAt 0 < 30
  sums : ∀ k, InShape [chans] [k] → taps * 2 ^ 15 + |p.bias.get (p.tb.addr [k])| < if full then 2 ^ 31 else 2 ^ 23 - 2 ^ 10
  err : ∀ k, InShape [chans] [k] → reluErr (3 / 5) p.q.relu * p.q.step + p.q.biasErr full k (p.bias.get (p.tb.addr [k])) ≤ d

/-- The number of products of an output element of a convolution. -/
def SaPar.taps (p : SaPar) : Int := p.tw.shape.getD 2 0 * (p.tw.shape.getD 0 0 * p.tw.shape.getD 1 0)

/-- The ratio of the scales of input and output. -/
def saRatio (qi qo : SaQ) : ℚ := scaleVal (qi.scaleAt 0) (qi.fracAt 0) / scaleVal (qo.scaleAt 0) (qo.fracAt 0)

/-- What the kernel asks of its arguments, and an error `d` it adds.  Average pooling: the limits of C60; an output step and a little more than an input
step (8-bit multiplier). -/
def SaLayer.Accepted (m : Rnd) (full : Bool) (b : Nat) (qi : SaQ) (tin : Tensor) (l : SaLayer) (d : ℚ) : Prop :=
  match l.op with
  | .conv p => p.Ok full qi p.taps (p.tw.shape.getD 3 0) d ∧ chkConv false p.ks p.apart tin p.tw p.tb p.c l.tout = some .ok ∧
      chkSa8 m p.q tin p.tw p.tb l.tout = some .ok ∧ p.c.Typed ∧ RowsMeet (tin.shape.getD 0 0) (p.tw.shape.getD 0 0) (l.tout.shape.getD 0 0) p.c
  | .depthwise p => p.Ok full qi p.taps (p.tw.shape.getD 3 0) d ∧ chkConv true p.ks p.apart tin p.tw p.tb p.c l.tout = some .ok ∧
      chkSa8 m p.q tin p.tw p.tb l.tout = some .ok ∧ p.c.Typed
  | .maxpool g => chkPool tin g l.tout = some .ok ∧ (∃ ih iw ic oh ow, PoolGeo tin g l.tout ih iw ic oh ow) ∧ 0 < qi.scaleAt 0 ∧ 0 ≤ d
  | .avepool qo g => chkPool tin g l.tout = some .ok ∧ (∃ ih iw ic oh ow, PoolGeo tin g l.tout ih iw ic oh ow) ∧ chkAveQuant tin l.tout qi qo = .ok ∧
      (qi.Typed ∧ qo.Typed) ∧ saRatio qi qo ≤ avgMaxRatio b ∧ (g.kh * g.kw : ℚ) * (131 / saRatio qi qo + 258) ≤ 2 ^ (32 - b) ∧
      (1 + saRatio qi qo * (128 * (1 / 2 ^ (b - 1) + 1 / 2 ^ 12) + 128 / 2 ^ 13)) * scaleVal (qo.scaleAt 0) (qo.fracAt 0) ≤ d
  | .dense p => p.Ok full qi (prod tin.shape) (p.tw.shape.getD 1 0) d ∧ chkFc p.apart tin p.tw p.tb l.tout = some .ok ∧
      chkSa8At 1 m p.q tin p.tw p.tb l.tout = some .ok

/-- The elements of a tensor stand for the numbers `x`, each with an error of at most `e`. -/
def Tensor.NearSa (t : Tensor) (src : Buf) (q : SaQ) (x : List Int → ℚ) (e : ℚ) : Prop :=
  ∀ is, InShape t.shape is → |saNum q 0 (src.get (t.addr is)) - x is| ≤ e

/-- What is shown of each layer. -/
def SaGood (m : Rnd) (full : Bool) (b : Nat) (qi : SaQ) (tin : Tensor) (src : Buf) (l : SaLayer) (x : List Int → ℚ) (e g d : ℚ) : Prop :=
  0 ≤ g ∧ 0 ≤ d ∧ ∃ dst', l.run m full b qi tin src = some (.ok, dst') ∧ l.tout.Valid dst' ∧ l.tout.Holds dst' 8 ∧
    l.tout.NearSa dst' (l.op.quant qi) (fun is => l.op.real tin.shape x is) (g * e + d)

theorem SaPar.Ok.err_nonneg {full : Bool} {qi : SaQ} {taps chans d : _} {p : SaPar} (P : p.Ok full qi taps chans d) (hc : 1 ≤ chans)
    (hI : 0 < p.q.qi.scaleAt 0) (hW : 0 < p.q.qw.scaleAt 0) (hO : 0 < p.q.qo.scaleAt 0) : 0 ≤ d := by
  refine le_trans (add_nonneg (mul_nonneg ?_ ?_) ?_) (P.err 0 ⟨⟨le_rfl, by omega⟩, trivial⟩)
  · unfold reluErr; split <;> norm_num
  · unfold Sa8Q.step; exact (scaleVal_pos hO).le
  · unfold Sa8Q.biasErr
    refine mul_nonneg (abs_nonneg _) (add_nonneg ?_ (abs_nonneg _))
    split
    · exact le_rfl
    · have h1 := scaleVal_pos (f := p.q.qi.fracAt 0) hI
      have h2 := scaleVal_pos (f := p.q.qw.fracAt 0) hW
      unfold Sa8Q.inScale
      positivity

/-- The sums of a convolution fit the accumulator. -/
theorem SaPar.Ok.fits {full : Bool} {qi : SaQ} {taps chans : Int} {d : ℚ} {p : SaPar} (P : p.Ok full qi taps chans d) {k : Int} (hk : InShape [chans] [k])
    {kh kw n ih iw : Int} {X W : Int → Int → Int → Int} (ht : taps = n * (kh * kw)) (h1 : 0 ≤ kh) (h2 : 0 ≤ kw) (h3 : 0 ≤ n) {z : Int} (hz : InRange 8 z)
    (hX : ∀ r q c, 0 ≤ r → r < ih → 0 ≤ q → q < iw → 0 ≤ c → c < n → InRange 8 (X r q c))
    (hW : ∀ i j c, 0 ≤ i → i < kh → 0 ≤ j → j < kw → 0 ≤ c → c < n → InRange 8 (W i j c)) (sh sw pt pl dh dw y x : Int) :
    SumFits full (convSum kh kw n (padded ih iw 0 fun r q c => X r q c - z) W sh sw pt pl dh dw y x) (p.bias.get (p.tb.addr [k])) := by
  have hb := Rt.convSum_abs_pad kh kw n ih iw 0 (fun r q c => X r q c - z) W sh sw pt pl dh dw y x 255 128 h1 h2 h3 (by decide)
    (fun r q c a b a' b' a'' b'' => zpDiff_abs (hX r q c a b a' b' a'' b'') hz)
    (fun i j c a b a' b' a'' b'' => inRange_abs (by omega) (hW i j c a b a' b' a'' b''))
  have := P.sums k hk
  have h0 : 0 ≤ n * (kh * kw) := by positivity
  unfold SumFits
  rw [ht] at this
  omega

theorem SaPar.Ok.few {full : Bool} {qi : SaQ} {taps chans : Int} {d : ℚ} {p : SaPar} (P : p.Ok full qi taps chans d) (hc : 1 ≤ chans) : taps ≤ 65535 := by
  have h1 := P.sums 0 ⟨⟨le_rfl, by omega⟩, trivial⟩
  have h2 := abs_nonneg (p.bias.get (p.tb.addr [0]))
  cases full
  · rw [if_neg (by decide)] at h1; omega
  · rw [if_pos rfl] at h1; omega

theorem saConv_good (m : Rnd) {full : Bool} {b : Nat} {qi : SaQ} {tin : Tensor} {src : Buf} {p : SaPar} {tout : Tensor} {dst : Buf} {x : List Int → ℚ} {e g d : ℚ}
    (vi : tin.Valid src) (hi : tin.Holds src 8) (vo : tout.Valid dst) (h : SaLayer.Accepted m full b qi tin ⟨.conv p, tout, dst⟩ d)
    (hg : (SaOp.conv p).Gain tin.shape g) (he : 0 ≤ e) (hx : tin.NearSa src qi x e) : SaGood m full b qi tin src ⟨.conv p, tout, dst⟩ x e g d := by
  obtain ⟨P, hck, hq, ct, hmeet⟩ := h
  replace hck : chkConv false p.ks p.apart tin p.tw p.tb p.c tout = some .ok := hck
  replace hq : chkSa8 m p.q tin p.tw p.tb tout = some .ok := hq
  replace hmeet : RowsMeet (tin.shape.getD 0 0) (p.tw.shape.getD 0 0) (tout.shape.getD 0 0) p.c := hmeet
  obtain ⟨ih, iw, ic, kh, kw, kc, kn, bn, oh, ow, oc, d1, d2, d3, d4, ⟨-, h6⟩, h7, h8, -⟩ := chkConv_ok hck
  have h6 := h6 rfl
  have si : tin.shape = [ih.shape, iw.shape, ic.shape] := by simp [Tensor.shape, d1]
  have sk : p.tw.shape = [kh.shape, kw.shape, ic.shape, kn.shape] := by simp [Tensor.shape, d2, h6]
  have sb : p.tb.shape = [kn.shape] := by simp [Tensor.shape, d3, h8]
  have so : tout.shape = [oh.shape, ow.shape, kn.shape] := by simp [Tensor.shape, d4, h7]
  simp only [si, sk, so, List.getD_cons_zero] at hmeet
  simp only [SaOp.Gain, si, sk, List.getD_cons_zero, List.getD_cons_succ] at hg
  simp only [SaPar.taps, sk, List.getD_cons_zero, List.getD_cons_succ] at P
  have A : ConvArgs tin p.tw p.tb tout p.c src p.wts p.bias dst 8 8 32 := ⟨vi, P.vw, P.vb, vo, hi, P.hw, P.hb, ct⟩
  have hk : 1 ≤ kn.shape := by have := vo.shape_pos oc (by rw [d4]; simp); omega
  have p1 : 1 ≤ kh.shape := P.vw.shape_pos kh (by rw [d2]; simp)
  have p2 : 1 ≤ kw.shape := P.vw.shape_pos kw (by rw [d2]; simp)
  have p3 : 1 ≤ ic.shape := vi.shape_pos ic (by rw [d1]; simp)
  obtain ⟨-, ⟨I1, I2⟩, ⟨O1, O2⟩, hWt⟩ := chkSa8_ok hq
  obtain ⟨dst', val, r1, r2, r3⟩ := c36_conv2d_sa8_partial m full p.ks p.apart p.q src p.wts p.bias dst tin p.tw p.tb tout p.c _ _ _ _ _ _ _ _ A P.typed hck hq
    si sk so hmeet (P.few hk) P.six P.one
  have hfit : ∀ y z k, InShape [kn.shape] [k] → SumFits full (convSum kh.shape kw.shape ic.shape (padded ih.shape iw.shape 0 fun r q c => inElem src tin r q c - p.q.qi.zpAt 0)
      (wtElem p.wts p.tw k) p.c.sh p.c.sw p.c.pt p.c.pl p.c.dh p.c.dw y z) (p.bias.get (p.tb.addr [k])) := fun y z k hk =>
    P.fits hk rfl (by omega) (by omega) (by omega) I2 (fun r q c a b a' b' a'' b'' => hi [r, q, c] (by rw [si]; exact ⟨⟨a, b⟩, ⟨a', b'⟩, ⟨a'', b''⟩, trivial⟩))
      (fun i j c a b a' b' a'' b'' => P.hw [i, j, c, k] (by rw [sk]; exact ⟨⟨a, b⟩, ⟨a', b'⟩, ⟨a'', b''⟩, hk.1, trivial⟩)) _ _ _ _ _ _ _ _
  refine ⟨(Finset.sum_nonneg fun _ _ => Finset.sum_nonneg fun _ _ => Finset.sum_nonneg fun _ _ => abs_nonneg _).trans (hg 0 le_rfl (by omega)),
    P.err_nonneg hk I1 (hWt 0 le_rfl (by rw [sk]; exact hk)).1 O1, dst', r1, vo.of_size r2.size, ?_, ?_⟩
  · intro is his
    rw [r2.elem is his]
    simp only [so] at his
    obtain ⟨y, z, k, rfl, -, -, k0, k1⟩ := inShape_three his
    obtain ⟨b', acc, hb, hacc, h⟩ := r3 y z k (by rw [so]; exact his)
    obtain ⟨v, -, hv⟩ := h (sumFits_acc hb hacc (hfit y z k ⟨⟨k0, k1⟩, trivial⟩))
    exact hv.1.1
  · intro is his
    rw [r2.elem is his]
    have his' := his
    simp only [so] at his'
    obtain ⟨y, z, k, rfl, -, -, k0, k1⟩ := inShape_three his'
    obtain ⟨b', acc, hb, hacc, h⟩ := r3 y z k his
    obtain ⟨hw1, hw2⟩ := hWt k k0 (by rw [sk]; exact k1)
    have hzb := chkSa8At_bias hq (k := k) (by rw [sb]; exact ⟨k0, k1⟩)
    have main := sa8_real I1 hw1 O1 O2 hzb hb hacc (hfit y z k ⟨⟨k0, k1⟩, trivial⟩) h
    have e' := convSumQ_eq (scaleVal (p.q.qi.scaleAt 0) (p.q.qi.fracAt 0)) (scaleVal (p.q.qw.scaleAt k) (p.q.qw.fracAt k)) (kh := kh.shape) (kw := kw.shape) (ic := ic.shape)
      (X := padded ih.shape iw.shape 0 fun r q ch => inElem src tin r q ch - p.q.qi.zpAt 0) (W := wtElem p.wts p.tw k)
      (XQ := paddedQ ih.shape iw.shape fun r q ch => saNum p.q.qi 0 (src.get (tin.addr [r, q, ch])))
      (WQ := fun i j ch => saNum p.q.qw k (p.wts.get (p.tw.addr [i, j, ch, k])))
      (paddedQ_eq _ fun r q ch => by unfold saNum inElem; push_cast; rfl) (fun i j ch => by unfold saNum wtElem; rw [hw2]; simp)
      p.c.sh p.c.sw p.c.pt p.c.pl p.c.dh p.c.dw y z
    unfold Sa8Q.Close Sa8Q.inScale at main
    rw [← e', P.quant] at main
    simp only [SaOp.real, SaOp.quant, SaPar.convReal, si, sk, List.getD_cons_zero, List.getD_cons_succ]
    refine close_lip (main.trans (P.err k ⟨⟨k0, k1⟩, trivial⟩)) (convSumQ_lip (kh := kh.shape) (kw := kw.shape) (ic := ic.shape)
      (X := paddedQ ih.shape iw.shape fun r q ch => saNum qi 0 (src.get (tin.addr [r, q, ch])))
      (x := paddedQ ih.shape iw.shape fun r q ch => x [r, q, ch]) (W := fun i j ch => saNum p.q.qw k (p.wts.get (p.tw.addr [i, j, ch, k]))) he
      (fun r q ch c0 c1 => paddedQ_near he fun a1 a2 b1 b2 => ?_) (hg k k0 k1) _ _ _ _ _ _ _ _)
    exact hx [r, q, ch] (by rw [si]; exact ⟨⟨a1, a2⟩, ⟨b1, b2⟩, ⟨c0, c1⟩, trivial⟩)

theorem saDepthwise_good (m : Rnd) {full : Bool} {b : Nat} {qi : SaQ} {tin : Tensor} {src : Buf} {p : SaPar} {tout : Tensor} {dst : Buf} {x : List Int → ℚ} {e g d : ℚ}
    (vi : tin.Valid src) (hi : tin.Holds src 8) (vo : tout.Valid dst) (h : SaLayer.Accepted m full b qi tin ⟨.depthwise p, tout, dst⟩ d)
    (hg : (SaOp.depthwise p).Gain tin.shape g) (he : 0 ≤ e) (hx : tin.NearSa src qi x e) : SaGood m full b qi tin src ⟨.depthwise p, tout, dst⟩ x e g d := by
  obtain ⟨P, hck, hq, ct⟩ := h
  replace hck : chkConv true p.ks p.apart tin p.tw p.tb p.c tout = some .ok := hck
  replace hq : chkSa8 m p.q tin p.tw p.tb tout = some .ok := hq
  obtain ⟨ih, iw, ic, kh, kw, kc, kn, bn, oh, ow, oc, d1, d2, d3, d4, ⟨h6, -⟩, h7, h8, -⟩ := chkConv_ok hck
  obtain ⟨h6, h6'⟩ := h6 rfl
  have si : tin.shape = [ih.shape, iw.shape, ic.shape] := by simp [Tensor.shape, d1]
  have sk : p.tw.shape = [kh.shape, kw.shape, 1, ic.shape] := by simp [Tensor.shape, d2, h6, h6']
  have sb : p.tb.shape = [ic.shape] := by simp [Tensor.shape, d3, h8, h6']
  have so : tout.shape = [oh.shape, ow.shape, ic.shape] := by simp [Tensor.shape, d4, h7, h6']
  simp only [SaOp.Gain, sk, List.getD_cons_zero, List.getD_cons_succ] at hg
  simp only [SaPar.taps, sk, List.getD_cons_zero, List.getD_cons_succ] at P
  have A : ConvArgs tin p.tw p.tb tout p.c src p.wts p.bias dst 8 8 32 := ⟨vi, P.vw, P.vb, vo, hi, P.hw, P.hb, ct⟩
  have hk : 1 ≤ ic.shape := by have := vo.shape_pos oc (by rw [d4]; simp); omega
  have p1 : 1 ≤ kh.shape := P.vw.shape_pos kh (by rw [d2]; simp)
  have p2 : 1 ≤ kw.shape := P.vw.shape_pos kw (by rw [d2]; simp)
  obtain ⟨-, ⟨I1, I2⟩, ⟨O1, O2⟩, hWt⟩ := chkSa8_ok hq
  obtain ⟨dst', val, r1, r2, r3⟩ := c36_depthwise_sa8_partial m full p.ks p.apart p.q src p.wts p.bias dst tin p.tw p.tb tout p.c _ _ _ _ _ _ _ A P.typed hck hq
    si sk so (by have := P.few hk; omega) P.six P.one
  have hfit : ∀ y z k, InShape [ic.shape] [k] → SumFits full (convSum kh.shape kw.shape 1 (padded ih.shape iw.shape 0 fun r q _ => src.get (tin.addr [r, q, k]) - p.q.qi.zpAt 0)
      (fun i j _ => p.wts.get (p.tw.addr [i, j, 0, k])) p.c.sh p.c.sw p.c.pt p.c.pl p.c.dh p.c.dw y z) (p.bias.get (p.tb.addr [k])) := fun y z k hk =>
    P.fits (X := fun r q _ => src.get (tin.addr [r, q, k])) hk rfl (by omega) (by omega) (by omega) I2 (fun r q c a b a' b' a'' b'' => hi [r, q, k] (by rw [si]; exact ⟨⟨a, b⟩, ⟨a', b'⟩, hk.1, trivial⟩))
      (fun i j c a b a' b' a'' b'' => P.hw [i, j, 0, k] (by rw [sk]; exact ⟨⟨a, b⟩, ⟨a', b'⟩, ⟨by omega, by omega⟩, hk.1, trivial⟩)) _ _ _ _ _ _ _ _
  refine ⟨(Finset.sum_nonneg fun _ _ => Finset.sum_nonneg fun _ _ => abs_nonneg _).trans (hg 0 le_rfl (by omega)),
    P.err_nonneg hk I1 (hWt 0 le_rfl (by rw [sk]; exact hk)).1 O1, dst', r1, vo.of_size r2.size, ?_, ?_⟩
  · intro is his
    rw [r2.elem is his]
    simp only [so] at his
    obtain ⟨y, z, k, rfl, -, -, k0, k1⟩ := inShape_three his
    obtain ⟨b', acc, hb, hacc, h⟩ := r3 y z k (by rw [so]; exact his)
    obtain ⟨v, -, hv⟩ := h (sumFits_acc hb hacc (hfit y z k ⟨⟨k0, k1⟩, trivial⟩))
    exact hv.1.1
  · intro is his
    rw [r2.elem is his]
    have his' := his
    simp only [so] at his'
    obtain ⟨y, z, k, rfl, -, -, k0, k1⟩ := inShape_three his'
    obtain ⟨b', acc, hb, hacc, h⟩ := r3 y z k his
    obtain ⟨hw1, hw2⟩ := hWt k k0 (by rw [sk]; exact k1)
    have hzb := chkSa8At_bias hq (k := k) (by rw [sb]; exact ⟨k0, k1⟩)
    have main := sa8_real I1 hw1 O1 O2 hzb hb hacc (hfit y z k ⟨⟨k0, k1⟩, trivial⟩) h
    have e' := convSumQ_eq (scaleVal (p.q.qi.scaleAt 0) (p.q.qi.fracAt 0)) (scaleVal (p.q.qw.scaleAt k) (p.q.qw.fracAt k)) (kh := kh.shape) (kw := kw.shape) (ic := 1)
      (X := padded ih.shape iw.shape 0 fun r q _ => src.get (tin.addr [r, q, k]) - p.q.qi.zpAt 0) (W := fun i j _ => p.wts.get (p.tw.addr [i, j, 0, k]))
      (XQ := paddedQ ih.shape iw.shape fun r q _ => saNum p.q.qi 0 (src.get (tin.addr [r, q, k])))
      (WQ := fun i j _ => saNum p.q.qw k (p.wts.get (p.tw.addr [i, j, 0, k])))
      (paddedQ_eq _ fun r q ch => by unfold saNum; push_cast; rfl) (fun i j ch => by unfold saNum; rw [hw2]; simp)
      p.c.sh p.c.sw p.c.pt p.c.pl p.c.dh p.c.dw y z
    unfold Sa8Q.Close Sa8Q.inScale inElem wtElem at main
    rw [← e', P.quant] at main
    simp only [SaOp.real, SaOp.quant, SaPar.convReal, si, sk, List.getD_cons_zero, List.getD_cons_succ]
    have one : ∀ (X : Int → Int → Int → ℚ) (W : Int → Int → Int → ℚ), convSumQ kh.shape kw.shape 1 X W p.c.sh p.c.sw p.c.pt p.c.pl p.c.dh p.c.dw y z =
        convSumQ kh.shape kw.shape 1 X (fun i j _ => W i j 0) p.c.sh p.c.sw p.c.pt p.c.pl p.c.dh p.c.dw y z := by
      intro X W
      unfold convSumQ
      simp
    rw [one _ fun i j ch => saNum p.q.qw k (p.wts.get (p.tw.addr [i, j, ch, k]))]
    refine close_lip (main.trans (P.err k ⟨⟨k0, k1⟩, trivial⟩)) (convSumQ_lip (kh := kh.shape) (kw := kw.shape) (ic := 1)
      (X := paddedQ ih.shape iw.shape fun r q _ => saNum qi 0 (src.get (tin.addr [r, q, k])))
      (x := paddedQ ih.shape iw.shape fun r q _ => x [r, q, k]) (W := fun i j _ => saNum p.q.qw k (p.wts.get (p.tw.addr [i, j, 0, k]))) he
      (fun r q ch c0 c1 => paddedQ_near he fun a1 a2 b1 b2 => ?_) ?_ _ _ _ _ _ _ _ _)
    · exact hx [r, q, k] (by rw [si]; exact ⟨⟨a1, a2⟩, ⟨b1, b2⟩, ⟨k0, k1⟩, trivial⟩)
    · simpa using hg k k0 k1

theorem saNum_mono {q : SaQ} (h : 0 < q.scaleAt 0) {a b : Int} (hab : a ≤ b) : saNum q 0 a ≤ saNum q 0 b := by
  unfold saNum
  refine mul_le_mul_of_nonneg_right ?_ (scaleVal_pos h).le
  have : (a : ℚ) ≤ b := by exact_mod_cast hab
  linarith

theorem saMaxpool_good (m : Rnd) {full : Bool} {b : Nat} {qi : SaQ} {tin : Tensor} {src : Buf} {gm : Geo} {tout : Tensor} {dst : Buf} {x : List Int → ℚ} {e g d : ℚ}
    (vi : tin.Valid src) (hi : tin.Holds src 8) (vo : tout.Valid dst) (h : SaLayer.Accepted m full b qi tin ⟨.maxpool gm, tout, dst⟩ d)
    (hg : (SaOp.maxpool gm).Gain tin.shape g) (he : 0 ≤ e) (hx : tin.NearSa src qi x e) : SaGood m full b qi tin src ⟨.maxpool gm, tout, dst⟩ x e g d := by
  obtain ⟨hck, ⟨ih, iw, ic, oh, ow, G⟩, hs, hd⟩ := h
  obtain ⟨dst', val, r1, r2, r3⟩ := c34_maxpool_partial tin tout gm src dst ih iw ic oh ow vi vo hck G
  have hg : 1 ≤ g := hg
  refine ⟨by linarith, hd, dst', r1, vo.of_size r2.size, ?_, ?_⟩
  · intro is his
    rw [r2.elem is his]
    simp only [G.sout] at his
    obtain ⟨y, z, k, rfl, -, -, k0, k1⟩ := inShape_three his
    obtain ⟨-, i, j, -, -, hr, hc, hv⟩ := r3 y z k (by rw [G.sout]; exact his)
    rw [← hv]
    exact hi _ (by rw [G.sin]; exact ⟨hr, hc, ⟨k0, k1⟩, trivial⟩)
  · intro is his
    rw [r2.elem is his]
    have his' := his
    simp only [G.sout] at his'
    obtain ⟨y, z, k, rfl, -, -, k0, k1⟩ := inShape_three his'
    have main := maxQ_close (num := saNum qi 0) (saNum_mono hs) (x := fun r q => x [r, q, k]) (r3 y z k his) (e := e)
      (fun r q a1 a2 b1 b2 => hx [r, q, k] (by rw [G.sin]; exact ⟨⟨a1, a2⟩, ⟨b1, b2⟩, ⟨k0, k1⟩, trivial⟩))
    simp only [SaOp.real, SaOp.quant, G.sin, List.getD_cons_zero, List.getD_cons_succ]
    have := mul_le_mul_of_nonneg_right hg he
    linarith

theorem meanQ_sa (X : Int → Int → Int) (q : SaQ) (ih iw kh kw sh sw pt pl oy ox : Int) (hD : 1 ≤ windowCount ih iw kh kw sh sw pt pl oy ox) :
    meanQ (fun r c => saNum q 0 (X r c)) ih iw kh kw sh sw pt pl oy ox =
      saMean (q.zpAt 0) (q.scaleAt 0) (q.fracAt 0) (windowSum X ih iw kh kw sh sw pt pl oy ox) (windowCount ih iw kh kw sh sw pt pl oy ox) := by
  unfold meanQ saNum saMean
  rw [windowSum_taps, windowCount_taps, ← Finset.sum_mul, Finset.sum_sub_distrib, Finset.sum_const, nsmul_eq_mul]
  push_cast
  ring

/-- From steps of the output to numbers. -/
theorem saClose_num {q : SaQ} (hs : 0 < q.scaleAt 0) {e y : ℚ} {r : Int} (h : SaClose e (q.zpAt 0) (q.scaleAt 0) (q.fracAt 0) y r) :
    |saNum q 0 r - limitQ (saNum q 0 (-128)) (saNum q 0 127) y| ≤ e * scaleVal (q.scaleAt 0) (q.fracAt 0) := by
  have hp := scaleVal_pos (f := q.fracAt 0) hs
  unfold SaClose at h
  have h1 := limitQ_affine (z := (q.zpAt 0 : ℚ)) hp (-128) 127 (q.zpAt 0 + y / scaleVal (q.scaleAt 0) (q.fracAt 0))
  rw [add_sub_cancel_left, div_mul_cancel₀ _ hp.ne'] at h1
  have e1 : saNum q 0 r - limitQ (saNum q 0 (-128)) (saNum q 0 127) y =
      ((r : ℚ) - limitQ (-128) 127 (q.zpAt 0 + y / scaleVal (q.scaleAt 0) (q.fracAt 0))) * scaleVal (q.scaleAt 0) (q.fracAt 0) := by
    unfold saNum
    push_cast
    rw [← h1]
    ring
  rw [e1, abs_mul, abs_of_pos hp]
  exact mul_le_mul_of_nonneg_right h hp.le

theorem saAvepool_good (m : Rnd) {full : Bool} {b : Nat} (hb : b = 8 ∨ b = 16) {qi qo : SaQ} {tin : Tensor} {src : Buf} {gm : Geo} {tout : Tensor} {dst : Buf}
    {x : List Int → ℚ} {e g d : ℚ}
    (vi : tin.Valid src) (hi : tin.Holds src 8) (vo : tout.Valid dst) (h : SaLayer.Accepted m full b qi tin ⟨.avepool qo gm, tout, dst⟩ d)
    (hg : (SaOp.avepool qo gm).Gain tin.shape g) (he : 0 ≤ e) (hx : tin.NearSa src qi x e) : SaGood m full b qi tin src ⟨.avepool qo gm, tout, dst⟩ x e g d := by
  obtain ⟨hck, ⟨ih, iw, ic, oh, ow, G⟩, hq, ⟨hti, hto⟩, hρ, hfit, hd⟩ := h
  obtain ⟨-, ⟨I1, I2⟩, O1, O2⟩ := chkAveQuant_ok hq
  have pi := scaleVal_pos (f := qi.fracAt 0) I1
  have po := scaleVal_pos (f := qo.fracAt 0) O1
  have pρ : 0 < saRatio qi qo := div_pos pi po
  obtain ⟨dst', val, r1, r2, r3⟩ := c60_avepool_sa8_partial m b hb qi qo tin tout gm src dst ih iw ic oh ow vi vo hck hq hti hto G hi hρ hfit
  have hg : 1 ≤ g := hg
  refine ⟨by linarith, le_trans (mul_nonneg (by positivity) po.le) hd, dst', r1, vo.of_size r2.size, ?_, ?_⟩
  · intro is his
    rw [r2.elem is his]
    simp only [G.sout] at his
    obtain ⟨y, z, k, rfl, -⟩ := inShape_three his
    exact (r3 y z k (by rw [G.sout]; exact his)).1
  · intro is his
    rw [r2.elem is his]
    have his' := his
    simp only [G.sout] at his'
    obtain ⟨y, z, k, rfl, -, -, k0, k1⟩ := inShape_three his'
    have main := saClose_num O1 (r3 y z k his).2
    obtain ⟨ii, hii⟩ : ∃ ii, prvHwc tin = some ii := by
      obtain ⟨d1, d2, d3, d4, d5, d6, e1, -⟩ := chkPool_ok hck
      simp [prvHwc, e1]
    have hD := (window_facts vi vo hck G hii hi his).1.1
    have inr : ∀ r q, 0 ≤ r → r < ih → 0 ≤ q → q < iw → InShape tin.shape [r, q, k] :=
      fun r q a1 a2 b1 b2 => by rw [G.sin]; exact ⟨⟨a1, a2⟩, ⟨b1, b2⟩, ⟨k0, k1⟩, trivial⟩
    have hS : |((windowSum (fun r q => src.get (tin.addr [r, q, k])) ih iw gm.kh gm.kw gm.sh gm.sw gm.pt gm.pl y z : Int) : ℚ) /
        (windowCount ih iw gm.kh gm.kw gm.sh gm.sw gm.pt gm.pl y z : Int)| ≤ 128 := by
      have h0 := meanQ_fx (fun r q => src.get (tin.addr [r, q, k])) 0 ih iw gm.kh gm.kw gm.sh gm.sw gm.pt gm.pl y z
      have h1 := meanQ_abs (X := fun r q => fxNum 0 (src.get (tin.addr [r, q, k]))) (B := 128) (by positivity) (ih := ih) (iw := iw) (kh := gm.kh) (kw := gm.kw)
        (sh := gm.sh) (sw := gm.sw) (pt := gm.pt) (pl := gm.pl) (oy := y) (ox := z) (fun r q a1 a2 b1 b2 => by
          have h := inRange_abs (by omega) (hi _ (inr r q a1 a2 b1 b2))
          unfold fxNum
          rw [neg_zero, zpow_zero, mul_one]
          exact_mod_cast h)
      rw [h0] at h1
      simpa using h1
    have hz : |((qi.zpAt 0 : Int) : ℚ)| ≤ 128 := by exact_mod_cast inRange_abs (by omega) I2
    have hE : avgErr b (saRatio qi qo) (qi.zpAt 0) (windowSum (fun r q => src.get (tin.addr [r, q, k])) ih iw gm.kh gm.kw gm.sh gm.sw gm.pt gm.pl y z)
        (windowCount ih iw gm.kh gm.kw gm.sh gm.sw gm.pt gm.pl y z) ≤ 1 + saRatio qi qo * (128 * (1 / 2 ^ (b - 1) + 1 / 2 ^ 12) + 128 / 2 ^ 13) := by
      unfold avgErr
      have h1 : (0 : ℚ) ≤ 1 / 2 ^ (b - 1) + 1 / 2 ^ 12 := by positivity
      have h2 := mul_le_mul_of_nonneg_right hS h1
      have h3 := div_le_div_of_nonneg_right hz (show (0 : ℚ) ≤ 2 ^ 13 by positivity)
      have h4 := mul_le_mul_of_nonneg_left (add_le_add h2 h3) pρ.le
      linarith
    have main := (main.trans (mul_le_mul_of_nonneg_right hE po.le)).trans hd
    rw [← meanQ_sa _ _ _ _ _ _ _ _ _ _ _ _ hD] at main
    simp only [SaOp.real, SaOp.quant, G.sin, List.getD_cons_zero, List.getD_cons_succ]
    have lip := (limitQ_lip (saNum qo 0 (-128)) (saNum qo 0 127) _ _).trans (meanQ_lip (X := fun r q => saNum qi 0 (src.get (tin.addr [r, q, k]))) (x := fun r q => x [r, q, k])
      he (ih := ih) (iw := iw) (kh := gm.kh) (kw := gm.kw) (sh := gm.sh) (sw := gm.sw) (pt := gm.pt) (pl := gm.pl) (oy := y) (ox := z)
      (fun r q a1 a2 b1 b2 => hx [r, q, k] (inr r q a1 a2 b1 b2)))
    have t := abs_sub_le (saNum qo 0 (val [y, z, k]))
      (limitQ (saNum qo 0 (-128)) (saNum qo 0 127) (meanQ (fun r q => saNum qi 0 (src.get (tin.addr [r, q, k]))) ih iw gm.kh gm.kw gm.sh gm.sw gm.pt gm.pl y z))
      (limitQ (saNum qo 0 (-128)) (saNum qo 0 127) (meanQ (fun r q => x [r, q, k]) ih iw gm.kh gm.kw gm.sh gm.sw gm.pt gm.pl y z))
    have := mul_le_mul_of_nonneg_right hg he
    linarith

theorem unflat_flat : ∀ ns : List Int, (∀ n ∈ ns, 1 ≤ n) → ∀ is, InShape ns is → unflat ns (flatIndex ns is) = is ∧ 0 ≤ flatIndex ns is ∧ flatIndex ns is < prod ns
  | [], _, [], _ => ⟨rfl, le_rfl, by simp [prod, flatIndex]⟩
  | n :: ns, hp, i :: is, ⟨⟨i0, i1⟩, h⟩ => by
    have hps : ∀ n ∈ ns, 1 ≤ n := fun m hm => hp m (by simp [hm])
    have p1 : 1 ≤ prod ns := prod_pos hps
    obtain ⟨a, b, c⟩ := unflat_flat ns hps is h
    have e1 : (i * prod ns + flatIndex ns is) / prod ns = i := by
      rw [add_comm, Int.add_mul_ediv_right _ _ (by omega), Int.ediv_eq_zero_of_lt b c, zero_add]
    have e2 : (i * prod ns + flatIndex ns is) % prod ns = flatIndex ns is := by
      rw [add_comm, Int.add_mul_emod_self_right, Int.emod_eq_of_lt b c]
    simp only [flatIndex, unflat, e1, e2, a, prod, true_and]
    constructor
    · have := Int.mul_nonneg i0 (show 0 ≤ prod ns by omega); omega
    · have : (i + 1) * prod ns ≤ n * prod ns := Int.mul_le_mul_of_nonneg_right (by omega) (by omega)
      rw [add_mul, one_mul] at this
      omega

theorem saDense_good (m : Rnd) {full : Bool} {b : Nat} {qi : SaQ} {tin : Tensor} {src : Buf} {p : SaPar} {tout : Tensor} {dst : Buf} {x : List Int → ℚ} {e g d : ℚ}
    (vi : tin.Valid src) (hi : tin.Holds src 8) (vo : tout.Valid dst) (h : SaLayer.Accepted m full b qi tin ⟨.dense p, tout, dst⟩ d)
    (hg : (SaOp.dense p).Gain tin.shape g) (he : 0 ≤ e) (hx : tin.NearSa src qi x e) : SaGood m full b qi tin src ⟨.dense p, tout, dst⟩ x e g d := by
  obtain ⟨P, hck, hq⟩ := h
  replace hck : chkFc p.apart tin p.tw p.tb tout = some .ok := hck
  replace hq : chkSa8At 1 m p.q tin p.tw p.tb tout = some .ok := hq
  obtain ⟨wi, wo, bn, on, e1, e2, e3, hc, hbs, hos, -⟩ := chkFc_ok hck
  have sw : p.tw.shape = [wi.shape, wo.shape] := by simp [Tensor.shape, e1]
  have so : tout.shape = [wo.shape] := by simp [Tensor.shape, e3, hos]
  simp only [SaOp.Gain, sw, List.getD_cons_zero, List.getD_cons_succ] at hg
  simp only [sw, List.getD_cons_zero, List.getD_cons_succ] at P
  have F : FcSaCall.Fits m full qi tin ⟨p.q, p.tw, p.tb, tout, p.wts, p.bias, dst, p.apart⟩ g d :=
    ⟨P.quant, P.typed, hck, hq, P.vw, P.vb, vo, P.hw, P.hb, P.six, P.one, by simp only [so]; exact P.sums, by simp only [so]; exact hg,
      by simp only [so]; exact P.err⟩
  have hp : ∀ n ∈ tin.shape, 1 ≤ n := by
    intro n hn
    obtain ⟨d, hd, rfl⟩ := List.mem_map.1 hn
    exact vi.shape_pos d hd
  have hx' : tin.Near src (saNum qi 0) (fun i => x (unflat tin.shape i)) e := by
    intro is his
    beta_reduce
    rw [(unflat_flat _ hp is his).1]
    exact hx is his
  obtain ⟨g0, d0, dst', r1, r2, r3, r4⟩ := fcSa_layer F vi hi he hx'
  refine ⟨g0, d0, dst', r1, r2, r3, ?_⟩
  intro is his
  have his' := his
  simp only [so] at his'
  obtain ⟨o, rfl, -⟩ := inShape_one his'
  have := r4 [o] his
  simp only [so, show flatIndex [wo.shape] [o] = o by simp [flatIndex, prod]] at this
  exact this

/-! ## Networks -/

/-- The layers of a network with their gains and errors, from an input tensor with the quantization parameters `qi`. -/
def SaNet (m : Rnd) (full : Bool) (b : Nat) : SaQ → Tensor → List (SaLayer × ℚ × ℚ) → Prop
  | _, _, [] => True
  | qi, tin, (l, g, d) :: ls => l.tout.Valid l.dst ∧ l.Accepted m full b qi tin d ∧ l.op.Gain tin.shape g ∧ SaNet m full b (l.op.quant qi) l.tout ls

/-- The network in real numbers. -/
def saNetReal : Tensor → List (SaLayer × ℚ × ℚ) → (List Int → ℚ) → List Int → ℚ
  | _, [], x => x
  | tin, (l, _) :: ls, x => saNetReal l.tout ls fun is => l.op.real tin.shape x is

/-- The tensor a network ends with, and its quantization parameters. -/
def saLast : SaQ → Tensor → List (SaLayer × ℚ × ℚ) → SaQ × Tensor
  | qi, tin, [] => (qi, tin)
  | qi, _, (l, _) :: ls => saLast (l.op.quant qi) l.tout ls

theorem saLayer_good (m : Rnd) {full : Bool} {b : Nat} (hb : b = 8 ∨ b = 16) {qi : SaQ} {tin : Tensor} {src : Buf} {l : SaLayer} {x : List Int → ℚ} {e g d : ℚ}
    (vi : tin.Valid src) (hi : tin.Holds src 8) (vo : l.tout.Valid l.dst) (h : l.Accepted m full b qi tin d)
    (hg : l.op.Gain tin.shape g) (he : 0 ≤ e) (hx : tin.NearSa src qi x e) : SaGood m full b qi tin src l x e g d := by
  obtain ⟨op, tout, dst⟩ := l
  cases op
  · exact saConv_good m vi hi vo h hg he hx
  · exact saDepthwise_good m vi hi vo h hg he hx
  · exact saMaxpool_good m vi hi vo h hg he hx
  · exact saAvepool_good m hb vi hi vo h hg he hx
  · exact saDense_good m vi hi vo h hg he hx

/-- **C103**, 8-bit asymmetric: a network of any number of convolutions (2D and depthwise), maximum and average pooling and fully connected layers, each
called with the output of the one before.  All calls succeed, and every output element stands for a number within `netErr` of what the network makes of
`x` in real numbers, if the input elements stand for numbers within `e` of `x`.  Partial: the conditions in `SaLayer.Accepted` (sums that fit the
accumulator, ReLU limits, windows that meet the input, paddings, ratios of scales) of the kernels' theorems. -/
theorem c103_cnn_sa8_partial (m : Rnd) (full : Bool) (b : Nat) (hb : b = 8 ∨ b = 16) :
    ∀ (ls : List (SaLayer × ℚ × ℚ)) (qi : SaQ) (tin : Tensor) (src : Buf) (x : List Int → ℚ) (e : ℚ),
    SaNet m full b qi tin ls → tin.Valid src → tin.Holds src 8 → 0 ≤ e → tin.NearSa src qi x e →
    ∃ out, runCnnSa m full b qi (ls.map (·.1)) tin src = some ((saLast qi tin ls).2, out) ∧
      (saLast qi tin ls).2.NearSa out (saLast qi tin ls).1 (saNetReal tin ls x) (netErr (ls.map (·.2)) e)
  | [], qi, tin, src, x, e, _, _, _, _, hx => ⟨src, rfl, hx⟩
  | (l, g, d) :: ls, qi, tin, src, x, e, h, vi, hi, he, hx => by
    obtain ⟨vo, acc, hg, rest⟩ := h
    obtain ⟨g0, d0, dst', r1, r2, r3, r4⟩ := saLayer_good m hb vi hi vo acc hg he hx
    obtain ⟨out, o1, o2⟩ := c103_cnn_sa8_partial m full b hb ls (l.op.quant qi) l.tout dst' _ _ rest r2 r3 (add_nonneg (mul_nonneg g0 he) d0) r4
    refine ⟨out, ?_, o2⟩
    simp only [List.map_cons, runCnnSa, r1, Option.bind_some, if_true]
    exact o1

/-! ## Instance -/

def exSa1 : SaPar := ⟨exQ, 0, exCfg, exWt.bytes, exBias32, Buf.ofList exWts, Buf.ofList [500, -600], true⟩

def exSa2 : SaPar :=
  ⟨{ qi := exQ.qo
     qw := { dim := 3, zp := [0, 0], scale := [100, 120], frac := [12, 12] }
     qb := { dim := 0, zp := [0, 0], scale := [18750, 22500], frac := [18, 18] }
     qo := { dim := -1, zp := [-5], scale := [20000], frac := [14] }
     relu := .gen }, 0, exCnn2.c, exCnn2.tw.bytes, exBias32, exCnn2.wts, Buf.ofList [9, 40], true⟩

def exSaQ4 : SaQ := { dim := -1, zp := [2], scale := [22000], frac := [14] }

def exSa5 : SaPar :=
  ⟨{ qi := exSaQ4
     qw := { dim := 1, zp := [0, 0], scale := [100, 120], frac := [12, 12] }
     qb := { dim := 0, zp := [0, 0], scale := [17188, 20625], frac := [19, 19] }
     qo := { dim := -1, zp := [-5], scale := [9000], frac := [16] }
     relu := .none }, 0, { sh := 1, sw := 1 }, exCnn5.tw.bytes, exBias32, exCnn5.wts, Buf.ofList [30, -20], true⟩

/-- Convolution, depthwise convolution, maximum pooling, average pooling and a fully connected layer. -/
def exSaCnn : List (SaLayer × ℚ × ℚ) :=
  [(⟨.conv exSa1, exOut.bytes, Buf.ofList (List.replicate 8 99)⟩, 174 / 5, 2), (⟨.depthwise exSa2, exOut.bytes, Buf.ofList (List.replicate 8 98)⟩, 21 / 25, 1),
    (⟨.maxpool exGeo3, exRow.bytes, Buf.ofList [1, 2, 3, 4]⟩, 1, 0), (⟨.avepool exSaQ4 exGeo4, exPix.bytes, Buf.ofList [1, 2]⟩, 1, 3),
    (⟨.dense exSa5, exBias.bytes, Buf.ofList [1, 2]⟩, 21 / 50, 1 / 10)]

theorem exSa_num : (∀ k : Nat, k < 2 → ∀ i : Nat, i < 2 → ∀ j : Nat, j < 3 → ∀ c : Nat, c < 2 →
      |exSa1.wts.get (exSa1.tw.addr [(i : Int), (j : Int), (c : Int), (k : Int)]) - exSa1.q.qw.zpAt k| ≤ 58) ∧
    (∀ k : Nat, k < 2 → ∀ i : Nat, i < 2 → ∀ j : Nat, j < 2 → |exSa2.wts.get (exSa2.tw.addr [(i : Int), (j : Int), 0, (k : Int)]) - exSa2.q.qw.zpAt k| ≤ 7) ∧
    (∀ k : Nat, k < 2 → ∀ i : Nat, i < 2 → |exSa5.wts.get (exSa5.tw.addr [(i : Int), (k : Int)]) - exSa5.q.qw.zpAt k| ≤ 7) ∧
    (∀ k : Nat, k < 2 → |scaleVal (exSa1.q.qw.scaleAt k) (exSa1.q.qw.fracAt k)| ≤ 1 / 20) ∧
    (∀ k : Nat, k < 2 → |scaleVal (exSa2.q.qw.scaleAt k) (exSa2.q.qw.fracAt k)| ≤ 3 / 100) ∧
    (∀ k : Nat, k < 2 → |scaleVal (exSa5.q.qw.scaleAt k) (exSa5.q.qw.fracAt k)| ≤ 3 / 100) := by
  decide +kernel

theorem exSa_err : (∀ k : Nat, k < 2 → exSa1.taps * 2 ^ 15 + |exSa1.bias.get (exSa1.tb.addr [(k : Int)])| < 2 ^ 31 ∧
      reluErr (3 / 5) exSa1.q.relu * exSa1.q.step + exSa1.q.biasErr true k (exSa1.bias.get (exSa1.tb.addr [(k : Int)])) ≤ 2) ∧
    (∀ k : Nat, k < 2 → exSa2.taps * 2 ^ 15 + |exSa2.bias.get (exSa2.tb.addr [(k : Int)])| < 2 ^ 31 ∧
      reluErr (3 / 5) exSa2.q.relu * exSa2.q.step + exSa2.q.biasErr true k (exSa2.bias.get (exSa2.tb.addr [(k : Int)])) ≤ 1) ∧
    (∀ k : Nat, k < 2 → prod exPix.bytes.shape * 2 ^ 15 + |exSa5.bias.get (exSa5.tb.addr [(k : Int)])| < 2 ^ 31 ∧
      reluErr (3 / 5) exSa5.q.relu * exSa5.q.step + exSa5.q.biasErr true k (exSa5.bias.get (exSa5.tb.addr [(k : Int)])) ≤ 1 / 10) := by
  decide +kernel

theorem exSa_nat {n : Nat} {P : Int → Prop} (h : ∀ k : Nat, k < n → P k) : ∀ k, InShape [(n : Int)] [k] → P k := by
  intro k hk
  have h0 : 0 ≤ k := hk.1.1
  have h1 : k < n := hk.1.2
  lift k to ℕ using h0
  exact h k (Int.ofNat_lt.1 h1)

theorem exSa_ok : exSa1.Ok true exQ.qi exSa1.taps 2 2 ∧ exSa2.Ok true exQ.qo exSa2.taps 2 1 ∧ exSa5.Ok true exSaQ4 (prod exPix.bytes.shape) 2 (1 / 10) :=
  ⟨⟨rfl, by decide, ⟨by decide, by decide, by decide, by decide⟩, ⟨by decide, by decide, by decide, by decide⟩, holds_ofList (by decide) _,
      holds_ofList (by decide) _, by decide, by decide, exSa_nat (n := 2) fun k hk => (exSa_err.1 k hk).1, exSa_nat (n := 2) fun k hk => (exSa_err.1 k hk).2⟩,
    ⟨rfl, by decide, ⟨by decide, by decide, by decide, by decide⟩, ⟨by decide, by decide, by decide, by decide⟩, holds_ofList (by decide) _,
      holds_ofList (by decide) _, by decide, by decide, exSa_nat (n := 2) fun k hk => (exSa_err.2.1 k hk).1, exSa_nat (n := 2) fun k hk => (exSa_err.2.1 k hk).2⟩,
    ⟨rfl, by decide, ⟨by decide, by decide, by decide, by decide⟩, ⟨by decide, by decide, by decide, by decide⟩, holds_ofList (by decide) _,
      holds_ofList (by decide) _, by decide, by decide, exSa_nat (n := 2) fun k hk => (exSa_err.2.2 k hk).1, exSa_nat (n := 2) fun k hk => (exSa_err.2.2 k hk).2⟩⟩

theorem exSa_gain1 : (SaOp.conv exSa1).Gain [3, 4, 2] (174 / 5) := by
  intro k h0 h1
  lift k to ℕ using h0
  have hk : k < 2 := Int.ofNat_lt.1 h1
  have h : ∀ i : Nat, i < 2 → ∀ j : Nat, j < 3 →
      ∑ ch ∈ Finset.range 2, |saNum exSa1.q.qw k (exSa1.wts.get (exSa1.tw.addr [(i : Int), (j : Int), (ch : Int), (k : Int)]))| ≤ 29 / 5 := by
    intro i hi j hj
    refine (saGain (n := 2) (B := 58) (s := 1 / 20) (W := fun c => exSa1.wts.get (exSa1.tw.addr [(i : Int), (j : Int), c, (k : Int)]))
      (exSa_num.2.2.2.1 k hk) (exSa_num.1 k hk i hi j hj)).trans ?_
    norm_num
  refine (sum_range_le (n := 2) (b := 3 * (29 / 5)) fun i hi => sum_range_le (n := 3) fun j hj => h i hi j hj).trans ?_
  norm_num

theorem exSa_gain2 : (SaOp.depthwise exSa2).Gain [2, 2, 2] (21 / 25) := by
  intro k h0 h1
  lift k to ℕ using h0
  have hk : k < 2 := Int.ofNat_lt.1 h1
  have h : ∀ i : Nat, i < 2 → ∑ j ∈ Finset.range 2, |saNum exSa2.q.qw k (exSa2.wts.get (exSa2.tw.addr [(i : Int), (j : Int), 0, (k : Int)]))| ≤ 21 / 50 := by
    intro i hi
    refine (saGain (n := 2) (B := 7) (s := 3 / 100) (W := fun j => exSa2.wts.get (exSa2.tw.addr [(i : Int), j, 0, (k : Int)]))
      (exSa_num.2.2.2.2.1 k hk) (exSa_num.2.1 k hk i hi)).trans ?_
    norm_num
  refine (sum_range_le (n := 2) fun i hi => h i hi).trans ?_
  norm_num

theorem exSa_gain5 : (SaOp.dense exSa5).Gain [1, 1, 2] (21 / 50) := by
  refine exSa_nat (n := 2) fun k hk => ?_
  rw [show (prod [1, 1, 2]).toNat = 2 by decide]
  refine (saGain (n := 2) (B := 7) (s := 3 / 100) (W := fun i => exSa5.wts.get (exSa5.tw.addr [i, (k : Int)])) (exSa_num.2.2.2.2.2 k hk)
    (exSa_num.2.2.1 k hk)).trans ?_
  norm_num

theorem exSa_geo : PoolGeo exOut.bytes exGeo3 exRow.bytes 2 2 2 2 1 ∧ PoolGeo exRow.bytes exGeo4 exPix.bytes 2 1 2 1 1 :=
  ⟨⟨by decide, by decide, ⟨by decide, by decide, by decide, by decide⟩, ⟨by decide, by decide, by decide, by decide⟩⟩,
    ⟨by decide, by decide, ⟨by decide, by decide, by decide, by decide⟩, ⟨by decide, by decide, by decide, by decide⟩⟩⟩

theorem exSa_avg : saRatio exSa2.q.qo exSaQ4 ≤ avgMaxRatio 8 ∧ ((2 : Int) * (1 : Int) : ℚ) * (131 / saRatio exSa2.q.qo exSaQ4 + 258) ≤ 2 ^ (32 - 8) ∧
    (1 + saRatio exSa2.q.qo exSaQ4 * (128 * (1 / 2 ^ (8 - 1) + 1 / 2 ^ 12) + 128 / 2 ^ 13)) * scaleVal (exSaQ4.scaleAt 0) (exSaQ4.fracAt 0) ≤ 3 := by
  decide +kernel

/-- The network meets the hypotheses of `c103_cnn_sa8_partial`. -/
theorem exSaCnn_fits : SaNet .convergent true 8 exQ.qi exIn.bytes exSaCnn :=
  ⟨⟨by decide, by decide, by decide, by decide⟩, ⟨exSa_ok.1, by decide, by decide, by decide, exMeet⟩, exSa_gain1,
    ⟨by decide, by decide, by decide, by decide⟩, ⟨exSa_ok.2.1, by decide, by decide, by decide⟩, exSa_gain2,
    ⟨by decide, by decide, by decide, by decide⟩, ⟨by decide, ⟨_, _, _, _, _, exSa_geo.1⟩, by decide, le_rfl⟩, le_rfl,
    ⟨by decide, by decide, by decide, by decide⟩, ⟨by decide, ⟨_, _, _, _, _, exSa_geo.2⟩, by decide, ⟨by decide, by decide⟩, exSa_avg⟩, le_rfl,
    ⟨by decide, by decide, by decide, by decide⟩, ⟨exSa_ok.2.2, by decide, by decide⟩, exSa_gain5, trivial⟩

/-- The other hypotheses, with an input that stands exactly for the numbers, and what the calls give. -/
example : exIn.bytes.Valid (Buf.ofList exSrc) ∧ exIn.bytes.Holds (Buf.ofList exSrc) 8 ∧
    exIn.bytes.NearSa (Buf.ofList exSrc) exQ.qi (fun is => saNum exQ.qi 0 ((Buf.ofList exSrc).get (exIn.bytes.addr is))) 0 ∧
    ((runCnnSa .convergent true 8 exQ.qi (exSaCnn.map (·.1)) exIn.bytes (Buf.ofList exSrc)).map fun p => p.2.toList) = some [14, 0] := by
  refine ⟨⟨by decide, by decide, by decide, by decide⟩, holds_ofList (by decide) _, ?_, by decide +kernel⟩
  intro is _
  simp


/-- The bound for that network. -/
example : netErr (exSaCnn.map (·.2)) 0 = 3107 / 1250 := by
  norm_num [netErr, exSaCnn]

end Mli
