import Verif.Lemmas.Accept
import Verif.Lemmas.CellChk
import Verif.Props.GroupConv
import Verif.Props.TransposeConv
import Verif.Props.Pool
import Verif.Props.FixedKernel
import Verif.Props.Softmax
import Verif.Props.L2Norm
import Verif.Props.Argmax
import Verif.Props.LeakyRelu
import Verif.Props.EltSa
import Verif.Props.Rnn
import Verif.Props.Lstm
import Verif.Props.Gru
import Verif.Props.Convert
import Verif.Props.ConvertFloat
import Verif.Props.Permute

/-! # C96: kernels accept exactly the documented arguments -/

namespace Mli

open Spec

instance (t : Tensor) : Decidable (Moderate t) := by unfold Moderate; infer_instance

/-! ## Arithmetic of windows -/

theorem mulBound {a b : Int} (ha : 0 ≤ a ∧ a < 2 ^ 22) (hb : 0 ≤ b ∧ b < 256) : 0 ≤ a * b ∧ a * b ≤ 1069547265 := by
  constructor
  · exact Int.mul_nonneg ha.1 hb.1
  · nlinarith

theorem wrap32 {x : Int} (h : -2 ^ 31 ≤ x ∧ x < 2 ^ 31) : wrap 32 x = x :=
  wrap_of_inRange (by decide) (by constructor <;> simp only [lo, hi] <;> omega)

theorem windowFits_iff {n pb pe e s o : Int} (hn : 0 ≤ n ∧ n < 2 ^ 22) (hb : 0 ≤ pb ∧ pb < 256) (he : 0 ≤ pe ∧ pe < 256) (hs : 0 ≤ s ∧ s < 256)
    (ho : 0 ≤ o ∧ o < 2 ^ 22) (hk : 0 ≤ e ∧ e ≤ 2 ^ 30 + 1) :
    (pb < e ∧ pe < e ∧ 0 < s ∧ wrap 32 (o * s + e - s) ≤ wrap 32 (n + pb + pe)) ↔ WindowFits n pb pe e s o := by
  have h1 := mulBound ho hs
  rw [wrap32 (x := n + pb + pe) (by omega), wrap32 (x := o * s + e - s) (by omega)]
  unfold WindowFits
  rw [show (o - 1) * s + e = o * s + e - s by ring]

theorem coveredBound {k d : Int} (hk : 1 ≤ k ∧ k < 2 ^ 22) (hd : 0 ≤ d ∧ d < 256) :
    wrap 32 ((k - 1) * d + 1) = covered k d ∧ 0 ≤ covered k d ∧ covered k d ≤ 2 ^ 30 + 1 := by
  have := mulBound (a := k - 1) (by omega) hd
  unfold covered
  exact ⟨wrap32 (by omega), by omega, by omega⟩

/-! ## Shapes -/

theorem dimsOf1 {t : Tensor} {a : Int} (h : t.shape = [a]) : ∃ x : Dim, t.dims = [x] ∧ x.shape = a := by
  unfold Tensor.shape at h
  match e : t.dims, h with
  | [x], h => simp at h; exact ⟨x, rfl, h⟩

theorem dimsOf2 {t : Tensor} {a b : Int} (h : t.shape = [a, b]) : ∃ x y : Dim, t.dims = [x, y] ∧ x.shape = a ∧ y.shape = b := by
  unfold Tensor.shape at h
  match e : t.dims, h with
  | [x, y], h => simp at h; exact ⟨x, y, rfl, h⟩

theorem dimsOf3 {t : Tensor} {a b c : Int} (h : t.shape = [a, b, c]) : ∃ x y z : Dim, t.dims = [x, y, z] ∧ x.shape = a ∧ y.shape = b ∧ z.shape = c := by
  unfold Tensor.shape at h
  match e : t.dims, h with
  | [x, y, z], h => simp at h; exact ⟨x, y, z, rfl, h⟩

theorem dimsOf4 {t : Tensor} {a b c d : Int} (h : t.shape = [a, b, c, d]) :
    ∃ x y z u : Dim, t.dims = [x, y, z, u] ∧ x.shape = a ∧ y.shape = b ∧ z.shape = c ∧ u.shape = d := by
  unfold Tensor.shape at h
  match e : t.dims, h with
  | [x, y, z, u], h => simp at h; exact ⟨x, y, z, u, rfl, h⟩

theorem posDim {t : Tensor} (h : TensorOk t) {d : Dim} (hd : d ∈ t.dims) : 1 ≤ d.shape := by
  have := ((checkTensorPrivate_ok h).2.2.1 d hd).2.1; omega

theorem modDim {t : Tensor} (h : Moderate t) {d : Dim} (hd : d ∈ t.dims) : 0 ≤ d.shape ∧ d.shape < 2 ^ 22 :=
  h.1 d.shape (List.mem_map.2 ⟨d, hd, rfl⟩)

theorem inner_last {t : Tensor} {ds : List Dim} {d : Dim} (e : t.dims = ds ++ [d]) : InnerOne t ↔ d.stride = 1 := by
  unfold InnerOne Tensor.strides
  rw [e]; simp

/-! ## Same-shape kernels -/

theorem chkRelu_iff (tin tout : Tensor) : chkRelu tin tout = some .ok ↔ MapCall tin tout := by
  unfold chkRelu
  simp only [Option.bind_eq_bind, Option.pure_def]
  rw [ok_bind, ok_bind, ok_if (by decide), ok_if (by decide)]
  simp only [Bool.not_eq_true', Bool.not_eq_false, Bool.and_eq_true, innerOne_iff, sameShape_iff, and_true]
  rfl

theorem chkBasicActivation_iff (tin tout : Tensor) : chkBasicActivation tin tout = some .ok ↔ MapCall tin tout := by
  unfold chkBasicActivation
  simp only [Option.bind_eq_bind, Option.pure_def]
  rw [ok_bind, ok_bind, ok_if (by decide), ok_if (by decide)]
  simp only [Bool.not_eq_true', Bool.not_eq_false, Bool.and_eq_true, innerOne_iff, sameShape_iff, and_true]
  rfl

theorem chkSoftmax_iff (axis : Int) (tin tout : Tensor) : chkSoftmax axis tin tout = some .ok ↔ MapCall tin tout ∧ axis < tin.dims.length := by
  unfold chkSoftmax
  rw [ok_bind, ok_if (by decide), chkBasicActivation_iff]
  simp

/-- ReLU. -/
theorem c96_relu (w : Nat) (ty : ReluType) (zero scale shift : Int) (tin tout : Tensor) (mem : Buf) :
    Decides (MapCall tin tout) mem (krnRelu w ty zero scale shift tin tout mem) := by
  have h : Decides (MapCall tin tout ∧ True) mem (krnRelu w ty zero scale shift tin tout mem) :=
    Decides.bind (chkRelu_iff tin tout) (Decides.skip fun _ => Decides.done)
  exact h.conv (by simp)

/-- Sigmoid and hyperbolic tangent, fixed point. -/
theorem c96_activation_fx (m : Rnd) (l : Lut) (w : Nat) (inFrac : Int) (tin tout : Tensor) (mem : Buf) :
    Decides (MapCall tin tout) mem (krnActivationFx m l w inFrac tin tout mem) := by
  have h : Decides (MapCall tin tout ∧ True) mem (krnActivationFx m l w inFrac tin tout mem) :=
    Decides.bind (chkBasicActivation_iff tin tout) (Decides.skip fun _ => Decides.done)
  exact h.conv (by simp)

/-- Sigmoid and hyperbolic tangent, asymmetric. -/
theorem c96_activation_sa (m : Rnd) (l : Lut) (off scale shift outOff outShift : Int) (tin tout : Tensor) (mem : Buf) :
    Decides (MapCall tin tout) mem (krnActivationSa m l off scale shift outOff outShift tin tout mem) := by
  have h : Decides (MapCall tin tout ∧ True) mem (krnActivationSa m l off scale shift outOff outShift tin tout mem) :=
    Decides.bind (chkBasicActivation_iff tin tout) (Decides.skip fun _ => Decides.done)
  exact h.conv (by simp)

/-- Softmax, fixed point. -/
theorem c96_softmax_fx (m : Rnd) (l : Lut) (w : Nat) (inFrac axis : Int) (tin tout : Tensor) (mem : Buf) :
    Decides (MapCall tin tout ∧ axis < tin.dims.length) mem (krnSoftmaxFx m l w inFrac axis tin tout mem) := by
  have h : Decides ((MapCall tin tout ∧ axis < tin.dims.length) ∧ True) mem (krnSoftmaxFx m l w inFrac axis tin tout mem) :=
    Decides.bind (chkSoftmax_iff axis tin tout) Decides.map
  exact h.conv (by simp)

theorem chkQuant7_iff {t : Tensor} {q : SaQ} (ht : TensorOk t) : chkQuant t q 7 = .ok ↔ QuantOk t q (-128) 127 :=
  chkQuant_iff ht (by decide) (by decide)

/-- Softmax, asymmetric: one set of quantization parameters for the input. -/
theorem c96_softmax_sa (m : Rnd) (l : Lut) (q : SaQ) (axis : Int) (tin tout : Tensor) (mem : Buf) :
    Decides (MapCall tin tout ∧ axis < tin.dims.length ∧ QuantOk tin q (-128) 127 ∧ q.dim < 0) mem (krnSoftmaxSa m l q axis tin tout mem) := by
  have h : Decides ((MapCall tin tout ∧ axis < tin.dims.length) ∧ chkQuant tin q 7 = .ok ∧ q.dim < 0 ∧ True) mem
      (krnSoftmaxSa m l q axis tin tout mem) :=
    Decides.bind (chkSoftmax_iff axis tin tout) (Decides.status Iff.rfl (Decides.guard (by decide) not_not Decides.map))
  refine h.conv ?_
  constructor
  · rintro ⟨⟨h1, h2⟩, h3, h4, -⟩; exact ⟨h1, h2, (chkQuant7_iff h1.1).1 h3, h4⟩
  · rintro ⟨h1, h2, h3, h4⟩; exact ⟨⟨h1, h2⟩, (chkQuant7_iff h1.1).2 h3, h4, trivial⟩

/-- L2 normalization, fixed point. -/
theorem c96_l2_fx (m : Rnd) (l : Lut) (axis : Int) (tin tout : Tensor) (mem : Buf) :
    Decides (MapCall tin tout ∧ axis < tin.dims.length) mem (krnL2NormFx16 m l axis tin tout mem) := by
  have h : Decides ((MapCall tin tout ∧ axis < tin.dims.length) ∧ True) mem (krnL2NormFx16 m l axis tin tout mem) :=
    Decides.bind (chkSoftmax_iff axis tin tout) Decides.map
  exact h.conv (by simp)

/-- L2 normalization, asymmetric. -/
theorem c96_l2_sa (m : Rnd) (l : Lut) (q : SaQ) (axis : Int) (tin tout : Tensor) (mem : Buf) :
    Decides (MapCall tin tout ∧ axis < tin.dims.length ∧ QuantOk tin q (-128) 127 ∧ q.dim < 0) mem (krnL2NormSa8 m l q axis tin tout mem) := by
  have h : Decides ((MapCall tin tout ∧ axis < tin.dims.length) ∧ chkQuant tin q 7 = .ok ∧ q.dim < 0 ∧ True) mem
      (krnL2NormSa8 m l q axis tin tout mem) :=
    Decides.bind (chkSoftmax_iff axis tin tout) (Decides.status Iff.rfl (Decides.guard (by decide) not_not Decides.map))
  refine h.conv ?_
  constructor
  · rintro ⟨⟨h1, h2⟩, h3, h4, -⟩; exact ⟨h1, h2, (chkQuant7_iff h1.1).1 h3, h4⟩
  · rintro ⟨h1, h2, h3, h4⟩; exact ⟨⟨h1, h2⟩, (chkQuant7_iff h1.1).2 h3, h4, trivial⟩

/-! ## Convolutions -/

theorem chkConv_iff {dw apart : Bool} {ks : Int} {tin tw tb tout : Tensor} {c : ConvCfg} (hc : c.Typed) (m1 : Moderate tin) (m2 : Moderate tw)
    (m3 : Moderate tout) : chkConv dw ks apart tin tw tb c tout = some .ok ↔ ConvCall dw ks apart tin tw tb c tout := by
  obtain ⟨t1, t2, t3, t4, t5, t6, t7, t8⟩ := hc
  constructor
  · intro h
    have hts : chkTensors [tin, tw, tb, tout] = some .ok := by
      unfold chkConv at h
      split at h
      · cases h
      · cases e : chkTensors [tin, tw, tb, tout] with
        | none => rw [e] at h; cases h
        | some s =>
          rw [e, Option.bind_some] at h
          by_cases hs : s = .ok
          · rw [hs]
          · rw [if_pos hs] at h; exact absurd (Option.some.inj h) hs
    rw [chkTensors_iff] at hts
    simp only [List.mem_cons, List.not_mem_nil, or_false, forall_eq_or_imp, forall_eq] at hts
    obtain ⟨k1, k2, k3, k4⟩ := hts
    obtain ⟨ih, iw, ic, kh, kw, kc, kn, bn, oh, ow, oc, e1, e2, e3, e4, hd, s1, s2, u1, u2, u3, u4, hks, d1, d2, p1, p2, ⟨g1, g2, g3, g4⟩, r1, r2, hap⟩ :=
      chkConv_ok h
    have ckh := coveredBound (k := kh.shape) (d := c.dh) ⟨posDim k2 (by simp [e2]), (modDim m2 (by simp [e2])).2⟩ t7
    have ckw := coveredBound (k := kw.shape) (d := c.dw) ⟨posDim k2 (by simp [e2]), (modDim m2 (by simp [e2])).2⟩ t8
    rw [ckw.1] at g1 g2 r2
    rw [ckh.1] at g3 g4 r1
    refine ⟨k1, k2, k3, k4, (inner_last (ds := [ih, iw]) e1).2 u1, (inner_last (ds := [kh, kw, kc]) e2).2 u2, (inner_last (ds := []) e3).2 u3,
      (inner_last (ds := [oh, ow]) e4).2 u4, hap, ih.shape, iw.shape, ic.shape, kh.shape, kw.shape, kc.shape, kn.shape, oh.shape, ow.shape,
      by simp [Tensor.shape, e1], by simp [Tensor.shape, e2], by simp [Tensor.shape, e3, s2], by simp [Tensor.shape, e4, s1], ?_, hks, d1, d2,
      (windowFits_iff (modDim m1 (by simp [e1])) t3 t4 t1 (modDim m3 (by simp [e4])) ckh.2).1 ⟨g3, g4, p1, r1⟩,
      (windowFits_iff (modDim m1 (by simp [e1])) t5 t6 t2 (modDim m3 (by simp [e4])) ckw.2).1 ⟨g1, g2, p2, r2⟩⟩
    cases dw with
    | true => exact hd.1 rfl
    | false => simpa using (hd.2 rfl).symm
  · rintro ⟨k1, k2, k3, k4, u1, u2, u3, u4, hap, ih, iw, ic, kh, kw, kc, kn, oh, ow, q1, q2, q3, q4, hd, hks, d1, d2, f1, f2⟩
    obtain ⟨ih, iw, ic, e1, rfl, rfl, rfl⟩ := dimsOf3 q1
    obtain ⟨kh, kw, kc, kn, e2, rfl, rfl, rfl, rfl⟩ := dimsOf4 q2
    obtain ⟨bn, e3, hb⟩ := dimsOf1 q3
    obtain ⟨oh, ow, oc, e4, rfl, rfl, ho⟩ := dimsOf3 q4
    have ckh := coveredBound (k := kh.shape) (d := c.dh) ⟨posDim k2 (by simp [e2]), (modDim m2 (by simp [e2])).2⟩ t7
    have ckw := coveredBound (k := kw.shape) (d := c.dw) ⟨posDim k2 (by simp [e2]), (modDim m2 (by simp [e2])).2⟩ t8
    obtain ⟨g3, g4, p1, r1⟩ := (windowFits_iff (modDim m1 (by simp [e1])) t3 t4 t1 (modDim m3 (by simp [e4])) ckh.2).2 f1
    obtain ⟨g1, g2, p2, r2⟩ := (windowFits_iff (modDim m1 (by simp [e1])) t5 t6 t2 (modDim m3 (by simp [e4])) ckw.2).2 f2
    unfold chkConv
    rw [if_neg (by rintro ⟨h0, h1⟩; exact h1 (by simpa [Tensor.shape, e2] using hks h0)),
      (chkTensors_iff _).2 (by simp [k1, k2, k3, k4]), Option.bind_some, if_neg (by simp)]
    congr 1
    unfold chkConvGeo
    simp only [e1, e2, e3, e4]
    rw [ckh.1, ckw.1, if_neg (by cases dw <;> simp_all), if_neg (by simp [(innerOne_iff _).2 u1, (innerOne_iff _).2 u2, (innerOne_iff _).2 u3, (innerOne_iff _).2 u4]),
      if_neg (by rw [not_not]; exact ⟨d1, d2, g1, g2, g3, g4, p1, p2, r1, r2⟩), if_neg (by simp [hap])]

/-- The scales are 16-bit numbers, and where the product of the scales of input and weights must be shifted to the left to compare it with that of the
bias, the result fits 32 bits (see `c96_bias_scale_violated`). -/
def BiasTyped (qi qw qb : SaQ) (n : Nat) : Prop :=
  ∀ i < n, qi.scaleAt 0 < 2 ^ 15 ∧ qw.scaleAt (i : Nat) < 2 ^ 15 ∧ qb.scaleAt (i : Nat) < 2 ^ 15 ∧
    (qi.fracAt 0 + qw.fracAt (i : Nat) - qb.fracAt (i : Nat) ≤ 0 →
      qb.fracAt (i : Nat) - qi.fracAt 0 - qw.fracAt (i : Nat) < 32 ∧
      qi.scaleAt 0 * qw.scaleAt (i : Nat) * 2 ^ (qb.fracAt (i : Nat) - qi.fracAt 0 - qw.fracAt (i : Nat)).toNat < 2 ^ 31)

instance (qi qw qb : SaQ) (n : Nat) : Decidable (BiasTyped qi qw qb n) := by unfold BiasTyped; infer_instance

theorem Spec.QuantOk.scale_pos {t : Tensor} {q : SaQ} {a b : Int} (h : QuantOk t q a b) {k : Nat} (hk : (k : Int) < entries t q) : 0 < q.scaleAt k := by
  unfold SaQ.scaleAt SaQ.idx
  by_cases hd : q.dim < 0
  · rw [if_pos hd]
    exact (h.2.2 0 (by unfold entries; rw [if_pos hd]; omega)).1
  · rw [if_neg hd, Int.toNat_natCast]
    exact (h.2.2 k hk).1

theorem chkSa8At_iff {d : Nat} {m : Rnd} {q : Sa8Q} {tin tw tb tout : Tensor} (k1 : TensorOk tin) (k2 : TensorOk tw) (k3 : TensorOk tb)
    (k4 : TensorOk tout) (hd : tw.shape.getD d 0 = tb.shape.getD 0 0) (hb : BiasTyped q.qi q.qw q.qb (entries tw q.qw).toNat) :
    chkSa8At d m q tin tw tb tout = some .ok ↔ WeightsQuant d m q tin tw tb tout := by
  unfold chkSa8At
  simp only []
  rw [ok_sts, ok_sts, ok_sts, ok_sts, ok_if (by decide), ok_if (by decide), ok_if (by decide), chkQuant7_iff k1, chkQuant7_iff k4,
    chkQuant_iff (a := 0) (b := 0) k2 (by decide) (by decide), chkQuant_iff (a := 0) (b := 0) k3 (by decide) (by decide)]
  rw [show (if 0 ≤ q.qw.dim then (tw.shape.getD q.qw.dim.toNat 0).toNat else 1) = (entries tw q.qw).toNat by
    unfold entries
    by_cases h : q.qw.dim < 0
    · rw [if_pos h, if_neg (by omega)]; rfl
    · rw [if_neg h, if_pos (by omega)]]
  unfold WeightsQuant
  have key : ∀ (h1 : QuantOk tin q.qi (-128) 127) (h3 : QuantOk tw q.qw 0 0) (h4 : QuantOk tb q.qb 0 0) (h5 : q.qi.dim < 0)
      (h6 : (q.qw.dim < 0 ∧ q.qb.dim < 0) ∨ (q.qw.dim = d ∧ q.qb.dim = 0)),
      (chkBiasLoop m q.qi q.qw q.qb (entries tw q.qw).toNat 0 = some .ok ↔ BiasOk m q.qi q.qw q.qb (entries tw q.qw).toNat) := by
    intro h1 h3 h4 h5 h6
    apply chkBiasLoop_ok_iff
    intro i hi
    obtain ⟨b1, b2, b3, b4⟩ := hb i hi
    refine ⟨⟨?_, b1⟩, ⟨h3.scale_pos (by omega), b2⟩, ⟨?_, b3⟩, b4⟩
    · exact_mod_cast h1.scale_pos (k := 0) (by unfold entries; rw [if_pos h5]; decide)
    · apply h4.scale_pos
      rcases h6 with ⟨g1, g2⟩ | ⟨g1, g2⟩
      · unfold entries at hi ⊢
        rw [if_pos g1] at hi
        rw [if_pos g2]; omega
      · unfold entries at hi ⊢
        rw [if_neg (by omega), g1] at hi
        rw [if_neg (by omega), g2, Int.toNat_zero, ← hd]
        rw [Int.toNat_natCast] at hi
        omega
  constructor
  · rintro ⟨h1, h2, h3, h4, h5, h6, h7, h8⟩
    rw [not_not] at h7
    have hdims : (q.qw.dim < 0 ∧ q.qb.dim < 0) ∨ (q.qw.dim = d ∧ q.qb.dim = 0) := by
      by_cases h : q.qw.dim < 0
      · left; exact ⟨h, by by_contra hc; exact h5 ⟨h, hc⟩⟩
      · right; by_contra hc; exact h6 ⟨by omega, hc⟩
    exact ⟨h1, h2, h3, h4, h7.1, h7.2, hdims, (key h1 h3 h4 h7.1 hdims).1 h8⟩
  · rintro ⟨h1, h2, h3, h4, h5, h6, h7, h8⟩
    refine ⟨h1, h2, h3, h4, ?_, ?_, by simp [h5, h6], (key h1 h3 h4 h5 h7).2 h8⟩
    · rintro ⟨a, b⟩; omega
    · rintro ⟨a, b⟩; omega

/-- **Violation**: a bias with a scale 2^32 times smaller than the product of the scales of input and weights is accepted, because the expected scale is
computed modulo `2^32`. -/
theorem c96_bias_scale_violated : chkBiasScale .up 16384 0 16384 0 1 4 = some true ∧ ¬ BiasScaleOk .up 16384 0 16384 0 1 4 := by
  refine ⟨by decide +kernel, ?_⟩
  rintro ⟨e, h1, h2, h3⟩
  rw [show e = 4294967296 by simpa [Scaled] using h1] at h3
  omega

/-- Convolution and depthwise convolution, fixed point.  Missing: sizes of `2^22` or more. -/
theorem c96_conv_fx_partial (m : Rnd) (aw : Nat) (ks : Int) (apart : Bool) (f : FxQ) (src wts bias : Buf) (tin tw tb : Tensor) (c : ConvCfg)
    (tout : Tensor) (dst : Buf) (hc : c.Typed) (m1 : Moderate tin) (m2 : Moderate tw) (m3 : Moderate tout) :
    Decides (FormatsOk f ∧ ConvCall false ks apart tin tw tb c tout) dst (krnConvFx m aw ks apart f src wts bias tin tw tb c tout dst) ∧
    Decides (FormatsOk f ∧ ConvCall true ks apart tin tw tb c tout) dst (krnDwFx m aw ks apart f src wts bias tin tw tb c tout dst) := by
  have chk : ∀ dw, chkConvFx dw ks apart f tin tw tb c tout = some .ok ↔ FormatsOk f ∧ ConvCall dw ks apart tin tw tb c tout := by
    intro dw
    unfold chkConvFx
    rw [ok_if (by decide), ok_if (by decide), chkConv_iff hc m1 m2 m3, not_not, not_not]
    unfold FormatsOk
    tauto
  constructor
  · have h : Decides ((FormatsOk f ∧ ConvCall false ks apart tin tw tb c tout) ∧ True) dst (krnConvFx m aw ks apart f src wts bias tin tw tb c tout dst) :=
      Decides.bind (chk false) (Decides.skip fun _ => Decides.skip fun _ => Decides.skip fun _ => Decides.skip fun _ => Decides.done)
    exact h.conv (by simp)
  · have h : Decides ((FormatsOk f ∧ ConvCall true ks apart tin tw tb c tout) ∧ True) dst (krnDwFx m aw ks apart f src wts bias tin tw tb c tout dst) :=
      Decides.bind (chk true) (Decides.skip fun _ => Decides.skip fun _ => Decides.skip fun _ => Decides.skip fun _ => Decides.done)
    exact h.conv (by simp)

/-- Convolution and depthwise convolution, asymmetric.  Missing: sizes of `2^22` or more and the bias scales of `c96_bias_scale_violated`. -/
theorem c96_conv_sa8_partial (m : Rnd) (full : Bool) (ks : Int) (apart : Bool) (q : Sa8Q) (src wts bias : Buf) (tin tw tb : Tensor) (c : ConvCfg)
    (tout : Tensor) (dst : Buf) (hc : c.Typed) (m1 : Moderate tin) (m2 : Moderate tw) (m3 : Moderate tout)
    (hb : BiasTyped q.qi q.qw q.qb (entries tw q.qw).toNat) :
    Decides (ConvCall false ks apart tin tw tb c tout ∧ WeightsQuant 3 m q tin tw tb tout) dst (krnConvSa8 m full ks apart q src wts bias tin tw tb c tout dst) ∧
    Decides (ConvCall true ks apart tin tw tb c tout ∧ WeightsQuant 3 m q tin tw tb tout) dst (krnDwSa8 m full ks apart q src wts bias tin tw tb c tout dst) := by
  have chk : ∀ dw, (ConvCall dw ks apart tin tw tb c tout ∧ chkSa8 m q tin tw tb tout = some .ok ∧ True) ↔
      ConvCall dw ks apart tin tw tb c tout ∧ WeightsQuant 3 m q tin tw tb tout := by
    intro dw
    apply and_congr_right
    rintro ⟨k1, k2, k3, k4, -, -, -, -, -, ih, iw, ic, kh, kw, kc, kn, oh, ow, q1, q2, q3, q4, -⟩
    rw [and_true]
    exact chkSa8At_iff k1 k2 k3 k4 (by rw [q2, q3]; rfl) hb
  constructor
  · have h : Decides (ConvCall false ks apart tin tw tb c tout ∧ chkSa8 m q tin tw tb tout = some .ok ∧ True) dst
        (krnConvSa8 m full ks apart q src wts bias tin tw tb c tout dst) :=
      Decides.bind (chkConv_iff hc m1 m2 m3) (Decides.bind Iff.rfl (Decides.skip fun _ => Decides.skip fun _ => Decides.skip fun _ =>
        Decides.skip fun _ => Decides.skip fun _ => Decides.done))
    exact h.conv (chk false)
  · have h : Decides (ConvCall true ks apart tin tw tb c tout ∧ chkSa8 m q tin tw tb tout = some .ok ∧ True) dst
        (krnDwSa8 m full ks apart q src wts bias tin tw tb c tout dst) :=
      Decides.bind (chkConv_iff hc m1 m2 m3) (Decides.bind Iff.rfl (Decides.skip fun _ => Decides.skip fun _ => Decides.skip fun _ =>
        Decides.skip fun _ => Decides.skip fun _ => Decides.done))
    exact h.conv (chk true)

/-! ## Group convolution -/

theorem bindTensors_ok {ts : List Tensor} {f : Option Status} (h : ((chkTensors ts).bind fun s => if s ≠ .ok then some s else f) = some .ok) :
    (∀ t ∈ ts, TensorOk t) ∧ f = some .ok := by
  rw [ok_bind, chkTensors_iff] at h; exact h

theorem chkGroup_iff {apart : Bool} {ks : Int} {tin tw tb tout : Tensor} {c : ConvCfg} (hc : c.Typed) (m1 : Moderate tin) (m2 : Moderate tw)
    (m3 : Moderate tout) : chkGroup ks apart tin tw tb c tout = some .ok ↔ GroupCall ks apart tin tw tb c tout := by
  obtain ⟨t1, t2, t3, t4, t5, t6, t7, t8⟩ := hc
  constructor
  · intro h
    have hts : ∀ t ∈ [tin, tw, tb, tout], TensorOk t := by
      have h' := h
      unfold chkGroup at h'
      rw [ok_if (by decide)] at h'
      exact (bindTensors_ok h'.2).1
    simp only [List.mem_cons, List.not_mem_nil, or_false, forall_eq_or_imp, forall_eq] at hts
    obtain ⟨k1, k2, k3, k4⟩ := hts
    obtain ⟨ih, iw, ic, kh, kw, kc, kn, bn, oh, ow, oc, e1, e2, e3, e4, hd, s1, s2, u1, u2, u3, u4, hks, d1, d2, p1, p2, ⟨g1, g2, g3, g4⟩, r1, r2, hap⟩ :=
      chkGroup_ok h
    have ckh := coveredBound (k := kh.shape) (d := c.dh) ⟨posDim k2 (by simp [e2]), (modDim m2 (by simp [e2])).2⟩ t7
    have ckw := coveredBound (k := kw.shape) (d := c.dw) ⟨posDim k2 (by simp [e2]), (modDim m2 (by simp [e2])).2⟩ t8
    rw [ckw.1] at g1 g2 r2
    rw [ckh.1] at g3 g4 r1
    exact ⟨k1, k2, k3, k4, (inner_last (ds := [ih, iw]) e1).2 u1, (inner_last (ds := [kh, kw, kc]) e2).2 u2, (inner_last (ds := []) e3).2 u3,
      (inner_last (ds := [oh, ow]) e4).2 u4, hap, ih.shape, iw.shape, ic.shape, kh.shape, kw.shape, kc.shape, kn.shape, oh.shape, ow.shape,
      ic.shape / kc.shape,
      by simp [Tensor.shape, e1], by simp [Tensor.shape, e2], by simp [Tensor.shape, e3, s2], by simp [Tensor.shape, e4, s1],
      (Int.ediv_mul_cancel (Int.dvd_of_emod_eq_zero hd.2.1)).symm, Int.dvd_of_emod_eq_zero hd.2.2, hks, d1, d2,
      (windowFits_iff (modDim m1 (by simp [e1])) t3 t4 t1 (modDim m3 (by simp [e4])) ckh.2).1 ⟨g3, g4, p1, r1⟩,
      (windowFits_iff (modDim m1 (by simp [e1])) t5 t6 t2 (modDim m3 (by simp [e4])) ckw.2).1 ⟨g1, g2, p2, r2⟩⟩
  · rintro ⟨k1, k2, k3, k4, u1, u2, u3, u4, hap, ih, iw, ic, kh, kw, kc, kn, oh, ow, groups, q1, q2, q3, q4, hg1, hg2, hks, d1, d2, f1, f2⟩
    obtain ⟨ih, iw, ic, e1, rfl, rfl, rfl⟩ := dimsOf3 q1
    obtain ⟨kh, kw, kc, kn, e2, rfl, rfl, rfl, rfl⟩ := dimsOf4 q2
    obtain ⟨bn, e3, hb⟩ := dimsOf1 q3
    obtain ⟨oh, ow, oc, e4, rfl, rfl, ho⟩ := dimsOf3 q4
    have ckh := coveredBound (k := kh.shape) (d := c.dh) ⟨posDim k2 (by simp [e2]), (modDim m2 (by simp [e2])).2⟩ t7
    have ckw := coveredBound (k := kw.shape) (d := c.dw) ⟨posDim k2 (by simp [e2]), (modDim m2 (by simp [e2])).2⟩ t8
    obtain ⟨g3, g4, p1, r1⟩ := (windowFits_iff (modDim m1 (by simp [e1])) t3 t4 t1 (modDim m3 (by simp [e4])) ckh.2).2 f1
    obtain ⟨g1, g2, p2, r2⟩ := (windowFits_iff (modDim m1 (by simp [e1])) t5 t6 t2 (modDim m3 (by simp [e4])) ckw.2).2 f2
    have pk : 1 ≤ kc.shape := posDim k2 (by simp [e2])
    have pi : 1 ≤ ic.shape := posDim k1 (by simp [e1])
    have hdiv : ic.shape / kc.shape = groups := by rw [hg1]; exact Int.mul_ediv_cancel _ (by omega)
    have hg0 : groups ≠ 0 := by rintro rfl; omega
    unfold chkGroup
    rw [if_neg (by rintro ⟨h0, h1⟩; exact h1 (by simpa [Tensor.shape, e2] using hks h0)),
      (chkTensors_iff _).2 (by simp [k1, k2, k3, k4]), Option.bind_some, if_neg (by simp)]
    unfold chkGroupGeo
    simp only [e1, e2, e3, e4]
    rw [ckh.1, ckw.1, hdiv, if_neg hg0,
      if_neg (by rw [not_not]; exact ⟨hb, by rw [hg1]; exact Int.mul_emod_left _ _, Int.emod_eq_zero_of_dvd hg2, ho⟩),
      if_neg (by simp [(innerOne_iff _).2 u1, (innerOne_iff _).2 u2, (innerOne_iff _).2 u3, (innerOne_iff _).2 u4]),
      if_neg (by rw [not_not]; exact ⟨d1, d2, g1, g2, g3, g4, p1, p2, r1, r2⟩), if_neg (by simp [hap])]

/-- Group convolution.  Missing: sizes of `2^22` or more and the bias scales of `c96_bias_scale_violated`. -/
theorem c96_group_partial (m : Rnd) (aw : Nat) (full : Bool) (ks : Int) (apart : Bool) (f : FxQ) (q : Sa8Q) (src wts bias : Buf) (tin tw tb : Tensor)
    (c : ConvCfg) (tout : Tensor) (dst : Buf) (hc : c.Typed) (m1 : Moderate tin) (m2 : Moderate tw) (m3 : Moderate tout)
    (hb : BiasTyped q.qi q.qw q.qb (entries tw q.qw).toNat) :
    Decides (FormatsOk f ∧ GroupCall ks apart tin tw tb c tout) dst (krnGroupFx m aw ks apart f src wts bias tin tw tb c tout dst) ∧
    Decides (GroupCall ks apart tin tw tb c tout ∧ WeightsQuant 3 m q tin tw tb tout) dst
      (krnGroupSa8 m full ks apart q src wts bias tin tw tb c tout dst) := by
  constructor
  · have chk : chkGroupFx ks apart f tin tw tb c tout = some .ok ↔ FormatsOk f ∧ GroupCall ks apart tin tw tb c tout := by
      unfold chkGroupFx
      rw [ok_if (by decide), ok_if (by decide), chkGroup_iff hc m1 m2 m3, not_not, not_not]
      unfold FormatsOk
      tauto
    have h : Decides ((FormatsOk f ∧ GroupCall ks apart tin tw tb c tout) ∧ True) dst (krnGroupFx m aw ks apart f src wts bias tin tw tb c tout dst) :=
      Decides.bind chk (Decides.skip fun _ => Decides.skip fun _ => Decides.skip fun _ => Decides.skip fun _ => Decides.done)
    exact h.conv (by simp)
  · have h : Decides (GroupCall ks apart tin tw tb c tout ∧ chkSa8 m q tin tw tb tout = some .ok ∧ True) dst
        (krnGroupSa8 m full ks apart q src wts bias tin tw tb c tout dst) :=
      Decides.bind (chkGroup_iff hc m1 m2 m3) (Decides.bind Iff.rfl (Decides.skip fun _ => Decides.skip fun _ => Decides.skip fun _ =>
        Decides.skip fun _ => Decides.skip fun _ => Decides.done))
    refine h.conv ?_
    apply and_congr_right
    rintro ⟨k1, k2, k3, k4, -, -, -, -, -, ih, iw, ic, kh, kw, kc, kn, oh, ow, g, q1, q2, q3, q4, -⟩
    rw [and_true]
    exact chkSa8At_iff k1 k2 k3 k4 (by rw [q2, q3]; rfl) hb

/-! ## Transposed convolution -/

theorem tcOutSize_eq {n s k pb pe : Int} (hn : 1 ≤ n ∧ n < 2 ^ 22) (hs : 0 ≤ s ∧ s < 256) (hk : 1 ≤ k ∧ k < 2 ^ 22) (h1 : 0 ≤ pb ∧ pb < k)
    (h2 : 0 ≤ pe ∧ pe < k) : tcOutSize n s k pb pe = some (((n - 1) * s + k - pb - pe) % 2 ^ 32) := by
  have hm := mulBound (a := n - 1) (by omega) hs
  have r : ∀ {x : Int}, -2 ^ 31 ≤ x → x < 2 ^ 31 → InRange 32 x := by
    intro x a b; constructor <;> simp only [lo, hi] <;> omega
  unfold tcOutSize
  generalize (n - 1) * s = p at hm
  rw [ckd_some (r (by omega) (by omega)), Option.bind_some, ckd_some (r (by omega) (by omega)), Option.bind_some,
    ckd_some (r (by omega) (by omega)), Option.bind_some, ckd_some (r (by omega) (by omega)), Option.bind_some,
    ckd_some (r (by omega) (by omega)), Option.bind_some, ckd_some (r (by omega) (by omega)), Option.map_some]
  congr 2
  omega

theorem chkTc_iff {apart : Bool} {tin tw tb tout : Tensor} {c : ConvCfg} (hc : c.Typed) (m1 : Moderate tin) (m2 : Moderate tw)
    (m3 : Moderate tout) : chkTc apart tin tw tb c tout = some .ok ↔ TransposeCall apart tin tw tb c tout := by
  obtain ⟨t1, t2, t3, t4, t5, t6, t7, t8⟩ := hc
  have exact : ∀ {n s k pb pe o : Int}, 1 ≤ n ∧ n < 2 ^ 22 → 0 ≤ s ∧ s < 256 → 1 ≤ k ∧ k < 2 ^ 22 → 0 ≤ pb ∧ pb < k → 0 ≤ pe ∧ pe < k → 1 ≤ o ∧ o < 2 ^ 22 →
      (o = ((n - 1) * s + k - pb - pe) % 2 ^ 32 ↔ o = (n - 1) * s + k - pb - pe) := by
    intro n s k pb pe o h1 h2 h3 h4 h5 h6
    have hm := mulBound (a := n - 1) (by omega) h2
    generalize (n - 1) * s = p at hm
    omega
  unfold chkTc
  rw [ok_bind, chkTensors_iff]
  simp only [List.mem_cons, List.not_mem_nil, or_false, forall_eq_or_imp, forall_eq]
  constructor
  · rintro ⟨⟨k1, k2, k3, k4⟩, h⟩
    unfold chkTcGeo at h
    split at h
    swap
    · cases h
    rename_i ih iw ic kh kw kc kn bn oh ow oc e1 e2 e3 e4
    rw [ok_if (by decide), ok_if (by decide), ok_if (by decide)] at h
    obtain ⟨hsh, hin, hcfg, h⟩ := h
    obtain ⟨a1, a2, a3⟩ := not_not.1 hsh
    obtain ⟨d1, d2, b1, b2, b3, b4, b5, b6, b7, b8⟩ := not_not.1 hcfg
    simp only [Bool.not_eq_true', Bool.not_eq_false, Bool.and_eq_true, innerOne_iff] at hin
    obtain ⟨⟨⟨u1, u2⟩, u3⟩, u4⟩ := hin
    have pi0 := posDim k1 (d := ih) (by simp [e1])
    have pi1 := posDim k1 (d := iw) (by simp [e1])
    have pk0 := posDim k2 (d := kh) (by simp [e2])
    have pk1 := posDim k2 (d := kw) (by simp [e2])
    have po0 := posDim k4 (d := oh) (by simp [e4])
    have po1 := posDim k4 (d := ow) (by simp [e4])
    have li0 := (modDim m1 (d := ih) (by simp [e1])).2
    have li1 := (modDim m1 (d := iw) (by simp [e1])).2
    have lk0 := (modDim m2 (d := kh) (by simp [e2])).2
    have lk1 := (modDim m2 (d := kw) (by simp [e2])).2
    have lo0 := (modDim m3 (d := oh) (by simp [e4])).2
    have lo1 := (modDim m3 (d := ow) (by simp [e4])).2
    rw [tcOutSize_eq ⟨pi0, li0⟩ t1 ⟨pk0, lk0⟩ ⟨t3.1, b3⟩ ⟨t4.1, b4⟩, Option.bind_some,
      tcOutSize_eq ⟨pi1, li1⟩ t2 ⟨pk1, lk1⟩ ⟨t5.1, b1⟩ ⟨t6.1, b2⟩, Option.bind_some, ok_if (by decide), ok_if (by decide), not_not] at h
    obtain ⟨⟨o1, o2, -⟩, hap, -⟩ := h
    rw [exact ⟨pi1, li1⟩ t2 ⟨pk1, lk1⟩ ⟨t5.1, b1⟩ ⟨t6.1, b2⟩ ⟨po1, lo1⟩] at o1
    rw [exact ⟨pi0, li0⟩ t1 ⟨pk0, lk0⟩ ⟨t3.1, b3⟩ ⟨t4.1, b4⟩ ⟨po0, lo0⟩] at o2
    exact ⟨k1, k2, k3, k4, u1, u2, u3, u4, by simpa using hap, d1, d2, ih.shape, iw.shape, ic.shape, kh.shape, kw.shape, kn.shape, oh.shape, ow.shape,
      by simp [Tensor.shape, e1], by simp [Tensor.shape, e2, a1], by simp [Tensor.shape, e3, a3], by simp [Tensor.shape, e4, a2],
      ⟨b3, b4, b5, b8, o2⟩, ⟨b1, b2, b6, b7, o1⟩⟩
  · rintro ⟨k1, k2, k3, k4, u1, u2, u3, u4, hap, d1, d2, ih, iw, ic, kh, kw, kn, oh, ow, q1, q2, q3, q4, ⟨b3, b4, b5, b8, o2⟩, ⟨b1, b2, b6, b7, o1⟩⟩
    refine ⟨⟨k1, k2, k3, k4⟩, ?_⟩
    obtain ⟨ih, iw, ic, e1, rfl, rfl, rfl⟩ := dimsOf3 q1
    obtain ⟨kh, kw, kc, kn, e2, rfl, rfl, hkc, rfl⟩ := dimsOf4 q2
    obtain ⟨bn, e3, hb⟩ := dimsOf1 q3
    obtain ⟨oh, ow, oc, e4, rfl, rfl, ho⟩ := dimsOf3 q4
    have pi0 := posDim k1 (d := ih) (by simp [e1])
    have pi1 := posDim k1 (d := iw) (by simp [e1])
    have pk0 := posDim k2 (d := kh) (by simp [e2])
    have pk1 := posDim k2 (d := kw) (by simp [e2])
    have po0 := posDim k4 (d := oh) (by simp [e4])
    have po1 := posDim k4 (d := ow) (by simp [e4])
    have li0 := (modDim m1 (d := ih) (by simp [e1])).2
    have li1 := (modDim m1 (d := iw) (by simp [e1])).2
    have lk0 := (modDim m2 (d := kh) (by simp [e2])).2
    have lk1 := (modDim m2 (d := kw) (by simp [e2])).2
    have lo0 := (modDim m3 (d := oh) (by simp [e4])).2
    have lo1 := (modDim m3 (d := ow) (by simp [e4])).2
    rw [← exact ⟨pi1, li1⟩ t2 ⟨pk1, lk1⟩ ⟨t5.1, b1⟩ ⟨t6.1, b2⟩ ⟨po1, lo1⟩] at o1
    rw [← exact ⟨pi0, li0⟩ t1 ⟨pk0, lk0⟩ ⟨t3.1, b3⟩ ⟨t4.1, b4⟩ ⟨po0, lo0⟩] at o2
    unfold chkTcGeo
    simp only [e1, e2, e3, e4]
    rw [if_neg (by rw [not_not]; exact ⟨hkc.symm, ho, hb⟩),
      if_neg (by simp [(innerOne_iff _).2 u1, (innerOne_iff _).2 u2, (innerOne_iff _).2 u3, (innerOne_iff _).2 u4]),
      if_neg (by rw [not_not]; exact ⟨d1, d2, b1, b2, b3, b4, b5, b6, b7, b8⟩),
      tcOutSize_eq ⟨pi0, li0⟩ t1 ⟨pk0, lk0⟩ ⟨t3.1, b3⟩ ⟨t4.1, b4⟩, Option.bind_some,
      tcOutSize_eq ⟨pi1, li1⟩ t2 ⟨pk1, lk1⟩ ⟨t5.1, b1⟩ ⟨t6.1, b2⟩, Option.bind_some,
      if_neg (by rw [not_not]; exact ⟨o1, o2, ho⟩), if_neg (by simp [hap])]

theorem chkTcSpec_iff (ks : Int) (tw : Tensor) (c : ConvCfg) : chkTcSpec ks tw c = .ok ↔ TransposeSpecial ks tw c := by
  unfold chkTcSpec TransposeSpecial
  by_cases h : ks = 0
  · simp [h]
  · rw [if_neg h, ok_if' (by decide), ok_if' (by decide), not_not, not_not]
    simp only [ne_eq, h, not_false_eq_true, true_implies, and_true]
    tauto

/-- Transposed convolution.  Missing: sizes of `2^22` or more and the bias scales of `c96_bias_scale_violated`. -/
theorem c96_transpose_partial (m : Rnd) (aw : Nat) (full : Bool) (ks : Int) (apart : Bool) (f : FxQ) (q : Sa8Q) (src wts bias : Buf) (tin tw tb : Tensor)
    (c : ConvCfg) (tout : Tensor) (dst : Buf) (hc : c.Typed) (m1 : Moderate tin) (m2 : Moderate tw) (m3 : Moderate tout)
    (hb : BiasTyped q.qi q.qw q.qb (entries tw q.qw).toNat) :
    Decides (FormatsOk f ∧ TransposeCall apart tin tw tb c tout ∧ TransposeSpecial ks tw c) dst
      (krnTcFx m aw ks apart f src wts bias tin tw tb c tout dst) ∧
    Decides (TransposeCall apart tin tw tb c tout ∧ WeightsQuant 3 m q tin tw tb tout ∧ TransposeSpecial ks tw c) dst
      (krnTcSa8 m full ks apart q src wts bias tin tw tb c tout dst) := by
  constructor
  · have chk : chkTcFx ks apart f tin tw tb c tout = some .ok ↔ FormatsOk f ∧ TransposeCall apart tin tw tb c tout ∧ TransposeSpecial ks tw c := by
      unfold chkTcFx
      rw [ok_if (by decide), ok_if (by decide), ok_bind, chkTc_iff hc m1 m2 m3, ok_some, chkTcSpec_iff, not_not, not_not]
      unfold FormatsOk
      tauto
    have h : Decides ((FormatsOk f ∧ TransposeCall apart tin tw tb c tout ∧ TransposeSpecial ks tw c) ∧ True) dst
        (krnTcFx m aw ks apart f src wts bias tin tw tb c tout dst) :=
      Decides.bind chk (Decides.skip fun _ => Decides.skip fun _ => Decides.skip fun _ => Decides.skip fun _ => Decides.done)
    exact h.conv (by simp)
  · have h : Decides (TransposeCall apart tin tw tb c tout ∧ chkSa8 m q tin tw tb tout = some .ok ∧ TransposeSpecial ks tw c ∧ True) dst
        (krnTcSa8 m full ks apart q src wts bias tin tw tb c tout dst) :=
      Decides.bind (chkTc_iff hc m1 m2 m3) (Decides.bind Iff.rfl (Decides.status (chkTcSpec_iff ks tw c) (Decides.skip fun _ => Decides.skip fun _ =>
        Decides.skip fun _ => Decides.skip fun _ => Decides.skip fun _ => Decides.done)))
    refine h.conv ?_
    apply and_congr_right
    rintro ⟨k1, k2, k3, k4, -, -, -, -, -, -, -, ih, iw, ic, kh, kw, kn, oh, ow, q1, q2, q3, q4, -⟩
    rw [and_true]
    exact and_congr_left fun _ => chkSa8At_iff k1 k2 k3 k4 (by rw [q2, q3]; rfl) hb

/-! ## Fully connected -/

theorem chkFc_iff {apart : Bool} {tin tw tb tout : Tensor} (m1 : Moderate tin) :
    chkFc apart tin tw tb tout = some .ok ↔ FcCall apart tin tw tb tout := by
  unfold chkFc
  rw [ok_bind, chkTensors_iff, ok_some]
  simp only [List.mem_cons, List.not_mem_nil, or_false, forall_eq_or_imp, forall_eq]
  constructor
  · rintro ⟨⟨k1, k2, k3, k4⟩, h⟩
    unfold chkFcGeo at h
    split at h
    swap
    · cases h
    rename_i wi wo bn on e1 e2 e3
    rw [ok_if' (by decide), ok_if' (by decide), ok_if' (by decide), not_not, m1.count] at h
    obtain ⟨⟨a1, a2, a3⟩, hin, hap, -⟩ := h
    simp only [Bool.not_eq_true', Bool.not_eq_false, Bool.and_eq_true, innerOne_iff, isContig_iff, beq_iff_eq] at hin
    obtain ⟨⟨⟨u1, u2⟩, u3⟩, u4⟩ := hin
    refine ⟨k1, k2, k3, k4, u1, u2, ?_, (inner_last (ds := []) e3).2 u4, by simpa using hap, wo.shape, by simp [Tensor.shape, e1] at a1 ⊢; omega,
      by simp [Tensor.shape, e2, a2], by simp [Tensor.shape, e3, a3]⟩
    rw [inner_last (ds := []) e2]
    have h := u3
    unfold Spec.Dense Tensor.strides Tensor.shape at h
    rw [e2] at h
    simpa [denseStrides, prod] using h
  · rintro ⟨k1, k2, k3, k4, u1, u2, u3, u4, hap, n, q1, q2, q3⟩
    refine ⟨⟨k1, k2, k3, k4⟩, ?_⟩
    obtain ⟨wi, wo, e1, hwi, rfl⟩ := dimsOf2 q1
    obtain ⟨bn, e2, hb⟩ := dimsOf1 q2
    obtain ⟨on, e3, ho⟩ := dimsOf1 q3
    have hb1 := (inner_last (ds := []) e2).1 u3
    unfold chkFcGeo
    simp only [e1, e2, e3]
    rw [if_neg (by rw [not_not, m1.count]; exact ⟨hwi.symm, hb, ho⟩),
      if_neg (by simp [(innerOne_iff _).2 u2, isContig, contigScan, e2, hb1, (inner_last (ds := []) e3).1 u4] ; exact (isContig_iff _).2 u1),
      if_neg (by simp [hap])]

/-- Fully connected.  Missing: `2^22` inputs or more and the bias scales of `c96_bias_scale_violated`. -/
theorem c96_fc_partial (m : Rnd) (w aw : Nat) (full ext apart : Bool) (f : FxQ) (q : Sa8Q) (src wts bias : Buf) (tin tw tb tout : Tensor) (dst : Buf)
    (m1 : Moderate tin) (hb : BiasTyped q.qi q.qw q.qb (entries tw q.qw).toNat) :
    Decides (FormatsOk f ∧ FcCall apart tin tw tb tout) dst (krnFcFx m w aw apart f src wts bias tin tw tb tout dst) ∧
    Decides (FcCall apart tin tw tb tout ∧ WeightsQuant 1 m q tin tw tb tout) dst (krnFcSa8 m full ext apart q src wts bias tin tw tb tout dst) := by
  constructor
  · have chk : chkFcFx apart f tin tw tb tout = some .ok ↔ FormatsOk f ∧ FcCall apart tin tw tb tout := by
      unfold chkFcFx
      rw [ok_if (by decide), ok_if (by decide), chkFc_iff m1, not_not, not_not]
      unfold FormatsOk
      tauto
    have h : Decides ((FormatsOk f ∧ FcCall apart tin tw tb tout) ∧ True) dst (krnFcFx m w aw apart f src wts bias tin tw tb tout dst) :=
      Decides.bind chk (Decides.skip fun _ => Decides.done)
    exact h.conv (by simp)
  · have h : Decides (FcCall apart tin tw tb tout ∧ chkSa8At 1 m q tin tw tb tout = some .ok ∧ True) dst
        (krnFcSa8 m full ext apart q src wts bias tin tw tb tout dst) :=
      Decides.bind (chkFc_iff m1) (Decides.bind Iff.rfl (Decides.skip fun _ => Decides.skip fun _ => Decides.done))
    refine h.conv ?_
    apply and_congr_right
    rintro ⟨k1, k2, k3, k4, -, -, -, -, -, n, q1, q2, q3⟩
    rw [and_true]
    exact chkSa8At_iff k1 k2 k3 k4 (by rw [q1, q2]; rfl) hb

/-! ## Pooling -/

/-- The fields of the pooling configuration are bytes. -/
def Geo.Bytes (g : Geo) : Prop :=
  (0 ≤ g.kh ∧ g.kh < 256) ∧ (0 ≤ g.kw ∧ g.kw < 256) ∧ (0 ≤ g.sh ∧ g.sh < 256) ∧ (0 ≤ g.sw ∧ g.sw < 256) ∧
  (0 ≤ g.pt ∧ g.pt < 256) ∧ (0 ≤ g.pb ∧ g.pb < 256) ∧ (0 ≤ g.pl ∧ g.pl < 256) ∧ (0 ≤ g.pr ∧ g.pr < 256)

instance (g : Geo) : Decidable g.Bytes := by unfold Geo.Bytes; infer_instance

theorem chkPoolFix_iff {ks : Int} {tin tout : Tensor} {g : Geo} (hg : g.Bytes) (m1 : Moderate tin) (m2 : Moderate tout) :
    chkPoolFix ks tin g tout = some .ok ↔ PoolCall ks tin g tout := by
  obtain ⟨t1, t2, t3, t4, t5, t6, t7, t8⟩ := hg
  unfold chkPoolFix chkPool
  simp only [Option.bind_eq_bind, Option.pure_def]
  rw [ok_if (by decide), ok_bind, ok_bind]
  constructor
  · rintro ⟨hks, k1, k2, h⟩
    split at h
    swap
    · cases h
    rename_i ih iw ic oh ow oc e1 e2
    rw [ok_if (by decide), ok_if (by decide), ok_if (by decide), not_not, not_not] at h
    obtain ⟨hin, ⟨g1, g2, g3, g4, p1, p2⟩, ⟨r1, r2, hch⟩, -⟩ := h
    simp only [Bool.not_eq_true', Bool.not_eq_false, Bool.and_eq_true, innerOne_iff] at hin
    refine ⟨k1, k2, hin.1, hin.2, ?_, ih.shape, iw.shape, ic.shape, oh.shape, ow.shape, by simp [Tensor.shape, e1], by simp [Tensor.shape, e2, hch],
      (windowFits_iff (modDim m1 (by simp [e1])) t5 t6 t3 (modDim m2 (by simp [e2])) (by omega)).1 ⟨g3, g4, p1, r1⟩,
      (windowFits_iff (modDim m1 (by simp [e1])) t7 t8 t4 (modDim m2 (by simp [e2])) (by omega)).1 ⟨g1, g2, p2, r2⟩⟩
    intro h0
    by_contra hc
    exact hks ⟨h0, hc⟩
  · rintro ⟨k1, k2, u1, u2, hks, ih, iw, ic, oh, ow, q1, q2, f1, f2⟩
    refine ⟨fun ⟨h0, h1⟩ => h1 (hks h0), k1, k2, ?_⟩
    obtain ⟨ih, iw, ic, e1, rfl, rfl, rfl⟩ := dimsOf3 q1
    obtain ⟨oh, ow, oc, e2, rfl, rfl, ho⟩ := dimsOf3 q2
    obtain ⟨g3, g4, p1, r1⟩ := (windowFits_iff (modDim m1 (by simp [e1])) t5 t6 t3 (modDim m2 (by simp [e2])) (by omega)).2 f1
    obtain ⟨g1, g2, p2, r2⟩ := (windowFits_iff (modDim m1 (by simp [e1])) t7 t8 t4 (modDim m2 (by simp [e2])) (by omega)).2 f2
    simp only [e1, e2]
    rw [if_neg (by simp [(innerOne_iff _).2 u1, (innerOne_iff _).2 u2]), if_neg (by rw [not_not]; exact ⟨g1, g2, g3, g4, p1, p2⟩),
      if_neg (by rw [not_not]; exact ⟨r1, r2, ho⟩)]

theorem chkPool_iff {tin tout : Tensor} {g : Geo} (hg : g.Bytes) (m1 : Moderate tin) (m2 : Moderate tout) :
    chkPool tin g tout = some .ok ↔ PoolCall 0 tin g tout := by
  rw [← chkPoolFix_iff hg m1 m2]
  unfold chkPoolFix
  rw [if_neg (by simp)]

/-- Max pooling, also specialised.  Missing: sizes of `2^22` or more. -/
theorem c96_maxpool_partial (ks : Int) (src : Buf) (tin : Tensor) (g : Geo) (tout : Tensor) (dst : Buf) (hg : g.Bytes) (m1 : Moderate tin)
    (m2 : Moderate tout) :
    Decides (PoolCall 0 tin g tout) dst (krnMaxpool src tin g tout dst) ∧ Decides (PoolCall ks tin g tout) dst (krnMaxpoolFix ks src tin g tout dst) := by
  constructor
  · have h : Decides (PoolCall 0 tin g tout ∧ True) dst (krnMaxpool src tin g tout dst) :=
      Decides.bind (chkPool_iff hg m1 m2) (Decides.skip fun _ => Decides.done)
    exact h.conv (by simp)
  · have h : Decides (PoolCall ks tin g tout ∧ True) dst (krnMaxpoolFix ks src tin g tout dst) :=
      Decides.bind (chkPoolFix_iff hg m1 m2) (Decides.skip fun _ => Decides.done)
    exact h.conv (by simp)

/-- Average pooling, fixed point.  Missing: sizes of `2^22` or more. -/
theorem c96_avepool_fx_partial (ks : Int) (m : Rnd) (w : Nat) (fi fo : Int) (src : Buf) (tin : Tensor) (g : Geo) (tout : Tensor) (dst : Buf) (hg : g.Bytes)
    (m1 : Moderate tin) (m2 : Moderate tout) :
    Decides (PoolCall 0 tin g tout) dst (krnAvepoolFx m w fi fo src tin g tout dst) ∧
    Decides (PoolCall ks tin g tout) dst (krnAvepoolFxFix ks m w fi fo src tin g tout dst) := by
  constructor
  · have h : Decides (PoolCall 0 tin g tout ∧ True) dst (krnAvepoolFx m w fi fo src tin g tout dst) :=
      Decides.bind (chkPool_iff hg m1 m2) (Decides.skip fun _ => Decides.done)
    exact h.conv (by simp)
  · have h : Decides (PoolCall ks tin g tout ∧ True) dst (krnAvepoolFxFix ks m w fi fo src tin g tout dst) :=
      Decides.bind (chkPoolFix_iff hg m1 m2) (Decides.skip fun _ => Decides.done)
    exact h.conv (by simp)

/-- Average pooling, asymmetric.  Missing: sizes of `2^22` or more. -/
theorem c96_avepool_sa8_partial (ks : Int) (m : Rnd) (b : Nat) (qi qo : SaQ) (src : Buf) (tin : Tensor) (g : Geo) (tout : Tensor) (dst : Buf) (hg : g.Bytes)
    (m1 : Moderate tin) (m2 : Moderate tout) :
    Decides (PoolCall 0 tin g tout ∧ QuantOk tin qi (-128) 127 ∧ QuantOk tout qo (-128) 127 ∧ qi.dim < 0 ∧ qo.dim < 0) dst
      (krnAvepoolSa8 m b qi qo src tin g tout dst) ∧
    Decides (PoolCall ks tin g tout ∧ QuantOk tin qi (-128) 127 ∧ QuantOk tout qo (-128) 127 ∧ qi.dim < 0 ∧ qo.dim < 0) dst
      (krnAvepoolSa8Fix ks m b qi qo src tin g tout dst) := by
  have chk : ∀ k, PoolCall k tin g tout → ((chkAveQuant tin tout qi qo = .ok ∧ True) ↔
      QuantOk tin qi (-128) 127 ∧ QuantOk tout qo (-128) 127 ∧ qi.dim < 0 ∧ qo.dim < 0) := by
    rintro k ⟨k1, k2, -⟩
    unfold chkAveQuant
    rw [ok_if' (by decide), ok_st, chkQuant7_iff k1, chkQuant7_iff k2, not_not]
    tauto
  constructor
  · have h : Decides (PoolCall 0 tin g tout ∧ chkAveQuant tin tout qi qo = .ok ∧ True) dst (krnAvepoolSa8 m b qi qo src tin g tout dst) :=
      Decides.bind (chkPool_iff hg m1 m2) (Decides.status Iff.rfl (Decides.skip fun _ => Decides.map))
    exact h.conv (and_congr_right (chk 0))
  · have h : Decides (PoolCall ks tin g tout ∧ chkAveQuant tin tout qi qo = .ok ∧ True) dst (krnAvepoolSa8Fix ks m b qi qo src tin g tout dst) :=
      Decides.bind (chkPoolFix_iff hg m1 m2) (Decides.status Iff.rfl (Decides.skip fun _ => Decides.map))
    exact h.conv (and_congr_right (chk ks))

/-! ## Element-wise kernels -/

theorem scalar_iff {t : Tensor} (h : Moderate t) : isScalar t = true ↔ OneElement t := by
  unfold isScalar OneElement
  rw [h.count]
  simp

theorem chkScalarTensor_iff {t : Tensor} (h : Moderate t) : chkScalarTensor t = some .ok ↔ OneSlope t := by
  unfold chkScalarTensor OneSlope
  simp only [Option.bind_eq_bind, Option.pure_def, List.length_eq_zero_iff]
  by_cases hd : t.dims = []
  · simp [hd]
  · rw [if_neg hd, ok_bind, h.count]
    simp only [hd, false_or]
    refine and_congr Iff.rfl ?_
    by_cases hp : prod t.shape = 1 <;> simp [hp]

theorem chkOperand_iff {t : Tensor} (h : Moderate t) : chkOperand t = some .ok ↔ OperandOk t := by
  unfold chkOperand OperandOk
  by_cases hs : isScalar t = true
  · rw [if_pos hs, chkScalarTensor_iff h]
    rw [scalar_iff h] at hs
    unfold OneSlope
    unfold OneElement at hs
    tauto
  · rw [if_neg hs]
    rw [scalar_iff h] at hs
    unfold OneElement at hs
    unfold TensorOk
    tauto

theorem chkEltwise_iff {t1 t2 out : Tensor} (m1 : Moderate t1) (m2 : Moderate t2) : chkEltwise t1 t2 out = some .ok ↔ EltCall t1 t2 out := by
  unfold chkEltwise
  simp only [Option.bind_eq_bind, Option.pure_def]
  rw [ok_bind, ok_bind, ok_bind, ok_if (by decide), ok_if (by decide), ok_if (by decide), chkOperand_iff m1, chkOperand_iff m2]
  have e1 := scalar_iff m1
  have e2 := scalar_iff m2
  have e3 := innerOne_iff t1
  have e4 := innerOne_iff t2
  have e5 := innerOne_iff out
  have e6 := sameShape_iff t1 t2
  have e7 := sameShape_iff t1 out
  have e8 := sameShape_iff t2 out
  have hr : (¬ ¬ (t1.dims.length > 0 ∨ t2.dims.length > 0)) ↔ ¬ (t1.dims = [] ∧ t2.dims = []) := by
    cases t1.dims <;> cases t2.dims <;> simp
  rw [hr]
  unfold EltCall
  rw [← e1, ← e2, ← e3, ← e4, ← e5, ← e7, ← e8]
  have hsym : sameShape t1 out = true → (sameShape t1 t2 = true ↔ sameShape t2 out = true) := by
    intro h
    rw [e7] at h
    rw [e6, e8, h]
    exact eq_comm
  generalize isScalar t1 = s1 at *
  generalize isScalar t2 = s2 at *
  generalize innerOne t1 = i1 at *
  generalize innerOne t2 = i2 at *
  generalize innerOne out = i3 at *
  generalize sameShape t1 t2 = c1 at *
  generalize sameShape t1 out = c2 at *
  generalize sameShape t2 out = c3 at *
  clear e1 e2 e3 e4 e5 e6 e7 e8 hr
  unfold TensorOk
  cases s1 <;> cases s2 <;> cases i1 <;> cases i2 <;> cases i3 <;> cases c1 <;> cases c2 <;> cases c3 <;> simp_all

/-- Element-wise kernels, fixed point.  Missing: sizes of `2^22` or more. -/
theorem c96_eltwise_fx_partial (m : Rnd) (w : Nat) (op : EltOp) (f1 f2 fo : Int) (o1 o2 : Operand) (out : Tensor) (mem : Buf)
    (m1 : Moderate o1.t) (m2 : Moderate o2.t) :
    Decides (EltCall o1.t o2.t out ∧ (op = .max ∨ op = .min → f1 = f2)) mem (krnEltwiseFx m w op f1 f2 fo o1 o2 out mem) := by
  have h : Decides (EltCall o1.t o2.t out ∧ (op = .max ∨ op = .min → f1 = f2) ∧ True) mem (krnEltwiseFx m w op f1 f2 fo o1 o2 out mem) :=
    Decides.bind (chkEltwise_iff m1 m2) (Decides.guard (by decide) (by tauto) (Decides.skip fun _ => Decides.done))
  exact h.conv (by simp)

theorem OperandOk.nonneg {t : Tensor} (h : OperandOk t) : ∀ n ∈ t.shape, 0 ≤ n := by
  rcases h with h | h
  · unfold Tensor.shape; rw [h]; simp
  · exact h.nonneg

/-- Element-wise kernels, asymmetric.  Missing: sizes of `2^22` or more. -/
theorem c96_eltwise_sa_partial (m : Rnd) (op : EltOp) (q1 q2 qo : SaQ) (o1 o2 : Operand) (out : Tensor) (mem : Buf)
    (m1 : Moderate o1.t) (m2 : Moderate o2.t) :
    Decides (EltCall o1.t o2.t out ∧ (op = .max ∨ op = .min → SameFormat q1 q2) ∧ EltQuant o1.t o2.t out q1 q2 qo) mem
      (krnEltwiseSa m op q1 q2 qo o1 o2 out mem) := by
  have h : Decides (EltCall o1.t o2.t out ∧ (op = .max ∨ op = .min → SameFormat q1 q2) ∧ chkEltQuant o1.t o2.t out q1 q2 qo = .ok ∧ True) mem
      (krnEltwiseSa m op q1 q2 qo o1 o2 out mem) :=
    Decides.bind (chkEltwise_iff m1 m2) (Decides.guard (by decide) (by
      have : sameFormatSa q1 q2 = false ↔ ¬ SameFormat q1 q2 := by
        unfold SameFormat
        rw [← Bool.not_eq_true]
        unfold sameFormatSa
        simp only [Bool.and_eq_true, decide_eq_true_eq, and_assoc]
      rw [this]; tauto) (Decides.status Iff.rfl Decides.map))
  refine h.conv (and_congr_right fun hc => and_congr_right fun _ => ?_)
  unfold chkEltQuant EltQuant
  rw [ok_st, ok_st, ok_st, ok_if' (by decide), chkQuant_iff' (OperandOk.nonneg hc.1) (a := -128) (b := 127) (by decide) (by decide),
    chkQuant_iff' (OperandOk.nonneg hc.2.1) (a := -128) (b := 127) (by decide) (by decide), chkQuant7_iff hc.2.2.1, not_not]
  tauto

/-! ## Leaky and parametric ReLU -/

theorem chkLeaky_iff {tin slope tout : Tensor} (m1 : Moderate slope) : chkLeaky tin slope tout = some .ok ↔ MapCall tin tout ∧ OneSlope slope := by
  unfold chkLeaky
  rw [ok_bind, ok_if (by decide), ok_if (by decide), chkTensors_iff, chkScalarTensor_iff m1]
  simp only [List.mem_cons, List.not_mem_nil, or_false, forall_eq_or_imp, forall_eq, Bool.not_eq_true', Bool.not_eq_false, Bool.and_eq_true,
    innerOne_iff, sameShape_iff]
  unfold MapCall
  tauto

theorem chkPreluScalar_iff {tin slope tout : Tensor} (m1 : Moderate slope) :
    chkPreluScalar tin slope tout = some .ok ↔ MapCall tin tout ∧ OneSlope slope := by
  unfold chkPreluScalar
  rw [ok_bind, ok_bind, ok_bind, ok_if (by decide), ok_if (by decide), chkScalarTensor_iff m1]
  simp only [Bool.not_eq_true', Bool.not_eq_false, Bool.and_eq_true, innerOne_iff, sameShape_iff]
  unfold MapCall TensorOk
  tauto

theorem chkLeakyQuant_iff {tin slope tout : Tensor} {qi qs qo : SaQ} (k1 : TensorOk tin) (k2 : TensorOk tout) (k3 : ∀ n ∈ slope.shape, 0 ≤ n) :
    chkLeakyQuant tin slope tout qi qs qo = .ok ↔ SlopeQuant tin slope tout qi qs qo := by
  unfold chkLeakyQuant SlopeQuant
  rw [ok_st, ok_st, ok_st, ok_if' (by decide), chkQuant7_iff k1, chkQuant7_iff k2,
    chkQuant_iff' k3 (a := -2 ^ 14) (b := 2 ^ 14 - 1) (by decide) (by decide), not_not]
  tauto

theorem OneSlope.nonneg {t : Tensor} (h : OneSlope t) : ∀ n ∈ t.shape, 0 ≤ n := by
  rcases h with h | h
  · unfold Tensor.shape; rw [h]; simp
  · exact h.1.nonneg

/-- Leaky ReLU.  Missing: slope tensors with sizes of `2^22` or more. -/
theorem c96_leaky_partial (m : Rnd) (w : Nat) (fi fs fo : Int) (qi qs qo : SaQ) (smem : Buf) (tin : Tensor) (slope : Operand) (tout : Tensor) (mem : Buf)
    (m1 : Moderate slope.t) :
    Decides (MapCall tin tout ∧ OneSlope slope.t ∧ fo = fi) mem (krnLeakyFx m w fi fs fo smem tin slope tout mem) ∧
    Decides (MapCall tin tout ∧ OneSlope slope.t ∧ SlopeQuant tin slope.t tout qi qs qo) mem (krnLeakySa m qi qs qo smem tin slope tout mem) := by
  constructor
  · have h : Decides ((MapCall tin tout ∧ OneSlope slope.t) ∧ fo = fi ∧ True) mem (krnLeakyFx m w fi fs fo smem tin slope tout mem) :=
      Decides.bind (chkLeaky_iff m1) (Decides.guard (by decide) not_not (Decides.skip fun _ => Decides.map))
    exact h.conv (by tauto)
  · have h : Decides ((MapCall tin tout ∧ OneSlope slope.t) ∧ chkLeakyQuant tin slope.t tout qi qs qo = .ok ∧ True) mem
        (krnLeakySa m qi qs qo smem tin slope tout mem) :=
      Decides.bind (chkLeaky_iff m1) (Decides.status Iff.rfl (Decides.skip fun _ => Decides.skip fun _ => Decides.map))
    refine h.conv ?_
    rw [and_assoc]
    refine and_congr_right fun h1 => and_congr_right fun h2 => ?_
    rw [chkLeakyQuant_iff h1.1 h1.2.1 (OneSlope.nonneg h2), and_true]

theorem chkPrelu_iff {axis : Int} {tin slope tout : Tensor} {stale : Nat → Int} (hr : slope.dims.length = tin.dims.length) :
    chkPrelu axis tin slope tout stale = some .ok ↔ MapCall tin tout ∧ SlopesOk axis tin slope := by
  have hraw : (∀ i < tin.dims.length, rawShape slope stale i = if (i : Int) = axis then tin.shape.getD i 0 else 1) ↔
      ∀ i < tin.dims.length, slope.shape.getD i 0 = if (i : Int) = axis then tin.shape.getD i 0 else 1 := by
    refine forall₂_congr fun i hi => ?_
    have hs : slope.shape[i]? = some (slope.shape.getD i 0) := by
      have : i < slope.shape.length := by simp [Tensor.shape, hr, hi]
      rw [List.getD_eq_getElem?_getD, List.getElem?_eq_getElem this]; rfl
    unfold rawShape
    rw [hs]; rfl
  unfold chkPrelu
  rw [ok_bind, ok_if (by decide), ok_if (by decide), ok_if (by decide), ok_if (by decide), chkTensors_iff, not_not, not_not, hraw]
  simp only [List.mem_cons, List.not_mem_nil, or_false, forall_eq_or_imp, forall_eq, Bool.not_eq_true', Bool.not_eq_false, Bool.and_eq_true,
    innerOne_iff, sameShape_iff]
  unfold MapCall SlopesOk
  tauto

/-- Parametric ReLU: with `axis = -1` one slope, otherwise one for each index of dimension `axis`.  Missing: slope tensors with sizes of `2^22` or
more, or (with an axis) of another rank than the input: the ranks are not compared. -/
theorem c96_prelu_partial (m : Rnd) (w : Nat) (fi fs fo : Int) (qi qs qo : SaQ) (smem : Buf) (axis : Int) (tin : Tensor) (slope : Operand) (tout : Tensor)
    (stale : Nat → Int) (mem : Buf) (m1 : Moderate slope.t) (hr : axis ≠ -1 → slope.t.dims.length = tin.dims.length) :
    Decides (MapCall tin tout ∧ (if axis = -1 then OneSlope slope.t else SlopesOk axis tin slope.t) ∧ fo = fi) mem
      (krnPreluFx m w fi fs fo smem axis tin slope tout stale mem) ∧
    Decides (MapCall tin tout ∧ (if axis = -1 then OneSlope slope.t else SlopesOk axis tin slope.t) ∧ SlopeQuant tin slope.t tout qi qs qo) mem
      (krnPreluSa m qi qs qo smem axis tin slope tout stale mem) := by
  obtain ⟨l1, l2⟩ := c96_leaky_partial m w fi fs fo qi qs qo smem tin slope tout mem m1
  by_cases ha : axis = -1
  · unfold krnPreluFx krnPreluSa
    simp only [if_pos ha]
    constructor
    · have h := Decides.bind (chkPreluScalar_iff (tin := tin) (tout := tout) m1) (Decides.guard (c := fo ≠ fi) (e := .specParamMismatch) (by decide) not_not l1)
      exact h.conv (by tauto)
    · have h := Decides.bind (chkPreluScalar_iff (tin := tin) (tout := tout) m1)
        (Decides.status (q := chkLeakyQuant tin slope.t tout qi qs qo) Iff.rfl l2)
      refine h.conv ?_
      constructor
      · tauto
      · rintro ⟨h1, h2, h3⟩
        exact ⟨⟨h1, h2⟩, (chkLeakyQuant_iff h1.1 h1.2.1 (OneSlope.nonneg h2)).2 h3, h1, h2, h3⟩
  · unfold krnPreluFx krnPreluSa
    simp only [if_neg ha]
    constructor
    · have h := Decides.bind (chkPrelu_iff (axis := axis) (tout := tout) (stale := stale) (hr ha))
        (Decides.guard (c := fo ≠ fi) (e := .specParamMismatch) (by decide) not_not (Decides.map (d := mem)
          (x := preluLoops axis tin slope.t tout stale (fun idx => (smem.rd (slope.t.base + idx)).map fun a => leakyFx m w a (fi + fs - fo)) mem) (f := id)))
      exact h.conv (by tauto)
    · have h : Decides ((MapCall tin tout ∧ SlopesOk axis tin slope.t) ∧ chkLeakyQuant tin slope.t tout qi qs qo = .ok ∧ True) mem _ :=
        Decides.bind (chkPrelu_iff (axis := axis) (tout := tout) (stale := stale) (hr ha))
        (Decides.status (q := chkLeakyQuant tin slope.t tout qi qs qo) Iff.rfl (Decides.skip
          (x := leakyIdentity m (qi.scaleAt 0) (qi.fracAt 0) (qo.scaleAt 0) (qo.fracAt 0)) fun ident => Decides.map
          (x := preluLoops axis tin slope.t tout stale (fun idx => (smem.rd (slope.t.base + idx)).map fun a =>
            leakySa m (qi.zpAt 0) (qo.zpAt 0) ident (leakyAlpha m ident (qs.zpAt 0) (qs.scaleAt 0) (qs.fracAt 0) a)) mem) (f := id)))
      refine h.conv ?_
      rw [and_assoc]
      refine and_congr_right fun h1 => and_congr_right fun h2 => ?_
      rw [chkLeakyQuant_iff h1.1 h1.2.1 h2.1.nonneg, and_true]

/-! ## Permutation and argmax -/

theorem gShapeD (t : Tensor) (k : Nat) : t.gShape k = t.shape.getD k 1 := by
  unfold Tensor.gShape Tensor.shape
  rw [List.getD_eq_getElem?_getD, List.getElem?_map]

theorem chkPermDim_iff {inT outT : Tensor} {perm : PermCfg} {idx : Nat} : chkPermDim inT outT perm idx = .ok ↔
    perm.getD idx 0 < inT.dims.length ∧ (∀ j, idx < j → j < inT.dims.length → perm.getD idx 0 ≠ perm.getD j 0) ∧
    outT.shape.getD idx 1 = inT.shape.getD (perm.getD idx 0) 1 := by
  unfold chkPermDim
  simp only []
  rw [ok_if' (by decide), ok_if' (by decide), ok_if' (by decide), not_not, not_not, gShapeD, gShapeD]
  simp only [List.any_eq_true, List.mem_range, Bool.and_eq_true, decide_eq_true_eq, beq_iff_eq, not_exists, not_and, and_true]
  refine and_congr_right fun _ => and_congr_left fun _ => ?_
  constructor
  · intro h j h1 h2 he; exact h j h2 (by omega) he.symm
  · intro h j h1 h2 he; exact h j (by omega) h1 he.symm

theorem chkPermLoop_iff {inT outT : Tensor} {perm : PermCfg} : ∀ n, chkPermLoop inT outT perm n = .ok ↔ ∀ k < n, chkPermDim inT outT perm k = .ok
  | 0 => by simp [chkPermLoop]
  | n + 1 => by
    unfold chkPermLoop
    have ih := chkPermLoop_iff (inT := inT) (outT := outT) (perm := perm) n
    constructor
    · intro h k hk
      split at h
      · rename_i e
        rcases Nat.lt_succ_iff_lt_or_eq.1 hk with h' | rfl
        · exact ih.1 e k h'
        · exact h
      · rename_i e1 e2; exact absurd h e2
    · intro h
      rw [ih.2 fun k hk => h k (by omega)]
      exact h n (by omega)

/-- Permutation. -/
theorem c96_permute (inT outT : Tensor) (perm : PermCfg) (apart : Bool) (src dst : Buf) :
    Decides (PermuteCall inT outT perm apart) dst (permute inT outT perm apart src dst) := by
  have chk : chkPermute inT outT perm apart = some .ok ↔ PermuteCall inT outT perm apart := by
    unfold chkPermute
    simp only [Option.bind_eq_bind, Option.pure_def]
    rw [ok_bind, ok_bind, ok_sts, ok_if (by decide), chkPermLoop_iff]
    simp only [chkPermDim_iff, Bool.not_eq_true', Bool.not_eq_false, and_true]
    unfold PermuteCall TensorOk
    constructor
    · rintro ⟨h1, h2, h3, h4⟩
      exact ⟨h1, h2, h4, fun k hk => (h3 k hk).1, fun j k h hk => (h3 j (by omega)).2.1 k h hk, fun k hk => (h3 k hk).2.2⟩
    · rintro ⟨h1, h2, h4, h5, h6, h7⟩
      exact ⟨h1, h2, fun k hk => ⟨h5 k hk, fun j h hj => h6 k j h hj, h7 k hk⟩, h4⟩
  have h : Decides (PermuteCall inT outT perm apart ∧ True) dst (permute inT outT perm apart src dst) :=
    Decides.bind chk (Decides.skip fun _ => Decides.done)
  exact h.conv (by simp)

/-- Argmax.  Missing: sizes of `2^22` or more, and outputs of another rank than 2: the rank is not compared. -/
theorem c96_argmax_partial (src : Buf) (tin tout : Tensor) (stale : Nat → Int) (axis topk : Int) (dst : Buf) (m1 : Moderate tin) (m2 : Moderate tout)
    (hr : tout.dims.length = 2) : Decides (ArgmaxCall tin tout axis topk) dst (krnArgmax src tin tout stale axis topk dst) := by
  have chk : chkArgmax tin tout stale axis topk = some .ok ↔ ArgmaxCall tin tout axis topk := by
    unfold chkArgmax
    simp only [Option.bind_eq_bind, Option.pure_def]
    rw [ok_bind, ok_bind, ok_if (by decide), ok_if (by decide), ok_if (by decide), ok_if (by decide), ok_if (by decide), ok_if (by decide), m1.count]
    simp only [Bool.not_eq_true', Bool.not_eq_false, innerOne_iff, isContig_iff, not_not, and_true]
    unfold ArgmaxCall
    refine and_congr Iff.rfl ?_
    obtain ⟨x, y, e⟩ : ∃ x y, tout.dims = [x, y] := by
      match e : tout.dims, hr with
      | [x, y], _ => exact ⟨x, y, rfl⟩
    have hy : wrap 32 y.shape = y.shape := by
      have := modDim m2 (d := y) (by simp [e])
      exact wrap32 (by omega)
    have hn : 0 ≤ if axis ≥ 0 then tin.shape.getD axis.toNat 0 else 1 := by
      split
      · rw [List.getD_eq_getElem?_getD]
        cases e' : tin.shape[axis.toNat]? with
        | none => simp
        | some n => exact (m1.1 n (List.mem_of_getElem? e')).1
      · decide
    generalize (if axis ≥ 0 then tin.shape.getD axis.toNat 0 else 1) = n at hn ⊢
    have hp : 0 ≤ prod tin.shape := prod_nonneg' fun n hn => (m1.1 n hn).1
    have hq : wrap 32 (prod tin.shape / n) = prod tin.shape / n := by
      have h1 := Int.ediv_le_self n hp
      have h2 := Int.ediv_nonneg hp hn
      have h3 := m1.2
      exact wrap32 (by omega)
    have hs0 : rawShape tout stale 0 = x.shape := by simp [rawShape, Tensor.shape, e]
    have hs1 : rawShape tout stale 1 = y.shape := by simp [rawShape, Tensor.shape, e]
    have hs : tout.shape = [x.shape, y.shape] := by simp [Tensor.shape, e]
    rw [hs0, hs1, hy, hq, hs]
    constructor
    · rintro ⟨k2, u1, h1, u2, h2, h3, h4, h5⟩
      exact ⟨k2, u1, u2, h2, n, rfl, by rw [h4, h5], h3⟩
    · rintro ⟨k2, u1, u2, h2, n', rfl, h4, h3⟩
      simp only [List.cons.injEq, and_true] at h4
      exact ⟨k2, u1, by omega, u2, h2, h3, h4.1, h4.2⟩
  have h : Decides (ArgmaxCall tin tout axis topk ∧ True) dst (krnArgmax src tin tout stale axis topk dst) :=
    Decides.bind chk (Decides.skip fun _ => Decides.done)
  exact h.conv (by simp)

/-! ## Recurrent kernels -/

theorem chkRnnIn_iff {n : Int} {a : RnnArg} (m1 : Moderate a.tin) : chkRnnIn n a = some .ok ↔ RnnInput n a := by
  unfold chkRnnIn
  rw [ok_bind, chkTensors_iff]
  simp only [List.mem_cons, List.not_mem_nil, or_false, forall_eq_or_imp, forall_eq]
  unfold RnnInput
  constructor
  · rintro ⟨⟨k1, k2⟩, h⟩
    split at h
    swap
    · cases h
    rename_i wi wo e
    rw [ok_if (by decide), ok_if (by decide), ok_if (by decide), not_not, m1.count] at h
    simp only [Bool.not_eq_true', Bool.not_eq_false, Bool.and_eq_true, innerOne_iff, isContig_iff] at h
    obtain ⟨⟨a1, a2⟩, ⟨u1, u2⟩, hap, -⟩ := h
    exact ⟨k1, k2, u1, u2, by simp [Tensor.shape, e] at a1 ⊢; exact ⟨a1.symm, a2⟩, hap⟩
  · rintro ⟨k1, k2, u1, u2, hs, hap⟩
    refine ⟨⟨k1, k2⟩, ?_⟩
    obtain ⟨wi, wo, e, hwi, rfl⟩ := dimsOf2 hs
    simp only [e]
    rw [if_neg (by rw [not_not, m1.count]; exact ⟨hwi.symm, trivial⟩), if_neg (by simp [(isContig_iff _).2 u1, (innerOne_iff _).2 u2]), if_neg (by simp [hap])]

theorem chkRnnIns_iff {n : Int} : ∀ as : List RnnArg, (∀ a ∈ as, Moderate a.tin) → (chkRnnIns n as = some .ok ↔ ∀ a ∈ as, RnnInput n a)
  | [], _ => by simp [chkRnnIns]
  | a :: as, h => by
    unfold chkRnnIns
    rw [ok_bind, chkRnnIn_iff (h a (by simp)), chkRnnIns_iff as fun b hb => h b (by simp [hb])]
    simp

theorem chkRnnOut_iff {n : Int} {tb tout : Tensor} : chkRnnOut n tb tout = some .ok ↔
    TensorOk tb ∧ TensorOk tout ∧ InnerOne tb ∧ Dense tout ∧ tb.shape = [n] ∧ tout.shape = [n] := by
  unfold chkRnnOut
  rw [ok_bind, chkTensors_iff]
  simp only [List.mem_cons, List.not_mem_nil, or_false, forall_eq]
  constructor
  · rintro ⟨k1, h⟩
    split at h
    swap
    · cases h
    rename_i bn e1
    rw [ok_if (by decide), ok_bind, chkTensors_iff, not_not] at h
    simp only [List.mem_cons, List.not_mem_nil, or_false, forall_eq] at h
    obtain ⟨a1, k2, h⟩ := h
    split at h
    swap
    · cases h
    rename_i on e2
    rw [ok_if (by decide), ok_if (by decide), not_not] at h
    simp only [Bool.not_eq_true', Bool.not_eq_false, Bool.and_eq_true, innerOne_iff, isContig_iff] at h
    obtain ⟨a2, ⟨u1, u2⟩, -⟩ := h
    exact ⟨k1, k2, u1, u2, by simp [Tensor.shape, e1, a1], by simp [Tensor.shape, e2, a2, a1]⟩
  · rintro ⟨k1, k2, u1, u2, q1, q2⟩
    refine ⟨k1, ?_⟩
    obtain ⟨bn, e1, h1⟩ := dimsOf1 q1
    obtain ⟨on, e2, h2⟩ := dimsOf1 q2
    simp only [e1]
    rw [if_neg (by rw [not_not]; exact h1.symm), (chkTensors_iff _).2 (by simp [k2]), Option.bind_some, if_neg (by simp)]
    simp only [e2]
    rw [if_neg (by rw [not_not]; omega), if_neg (by simp [(isContig_iff _).2 u2, (innerOne_iff _).2 u1])]

theorem chkRnn_iff {as : List RnnArg} {tb tout : Tensor} (m1 : ∀ a ∈ as, Moderate a.tin) : chkRnn as tb tout = some .ok ↔ RnnCall as tb tout := by
  unfold chkRnn
  rw [ok_if (by decide), ok_bind, chkRnnIns_iff as m1, chkRnnOut_iff, not_not]
  unfold RnnCall
  constructor
  · rintro ⟨⟨h1, h2⟩, h3, k1, k2, u1, u2, q1, q2⟩
    exact ⟨h1, h2, k1, k2, u1, u2, rnnOuts as, q1, q2, h3⟩
  · rintro ⟨h1, h2, k1, k2, u1, u2, n, q1, q2, h3⟩
    have hn : rnnOuts as = n := by
      cases as with
      | nil => simp at h1
      | cons a as =>
        have := (h3 a (by simp)).2.2.2.2.1
        simp [rnnOuts, this]
    rw [hn]
    exact ⟨⟨by omega, h2⟩, h3, k1, k2, u1, u2, q1, q2⟩

theorem chkRnnQuant_iff {q : RnnSaQ} : ∀ (as : List RnnArg) (k : Nat), (∀ a ∈ as, TensorOk a.tin ∧ TensorOk a.tw) → (chkRnnQuant q k as = .ok ↔
    ∀ i (a : RnnArg), as[i]? = some a → QuantOk a.tin (q.qiAt (k + i)) (-128) 127 ∧ QuantOk a.tw (q.qwAt (k + i)) 0 0)
  | [], k, _ => by simp [chkRnnQuant]
  | a :: as, k, h => by
    unfold chkRnnQuant
    rw [ok_st, ok_st, chkQuant7_iff (h a (by simp)).1, chkQuant_iff (a := 0) (b := 0) (h a (by simp)).2 (by decide) (by decide),
      chkRnnQuant_iff as (k + 1) fun b hb => h b (by simp [hb])]
    constructor
    · rintro ⟨h1, h2, h3⟩ i b hb
      cases i with
      | zero => simp only [List.getElem?_cons_zero, Option.some.injEq] at hb; subst hb; exact ⟨h1, h2⟩
      | succ i =>
        simp only [List.getElem?_cons_succ] at hb
        have := h3 i b hb
        rwa [show k + (i + 1) = k + 1 + i by omega]
    · intro h'
      refine ⟨(h' 0 a rfl).1, (h' 0 a rfl).2, fun i b hb => ?_⟩
      have := h' (i + 1) b (by simpa using hb)
      rwa [show k + (i + 1) = k + 1 + i by omega] at this

/-- Dense recurrent kernel.  Missing: `2^22` inputs or more and the bias scales of `c96_bias_scale_violated`. -/
theorem c96_rnn_partial (m : Rnd) (aw : Nat) (full : Bool) (f : RnnFxQ) (q : RnnSaQ) (as : List RnnArg) (bias : Buf) (tb tout : Tensor) (dst : Buf)
    (m1 : ∀ a ∈ as, Moderate a.tin) (hb : BiasTyped (q.qiAt 0) (q.qwAt 0) q.qb 1) :
    Decides (RnnCall as tb tout ∧ RnnFormats f as.length) dst (krnRnnFx m aw f as bias tb tout dst) ∧
    Decides (RnnCall as tb tout ∧ RnnQuant m q as tb tout) dst (krnRnnSa m full q as bias tb tout dst) := by
  constructor
  · have chk : chkRnnFx f as tb tout = some .ok ↔ RnnCall as tb tout ∧ RnnFormats f as.length := by
      unfold chkRnnFx
      rw [ok_bind, ok_if (by decide), ok_if (by decide), chkRnn_iff m1, not_not, not_not]
      unfold RnnFormats
      tauto
    have h : Decides ((RnnCall as tb tout ∧ RnnFormats f as.length) ∧ True) dst (krnRnnFx m aw f as bias tb tout dst) := Decides.bind chk Decides.map
    exact h.conv (by simp)
  · have chk : chkRnnSa m q as tb tout = some .ok ↔ RnnCall as tb tout ∧ RnnQuant m q as tb tout := by
      unfold chkRnnSa
      rw [ok_bind, chkRnn_iff m1, ok_sts, ok_sts, ok_sts, ok_if (by decide), not_not]
      refine and_congr_right fun hc => ?_
      obtain ⟨l1, l2, k1, k2, u1, u2, n, q1, q2, hin⟩ := hc
      rw [chkRnnQuant_iff as 0 fun a ha => ⟨(hin a ha).1, (hin a ha).2.1⟩, chkQuant7_iff k2, chkQuant_iff (a := 0) (b := 0) k1 (by decide) (by decide)]
      simp only [Nat.zero_add]
      have hget : ∀ {k}, k < as.length → ∃ a, as[k]? = some a := fun h => ⟨_, List.getElem?_eq_getElem h⟩
      have hlen : ∀ {k a}, as[k]? = some a → k < as.length := fun h => (List.getElem?_eq_some_iff.1 h).1
      have key : ∀ (h1 : ∀ k (a : RnnArg), as[k]? = some a → QuantOk a.tin (q.qiAt k) (-128) 127 ∧ QuantOk a.tw (q.qwAt k) 0 0)
          (h2 : QuantOk tb q.qb 0 0) (h3 : ∀ k < as.length, (q.qiAt k).dim < 0 ∧ (q.qwAt k).dim < 0) (h4 : q.qb.dim < 0),
          (chkBiasLoop m (q.qiAt 0) (q.qwAt 0) q.qb 1 0 = some .ok ↔ BiasOk m (q.qiAt 0) (q.qwAt 0) q.qb 1) := by
        intro h1 h2 h3 h4
        apply chkBiasLoop_ok_iff
        intro i hi
        obtain rfl : i = 0 := by omega
        obtain ⟨a, ha⟩ := hget (k := 0) (by omega)
        obtain ⟨b1, b2, b3, b4⟩ := hb 0 (by omega)
        have one : ∀ {t : Tensor} {x : SaQ}, x.dim < 0 → ((0 : Nat) : Int) < entries t x := by
          intro t x hx; unfold entries; rw [if_pos hx]; decide
        exact ⟨⟨(h1 0 a ha).1.scale_pos (one (h3 0 (by omega)).1), b1⟩, ⟨(h1 0 a ha).2.scale_pos (one (h3 0 (by omega)).2), b2⟩,
          ⟨h2.scale_pos (one h4), b3⟩, b4⟩
      unfold RnnQuant
      constructor
      · rintro ⟨h1, h2, h3, ⟨h4, h5, h6⟩, h7⟩
        exact ⟨fun k a ha => ⟨(h1 k a ha).1, (h1 k a ha).2, (h4 k (hlen ha)).1, (h4 k (hlen ha)).2⟩, h2, h3, h5, h6, (key h1 h3 h4 h6).1 h7⟩
      · rintro ⟨h1, h2, h3, h5, h6, h7⟩
        have h1' : ∀ k (a : RnnArg), as[k]? = some a → QuantOk a.tin (q.qiAt k) (-128) 127 ∧ QuantOk a.tw (q.qwAt k) 0 0 :=
          fun k a ha => ⟨(h1 k a ha).1, (h1 k a ha).2.1⟩
        have h4 : ∀ k < as.length, (q.qiAt k).dim < 0 ∧ (q.qwAt k).dim < 0 := by
          intro k hk
          obtain ⟨a, ha⟩ := hget hk
          exact (h1 k a ha).2.2
        exact ⟨h1', h2, h3, ⟨h4, h5, h6⟩, (key h1' h3 h4 h6).2 h7⟩
    have h : Decides ((RnnCall as tb tout ∧ RnnQuant m q as tb tout) ∧ True) dst (krnRnnSa m full q as bias tb tout dst) :=
      Decides.bind chk (Decides.skip fun _ => Decides.map)
    exact h.conv (by simp)

/-- Sizes for which the 32-bit arithmetic of the check of a recurrent cell is exact; the addresses of input and scratch buffer (in bytes) are below `2^31`. -/
structure CellArgs.Small (G : Int) (a : CellArgs) : Prop where
  tin : Moderate a.tin
  tprev : Moderate a.tprev
  out : 0 ≤ a.tout.es ∧ a.tin.shape.getD 0 0 * prod a.tprev.shape * a.tout.es < 2 ^ 32
  scr : 0 ≤ a.tin.es ∧ 1 ≤ G ∧ G * prod a.tprev.shape * a.tin.es < 2 ^ 32
  inAddr : 0 ≤ a.tin.base * a.tin.es ∧ 0 ≤ a.tin.cap ∧ a.tin.base * a.tin.es + a.tin.cap < 2 ^ 31
  scrAddr : 0 ≤ a.scr * a.tin.es ∧ 0 ≤ a.scrCap ∧ a.scr * a.tin.es + a.scrCap < 2 ^ 31

theorem notOverlapped_eq {p1 c1 p2 c2 : Int} (h1 : 0 ≤ p1 ∧ 0 ≤ c1 ∧ p1 + c1 < 2 ^ 31) (h2 : 0 ≤ p2 ∧ 0 ≤ c2 ∧ p2 + c2 < 2 ^ 31) :
    containersNotOverlapped p1 c1 p2 c2 = some (decide (p1 + c1 ≤ p2 ∨ p2 + c2 ≤ p1)) := by
  have r : ∀ {x : Int}, 0 ≤ x → x < 2 ^ 31 → InRange 32 x := by
    intro x a b; constructor <;> simp only [lo, hi] <;> omega
  unfold containersNotOverlapped
  rw [wrap32 (x := p1) (by omega), wrap32 (x := p2) (by omega), wrap32 (x := c1) (by omega), wrap32 (x := c2) (by omega)]
  simp only [Option.bind_eq_bind, Option.pure_def]
  rw [ckd_some (r (by omega) (by omega)), Option.bind_some, ckd_some (r (by omega) (by omega)), Option.bind_some]
  by_cases h : p1 ≥ p2 + c2
  · rw [if_pos h]; congr 1; simp; omega
  · rw [if_neg h]; congr 1; apply decide_eq_decide.2; omega

theorem smul_mod {x y e : Int} (hx : 0 ≤ x) (hy : 0 ≤ y) (he : 0 ≤ e) (h : x * y * e < 2 ^ 32) : (x * y) % 2 ^ 32 * e % 2 ^ 32 = x * y * e := by
  rw [Int.mul_emod, Int.emod_emod, ← Int.mul_emod, Int.emod_eq_of_lt (Int.mul_nonneg (Int.mul_nonneg hx hy) he) h]

theorem chkCell_iff {G : Int} {a : CellArgs} {cell : List Tensor} (hs : a.Small G) : chkCell G a cell = some .ok ↔ CellOk G a cell := by
  obtain ⟨m1, m2, ⟨o1, o2⟩, ⟨s1, s2, s3⟩, i1, i2⟩ := hs
  have hn : a.n = prod a.tprev.shape := m2.count
  have hn0 : 0 ≤ prod a.tprev.shape := prod_nonneg' fun n hn => (m2.1 n hn).1
  have hk : ∀ {steps k : Int}, a.tin.shape = [steps, k] → a.k = k := by
    intro steps k e
    have := m1.1 k (by simp [e])
    obtain ⟨x, y, e', -, rfl⟩ := dimsOf2 e
    unfold CellArgs.k countElemNumPart
    rw [e']
    simp only [List.drop_succ_cons, List.drop_zero, List.map_cons, List.map_nil, List.foldl_cons, List.foldl_nil, one_mul]
    exact Int.emod_eq_of_lt this.1 (by omega)
  unfold chkCell chkCellWeights chkCellOut
  rw [ok_bind, ok_if (by decide), ok_if (by decide), ok_bind, ok_bind, ok_if (by decide), ok_if (by decide), ok_bind, ok_if (by decide), ok_bind,
    ok_if (by decide), ok_bind, ok_if (by decide), ok_if (by decide), ok_if (by decide), notOverlapped_eq i1 i2, Option.map_some,
    ok_some, ok_some, ok_if' (by decide)]
  simp only [chkTensors_iff, not_not, Bool.not_eq_true', Bool.not_eq_false, Bool.and_eq_true, innerOne_iff, isContig_iff, List.mem_cons, List.not_mem_nil,
    or_false, forall_eq_or_imp, forall_eq, List.all_eq_true, decide_eq_true_eq, and_true, hn]
  unfold CellOk
  simp only [List.mem_cons, forall_eq_or_imp]
  constructor
  · rintro ⟨⟨k1, k2⟩, ⟨l1, l2⟩, ⟨u1, u2⟩, ⟨⟨k3, k4⟩, ⟨q3, q4⟩, ⟨u3, u4⟩, k5, q5, kc, qc⟩, k6, r1, r2, ⟨⟨uc, u5⟩, u6⟩, hap⟩
    obtain ⟨x, y, e1⟩ : ∃ x y, a.tin.dims = [x, y] := by
      match e : a.tin.dims, l1 with
      | [x, y], _ => exact ⟨x, y, rfl⟩
    obtain ⟨z, e2⟩ : ∃ z, a.tprev.dims = [z] := by
      match e : a.tprev.dims, l2 with
      | [z], _ => exact ⟨z, rfl⟩
    have q1 : a.tin.shape = [x.shape, y.shape] := by simp [Tensor.shape, e1]
    have q2 : a.tprev.shape = [z.shape] := by simp [Tensor.shape, e2]
    have hp : prod a.tprev.shape = z.shape := by rw [q2]; simp [prod]
    have hseq : a.seq = x.shape := by unfold CellArgs.seq; rw [q1]; rfl
    have hx : 0 ≤ x.shape := (modDim m1 (by simp [e1])).1
    rw [hp] at o2 s3 hn0 r1 r2 qc q5 q3 q4
    rw [q1] at o2
    rw [hseq] at r1
    rw [hk q1] at q3
    simp only [List.getD_cons_zero] at o2
    refine ⟨⟨k1, k2, k3, k4, k5, k6, kc⟩, u1, u2, u3, u4, u5, u6, uc, x.shape, y.shape, z.shape, q1, q2, q3, q4, q5, qc, ?_, ?_, hap⟩
    · cases ha : a.all
      · rw [ha] at r1
        simp only [Bool.false_eq_true, if_false] at r1 ⊢
        rw [smul_mod (by decide) hn0 o1] at r1
        · exact r1
        · have hx1 : 1 ≤ x.shape := posDim k1 (by simp [e1])
          have : 1 * (z.shape * a.tout.es) ≤ x.shape * (z.shape * a.tout.es) := Int.mul_le_mul_of_nonneg_right hx1 (Int.mul_nonneg hn0 o1)
          rw [← mul_assoc, ← mul_assoc] at this
          omega
      · rw [ha] at r1
        simp only [if_true] at r1 ⊢
        rwa [smul_mod hx hn0 o1 o2] at r1
    · rwa [smul_mod (by omega) hn0 s1 s3] at r2
  · rintro ⟨⟨k1, k2, k3, k4, k5, k6, kc⟩, u1, u2, u3, u4, u5, u6, uc, steps, k, n, q1, q2, q3, q4, q5, qc, r1, r2, hap⟩
    obtain ⟨x, y, e1, rfl, rfl⟩ := dimsOf2 q1
    obtain ⟨z, e2, rfl⟩ := dimsOf1 q2
    have hp : prod a.tprev.shape = z.shape := by rw [q2]; simp [prod]
    have hseq : a.seq = x.shape := by unfold CellArgs.seq; rw [q1]; rfl
    have hx : 0 ≤ x.shape := (modDim m1 (by simp [e1])).1
    rw [hp] at o2 s3 hn0 ⊢
    rw [q1] at o2
    simp only [List.getD_cons_zero] at o2
    rw [hk q1, hseq]
    refine ⟨⟨k1, k2⟩, ⟨by simp [e1], by simp [e2]⟩, ⟨u1, u2⟩, ⟨⟨k3, k4⟩, ⟨q3, q4⟩, ⟨u3, u4⟩, k5, q5, kc, qc⟩, k6, ?_, ?_, ⟨⟨uc, u5⟩, u6⟩, hap⟩
    · cases ha : a.all
      · rw [ha] at r1
        simp only [Bool.false_eq_true, if_false] at r1 ⊢
        rw [smul_mod (by decide) hn0 o1]
        · exact r1
        · have hx1 : 1 ≤ x.shape := posDim k1 (by simp [e1])
          have : 1 * (z.shape * a.tout.es) ≤ x.shape * (z.shape * a.tout.es) := Int.mul_le_mul_of_nonneg_right hx1 (Int.mul_nonneg hn0 o1)
          rw [← mul_assoc, ← mul_assoc] at this
          omega
      · rw [ha] at r1
        simp only [if_true] at r1 ⊢
        rwa [smul_mod hx hn0 o1 o2]
    · rwa [smul_mod (by omega) hn0 s1 s3]

theorem chkCellSaQ_iff {m : Rnd} {q : CellSa} {G : Int} {a : CellArgs} {cell : List Tensor} (hc : CellOk G a cell) (hl : cell.length ≤ 1)
    (hb : BiasTyped q.qi q.qwi q.qb (entries a.twi q.qwi).toNat) : chkCellSaQ m q a cell = some .ok ↔ CellQuant m q a cell := by
  obtain ⟨kt, -, -, -, -, -, -, -, steps, k, n, q1, q2, q3, q4, q5, -⟩ := hc
  simp only [List.mem_cons, forall_eq_or_imp] at kt
  obtain ⟨k1, k2, k3, k4, k5, k6, kc⟩ := kt
  have hcell : ∀ {x : Option Status}, (if ¬ ∀ c ∈ cell, chkQuant c q.qc 7 = .ok then (cell.head?).map fun c => chkQuant c q.qc 7 else x) = some .ok ↔
      (∀ c ∈ cell, QuantOk c q.qc (-128) 127) ∧ x = some .ok := by
    intro x
    match cell, hl, kc with
    | [], _, _ => simp
    | [c], _, kc =>
      have := chkQuant7_iff (q := q.qc) (kc c (by simp))
      by_cases h : chkQuant c q.qc 7 = .ok
      · simp [h, this.1 h]
      · simp [h, ← this]
  unfold chkCellSaQ
  rw [ok_if (by decide), ok_sts, ok_sts, ok_sts, hcell, ok_sts, ok_sts, ok_sts, not_not, chkQuant7_iff k1, chkQuant7_iff k6, chkQuant7_iff k2,
    chkQuant_iff (a := 0) (b := 0) k3 (by decide) (by decide), chkQuant_iff (a := 0) (b := 0) k4 (by decide) (by decide),
    chkQuant_iff (a := 0) (b := 0) k5 (by decide) (by decide)]
  rw [show (if 0 ≤ q.qwi.dim then (a.twi.shape.getD q.qwi.dim.toNat 0).toNat else 1) = (entries a.twi q.qwi).toNat by
    unfold entries
    by_cases h : q.qwi.dim < 0
    · rw [if_pos h, if_neg (by omega)]; rfl
    · rw [if_neg h, if_pos (by omega)]]
  have hdims : (if q.qwi.dim < 0 then q.qwo.dim < 0 ∧ q.qb.dim < 0 else q.qwi.dim = 0 ∧ q.qwo.dim = 0 ∧ q.qb.dim = 0) ↔
      ((q.qwi.dim < 0 ∧ q.qwo.dim < 0 ∧ q.qb.dim < 0) ∨ (q.qwi.dim = 0 ∧ q.qwo.dim = 0 ∧ q.qb.dim = 0)) := by
    split
    · constructor
      · rintro ⟨h1, h2⟩; exact .inl ⟨by assumption, h1, h2⟩
      · rintro (h | h)
        · exact h.2
        · omega
    · constructor
      · exact .inr
      · rintro (h | h)
        · omega
        · exact h
  rw [hdims]
  have key : ∀ (h1 : QuantOk a.tin q.qi (-128) 127) (h3 : QuantOk a.twi q.qwi 0 0) (h4 : QuantOk a.tb q.qb 0 0) (h5 : q.qi.dim < 0)
      (h6 : (q.qwi.dim < 0 ∧ q.qwo.dim < 0 ∧ q.qb.dim < 0) ∨ (q.qwi.dim = 0 ∧ q.qwo.dim = 0 ∧ q.qb.dim = 0)),
      (chkBiasLoop m q.qi q.qwi q.qb (entries a.twi q.qwi).toNat 0 = some .ok ↔ BiasOk m q.qi q.qwi q.qb (entries a.twi q.qwi).toNat) := by
    intro h1 h3 h4 h5 h6
    apply chkBiasLoop_ok_iff
    intro i hi
    obtain ⟨b1, b2, b3, b4⟩ := hb i hi
    refine ⟨⟨?_, b1⟩, ⟨h3.scale_pos (by omega), b2⟩, ⟨?_, b3⟩, b4⟩
    · exact_mod_cast h1.scale_pos (k := 0) (by unfold entries; rw [if_pos h5]; decide)
    · apply h4.scale_pos
      rcases h6 with ⟨g1, -, g2⟩ | ⟨g1, -, g2⟩
      · unfold entries at hi ⊢
        rw [if_pos g1] at hi
        rw [if_pos g2]; omega
      · unfold entries at hi ⊢
        rw [if_neg (by omega), g1, q3] at hi
        rw [if_neg (by omega), g2, q5]
        simp at hi ⊢; omega
  unfold CellQuant
  constructor
  · rintro ⟨⟨d1, d2, d3, d4, d5⟩, h1, h2, h3, h4, h5, h6, h7, h8⟩
    exact ⟨h1, h2, h3, h4, h5, h6, h7, d1, d2, d3, d4, d5, (key h1 h5 h7 d1 d5).1 h8⟩
  · rintro ⟨h1, h2, h3, h4, h5, h6, h7, d1, d2, d3, d4, d5, h8⟩
    exact ⟨⟨d1, d2, d3, d4, d5⟩, h1, h2, h3, h4, h5, h6, h7, (key h1 h5 h7 d1 d5).2 h8⟩

/-- LSTM cell: refused calls change neither the memory nor the output descriptor.  Missing: sizes or addresses beyond `CellArgs.Small` and the bias
scales of `c96_bias_scale_violated`. -/
theorem c96_lstm_partial (m : Rnd) (aw : Nat) (full : Bool) (f : CellFx) (q : CellSa) (act : RnnAct) (a : CellArgs) (tc : Tensor) (mem : Buf)
    (hs : a.Small 4) (hb : BiasTyped q.qi q.qwi q.qb (entries a.twi q.qwi).toNat) :
    Decides (CellOk 4 a [tc] ∧ f.fb ≤ f.fi + f.fwi) (mem, a.tout) (krnLstmFx m aw f act a tc mem) ∧
    Decides (CellOk 4 a [tc] ∧ CellQuant m q a [tc]) (mem, a.tout) (krnLstmSa m full q act a tc mem) := by
  constructor
  · have chk : chkLstmFx f a tc = some .ok ↔ CellOk 4 a [tc] ∧ f.fb ≤ f.fi + f.fwi := by
      unfold chkLstmFx
      rw [ok_bind, ok_if (by decide), chkCell_iff hs, not_not]
      tauto
    have h : Decides ((CellOk 4 a [tc] ∧ f.fb ≤ f.fi + f.fwi) ∧ True) (mem, a.tout) (krnLstmFx m aw f act a tc mem) :=
      Decides.bind chk (Decides.map (f := fun s : CellSt => (s.mem, a.outDesc)))
    exact h.conv (by simp)
  · have chk : chkLstmSa m q a tc = some .ok ↔ CellOk 4 a [tc] ∧ CellQuant m q a [tc] := by
      unfold chkLstmSa
      rw [ok_bind, chkCell_iff hs]
      exact and_congr_right fun hc => chkCellSaQ_iff hc (by simp) hb
    have h : Decides ((CellOk 4 a [tc] ∧ CellQuant m q a [tc]) ∧ True) (mem, a.tout) (krnLstmSa m full q act a tc mem) :=
      Decides.bind chk (Decides.undef (Decides.skip fun _ => Decides.map (f := fun s : CellSt => (s.mem, a.outDesc))))
    exact h.conv (by simp)

/-- GRU cell, as for the LSTM cell. -/
theorem c96_gru_partial (m : Rnd) (aw : Nat) (full : Bool) (f : CellFx) (q : CellSa) (a : CellArgs) (mem : Buf)
    (hs : a.Small 3) (hb : BiasTyped q.qi q.qwi q.qb (entries a.twi q.qwi).toNat) :
    Decides (CellOk 3 a [] ∧ f.fb ≤ f.fi + f.fwi) (mem, a.tout) (krnGruFx m aw f a mem) ∧
    Decides (CellOk 3 a [] ∧ CellQuant m q a []) (mem, a.tout) (krnGruSa m full q a mem) := by
  constructor
  · have chk : chkGruFx f a = some .ok ↔ CellOk 3 a [] ∧ f.fb ≤ f.fi + f.fwi := by
      unfold chkGruFx
      rw [ok_bind, ok_if (by decide), chkCell_iff hs, not_not]
      tauto
    have h : Decides ((CellOk 3 a [] ∧ f.fb ≤ f.fi + f.fwi) ∧ True) (mem, a.tout) (krnGruFx m aw f a mem) :=
      Decides.bind chk (Decides.map (f := fun s : CellSt => (s.mem, a.outDesc)))
    exact h.conv (by simp)
  · have chk : chkGruSa m q a = some .ok ↔ CellOk 3 a [] ∧ CellQuant m q a [] := by
      unfold chkGruSa
      rw [ok_bind, chkCell_iff hs]
      exact and_congr_right fun hc => chkCellSaQ_iff hc (by simp) hb
    have h : Decides ((CellOk 3 a [] ∧ CellQuant m q a []) ∧ True) (mem, a.tout) (krnGruSa m full q a mem) :=
      Decides.bind chk (Decides.undef (Decides.skip fun _ => Decides.map (f := fun s : CellSt => (s.mem, a.outDesc))))
    exact h.conv (by simp)

/-! ## Conversion -/

theorem chkQTensor_iff (a : QTensor) : chkQTensor a = some .ok ↔ QTensorOk a := by
  unfold chkQTensor QTensorOk
  constructor
  · intro h
    cases e : checkTensorPrivate a.t with
    | none => rw [e] at h; cases h
    | some s =>
      rw [e, Option.map_some, ok_some, ok_st] at h
      obtain ⟨rfl, h⟩ := h
      refine ⟨e, fun hs => ?_⟩
      rw [if_pos hs, chkQuant_iff (a := -2 ^ 15) (b := 2 ^ 15 - 1) e (by decide) (by decide)] at h
      exact h
  · rintro ⟨h1, h2⟩
    rw [show checkTensorPrivate a.t = some .ok from h1, Option.map_some, ok_some, ok_st]
    refine ⟨rfl, ?_⟩
    split
    · rename_i hs
      exact (chkQuant_iff (a := -2 ^ 15) (b := 2 ^ 15 - 1) h1 (by decide) (by decide)).2 (h2 hs)
    · rfl

theorem ok_map {x : Option Status} {f : Status} : (x.map fun s => if s ≠ .ok then s else f) = some .ok ↔ x = some .ok ∧ f = .ok := by
  cases x with
  | none => simp
  | some s => cases s <;> simp

theorem chkConvert_iff (oneMem : Bool) (src dst : QTensor) : chkConvert oneMem src dst = some .ok ↔ ConvertCall oneMem src dst := by
  unfold chkConvert
  rw [ok_bind, ok_map, ok_if' (by decide), ok_if' (by decide), ok_if' (by decide), ok_if' (by decide), chkQTensor_iff, chkQTensor_iff]
  simp only [Bool.not_eq_true', Bool.not_eq_false, Bool.and_eq_true, innerOne_iff, sameShape_iff, decide_eq_true_eq, decide_eq_false_iff_not, and_true]
  unfold ConvertCall
  tauto

/-- Conversion between number formats. -/
theorem c96_convert (m : Rnd) (mem : Buf) (src dst : QTensor) (d : Buf) :
    Decides (ConvertCall false src dst) d (hlpConvertTo m mem src dst d) ∧ Decides (ConvertCall true src dst) d (hlpConvertIn m src dst d) := by
  constructor
  · have h : Decides (ConvertCall false src dst ∧ True) d (hlpConvertTo m mem src dst d) := Decides.bind (chkConvert_iff false src dst) Decides.map
    exact h.conv (by simp)
  · have h : Decides (ConvertCall true src dst ∧ True) d (hlpConvertIn m src dst d) := Decides.bind (chkConvert_iff true src dst) Decides.map
    exact h.conv (by simp)

/-- Conversion from and to floating point: the condition on the other tensor, the shapes and the strides. -/
theorem c96_convert_float (m : Rnd) (mem : Buf) (t : Tensor) (q : QTensor) (d : Buf) :
    Decides (TensorOk t ∧ QTensorOk q ∧ t.shape = q.t.shape ∧ InnerOne t ∧ InnerOne q.t) d (hlpConvertAny m mem (.f t) (.q q) d) ∧
    Decides (QTensorOk q ∧ TensorOk t ∧ q.t.shape = t.shape ∧ InnerOne q.t ∧ InnerOne t) d (hlpConvertAny m mem (.q q) (.f t) d) := by
  constructor
  · have chk : chkConvertAny (.f t) (.q q) = some .ok ↔ TensorOk t ∧ QTensorOk q ∧ t.shape = q.t.shape ∧ InnerOne t ∧ InnerOne q.t := by
      unfold chkConvertAny
      rw [ok_bind, ok_map, ok_if' (by decide), ok_if' (by decide)]
      simp only [chkAny, AnyT.t, chkQTensor_iff, Bool.not_eq_true', Bool.not_eq_false, Bool.and_eq_true, innerOne_iff, sameShape_iff, and_true]
      rfl
    have h : Decides ((TensorOk t ∧ QTensorOk q ∧ t.shape = q.t.shape ∧ InnerOne t ∧ InnerOne q.t) ∧ True) d (hlpConvertAny m mem (.f t) (.q q) d) :=
      Decides.bind chk Decides.map
    exact h.conv (by simp)
  · have chk : chkConvertAny (.q q) (.f t) = some .ok ↔ QTensorOk q ∧ TensorOk t ∧ q.t.shape = t.shape ∧ InnerOne q.t ∧ InnerOne t := by
      unfold chkConvertAny
      rw [ok_bind, ok_map, ok_if' (by decide), ok_if' (by decide)]
      simp only [chkAny, AnyT.t, chkQTensor_iff, Bool.not_eq_true', Bool.not_eq_false, Bool.and_eq_true, innerOne_iff, sameShape_iff, and_true]
      rfl
    have h : Decides ((QTensorOk q ∧ TensorOk t ∧ q.t.shape = t.shape ∧ InnerOne q.t ∧ InnerOne t) ∧ True) d (hlpConvertAny m mem (.q q) (.f t) d) :=
      Decides.bind chk Decides.map
    exact h.conv (by simp)

/-! ## Accepted and refused calls -/

/-- ReLU, activation, softmax and L2 normalization: an output of another shape and an axis behind the last dimension are refused. -/
example :
    let t : Tensor := { dims := [⟨1, 2⟩, ⟨2, 1⟩], cap := 2, es := 1 }
    let u : Tensor := { dims := [⟨2, 1⟩, ⟨1, 1⟩], cap := 2, es := 1 }
    let mem := Buf.ofList [30, 90]
    let q : SaQ := ⟨-1, [3], [5], [8]⟩
    (krnRelu 8 .six (-3) 5 6 t u mem).map (fun p => (p.1, p.2.toList)) = some (.shapeMismatch, [30, 90]) ∧
    (krnActivationSa .up tanhLut 3 50 10 0 7 t u mem).map (fun p => (p.1, p.2.toList)) = some (.shapeMismatch, [30, 90]) ∧
    (krnSoftmaxSa .up expnegLut q 1 t t mem).map (fun p => p.1) = some .ok ∧
    (krnSoftmaxSa .up expnegLut q 2 t t mem).map (fun p => (p.1, p.2.toList)) = some (.badFuncCfg, [30, 90]) ∧
    (krnSoftmaxSa .up expnegLut { q with scale := [0] } 1 t t mem).map (fun p => (p.1, p.2.toList)) = some (.badTensor, [30, 90]) ∧
    (krnL2NormSa8 .up invsqrtLut q 1 t t mem).map (fun p => p.1) = some .ok ∧
    (krnL2NormSa8 .up invsqrtLut { q with zp := [128] } 1 t t mem).map (fun p => (p.1, p.2.toList)) = some (.incompatibleTensors, [30, 90]) := by
  decide +kernel

/-- Convolution: the same call with a larger output, and with a bias scale that does not fit. -/
example :
    let f : FxQ := { fi := 3, fw := 4, fb := 5, fo := 2, relu := .none }
    let big : Tensor := { dims := [⟨3, 4⟩, ⟨2, 2⟩, ⟨2, 1⟩], cap := 24, es := 2 }
    exCfg.Typed ∧ Moderate exIn ∧ Moderate exWt ∧ Moderate exOut ∧ BiasTyped exQ.qi exQ.qw exQ.qb (entries exWt.bytes exQ.qw).toNat ∧
    (krnConvFx .up 64 0 true f (Buf.ofList exSrc) (Buf.ofList exWts) (Buf.ofList [5, -6]) exIn exWt exBias exCfg exOut
      (Buf.ofList (List.replicate 8 99))).map (fun p => p.1) = some .ok ∧
    (krnConvFx .up 64 0 true f (Buf.ofList exSrc) (Buf.ofList exWts) (Buf.ofList [5, -6]) exIn exWt exBias exCfg big
      (Buf.ofList (List.replicate 8 99))).map (fun p => (p.1, p.2.toList)) = some (.badFuncCfg, List.replicate 8 99) ∧
    (krnConvSa8 .up true 0 true exQ (Buf.ofList exSrc) (Buf.ofList exWts) (Buf.ofList [500, -600]) exIn.bytes exWt.bytes exBias32 exCfg exOut.bytes
      (Buf.ofList (List.replicate 8 99))).map (fun p => p.1) = some .ok ∧
    (krnConvSa8 .up true 0 true { exQ with qi := { exQ.qi with scale := [1] } } (Buf.ofList exSrc) (Buf.ofList exWts) (Buf.ofList [500, -600]) exIn.bytes
      exWt.bytes exBias32 exCfg exOut.bytes (Buf.ofList (List.replicate 8 99))).map (fun p => (p.1, p.2.toList)) =
      some (.incompatibleTensors, List.replicate 8 99) := by
  refine ⟨by decide, by decide, by decide, by decide, by decide, by decide +kernel, by decide +kernel, by decide +kernel, by decide +kernel⟩

/-- Group convolution: the input channels are not a multiple of those of the weights; a zero point of the output outside 8 bits. -/
example :
    let f : FxQ := { fi := 3, fw := 4, fb := 5, fo := 2, relu := .none }
    let w3 : Tensor := { exGWt with dims := [⟨2, 36⟩, ⟨3, 12⟩, ⟨3, 4⟩, ⟨4, 1⟩], cap := 144 }
    Moderate exGIn ∧ Moderate exGWt ∧ Moderate exGOut ∧ BiasTyped exGQ.qi exGQ.qw exGQ.qb (entries exGWt.bytes exGQ.qw).toNat ∧
    chkGroupFx 0 true f exGIn exGWt exGBias exCfg exGOut = some .ok ∧
    (krnGroupFx .up 64 0 true f (Buf.ofList exGSrc) (Buf.ofList exGWts) (Buf.ofList [5, -6, 7, -8]) exGIn w3 exGBias exCfg exGOut
      (Buf.ofList (List.replicate 16 99))).map (fun p => (p.1, p.2.toList)) = some (.shapeMismatch, List.replicate 16 99) ∧
    (krnGroupSa8 .up true 0 true { exGQ with qo := { exGQ.qo with zp := [128] } } (Buf.ofList exGSrc) (Buf.ofList exGWts) (Buf.ofList [500, -600, 700, -800])
      exGIn.bytes exGWt.bytes exGBias32 exCfg exGOut.bytes (Buf.ofList (List.replicate 16 99))).map (fun p => (p.1, p.2.toList)) =
      some (.incompatibleTensors, List.replicate 16 99) := by
  refine ⟨by decide, by decide, by decide, by decide, by decide, by decide +kernel, by decide +kernel⟩

/-- Transposed convolution: an output with one row less; a specialised function with another kernel size. -/
example :
    let f : FxQ := { fi := 3, fw := 4, fb := 5, fo := 2, relu := .none }
    Moderate exOutTc ∧ chkTcFx 0 true f exIn exWt exBias exCfg exOutTc = some .ok ∧
    (krnTcFx .up 64 0 true f (Buf.ofList exSrc) (Buf.ofList exWts) (Buf.ofList [5, -6]) exIn exWt exBias exCfg
      { exOutTc with dims := [⟨4, 14⟩, ⟨7, 2⟩, ⟨2, 1⟩] } exTcDst).map (fun p => (p.1, p.2.toList)) = some (.badFuncCfg, exTcDst.toList) ∧
    (krnTcFx .up 64 3 true f (Buf.ofList exSrc) (Buf.ofList exWts) (Buf.ofList [5, -6]) exIn exWt exBias exCfg exOutTc exTcDst).map
      (fun p => (p.1, p.2.toList)) = some (.incompatibleTensors, exTcDst.toList) ∧
    (krnTcSa8 .up true 3 true exQ (Buf.ofList exSrc) (Buf.ofList exWts) (Buf.ofList [500, -600]) exIn.bytes exWt.bytes exBias32 exCfg exOutTc.bytes
      exTcDst).map (fun p => (p.1, p.2.toList)) = some (.incompatibleTensors, exTcDst.toList) := by
  refine ⟨by decide, by decide, by decide +kernel, by decide +kernel, by decide +kernel⟩

/-- Fully connected: more fractional bits of the output than of the products; input and output overlap. -/
example : Moderate exFcIn ∧ BiasTyped exFcQ.qi exFcQ.qw exFcQ.qb (entries exFcW.bytes exFcQ.qw).toNat ∧ chkFcFx true exFcF exFcIn exFcW exFcB exFcO = some .ok ∧
    (krnFcFx .up 16 64 true { exFcF with fo := 8 } (Buf.ofList exFcSrc) (Buf.ofList exFcWts) (Buf.ofList [5, -6, 7, -8]) exFcIn exFcW exFcB exFcO
      (Buf.ofList (List.replicate 6 99))).map (fun p => (p.1, p.2.toList)) = some (.incompatibleTensors, List.replicate 6 99) ∧
    (krnFcSa8 .up true false false exFcQ (Buf.ofList exFcSrc) (Buf.ofList exFcWts) (Buf.ofList [5, -6, 7, -8]) exFcIn.bytes exFcW.bytes exFcB32 exFcO.bytes
      (Buf.ofList (List.replicate 6 99))).map (fun p => (p.1, p.2.toList)) = some (.incompatibleTensors, List.replicate 6 99) := by
  refine ⟨by decide, by decide, by decide, by decide +kernel, by decide +kernel⟩

/-- Pooling: a padding is missing; a specialised function with another size. -/
example :
    let t : Tensor := { dims := [⟨3, 6⟩, ⟨6, 1⟩, ⟨1, 1⟩], cap := 18, es := 1 }
    let g : Geo := { kh := 3, kw := 3, sh := 1, sw := 1, pt := 1, pb := 1, pl := 1, pr := 1 }
    let src := Buf.ofList (List.replicate 18 1)
    let dst := Buf.ofList (List.replicate 18 99)
    let q : SaQ := ⟨-1, [3], [5], [8]⟩
    g.Bytes ∧ Moderate t ∧ chkPool t g t = some .ok ∧ chkAveQuant t t q q = .ok ∧
    (krnMaxpool src t { g with pt := 0 } t dst).map (fun p => (p.1, p.2.toList)) = some (.badFuncCfg, List.replicate 18 99) ∧
    (krnAvepoolFxFix 2 .up 8 3 2 src t g t dst).map (fun p => (p.1, p.2.toList)) = some (.shapeMismatch, List.replicate 18 99) ∧
    (krnAvepoolSa8 .up 2 { q with dim := 0 } q src t g t dst).map (fun p => (p.1, p.2.toList)) = some (.incompatibleTensors, List.replicate 18 99) := by
  refine ⟨by decide, by decide, by decide, by decide, by decide +kernel, by decide +kernel, by decide +kernel⟩

/-- Element-wise kernels: a second operand of another shape. -/
example : Moderate exEsA.t ∧ Moderate exEsB.t ∧ Moderate exPrSlope.t ∧
    (krnEltwiseFx .up 8 .add 3 3 3 exEsA exEsB exLk exLkMem).map (fun p => p.1) = some .ok ∧
    (krnEltwiseFx .up 8 .add 3 3 3 exEsA exPrSlope exLk exLkMem).map (fun p => (p.1, p.2.toList)) = some (.shapeMismatch, exLkMem.toList) ∧
    (krnEltwiseFx .up 8 .max 3 4 3 exEsA exEsB exLk exLkMem).map (fun p => (p.1, p.2.toList)) = some (.incompatibleTensors, exLkMem.toList) := by
  decide +kernel

/-- Leaky and parametric ReLU: another format of the output; slopes for another axis. -/
example : Moderate exLkSlope.t ∧ exPrSlope.t.dims.length = exLk.dims.length ∧
    (krnLeakyFx .up 8 3 7 2 exLkSmem exLk exLkSlope exLk exLkMem).map (fun p => (p.1, p.2.toList)) = some (.specParamMismatch, exLkMem.toList) ∧
    chkPrelu 1 exLk exPrSlope.t exLk (fun _ => 0) = some .ok ∧
    (krnPreluSa .up exLkQi exLkQs exLkQo exLkSmem 0 exLk exPrSlope exLk (fun _ => 0) exLkMem).map (fun p => (p.1, p.2.toList)) =
      some (.incompatibleTensors, exLkMem.toList) := by
  decide +kernel

/-- Permutation and argmax: a dimension given twice, overlapping tensors, too many positions. -/
example :
    let a : Tensor := { dims := [⟨2, 4⟩, ⟨3, 1⟩], cap := 7, es := 1 }
    let b : Tensor := { dims := [⟨3, 2⟩, ⟨2, 1⟩], cap := 6, es := 1 }
    (permute a b [1, 0] true (Buf.ofList [1, 2, 3, 0, 4, 5, 6]) (Buf.ofList [0, 0, 0, 0, 0, 0])).map (fun p => p.1) = some .ok ∧
    (permute a b [1, 1] true (Buf.ofList [1, 2, 3, 0, 4, 5, 6]) (Buf.ofList [0, 0, 0, 0, 0, 0])).map (fun p => (p.1, p.2.toList)) =
      some (.badFuncCfg, [0, 0, 0, 0, 0, 0]) ∧
    (permute a b [1, 0] false (Buf.ofList [1, 2, 3, 0, 4, 5, 6]) (Buf.ofList [0, 0, 0, 0, 0, 0])).map (fun p => (p.1, p.2.toList)) =
      some (.incompatibleTensors, [0, 0, 0, 0, 0, 0]) ∧
    Moderate exAmIn ∧ Moderate (exAmOut 3 2) ∧ chkArgmax exAmIn (exAmOut 3 2) (fun _ => 0) 0 2 = some .ok ∧
    (krnArgmax (Buf.ofList exAmSrc) exAmIn (exAmOut 3 5) (fun _ => 0) 0 5 (Buf.ofList [7, 8])).map (fun p => (p.1, p.2.toList)) =
      some (.badFuncCfg, [7, 8]) := by
  decide +kernel

/-- Dense recurrent kernel: more fractional bits of the bias than of the products. -/
example :
    let t : Tensor := { dims := [⟨2, 1⟩], cap := 4, es := 2 }
    let tw : Tensor := { dims := [⟨2, 2⟩, ⟨2, 1⟩], cap := 8, es := 2 }
    let as : List RnnArg := [⟨Buf.ofList [8192, -16384], t, Buf.ofList [32767, 5, 16384, -3], tw, true⟩]
    (∀ a ∈ as, Moderate a.tin) ∧ BiasTyped ⟨-1, [3], [1], [4]⟩ ⟨-1, [0], [1], [6]⟩ ⟨-1, [0], [1], [10]⟩ 1 ∧
    chkRnnFx ⟨[15], [15], 15, 12⟩ as t t = some .ok ∧
    (krnRnnFx .up 64 ⟨[15], [15], 31, 12⟩ as (Buf.ofList [1, 2]) t t (Buf.ofList [7, 8])).map (fun p => (p.1, p.2.toList)) =
      some (.incompatibleTensors, [7, 8]) := by
  decide +kernel

/-- LSTM and GRU cells: a scratch buffer one byte too small, or overlapping the input. -/
example : exLstm.Small 4 ∧ exLstm8.Small 4 ∧ exGru.Small 3 ∧ BiasTyped exLstmQ.qi exLstmQ.qwi exLstmQ.qb (entries exLstm8.twi exLstmQ.qwi).toNat ∧
    chkLstmFx exLstmF exLstm exLstmC = some .ok ∧ chkLstmSa .up exLstmQ exLstm8 exLstmC8 = some .ok ∧ chkGruFx exGruF exGru = some .ok ∧
    (krnLstmFx .up 64 exLstmF .tanh { exLstm with scrCap := 15 } exLstmC exLstmMem).map (fun p => (p.1, p.2.1.toList)) = some (.badFuncCfg, exLstmMem.toList) ∧
    (krnLstmFx .up 64 exLstmF .tanh { exLstm with scr := 0 } exLstmC exLstmMem).map (fun p => (p.1, p.2.1.toList)) =
      some (.incompatibleTensors, exLstmMem.toList) ∧
    (krnGruFx .up 64 { exGruF with fb := 21 } exGru exGruMem).map (fun p => (p.1, p.2.1.toList)) = some (.incompatibleTensors, exGruMem.toList) := by
  refine ⟨⟨by decide, by decide, by decide, by decide, by decide, by decide⟩, ⟨by decide, by decide, by decide, by decide, by decide, by decide⟩,
    ⟨by decide, by decide, by decide, by decide, by decide, by decide⟩, by decide, by decide, by decide, by decide, by decide +kernel, by decide +kernel, by decide +kernel⟩

/-- Conversion: scales for different dimensions. -/
example :
    let s : QTensor := { t := { dims := [⟨2, 2⟩, ⟨2, 1⟩], cap := 4, es := 1 }, ty := .sa8, q := ⟨1, [3, -4], [100, 25], [7, 9]⟩ }
    let d : QTensor := { t := { dims := [⟨2, 2⟩, ⟨2, 1⟩], cap := 4, es := 1 }, ty := .sa8, q := ⟨0, [3, -4], [100, 25], [7, 9]⟩ }
    (hlpConvertTo .up (Buf.ofList [1, 2, 3, 4]) s s (Buf.ofList [5, 6, 7, 8])).map (fun p => (p.1, p.2.toList)) = some (.ok, [1, 2, 3, 4]) ∧
    (hlpConvertTo .up (Buf.ofList [1, 2, 3, 4]) s d (Buf.ofList [5, 6, 7, 8])).map (fun p => (p.1, p.2.toList)) = some (.sizeMismatch, [5, 6, 7, 8]) ∧
    (hlpConvertAny .up (Buf.ofList [1, 2, 3, 4]) (.q s) (.f { dims := [⟨4, 1⟩], cap := 16, es := 4 }) (Buf.ofList [5, 6, 7, 8])).map
      (fun p => (p.1, p.2.toList)) = some (.shapeMismatch, [5, 6, 7, 8]) := by
  decide +kernel

end Mli
