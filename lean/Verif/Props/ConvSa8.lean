import Verif.Props.Conv
import Verif.Props.Quant

/-!
# Properties of the 8-bit asymmetric convolution kernels (C36, C37, C46)
-/

namespace Mli

open Spec

/-- Scales are `int16_t`, zero points `int16_t`, fractional bits `int8_t` (include/mli_types.h:120-136). -/
def SaQ.Typed (q : SaQ) : Prop :=
  (∀ s ∈ q.scale, InRange 16 s) ∧ (∀ z ∈ q.zp, InRange 16 z) ∧ ∀ f ∈ q.frac, InRange 8 f

instance (q : SaQ) : Decidable q.Typed := by unfold SaQ.Typed; infer_instance

theorem SaQ.Typed.scaleAt {q : SaQ} (h : q.Typed) (k : Int) : InRange 16 (q.scaleAt k) := by
  unfold SaQ.scaleAt
  rw [List.getD_eq_getElem?_getD]
  rcases hg : q.scale[q.idx k]? with _ | s
  · decide
  · exact h.1 s (List.mem_of_getElem? hg)

theorem chkQuantLoop_ok {q : SaQ} {bits : Nat} : ∀ (n k : Nat), chkQuantLoop q bits n k = .ok →
    ∀ j, k ≤ j → j < k + n → 0 < q.scale.getD j 0 ∧
      (if bits = 0 then 0 else -(2 ^ bits : Int)) ≤ q.zp.getD j 0 ∧ q.zp.getD j 0 ≤ (if bits = 0 then 0 else (2 ^ bits : Int) - 1)
  | 0, k, _, j, h1, h2 => by omega
  | n + 1, k, h, j, h1, h2 => by
    rw [chkQuantLoop] at h
    by_cases a : ¬ 0 < q.scale.getD k 0
    · rw [if_pos a] at h; cases h
    rw [if_neg a] at h
    by_cases b : ¬ ((if bits = 0 then 0 else -(2 ^ bits : Int)) ≤ q.zp.getD k 0 ∧
        q.zp.getD k 0 ≤ (if bits = 0 then 0 else (2 ^ bits : Int) - 1))
    · rw [if_pos b] at h; cases h
    rw [if_neg b] at h
    by_cases e : j = k
    · rw [e]
      exact ⟨not_not.1 a, not_not.1 b⟩
    · exact chkQuantLoop_ok n (k + 1) h j (by omega) (by omega)

/-- Accepted quantization parameters. -/
theorem chkQuant_ok {t : Tensor} {q : SaQ} {bits : Nat} (h : chkQuant t q bits = .ok) {k : Int}
    (hk : q.dim < 0 ∨ 0 ≤ k ∧ k < t.shape.getD q.dim.toNat 0) :
    0 < q.scaleAt k ∧
      (if bits = 0 then 0 else -(2 ^ bits : Int)) ≤ q.zpAt k ∧ q.zpAt k ≤ (if bits = 0 then 0 else (2 ^ bits : Int) - 1) := by
  unfold chkQuant at h
  split at h
  · cases h
  simp only [] at h
  by_cases hd : 0 ≤ q.dim
  · simp only [hd, if_true] at h
    split at h
    · cases h
    split at h
    · cases h
    have hk : 0 ≤ k ∧ k < t.shape.getD q.dim.toNat 0 := hk.resolve_left (by omega)
    have := chkQuantLoop_ok _ _ h k.toNat (by omega) (by omega)
    unfold SaQ.scaleAt SaQ.zpAt SaQ.idx
    rw [if_neg (by omega)]
    exact this
  · simp only [hd, if_false] at h
    split at h
    · cases h
    split at h
    · cases h
    have := chkQuantLoop_ok _ _ h 0 (by omega) (by omega)
    unfold SaQ.scaleAt SaQ.zpAt SaQ.idx
    rw [if_pos (by omega)]
    exact this

/-- Accepted quantization parameters of a kernel with weights. -/
theorem chkSa8At_ok {d : Nat} {m : Rnd} {q : Sa8Q} {tin tw tb tout : Tensor} (h : chkSa8At d m q tin tw tb tout = some .ok) :
    (q.qi.dim < 0 ∧ q.qo.dim < 0 ∧ (q.qw.dim < 0 ∨ q.qw.dim = d)) ∧
    (0 < q.qi.scaleAt 0 ∧ InRange 8 (q.qi.zpAt 0)) ∧ (0 < q.qo.scaleAt 0 ∧ InRange 8 (q.qo.zpAt 0)) ∧
    ∀ k, 0 ≤ k → k < tw.shape.getD d 0 → 0 < q.qw.scaleAt k ∧ q.qw.zpAt k = 0 := by
  unfold chkSa8At at h
  simp only [] at h
  split at h
  · rename_i h'; exact absurd (Option.some.inj h) h'
  rename_i h1
  split at h
  · rename_i h'; exact absurd (Option.some.inj h) h'
  rename_i h2
  split at h
  · rename_i h'; exact absurd (Option.some.inj h) h'
  rename_i h3
  split at h
  · rename_i h'; exact absurd (Option.some.inj h) h'
  rename_i h4
  split at h
  · cases h
  rename_i h5
  split at h
  · cases h
  rename_i h6
  split at h
  · cases h
  rename_i h7
  have h7 := not_not.1 h7
  have c1 := chkQuant_ok (not_not.1 h1) (k := 0) (Or.inl h7.1)
  have c2 := chkQuant_ok (not_not.1 h2) (k := 0) (Or.inl h7.2)
  simp only [show ¬ 7 = 0 by decide, if_false] at c1 c2
  refine ⟨⟨h7.1, h7.2, by omega⟩, ⟨c1.1, c1.2.1, c1.2.2⟩, ⟨c2.1, c2.2.1, c2.2.2⟩, ?_⟩
  intro k k0 k1
  have c3 := chkQuant_ok (not_not.1 h3) (k := k) (by
    by_cases hd : q.qw.dim < 0
    · exact Or.inl hd
    · have : q.qw.dim = d := by omega
      right
      rw [this, Int.toNat_natCast]
      exact ⟨k0, k1⟩)
  simp only [if_true] at c3
  exact ⟨c3.1, by omega⟩

theorem chkSa8_ok {m : Rnd} {q : Sa8Q} {tin tw tb tout : Tensor} (h : chkSa8 m q tin tw tb tout = some .ok) :
    (q.qi.dim < 0 ∧ q.qo.dim < 0 ∧ (q.qw.dim < 0 ∨ q.qw.dim = 3)) ∧
    (0 < q.qi.scaleAt 0 ∧ InRange 8 (q.qi.zpAt 0)) ∧ (0 < q.qo.scaleAt 0 ∧ InRange 8 (q.qo.zpAt 0)) ∧
    ∀ k, 0 ≤ k → k < tw.shape.getD 3 0 → 0 < q.qw.scaleAt k ∧ q.qw.zpAt k = 0 := chkSa8At_ok h

/-- The sum of the zero-point corrected products of a convolution. -/
theorem conv_sum_le_zp {tin tw : Tensor} {c : ConvCfg} {src wts : Buf} {ih iw ic kh kw kc kn : Dim}
    (T : ConvT tin tw c src wts ih iw ic kh kw kc kn) (h : ic.shape = kc.shape) (z B : Int) (hB : 0 ≤ B)
    (hb : ∀ is js, InShape tin.shape is → InShape tw.shape js → |(src.get (tin.addr is) - z) * wts.get (tw.addr js)| ≤ B)
    {k : Int} (k0 : 0 ≤ k) (k1 : k < kn.shape) (y x : Int) :
    |convSum kh.shape kw.shape ic.shape (padded ih.shape iw.shape 0 fun r q k => inElem src tin r q k - z) (wtElem wts tw k)
      c.sh c.sw c.pt c.pl c.dh c.dw y x| ≤ taps kh kw ic * B := by
  have pi := T.vi.shape_pos
  have pw := T.vw.shape_pos
  simp only [T.di, T.dk, List.mem_cons, List.not_mem_nil, or_false, forall_eq_or_imp, forall_eq] at pi pw
  have hs := convSum_abs kh.shape.toNat kw.shape.toNat ic.shape.toNat ih.shape iw.shape (fun r q k => inElem src tin r q k - z)
    (wtElem wts tw k) c.sh c.sw c.pt c.pl c.dh c.dw y x B hB (by
      intro i j cc r q hi' hj hcc r0 r1 q0 q1
      apply hb
      · simp only [Tensor.shape, T.di, List.map_cons, List.map_nil, InShape]
        exact ⟨⟨r0, r1⟩, ⟨q0, q1⟩, by omega, trivial⟩
      · simp only [Tensor.shape, T.dk, List.map_cons, List.map_nil, InShape]
        exact ⟨by omega, by omega, by omega, by omega, trivial⟩)
  rw [show ((kh.shape.toNat : Nat) : Int) = kh.shape by omega, show ((kw.shape.toNat : Nat) : Int) = kw.shape by omega,
    show ((ic.shape.toNat : Nat) : Int) = ic.shape by omega] at hs
  rw [T.taps_eq]
  exact hs

/-- The sum of the zero-point corrected products of a depthwise convolution. -/
theorem dw_sum_le_zp {tin tw : Tensor} {c : ConvCfg} {src wts : Buf} {ih iw ic kh kw kc kn : Dim}
    (T : ConvT tin tw c src wts ih iw ic kh kw kc kn) (h : kc.shape = 1 ∧ kn.shape = ic.shape) (z B : Int) (hB : 0 ≤ B)
    (hb : ∀ is js, InShape tin.shape is → InShape tw.shape js → |(src.get (tin.addr is) - z) * wts.get (tw.addr js)| ≤ B)
    {k : Int} (k0 : 0 ≤ k) (k1 : k < kn.shape) (y x : Int) :
    |convSum kh.shape kw.shape 1 (padded ih.shape iw.shape 0 fun r q _ => inElem src tin r q k - z) (fun i j _ => wtElem wts tw k i j 0)
      c.sh c.sw c.pt c.pl c.dh c.dw y x| ≤ ((kh.shape.toNat * kw.shape.toNat : Nat) : Int) * B := by
  have pi := T.vi.shape_pos
  have pw := T.vw.shape_pos
  simp only [T.di, T.dk, List.mem_cons, List.not_mem_nil, or_false, forall_eq_or_imp, forall_eq] at pi pw
  have hs := convSum_abs kh.shape.toNat kw.shape.toNat 1 ih.shape iw.shape (fun r q _ => inElem src tin r q k - z)
    (fun i j _ => wtElem wts tw k i j 0) c.sh c.sw c.pt c.pl c.dh c.dw y x B hB (by
      intro i j cc r q hi' hj hcc r0 r1 q0 q1
      apply hb
      · simp only [Tensor.shape, T.di, List.map_cons, List.map_nil, InShape]
        exact ⟨⟨r0, r1⟩, ⟨q0, q1⟩, by omega, trivial⟩
      · simp only [Tensor.shape, T.dk, List.map_cons, List.map_nil, InShape]
        exact ⟨by omega, by omega, by omega, by omega, trivial⟩)
  rw [show ((kh.shape.toNat : Nat) : Int) = kh.shape by omega, show ((kw.shape.toNat : Nat) : Int) = kw.shape by omega] at hs
  rw [T.dw_taps_eq]
  simpa using hs

/-- The real number an accumulator stands for, in output steps from the zero point: the accumulator
times input scale times weights scale of channel `k` over output scale. -/
def Sa8Q.real (q : Sa8Q) (k acc : Int) : ℚ :=
  acc * (scaleVal (q.qi.scaleAt 0) (q.qi.fracAt 0) * scaleVal (q.qw.scaleAt k) (q.qw.fracAt k) /
    scaleVal (q.qo.scaleAt 0) (q.qo.fracAt 0))

/-- Conversion to the output format and built-in ReLU. -/
theorem castLimSa8_spec (m : Rnd) (full : Bool) (q : Sa8Q) {rt : Int × Int} {k acc : Int}
    (hrt : inToOut m (q.qi.scaleAt 0) (q.qi.fracAt 0) (q.qo.scaleAt 0) (q.qo.fracAt 0) = some rt)
    (hI : 0 < q.qi.scaleAt 0 ∧ InRange 16 (q.qi.scaleAt 0)) (hW : 0 < q.qw.scaleAt k ∧ InRange 16 (q.qw.scaleAt k))
    (hO : 0 < q.qo.scaleAt 0 ∧ InRange 16 (q.qo.scaleAt 0)) (hz : InRange 8 (q.qo.zpAt 0))
    (h6 : q.relu = .six → q.qo.zpAt 0 = 0 ∨ q.qo.fracAt 0 < 28) (h1 : q.relu = .one → q.qo.fracAt 0 < 30)
    (hr : InRange 32 acc) (hacc : full = true ∨ |acc| < 2 ^ 23 - 2 ^ 7) :
    ∃ v : Int, |(v : ℚ) - limitQ (-128) 127 (q.qo.zpAt 0 + q.real k acc)| ≤ 3 / 5 ∧
      NearestIn (q.relu.Admissible 8 (q.qo.zpAt 0) (q.qo.scaleAt 0) (q.qo.fracAt 0)) v (castLimSa8 m full q rt k acc) := by
  obtain ⟨mn, mx, hlim, -, -, b1, b2, hiff⟩ := reluLimits_iff 8 (by omega) q.relu (q.qo.zpAt 0) (q.qo.scaleAt 0) (q.qo.fracAt 0)
    hz hO.1 hO.2 h6 h1
  unfold castLimSa8
  simp only [hlim]
  rw [applyLimits_eq (by omega)]
  refine ⟨_, ?_, nearestIn_interval (by omega) hiff⟩
  cases full
  · obtain ⟨rt', e, h⟩ := c46_result_cast_partial m _ (q.qi.fracAt 0) _ (q.qw.fracAt k) _ (q.qo.fracAt 0) _ acc hI hW hO hz
      (hacc.resolve_left (by decide))
    rw [hrt] at e
    cases e
    exact h
  · obtain ⟨rt', e, h⟩ := c46_result_cast_full m _ (q.qi.fracAt 0) _ (q.qw.fracAt k) _ (q.qo.fracAt 0) _ acc hI hW hO hz hr
    rw [hrt] at e
    cases e
    exact h

theorem biasFor (full : Bool) {b acc : Int} (hb : InRange 32 b) (ha : InRange 32 acc) :
    ∃ b', biasS8 full b acc = clamp 32 (acc + b') ∧ BiasFor full b b' := by
  obtain ⟨b', h1, h2, h3, h4⟩ := c46_bias full hb ha
  exact ⟨b', h1, fun h => h.elim h2 h4, h3⟩

theorem zp_mul_le {x z w : Int} (hx : InRange 8 x) (hz : InRange 8 z) (hw : InRange 8 w) : |(x - z) * w| ≤ 2 ^ 15 := by
  obtain ⟨x1, x2⟩ := hx
  obtain ⟨z1, z2⟩ := hz
  obtain ⟨w1, w2⟩ := hw
  simp only [lo, hi] at *
  rw [abs_mul]
  calc |x - z| * |w| ≤ 2 ^ 8 * 2 ^ 7 := mul_le_mul (by rw [abs_le]; omega) (by rw [abs_le]; omega) (abs_nonneg _) (by decide)
    _ = 2 ^ 15 := by decide

/-- What an accepted call of `krnConvSa8` computes. -/
theorem krnConvSa8_exact (m : Rnd) (full : Bool) (ks : Int) (apart : Bool) (q : Sa8Q) (src wts bias dst : Buf)
    (tin tw tb tout : Tensor) (c : ConvCfg) (ih iw ic kh kw kn oh ow : Int)
    (A : ConvArgs tin tw tb tout c src wts bias dst 8 8 32)
    (tq : q.qi.Typed ∧ q.qw.Typed ∧ q.qo.Typed)
    (hck : chkConv false ks apart tin tw tb c tout = some .ok) (hq : chkSa8 m q tin tw tb tout = some .ok)
    (si : tin.shape = [ih, iw, ic]) (sk : tw.shape = [kh, kw, ic, kn]) (so : tout.shape = [oh, ow, kn])
    (hmeet : RowsMeet ih kh oh c) (ht : ic * (kh * kw) ≤ 65535) :
    ∃ rt dst' val, krnConvSa8 m full ks apart q src wts bias tin tw tb c tout dst = some (.ok, dst') ∧
      tout.Writes val dst dst' ∧
      inToOut m (q.qi.scaleAt 0) (q.qi.fracAt 0) (q.qo.scaleAt 0) (q.qo.fracAt 0) = some rt ∧
      ∀ y x k, InShape tout.shape [y, x, k] → InShape tb.shape [k] ∧ (0 ≤ k ∧ 0 < q.qw.scaleAt k) ∧
        InRange 32 (convSum kh kw ic (padded ih iw 0 fun r p k => inElem src tin r p k - q.qi.zpAt 0) (wtElem wts tw k)
            c.sh c.sw c.pt c.pl c.dh c.dw y x) ∧
        val [y, x, k] = castLimSa8 m full q rt k (biasS8 full (bias.get (tb.addr [k]))
          (convSum kh kw ic (padded ih iw 0 fun r p k => inElem src tin r p k - q.qi.zpAt 0) (wtElem wts tw k)
            c.sh c.sw c.pt c.pl c.dh c.dw y x)) := by
  obtain ⟨⟨d1, d2, d3⟩, ⟨I1, I2⟩, ⟨O1, O2⟩, hWt⟩ := chkSa8_ok hq
  obtain ⟨ih', iw', ic', kh', kw', kc', kn', bn', oh', ow', oc', i, o, w, H, W, R⟩ := conv_setup hck A.hc A.vi A.vw A.vb
  have sk0 := sk
  simp only [Tensor.shape, R.T.di, R.T.dk, R.dout, List.map_cons, List.map_nil, List.cons.injEq, and_true] at si sk so
  obtain ⟨rfl, rfl, rfl⟩ := si
  obtain ⟨rfl, rfl, -, rfl⟩ := sk
  obtain ⟨rfl, rfl, -⟩ := so
  have hch := R.hch.2 rfl
  rw [← R.T.taps_eq] at ht
  have pk := R.T.vw.shape_pos kn' (by simp [R.T.dk])
  rw [sk0] at hWt
  simp only [List.getD_cons_succ, List.getD_cons_zero] at hWt
  have hzw := (hWt 0 (by omega) (by omega)).2
  have zx16 : wrap 16 (-q.qi.zpAt 0) = -q.qi.zpAt 0 := by
    apply wrap_of_inRange (by omega)
    obtain ⟨a, b⟩ := I2
    simp only [lo, hi] at a b
    constructor <;> simp only [lo, hi] <;> omega
  obtain ⟨ratio, shift, hrt, -⟩ := c46_in_to_out m (q.qi.scaleAt 0) (q.qi.fracAt 0) (q.qo.scaleAt 0) (q.qo.fracAt 0) I1
    (tq.1.scaleAt 0) O1 (tq.2.2.scaleAt 0)
  obtain ⟨dst', val, r1, r2, r3⟩ := convBias_all R A.vo { aw := 32, zx := q.qi.zpAt 0, zw := q.qw.zpAt 0 }
    (fun oc b acc => castLimSa8 m full q (ratio, shift) oc (biasS8 full b acc)) hzw zx16 hmeet (2 ^ 14) (2 ^ 14)
    (fun is js hi hj => by simpa using abs_mul_le (a := 8) (b := 8) (by omega) (by omega) (A.hi is hi) (A.hw js hj))
    (fun js hj => by
      simpa [neg_mul, abs_neg] using abs_mul_le (a := 8) (b := 8) (by omega) (by omega) I2 (A.hw js hj)) (by simp only [hi]; omega)
  refine ⟨(ratio, shift), dst', val, ?_, r2, hrt, ?_⟩
  · unfold krnConvSa8
    simp only [hck, hq, hrt, Option.bind_eq_bind, Option.bind_some, ne_eq, not_true_eq_false, if_false, R.hi, R.ho, R.hw, R.adj, r1,
      Option.pure_def]
  · intro y x k hs
    have hk : 0 ≤ k ∧ k < kn'.shape := by
      simp only [Tensor.shape, R.dout, List.map_cons, List.map_nil, InShape, R.eo] at hs
      exact hs.2.2.1
    have hS := conv_sum_le_zp R.T hch (q.qi.zpAt 0) (2 ^ 15) (by decide)
      (fun is js h1 h2 => zp_mul_le (A.hi is h1) I2 (A.hw js h2)) hk.1 hk.2 y x
    have hS := abs_le.1 (hS.trans (show (taps kh' kw' ic' : Int) * 2 ^ 15 ≤ 2 ^ 31 - 1 by omega))
    have hSr : InRange 32 (convSum kh'.shape kw'.shape ic'.shape (padded ih'.shape iw'.shape 0 fun r p k => inElem src tin r p k - q.qi.zpAt 0)
      (wtElem wts tw k) c.sh c.sw c.pt c.pl c.dh c.dw y x) := ⟨by simp only [lo]; omega, by simp only [hi]; omega⟩
    exact ⟨R.bias_in hk, ⟨hk.1, (hWt k hk.1 (by omega)).1⟩, hSr, r3 y x k hs⟩

/-- C36 and C46, 8-bit asymmetric convolution: for every accepted call, each element of the output is the sum
of `(x - x_zp) * w` over the taps of its window that are inside of the input, plus the bias, rescaled, within 3/5 of an output
step, then limited by the built-in ReLU; no accumulation overflows.  Partial: at most 65535 taps; rows of windows as for
fixed point; in the default build the accumulator must be less than `2^23 - 2^7` (`c46_result_cast_violated`). -/
theorem c36_conv2d_sa8_partial (m : Rnd) (full : Bool) (ks : Int) (apart : Bool) (q : Sa8Q) (src wts bias dst : Buf)
    (tin tw tb tout : Tensor) (c : ConvCfg) (ih iw ic kh kw kn oh ow : Int)
    (A : ConvArgs tin tw tb tout c src wts bias dst 8 8 32)
    (tq : q.qi.Typed ∧ q.qw.Typed ∧ q.qo.Typed)
    (hck : chkConv false ks apart tin tw tb c tout = some .ok) (hq : chkSa8 m q tin tw tb tout = some .ok)
    (si : tin.shape = [ih, iw, ic]) (sk : tw.shape = [kh, kw, ic, kn]) (so : tout.shape = [oh, ow, kn])
    (hmeet : RowsMeet ih kh oh c) (ht : ic * (kh * kw) ≤ 65535)
    (h6 : q.relu = .six → q.qo.zpAt 0 = 0 ∨ q.qo.fracAt 0 < 28) (h1 : q.relu = .one → q.qo.fracAt 0 < 30) :
    ∃ dst' val, krnConvSa8 m full ks apart q src wts bias tin tw tb c tout dst = some (.ok, dst') ∧
      tout.Writes val dst dst' ∧ ∀ y x k, InShape tout.shape [y, x, k] →
        ∃ b' acc, BiasFor full (bias.get (tb.addr [k])) b' ∧
          acc = clamp 32 (convSum kh kw ic (padded ih iw 0 fun r p k => inElem src tin r p k - q.qi.zpAt 0) (wtElem wts tw k)
            c.sh c.sw c.pt c.pl c.dh c.dw y x + b') ∧
          (full = true ∨ |acc| < 2 ^ 23 - 2 ^ 7 → ∃ v : Int,
            |(v : ℚ) - limitQ (-128) 127 (q.qo.zpAt 0 + q.real k acc)| ≤ 3 / 5 ∧
            NearestIn (q.relu.Admissible 8 (q.qo.zpAt 0) (q.qo.scaleAt 0) (q.qo.fracAt 0)) v (val [y, x, k])) := by
  obtain ⟨⟨d1, d2, d3⟩, ⟨I1, I2⟩, ⟨O1, O2⟩, hWt⟩ := chkSa8_ok hq
  obtain ⟨rt, dst', val, r1, r2, hrt, r3⟩ := krnConvSa8_exact m full ks apart q src wts bias dst tin tw tb tout c ih iw ic kh kw kn oh ow A tq hck hq
    si sk so hmeet ht
  refine ⟨dst', val, r1, r2, fun y x k hs => ?_⟩
  obtain ⟨hb, hk, hSr, e0⟩ := r3 y x k hs
  obtain ⟨b', hb1, hb2⟩ := biasFor full (A.hb [k] hb) hSr
  refine ⟨b', _, hb2, rfl, ?_⟩
  intro hacc
  rw [e0, hb1]
  exact castLimSa8_spec m full q hrt ⟨I1, tq.1.scaleAt 0⟩ ⟨hk.2, tq.2.1.scaleAt k⟩ ⟨O1, tq.2.2.scaleAt 0⟩ O2 h6 h1
    (clamp_inRange _ _) hacc

/-- What an accepted call of `krnDwSa8` computes. -/
theorem krnDwSa8_exact (m : Rnd) (full : Bool) (ks : Int) (apart : Bool) (q : Sa8Q) (src wts bias dst : Buf)
    (tin tw tb tout : Tensor) (c : ConvCfg) (ih iw ic kh kw oh ow : Int)
    (A : ConvArgs tin tw tb tout c src wts bias dst 8 8 32)
    (tq : q.qi.Typed ∧ q.qw.Typed ∧ q.qo.Typed)
    (hck : chkConv true ks apart tin tw tb c tout = some .ok) (hq : chkSa8 m q tin tw tb tout = some .ok)
    (si : tin.shape = [ih, iw, ic]) (sk : tw.shape = [kh, kw, 1, ic]) (so : tout.shape = [oh, ow, ic])
    (ht : kh * kw ≤ 65535) :
    ∃ rt dst' val, krnDwSa8 m full ks apart q src wts bias tin tw tb c tout dst = some (.ok, dst') ∧
      tout.Writes val dst dst' ∧
      inToOut m (q.qi.scaleAt 0) (q.qi.fracAt 0) (q.qo.scaleAt 0) (q.qo.fracAt 0) = some rt ∧
      ∀ y x k, InShape tout.shape [y, x, k] → InShape tb.shape [k] ∧ (0 ≤ k ∧ 0 < q.qw.scaleAt k) ∧
        InRange 32 (convSum kh kw 1 (padded ih iw 0 fun r p _ => inElem src tin r p k - q.qi.zpAt 0)
            (fun i j _ => wtElem wts tw k i j 0) c.sh c.sw c.pt c.pl c.dh c.dw y x) ∧
        val [y, x, k] = castLimSa8 m full q rt k (biasS8 full (bias.get (tb.addr [k]))
          (convSum kh kw 1 (padded ih iw 0 fun r p _ => inElem src tin r p k - q.qi.zpAt 0)
            (fun i j _ => wtElem wts tw k i j 0) c.sh c.sw c.pt c.pl c.dh c.dw y x)) := by
  obtain ⟨⟨d1, d2, d3⟩, ⟨I1, I2⟩, ⟨O1, O2⟩, hWt⟩ := chkSa8_ok hq
  obtain ⟨ih', iw', ic', kh', kw', kc', kn', bn', oh', ow', oc', i, o, w, H, W, R⟩ := conv_setup hck A.hc A.vi A.vw A.vb
  have hch := R.hch.1 rfl
  have sk0 := sk
  simp only [Tensor.shape, R.T.di, R.T.dk, R.dout, List.map_cons, List.map_nil, List.cons.injEq, and_true] at si sk so
  obtain ⟨rfl, rfl, rfl⟩ := si
  obtain ⟨rfl, rfl, -, -⟩ := sk
  obtain ⟨rfl, rfl, -⟩ := so
  rw [← R.T.dw_taps_eq] at ht
  have pk := R.T.vw.shape_pos kn' (by simp [R.T.dk])
  rw [sk0] at hWt
  simp only [List.getD_cons_succ, List.getD_cons_zero] at hWt
  have hzw := (hWt 0 (by omega) (by omega)).2
  have zx16 : wrap 16 (-q.qi.zpAt 0) = -q.qi.zpAt 0 := by
    apply wrap_of_inRange (by omega)
    obtain ⟨a, b⟩ := I2
    simp only [lo, hi] at a b
    constructor <;> simp only [lo, hi] <;> omega
  obtain ⟨ratio, shift, hrt, -⟩ := c46_in_to_out m (q.qi.scaleAt 0) (q.qi.fracAt 0) (q.qo.scaleAt 0) (q.qo.fracAt 0) I1
    (tq.1.scaleAt 0) O1 (tq.2.2.scaleAt 0)
  obtain ⟨dst', val, r1, r2, r3⟩ := dwBias_all R A.vo { aw := 32, zx := q.qi.zpAt 0, zw := q.qw.zpAt 0 } (biasS8 full)
    (fun oc acc => castLimSa8 m full q (ratio, shift) oc acc) hzw zx16 (2 ^ 14) (2 ^ 14)
    (fun is js hi hj => by simpa using abs_mul_le (a := 8) (b := 8) (by omega) (by omega) (A.hi is hi) (A.hw js hj))
    (fun js hj => by
      simpa [neg_mul, abs_neg] using abs_mul_le (a := 8) (b := 8) (by omega) (by omega) I2 (A.hw js hj)) (by simp only [hi]; omega)
    (fun js hj a ha => by
      have ha := abs_le.1 ha
      obtain ⟨b', e, -⟩ := biasFor full (A.hb js hj) (acc := a) ⟨by have := lo_eq 32; have := hi_eq 32; simp only [] at ha; omega, ha.2⟩
      rw [e]
      exact clamp_inRange _ _)
  refine ⟨(ratio, shift), dst', val, ?_, r2, hrt, ?_⟩
  · unfold krnDwSa8
    simp only [hck, hq, hrt, Option.bind_eq_bind, Option.bind_some, ne_eq, not_true_eq_false, if_false, R.hi, R.ho, R.hw, R.adj, r1,
      Option.pure_def]
  · intro y x k hs
    have hk : 0 ≤ k ∧ k < kn'.shape := by
      simp only [Tensor.shape, R.dout, List.map_cons, List.map_nil, InShape, R.eo] at hs
      exact hs.2.2.1
    have hS := dw_sum_le_zp R.T hch (q.qi.zpAt 0) (2 ^ 15) (by decide)
      (fun is js h1 h2 => zp_mul_le (A.hi is h1) I2 (A.hw js h2)) hk.1 hk.2 y x
    have hS := abs_le.1 (hS.trans (show ((kh'.shape.toNat * kw'.shape.toNat : Nat) : Int) * 2 ^ 15 ≤ 2 ^ 31 - 1 by omega))
    have hSr : InRange 32 (convSum kh'.shape kw'.shape 1 (padded ih'.shape iw'.shape 0 fun r p _ => inElem src tin r p k - q.qi.zpAt 0)
      (fun i j _ => wtElem wts tw k i j 0) c.sh c.sw c.pt c.pl c.dh c.dw y x) := ⟨by simp only [lo]; omega, by simp only [hi]; omega⟩
    exact ⟨R.bias_in hk, ⟨hk.1, (hWt k hk.1 (by omega)).1⟩, hSr, r3 y x k hs⟩

/-- C36 and C46, 8-bit asymmetric depthwise convolution. -/
theorem c36_depthwise_sa8_partial (m : Rnd) (full : Bool) (ks : Int) (apart : Bool) (q : Sa8Q) (src wts bias dst : Buf)
    (tin tw tb tout : Tensor) (c : ConvCfg) (ih iw ic kh kw oh ow : Int)
    (A : ConvArgs tin tw tb tout c src wts bias dst 8 8 32)
    (tq : q.qi.Typed ∧ q.qw.Typed ∧ q.qo.Typed)
    (hck : chkConv true ks apart tin tw tb c tout = some .ok) (hq : chkSa8 m q tin tw tb tout = some .ok)
    (si : tin.shape = [ih, iw, ic]) (sk : tw.shape = [kh, kw, 1, ic]) (so : tout.shape = [oh, ow, ic])
    (ht : kh * kw ≤ 65535)
    (h6 : q.relu = .six → q.qo.zpAt 0 = 0 ∨ q.qo.fracAt 0 < 28) (h1 : q.relu = .one → q.qo.fracAt 0 < 30) :
    ∃ dst' val, krnDwSa8 m full ks apart q src wts bias tin tw tb c tout dst = some (.ok, dst') ∧
      tout.Writes val dst dst' ∧ ∀ y x k, InShape tout.shape [y, x, k] →
        ∃ b' acc, BiasFor full (bias.get (tb.addr [k])) b' ∧
          acc = clamp 32 (convSum kh kw 1 (padded ih iw 0 fun r p _ => inElem src tin r p k - q.qi.zpAt 0)
            (fun i j _ => wtElem wts tw k i j 0) c.sh c.sw c.pt c.pl c.dh c.dw y x + b') ∧
          (full = true ∨ |acc| < 2 ^ 23 - 2 ^ 7 → ∃ v : Int,
            |(v : ℚ) - limitQ (-128) 127 (q.qo.zpAt 0 + q.real k acc)| ≤ 3 / 5 ∧
            NearestIn (q.relu.Admissible 8 (q.qo.zpAt 0) (q.qo.scaleAt 0) (q.qo.fracAt 0)) v (val [y, x, k])) := by
  obtain ⟨⟨d1, d2, d3⟩, ⟨I1, I2⟩, ⟨O1, O2⟩, hWt⟩ := chkSa8_ok hq
  obtain ⟨rt, dst', val, r1, r2, hrt, r3⟩ := krnDwSa8_exact m full ks apart q src wts bias dst tin tw tb tout c ih iw ic kh kw oh ow A tq hck hq
    si sk so ht
  refine ⟨dst', val, r1, r2, fun y x k hs => ?_⟩
  obtain ⟨hb, hk, hSr, e0⟩ := r3 y x k hs
  obtain ⟨b', hb1, hb2⟩ := biasFor full (A.hb [k] hb) hSr
  refine ⟨b', _, hb2, rfl, ?_⟩
  intro hacc
  rw [e0, hb1]
  exact castLimSa8_spec m full q hrt ⟨I1, tq.1.scaleAt 0⟩ ⟨hk.2, tq.2.1.scaleAt k⟩ ⟨O1, tq.2.2.scaleAt 0⟩ O2 h6 h1
    (clamp_inRange _ _) hacc

end Mli
