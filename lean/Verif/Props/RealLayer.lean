import Verif.Lemmas.RealLayer
import Verif.Lemmas.Accept
import Verif.Spec.Fc
import Verif.Props.ConvSa8
import Verif.Props.Fc
import Verif.Props.GroupConv
import Verif.Props.TransposeConv

/-!
# C100: the layers in real numbers

The elements of input, weights and bias stand for real numbers.  The element that a convolution or fully connected kernel writes stands for a number
that differs from the sum of products plus bias, limited by the ReLU and by the range of the output type, by a stated number of output
steps, plus what the format of the bias costs.
-/

namespace Mli

open Spec

/-! ## Sums -/

theorem convSumQ_eq {kh kw ic : Int} {X W : Int → Int → Int → Int} {XQ WQ : Int → Int → Int → ℚ} (α β : ℚ)
    (hX : ∀ r q c, XQ r q c = X r q c * α) (hW : ∀ r q c, WQ r q c = W r q c * β) (sh sw pt pl dh dw y x : Int) :
    convSumQ kh kw ic XQ WQ sh sw pt pl dh dw y x = α * β * (convSum kh kw ic X W sh sw pt pl dh dw y x : Int) := by
  unfold convSumQ convSum
  push_cast
  simp only [Finset.mul_sum]
  refine Finset.sum_congr rfl fun i _ => Finset.sum_congr rfl fun j _ => Finset.sum_congr rfl fun c _ => ?_
  rw [hX, hW]
  ring

theorem scatterSumQ_eq {ih iw kh kw ic : Int} {X W : Int → Int → Int → Int} {XQ WQ : Int → Int → Int → ℚ} (α β : ℚ)
    (hX : ∀ r q c, XQ r q c = X r q c * α) (hW : ∀ r q c, WQ r q c = W r q c * β) (sh sw pt pl y x : Int) :
    scatterSumQ ih iw kh kw ic XQ WQ sh sw pt pl y x = α * β * (scatterSum ih iw kh kw ic X W sh sw pt pl y x : Int) := by
  unfold scatterSumQ scatterSum
  push_cast
  simp only [Finset.mul_sum]
  refine Finset.sum_congr rfl fun i _ => Finset.sum_congr rfl fun j _ => Finset.sum_congr rfl fun k _ => Finset.sum_congr rfl fun l _ => ?_
  split
  · rw [Finset.mul_sum]
    refine Finset.sum_congr rfl fun c _ => ?_
    rw [hX, hW]
    ring
  · rw [mul_zero]

theorem dotSumQ_eq {n : Int} {X W : Int → Int} {XQ WQ : Int → ℚ} (α β : ℚ) (hX : ∀ i, XQ i = X i * α) (hW : ∀ i, WQ i = W i * β) :
    dotSumQ n XQ WQ = α * β * (dotSum n X W : Int) := by
  unfold dotSumQ dotSum
  push_cast
  rw [Finset.mul_sum]
  refine Finset.sum_congr rfl fun i _ => ?_
  rw [hX, hW]
  ring

theorem paddedQ_eq {ih iw : Int} {X : Int → Int → Int → Int} {XQ : Int → Int → Int → ℚ} (α : ℚ) (hX : ∀ r q c, XQ r q c = X r q c * α) (r q c : Int) :
    paddedQ ih iw XQ r q c = padded ih iw 0 X r q c * α := by
  unfold paddedQ padded
  split
  · exact hX r q c
  · simp

/-! ## 8-bit asymmetric -/

/-- The step of the output. -/
def Sa8Q.step (q : Sa8Q) : ℚ := scaleVal (q.qo.scaleAt 0) (q.qo.fracAt 0)

/-- The product of the scales of input and weights, for output channel `k`. -/
def Sa8Q.inScale (q : Sa8Q) (k : Int) : ℚ := scaleVal (q.qi.scaleAt 0) (q.qi.fracAt 0) * scaleVal (q.qw.scaleAt k) (q.qw.fracAt k)

/-- What the bias `b` of channel `k` costs: its scale is not exactly the product of the scales of input and weights, and in the default build only
16 bits of it are used. -/
def Sa8Q.biasErr (q : Sa8Q) (full : Bool) (k b : Int) : ℚ :=
  |(b : ℚ)| * ((if full = true ∨ |b| < 2 ^ 15 then 0 else q.inScale k / 2 ^ 14) + |q.inScale k - scaleVal (q.qb.scaleAt k) (q.qb.fracAt k)|)

/-- The accumulator is large enough: 32 bits in builds with `FULL_ACCU`, otherwise 24 (the limit of the multiplication in the default
build, see `c46_result_cast_violated`). -/
def SumFits (full : Bool) (S b : Int) : Prop := |S| + |b| < if full then 2 ^ 31 else 2 ^ 23 - 2 ^ 10

instance (full : Bool) (S b : Int) : Decidable (SumFits full S b) := by unfold SumFits; infer_instance

/-- The error of a kernel whose output element `y` should stand for `r`. -/
def Sa8Q.Close (q : Sa8Q) (full : Bool) (k b y : Int) (r : ℚ) : Prop :=
  |saNum q.qo 0 y - reluQ q.relu (limitQ (saNum q.qo 0 (-128)) (saNum q.qo 0 127) r)| ≤ reluErr (3 / 5) q.relu * q.step + q.biasErr full k b

theorem sa8_real {full : Bool} {q : Sa8Q} {k S b b' acc y : Int} (hI : 0 < q.qi.scaleAt 0) (hW : 0 < q.qw.scaleAt k) (hO : 0 < q.qo.scaleAt 0)
    (hz : InRange 8 (q.qo.zpAt 0)) (hzb : q.qb.zpAt k = 0) (hb : BiasFor full b b') (hacc : acc = clamp 32 (S + b')) (hfit : SumFits full S b)
    (h : full = true ∨ |acc| < 2 ^ 23 - 2 ^ 7 → ∃ v : Int, |(v : ℚ) - limitQ (-128) 127 (q.qo.zpAt 0 + q.real k acc)| ≤ 3 / 5 ∧
      NearestIn (q.relu.Admissible 8 (q.qo.zpAt 0) (q.qo.scaleAt 0) (q.qo.fracAt 0)) v y) :
    q.Close full k b y (q.inScale k * S + saNum q.qb k b) := by
  obtain ⟨hb1, hb2⟩ := hb
  unfold SumFits at hfit
  have eacc : acc = S + b' ∧ (full = true ∨ |acc| < 2 ^ 23 - 2 ^ 7) := by
    have t1 := abs_add_le S b'
    have t2 : |b'| ≤ |b| + |b' - b| := by
      have := abs_add_le b (b' - b)
      rwa [add_sub_cancel] at this
    cases full
    · rw [if_neg (by decide)] at hfit
      have hS0 := abs_nonneg S
      have e : clamp 32 (S + b') = S + b' := by
        apply clamp_of_inRange
        have := abs_le.1 (show |S + b'| ≤ 2 ^ 23 by omega)
        constructor <;> simp only [lo, hi] <;> omega
      rw [hacc, e]
      exact ⟨rfl, .inr (by omega)⟩
    · rw [if_pos rfl] at hfit
      have e0 := hb1 (.inl rfl)
      subst e0
      have e : clamp 32 (S + b') = S + b' := by
        apply clamp_of_inRange
        have := abs_le.1 (show |S + b'| ≤ 2 ^ 31 - 1 by omega)
        constructor <;> simp only [lo, hi] <;> omega
      rw [hacc, e]
      exact ⟨rfl, .inl rfl⟩
  obtain ⟨ea, hc⟩ := eacc
  obtain ⟨v, hv, hn⟩ := h hc
  have hp : 0 < q.inScale k := mul_pos (scaleVal_pos hI) (scaleVal_pos hW)
  have hs : 0 < q.step := scaleVal_pos hO
  have l8 : ((lo 8 : Int) : ℚ) = -128 := by norm_num [lo]
  have h8 : ((hi 8 : Int) : ℚ) = 127 := by norm_num [hi]
  have main := relu_real q.relu hz hO hn (t := q.qo.zpAt 0 + q.real k acc) (e := 3 / 5) (by rw [l8, h8]; exact hv) (by norm_num)
  rw [l8, h8] at main
  have er : ((q.qo.zpAt 0 : ℚ) + q.real k acc - q.qo.zpAt 0) * scaleVal (q.qo.scaleAt 0) (q.qo.fracAt 0) = acc * q.inScale k := by
    unfold Sa8Q.real
    rw [add_sub_cancel_left, mul_assoc, div_mul_cancel₀ _ (scaleVal_pos hO).ne']
    rfl
  rw [er] at main
  unfold Sa8Q.Close
  have en : saNum q.qo 0 (-128) = (-128 - q.qo.zpAt 0) * scaleVal (q.qo.scaleAt 0) (q.qo.fracAt 0) := by
    unfold saNum; push_cast; rfl
  have em : saNum q.qo 0 127 = (127 - q.qo.zpAt 0) * scaleVal (q.qo.scaleAt 0) (q.qo.fracAt 0) := by
    unfold saNum; push_cast; rfl
  rw [en, em]
  have lip := (reluQ_lip q.relu (limitQ ((-128 - q.qo.zpAt 0) * scaleVal (q.qo.scaleAt 0) (q.qo.fracAt 0))
      ((127 - q.qo.zpAt 0) * scaleVal (q.qo.scaleAt 0) (q.qo.fracAt 0)) (acc * q.inScale k))
    (limitQ ((-128 - q.qo.zpAt 0) * scaleVal (q.qo.scaleAt 0) (q.qo.fracAt 0))
      ((127 - q.qo.zpAt 0) * scaleVal (q.qo.scaleAt 0) (q.qo.fracAt 0)) (q.inScale k * S + saNum q.qb k b))).trans (limitQ_lip _ _ _ _)
  have hbias : |acc * q.inScale k - (q.inScale k * S + saNum q.qb k b)| ≤ q.biasErr full k b := by
    unfold saNum Sa8Q.biasErr
    rw [hzb, ea]
    have e1 : (((S + b' : Int) : ℚ) * q.inScale k - (q.inScale k * S + (b - ((0 : Int) : ℚ)) * scaleVal (q.qb.scaleAt k) (q.qb.fracAt k))) =
        ((b' - b : Int) : ℚ) * q.inScale k + b * (q.inScale k - scaleVal (q.qb.scaleAt k) (q.qb.fracAt k)) := by
      push_cast; ring
    rw [e1]
    refine (abs_add_le _ _).trans ?_
    rw [abs_mul, abs_mul, mul_add, abs_of_pos hp]
    refine add_le_add ?_ (le_refl _)
    split
    · rename_i hc'
      rw [hb1 hc', sub_self]
      simp
    · have hb2' : |((b' - b : Int) : ℚ)| * 2 ^ 14 ≤ |(b : ℚ)| := by exact_mod_cast hb2
      have : |((b' - b : Int) : ℚ)| ≤ |(b : ℚ)| / 2 ^ 14 := by rw [le_div_iff₀ (by positivity)]; exact hb2'
      calc |((b' - b : Int) : ℚ)| * q.inScale k ≤ |(b : ℚ)| / 2 ^ 14 * q.inScale k := mul_le_mul_of_nonneg_right this hp.le
        _ = _ := by ring
  refine (abs_sub_le _ _ _).trans (add_le_add ?_ (lip.trans hbias))
  exact main

theorem chkSa8At_bias {d : Nat} {m : Rnd} {q : Sa8Q} {tin tw tb tout : Tensor} (h : chkSa8At d m q tin tw tb tout = some .ok) {k : Int}
    (hk : 0 ≤ k ∧ k < tb.shape.getD 0 0) : q.qb.zpAt k = 0 := by
  unfold chkSa8At at h
  simp only [] at h
  split at h
  · rename_i h'; exact absurd (Option.some.inj h) h'
  split at h
  · rename_i h'; exact absurd (Option.some.inj h) h'
  split at h
  · rename_i h'; exact absurd (Option.some.inj h) h'
  split at h
  · rename_i h'; exact absurd (Option.some.inj h) h'
  rename_i h4
  split at h
  · cases h
  rename_i h5
  split at h
  · cases h
  rename_i h6
  have c := chkQuant_ok (not_not.1 h4) (k := k) (by
    by_cases hd : q.qb.dim < 0
    · exact Or.inl hd
    · have : q.qb.dim = 0 := by omega
      right
      rw [this]
      exact hk)
  simp only [if_true] at c
  omega

/-- The real convolution of an 8-bit asymmetric call, for output channel `k`. -/
def Sa8Q.conv (q : Sa8Q) (src wts bias : Buf) (tin tw tb : Tensor) (c : ConvCfg) (ih iw ic kh kw y x k : Int) : ℚ :=
  convSumQ kh kw ic (paddedQ ih iw fun r p ch => saNum q.qi 0 (src.get (tin.addr [r, p, ch])))
    (fun i j ch => saNum q.qw k (wts.get (tw.addr [i, j, ch, k]))) c.sh c.sw c.pt c.pl c.dh c.dw y x + saNum q.qb k (bias.get (tb.addr [k]))

/-- **C100**, 8-bit asymmetric convolution.  Partial: the conditions of `c36_conv2d_sa8_partial`, and sums that fit the accumulator. -/
theorem c100_conv2d_sa8_partial (m : Rnd) (full : Bool) (ks : Int) (apart : Bool) (q : Sa8Q) (src wts bias dst : Buf)
    (tin tw tb tout : Tensor) (c : ConvCfg) (ih iw ic kh kw kn oh ow : Int)
    (A : ConvArgs tin tw tb tout c src wts bias dst 8 8 32)
    (tq : q.qi.Typed ∧ q.qw.Typed ∧ q.qo.Typed)
    (hck : chkConv false ks apart tin tw tb c tout = some .ok) (hq : chkSa8 m q tin tw tb tout = some .ok)
    (si : tin.shape = [ih, iw, ic]) (sk : tw.shape = [kh, kw, ic, kn]) (sb : tb.shape = [kn]) (so : tout.shape = [oh, ow, kn])
    (hmeet : RowsMeet ih kh oh c) (ht : ic * (kh * kw) ≤ 65535)
    (h6 : q.relu = .six → q.qo.zpAt 0 = 0 ∨ q.qo.fracAt 0 < 28) (h1 : q.relu = .one → q.qo.fracAt 0 < 30) :
    ∃ dst' val, krnConvSa8 m full ks apart q src wts bias tin tw tb c tout dst = some (.ok, dst') ∧
      tout.Writes val dst dst' ∧ ∀ y x k, InShape tout.shape [y, x, k] →
        SumFits full (convSum kh kw ic (padded ih iw 0 fun r p ch => src.get (tin.addr [r, p, ch]) - q.qi.zpAt 0)
          (fun i j ch => wts.get (tw.addr [i, j, ch, k])) c.sh c.sw c.pt c.pl c.dh c.dw y x) (bias.get (tb.addr [k])) →
        q.Close full k (bias.get (tb.addr [k])) (val [y, x, k]) (q.conv src wts bias tin tw tb c ih iw ic kh kw y x k) := by
  obtain ⟨-, ⟨I1, -⟩, ⟨O1, O2⟩, hWt⟩ := chkSa8_ok hq
  obtain ⟨dst', val, r1, r2, r3⟩ := c36_conv2d_sa8_partial m full ks apart q src wts bias dst tin tw tb tout c ih iw ic kh kw kn oh ow A tq hck hq
    si sk so hmeet ht h6 h1
  refine ⟨dst', val, r1, r2, fun y x k hs hfit => ?_⟩
  obtain ⟨b', acc, hb, hacc, h⟩ := r3 y x k hs
  have hk : 0 ≤ k ∧ k < kn := by rw [so] at hs; exact hs.2.2.1
  obtain ⟨hw1, hw2⟩ := hWt k hk.1 (by rw [sk]; exact hk.2)
  have hzb := chkSa8At_bias hq (k := k) (by rw [sb]; exact hk)
  have main := sa8_real I1 hw1 O1 O2 hzb hb hacc hfit h
  have e := convSumQ_eq (scaleVal (q.qi.scaleAt 0) (q.qi.fracAt 0)) (scaleVal (q.qw.scaleAt k) (q.qw.fracAt k)) (kh := kh) (kw := kw) (ic := ic)
    (X := padded ih iw 0 fun r p ch => src.get (tin.addr [r, p, ch]) - q.qi.zpAt 0) (W := fun i j ch => wts.get (tw.addr [i, j, ch, k]))
    (XQ := paddedQ ih iw fun r p ch => saNum q.qi 0 (src.get (tin.addr [r, p, ch]))) (WQ := fun i j ch => saNum q.qw k (wts.get (tw.addr [i, j, ch, k])))
    (paddedQ_eq _ fun r p ch => by unfold saNum; push_cast; rfl) (fun i j ch => by unfold saNum; rw [hw2]; simp) c.sh c.sw c.pt c.pl c.dh c.dw y x
  unfold Sa8Q.conv
  rw [e]
  exact main

/-- **C100**, 8-bit asymmetric depthwise convolution: channel `k` of the output only sees channel `k` of the input. -/
theorem c100_depthwise_sa8_partial (m : Rnd) (full : Bool) (ks : Int) (apart : Bool) (q : Sa8Q) (src wts bias dst : Buf)
    (tin tw tb tout : Tensor) (c : ConvCfg) (ih iw ic kh kw oh ow : Int)
    (A : ConvArgs tin tw tb tout c src wts bias dst 8 8 32)
    (tq : q.qi.Typed ∧ q.qw.Typed ∧ q.qo.Typed)
    (hck : chkConv true ks apart tin tw tb c tout = some .ok) (hq : chkSa8 m q tin tw tb tout = some .ok)
    (si : tin.shape = [ih, iw, ic]) (sk : tw.shape = [kh, kw, 1, ic]) (sb : tb.shape = [ic]) (so : tout.shape = [oh, ow, ic])
    (ht : kh * kw ≤ 65535)
    (h6 : q.relu = .six → q.qo.zpAt 0 = 0 ∨ q.qo.fracAt 0 < 28) (h1 : q.relu = .one → q.qo.fracAt 0 < 30) :
    ∃ dst' val, krnDwSa8 m full ks apart q src wts bias tin tw tb c tout dst = some (.ok, dst') ∧
      tout.Writes val dst dst' ∧ ∀ y x k, InShape tout.shape [y, x, k] →
        SumFits full (convSum kh kw 1 (padded ih iw 0 fun r p _ => src.get (tin.addr [r, p, k]) - q.qi.zpAt 0)
          (fun i j _ => wts.get (tw.addr [i, j, 0, k])) c.sh c.sw c.pt c.pl c.dh c.dw y x) (bias.get (tb.addr [k])) →
        q.Close full k (bias.get (tb.addr [k])) (val [y, x, k])
          (convSumQ kh kw 1 (paddedQ ih iw fun r p _ => saNum q.qi 0 (src.get (tin.addr [r, p, k])))
            (fun i j _ => saNum q.qw k (wts.get (tw.addr [i, j, 0, k]))) c.sh c.sw c.pt c.pl c.dh c.dw y x + saNum q.qb k (bias.get (tb.addr [k]))) := by
  obtain ⟨-, ⟨I1, -⟩, ⟨O1, O2⟩, hWt⟩ := chkSa8_ok hq
  obtain ⟨dst', val, r1, r2, r3⟩ := c36_depthwise_sa8_partial m full ks apart q src wts bias dst tin tw tb tout c ih iw ic kh kw oh ow A tq hck hq
    si sk so ht h6 h1
  refine ⟨dst', val, r1, r2, fun y x k hs hfit => ?_⟩
  obtain ⟨b', acc, hb, hacc, h⟩ := r3 y x k hs
  have hk : 0 ≤ k ∧ k < ic := by rw [so] at hs; exact hs.2.2.1
  obtain ⟨hw1, hw2⟩ := hWt k hk.1 (by rw [sk]; exact hk.2)
  have hzb := chkSa8At_bias hq (k := k) (by rw [sb]; exact hk)
  have main := sa8_real I1 hw1 O1 O2 hzb hb hacc hfit h
  have e := convSumQ_eq (scaleVal (q.qi.scaleAt 0) (q.qi.fracAt 0)) (scaleVal (q.qw.scaleAt k) (q.qw.fracAt k)) (kh := kh) (kw := kw) (ic := 1)
    (X := padded ih iw 0 fun r p _ => src.get (tin.addr [r, p, k]) - q.qi.zpAt 0) (W := fun i j _ => wts.get (tw.addr [i, j, 0, k]))
    (XQ := paddedQ ih iw fun r p _ => saNum q.qi 0 (src.get (tin.addr [r, p, k]))) (WQ := fun i j _ => saNum q.qw k (wts.get (tw.addr [i, j, 0, k])))
    (paddedQ_eq _ fun r p ch => by unfold saNum; push_cast; rfl) (fun i j ch => by unfold saNum; rw [hw2]; simp) c.sh c.sw c.pt c.pl c.dh c.dw y x
  rw [e]
  exact main

/-- **C100**, 8-bit asymmetric group convolution: filter `i` of group `j` sees the channels of group `j`. -/
theorem c100_group_sa8_partial (m : Rnd) (full : Bool) (ks : Int) (apart : Bool) (q : Sa8Q) (src wts bias dst : Buf)
    (tin tw tb tout : Tensor) (c : ConvCfg) (ih iw kh kw kc g n oh ow : Int)
    (A : ConvArgs tin tw tb tout c src wts bias dst 8 8 32)
    (tq : q.qi.Typed ∧ q.qw.Typed ∧ q.qo.Typed)
    (hck : chkGroup ks apart tin tw tb c tout = some .ok) (hq : chkSa8 m q tin tw tb tout = some .ok)
    (si : tin.shape = [ih, iw, g * kc]) (sk : tw.shape = [kh, kw, kc, g * n]) (sb : tb.shape = [g * n]) (so : tout.shape = [oh, ow, g * n])
    (hmeet : RowsMeet ih kh oh c) (ht : kc * (kh * kw) ≤ 65535)
    (h6 : q.relu = .six → q.qo.zpAt 0 = 0 ∨ q.qo.fracAt 0 < 28) (h1 : q.relu = .one → q.qo.fracAt 0 < 30) :
    ∃ dst' val, krnGroupSa8 m full ks apart q src wts bias tin tw tb c tout dst = some (.ok, dst') ∧
      tout.Writes val dst dst' ∧ ∀ y x j i, 0 ≤ j → j < g → 0 ≤ i → i < n → InShape tout.shape [y, x, j * n + i] →
        SumFits full (convSum kh kw kc (padded ih iw 0 fun r p ch => src.get (tin.addr [r, p, j * kc + ch]) - q.qi.zpAt 0)
          (fun a b ch => wts.get (tw.addr [a, b, ch, j * n + i])) c.sh c.sw c.pt c.pl c.dh c.dw y x) (bias.get (tb.addr [j * n + i])) →
        q.Close full (j * n + i) (bias.get (tb.addr [j * n + i])) (val [y, x, j * n + i])
          (convSumQ kh kw kc (paddedQ ih iw fun r p ch => saNum q.qi 0 (src.get (tin.addr [r, p, j * kc + ch])))
            (fun a b ch => saNum q.qw (j * n + i) (wts.get (tw.addr [a, b, ch, j * n + i]))) c.sh c.sw c.pt c.pl c.dh c.dw y x +
            saNum q.qb (j * n + i) (bias.get (tb.addr [j * n + i]))) := by
  obtain ⟨-, ⟨I1, -⟩, ⟨O1, O2⟩, hWt⟩ := chkSa8_ok hq
  obtain ⟨dst', val, r1, r2, r3⟩ := c57_sa8_partial m full ks apart q src wts bias dst tin tw tb tout c ih iw kh kw kc g n oh ow A tq hck hq
    si sk so hmeet ht h6 h1
  refine ⟨dst', val, r1, r2, fun y x j i j0 j1 i0 i1 hs hfit => ?_⟩
  obtain ⟨b', acc, hb, hacc, h⟩ := r3 y x j i j0 j1 i0 i1 hs
  have hk : 0 ≤ j * n + i ∧ j * n + i < g * n := by rw [so] at hs; exact hs.2.2.1
  generalize j * n + i = k at *
  obtain ⟨hw1, hw2⟩ := hWt k hk.1 (by rw [sk]; exact hk.2)
  have hzb := chkSa8At_bias hq (k := k) (by rw [sb]; exact hk)
  have main := sa8_real I1 hw1 O1 O2 hzb hb hacc hfit h
  have e := convSumQ_eq (scaleVal (q.qi.scaleAt 0) (q.qi.fracAt 0)) (scaleVal (q.qw.scaleAt k) (q.qw.fracAt k)) (kh := kh) (kw := kw) (ic := kc)
    (X := padded ih iw 0 fun r p ch => src.get (tin.addr [r, p, j * kc + ch]) - q.qi.zpAt 0) (W := fun a b ch => wts.get (tw.addr [a, b, ch, k]))
    (XQ := paddedQ ih iw fun r p ch => saNum q.qi 0 (src.get (tin.addr [r, p, j * kc + ch]))) (WQ := fun a b ch => saNum q.qw k (wts.get (tw.addr [a, b, ch, k])))
    (paddedQ_eq _ fun r p ch => by unfold saNum; push_cast; rfl) (fun i j ch => by unfold saNum; rw [hw2]; simp) c.sh c.sw c.pt c.pl c.dh c.dw y x
  rw [e]
  exact main

/-- **C100**, 8-bit asymmetric transposed convolution. -/
theorem c100_transpose_sa8_partial (m : Rnd) (full : Bool) (ks : Int) (apart : Bool) (q : Sa8Q) (src wts bias dst : Buf)
    (tin tw tb tout : Tensor) (c : ConvCfg) (ih iw ic kh kw kn oh ow : Int)
    (A : ConvArgs tin tw tb tout c src wts bias dst 8 8 32)
    (tq : q.qi.Typed ∧ q.qw.Typed ∧ q.qo.Typed)
    (hck : chkTc apart tin tw tb c tout = some .ok) (hq : chkSa8 m q tin tw tb tout = some .ok) (hsp : chkTcSpec ks tw c = .ok)
    (si : tin.shape = [ih, iw, ic]) (sk : tw.shape = [kh, kw, ic, kn]) (sb : tb.shape = [kn]) (so : tout.shape = [oh, ow, kn])
    (ht : ic * (kh * kw) ≤ 65535)
    (h6 : q.relu = .six → q.qo.zpAt 0 = 0 ∨ q.qo.fracAt 0 < 28) (h1 : q.relu = .one → q.qo.fracAt 0 < 30) :
    ∃ dst' val, krnTcSa8 m full ks apart q src wts bias tin tw tb c tout dst = some (.ok, dst') ∧
      tout.Writes val dst dst' ∧ ∀ y x k, InShape tout.shape [y, x, k] →
        SumFits full (scatterSum ih iw kh kw ic (fun r p ch => src.get (tin.addr [r, p, ch]) - q.qi.zpAt 0)
          (fun i j ch => wts.get (tw.addr [i, j, ch, k])) c.sh c.sw c.pt c.pl y x) (bias.get (tb.addr [k])) →
        q.Close full k (bias.get (tb.addr [k])) (val [y, x, k])
          (scatterSumQ ih iw kh kw ic (fun r p ch => saNum q.qi 0 (src.get (tin.addr [r, p, ch])))
            (fun i j ch => saNum q.qw k (wts.get (tw.addr [i, j, ch, k]))) c.sh c.sw c.pt c.pl y x + saNum q.qb k (bias.get (tb.addr [k]))) := by
  obtain ⟨-, ⟨I1, -⟩, ⟨O1, O2⟩, hWt⟩ := chkSa8_ok hq
  obtain ⟨dst', val, r1, r2, r3⟩ := c45_sa8 m full ks apart q src wts bias dst tin tw tb tout c ih iw ic kh kw kn oh ow A tq hck hq hsp
    si sk so ht h6 h1
  refine ⟨dst', val, r1, r2, fun y x k hs hfit => ?_⟩
  obtain ⟨b', acc, hb, hacc, h⟩ := r3 y x k hs
  have hk : 0 ≤ k ∧ k < kn := by rw [so] at hs; exact hs.2.2.1
  obtain ⟨hw1, hw2⟩ := hWt k hk.1 (by rw [sk]; exact hk.2)
  have hzb := chkSa8At_bias hq (k := k) (by rw [sb]; exact hk)
  have main := sa8_real I1 hw1 O1 O2 hzb hb hacc hfit h
  have e := scatterSumQ_eq (scaleVal (q.qi.scaleAt 0) (q.qi.fracAt 0)) (scaleVal (q.qw.scaleAt k) (q.qw.fracAt k)) (ih := ih) (iw := iw) (kh := kh)
    (kw := kw) (ic := ic) (X := fun r p ch => src.get (tin.addr [r, p, ch]) - q.qi.zpAt 0) (W := fun i j ch => wts.get (tw.addr [i, j, ch, k]))
    (XQ := fun r p ch => saNum q.qi 0 (src.get (tin.addr [r, p, ch]))) (WQ := fun i j ch => saNum q.qw k (wts.get (tw.addr [i, j, ch, k])))
    (fun r p ch => by unfold saNum; push_cast; rfl) (fun i j ch => by unfold saNum; rw [hw2]; simp) c.sh c.sw c.pt c.pl y x
  rw [e]
  exact main

/-- **C100**, 8-bit asymmetric fully connected layer.  For the kernel with extended bias (`ext`) the input is taken without its zero point, whose
contribution is part of the bias. -/
theorem c100_fc_sa8_partial (m : Rnd) (full ext apart : Bool) (q : Sa8Q) (src wts bias dst : Buf) (tin tw tb tout : Tensor) (n k : Int)
    (A : FcArgs tin tw tb tout src wts bias dst 8 8 32) (tq : q.qi.Typed ∧ q.qw.Typed ∧ q.qo.Typed)
    (hck : chkFc apart tin tw tb tout = some .ok) (hq : chkSa8At 1 m q tin tw tb tout = some .ok) (sw : tw.shape = [n, k]) (sb : tb.shape = [k])
    (so : tout.shape = [k])
    (hn : n ≤ 65536) (h6 : q.relu = .six → q.qo.zpAt 0 = 0 ∨ q.qo.fracAt 0 < 28) (h1 : q.relu = .one → q.qo.fracAt 0 < 30) :
    ∃ dst' val X, tin.Flat src X ∧ krnFcSa8 m full ext apart q src wts bias tin tw tb tout dst = some (.ok, dst') ∧
      tout.Writes val dst dst' ∧ ∀ o, InShape tout.shape [o] →
        SumFits full (dotSum n (fun i => X i - if ext then 0 else q.qi.zpAt 0) (fun i => wts.get (tw.addr [i, o]))) (bias.get (tb.addr [o])) →
        q.Close full o (bias.get (tb.addr [o])) (val [o])
          (dotSumQ n (fun i => if ext then X i * scaleVal (q.qi.scaleAt 0) (q.qi.fracAt 0) else saNum q.qi 0 (X i))
            (fun i => saNum q.qw o (wts.get (tw.addr [i, o]))) + saNum q.qb o (bias.get (tb.addr [o]))) := by
  obtain ⟨-, ⟨I1, -⟩, ⟨O1, O2⟩, hWt⟩ := chkSa8At_ok hq
  obtain ⟨dst', val, X, hX, r1, r2, r3⟩ := c39_sa8_partial m full ext apart q src wts bias dst tin tw tb tout n k A tq hck hq sw hn h6 h1
  refine ⟨dst', val, X, hX, r1, r2, fun o hs hfit => ?_⟩
  obtain ⟨b', acc, hb, hacc, h⟩ := r3 o hs
  have hk : 0 ≤ o ∧ o < k := by rw [so] at hs; exact hs.1
  obtain ⟨hw1, hw2⟩ := hWt o hk.1 (by rw [sw]; exact hk.2)
  have hzb := chkSa8At_bias hq (k := o) (by rw [sb]; exact hk)
  have main := sa8_real I1 hw1 O1 O2 hzb hb hacc hfit h
  have e := dotSumQ_eq (scaleVal (q.qi.scaleAt 0) (q.qi.fracAt 0)) (scaleVal (q.qw.scaleAt o) (q.qw.fracAt o)) (n := n)
    (X := fun i => X i - if ext then 0 else q.qi.zpAt 0) (W := fun i => wts.get (tw.addr [i, o]))
    (XQ := fun i => if ext then X i * scaleVal (q.qi.scaleAt 0) (q.qi.fracAt 0) else saNum q.qi 0 (X i)) (WQ := fun i => saNum q.qw o (wts.get (tw.addr [i, o])))
    (fun i => by unfold saNum; cases ext <;> simp) (fun i => by unfold saNum; rw [hw2]; simp)
  rw [e]
  exact main

/-- What the scale of the bias costs at most: the check of the library keeps it within 3/2 units of its own format, for scales whose product is not
shifted out of 31 bits (`c96_bias_scale_violated`). -/
theorem c100_bias_scale_partial (m : Rnd) (d : Nat) (q : Sa8Q) (tin tw tb tout : Tensor) (h : chkSa8At d m q tin tw tb tout = some .ok) (k : Nat)
    (hk : (k : Int) < tw.shape.getD d 0)
    (hr : BiasRanges q.qi q.qw q.qb (if 0 ≤ q.qw.dim then (tw.shape.getD q.qw.dim.toNat 0).toNat else 1)) :
    |q.inScale k - scaleVal (q.qb.scaleAt k) (q.qb.fracAt k)| ≤ 3 / 2 * (2 : ℚ) ^ (-q.qb.fracAt k) := by
  unfold chkSa8At at h
  simp only [] at h
  split at h
  · rename_i h'; exact absurd (Option.some.inj h) h'
  split at h
  · rename_i h'; exact absurd (Option.some.inj h) h'
  split at h
  · rename_i h'; exact absurd (Option.some.inj h) h'
  split at h
  · rename_i h'; exact absurd (Option.some.inj h) h'
  split at h
  · cases h
  rename_i h5
  split at h
  · cases h
  rename_i h6
  split at h
  · cases h
  rw [chkBiasLoop_ok_iff hr] at h
  have key : BiasScaleOk m (q.qi.scaleAt 0) (q.qi.fracAt 0) (q.qw.scaleAt k) (q.qw.fracAt k) (q.qb.scaleAt k) (q.qb.fracAt k) := by
    by_cases hd : q.qw.dim < 0
    · rw [if_neg (by omega)] at h
      have hb : q.qb.dim < 0 := by omega
      have := h 0 (by decide)
      have a1 : q.qw.idx k = q.qw.idx (0 : Nat) := by unfold SaQ.idx; rw [if_pos hd, if_pos hd]
      have a2 : q.qb.idx k = q.qb.idx (0 : Nat) := by unfold SaQ.idx; rw [if_pos hb, if_pos hb]
      unfold SaQ.scaleAt SaQ.fracAt at this ⊢
      rw [a1, a2]
      exact this
    · rw [if_pos (by omega)] at h
      have e : q.qw.dim = d := by omega
      refine h k ?_
      rw [e, Int.toNat_natCast]
      omega
  obtain ⟨e, he, h1, h2⟩ := key
  have he := scaled_err he
  have hp : (0 : ℚ) < (2 : ℚ) ^ (-q.qb.fracAt k) := zpow_pos (by norm_num) _
  have split : q.inScale k = (q.qi.scaleAt 0 * q.qw.scaleAt k : Int) * (2 : ℚ) ^ (-(q.qi.fracAt 0 + q.qw.fracAt k - q.qb.fracAt k)) *
      (2 : ℚ) ^ (-q.qb.fracAt k) := by
    unfold Sa8Q.inScale scaleVal
    conv_rhs => rw [mul_assoc, ← zpow_add₀ (by norm_num : (2 : ℚ) ≠ 0)]
    have : -(q.qi.fracAt 0 + q.qw.fracAt k - q.qb.fracAt k) + -q.qb.fracAt k = -q.qi.fracAt 0 + -q.qw.fracAt k := by ring
    rw [this, zpow_add₀ (by norm_num : (2 : ℚ) ≠ 0)]
    push_cast
    ring
  have h3 : |(e : ℚ) - q.qb.scaleAt k| ≤ 1 := by
    rw [abs_le]
    constructor
    · have : ((-1 : Int) : ℚ) ≤ (e - q.qb.scaleAt k : Int) := by exact_mod_cast h1
      push_cast at this; linarith
    · have : ((e - q.qb.scaleAt k : Int) : ℚ) ≤ (1 : Int) := by exact_mod_cast h2
      push_cast at this; linarith
  rw [split]
  unfold scaleVal
  rw [← sub_mul, abs_mul, abs_of_pos hp]
  refine mul_le_mul_of_nonneg_right ?_ hp.le
  rw [abs_le] at he h3 ⊢
  constructor <;> linarith [he.1, he.2, h3.1, h3.2]

/-! ## Fixed point -/

/-- The error of a fixed-point kernel with `w`-bit output whose output element `y` should stand for `r`: half an output step for the rounding. -/
def FxQ.Close (f : FxQ) (w : Nat) (y : Int) (r : ℚ) : Prop :=
  |fxNum f.fo y - reluQ f.relu (limitQ (fxNum f.fo (lo w)) (fxNum f.fo (hi w)) r)| ≤ reluErr (1 / 2) f.relu * (2 : ℚ) ^ (-f.fo)

theorem clamp_limitQ (w : Nat) (v : Int) : ((clamp w v : Int) : ℚ) = limitQ (lo w) (hi w) v := by
  have := lo_le_hi w
  have : clamp w v = max (lo w) (min (hi w) v) := by
    unfold clamp; split <;> (try split) <;> omega
  rw [this]
  unfold limitQ
  push_cast
  rfl

theorem fx_real {m : Rnd} {w : Nat} {f : FxQ} {S b r y : Int} (hw : 1 ≤ w) (hf : f.fb ≤ f.fi + f.fw)
    (hs : Scaled m (S + b * 2 ^ (f.fi + f.fw - f.fb).toNat) (f.fi + f.fw - f.fo) r)
    (hn : NearestIn (f.relu.Admissible w 0 1 f.fo) (clamp w r) y) :
    f.Close w y ((2 : ℚ) ^ (-f.fi) * (2 : ℚ) ^ (-f.fw) * S + fxNum f.fb b) := by
  have he := scaled_err hs
  have h0 : InRange w 0 := ⟨by have := lo_neg w; omega, hi_nonneg w⟩
  have main := relu_real f.relu h0 (by decide) hn (t := (S + b * 2 ^ (f.fi + f.fw - f.fb).toNat : Int) * (2 : ℚ) ^ (-(f.fi + f.fw - f.fo)))
    (e := 1 / 2) (by rw [clamp_limitQ]; exact (limitQ_lip _ _ _ _).trans he) (by norm_num)
  have es : scaleVal 1 f.fo = (2 : ℚ) ^ (-f.fo) := by unfold scaleVal; simp
  rw [es] at main
  unfold FxQ.Close fxNum
  have two : (2 : ℚ) ≠ 0 := by norm_num
  have ex : (S + b * 2 ^ (f.fi + f.fw - f.fb).toNat : Int) * (2 : ℚ) ^ (-(f.fi + f.fw - f.fo)) * (2 : ℚ) ^ (-f.fo) =
      (2 : ℚ) ^ (-f.fi) * (2 : ℚ) ^ (-f.fw) * S + b * (2 : ℚ) ^ (-f.fb) := by
    rw [mul_assoc, ← zpow_add₀ two]
    have e1 : -(f.fi + f.fw - f.fo) + -f.fo = -f.fi + -f.fw := by ring
    have e2 : ((2 ^ (f.fi + f.fw - f.fb).toNat : Int) : ℚ) = (2 : ℚ) ^ (f.fi + f.fw - f.fb) := by
      have : f.fi + f.fw - f.fb = (((f.fi + f.fw - f.fb).toNat : Nat) : Int) := by omega
      conv_rhs => rw [this]
      rw [zpow_natCast]
      push_cast
      rfl
    rw [e1, ← zpow_add₀ two]
    rw [Int.cast_add, Int.cast_mul, e2]
    have e3 : -f.fb = (f.fi + f.fw - f.fb) + (-f.fi + -f.fw) := by ring
    conv_rhs => rw [e3]
    rw [zpow_add₀ two (f.fi + f.fw - f.fb)]
    ring
  simp only [Int.cast_zero, sub_zero] at main
  rw [ex] at main
  exact main

/-- The sum and the shifted bias fit 32 bits. -/
theorem fx32_real {m : Rnd} {w : Nat} {f : FxQ} {S b r y : Int} (hw : 1 ≤ w) (hf : f.fb ≤ f.fi + f.fw)
    (hfit : SumFits true S (b * 2 ^ (f.fi + f.fw - f.fb).toNat))
    (hs : Scaled m (clamp 32 (S + clamp 32 (b * 2 ^ (f.fi + f.fw - f.fb).toNat))) (f.fi + f.fw - f.fo) r)
    (hn : NearestIn (f.relu.Admissible w 0 1 f.fo) (clamp w r) y) :
    f.Close w y ((2 : ℚ) ^ (-f.fi) * (2 : ℚ) ^ (-f.fw) * S + fxNum f.fb b) := by
  refine fx_real (m := m) hw hf ?_ hn
  unfold SumFits at hfit
  rw [if_pos rfl] at hfit
  generalize b * 2 ^ (f.fi + f.fw - f.fb).toNat = B at hfit hs ⊢
  have hS := abs_nonneg S
  have hB := abs_nonneg B
  have e1 : clamp 32 B = B := by
    apply clamp_of_inRange
    have := abs_le.1 (show |B| ≤ 2 ^ 31 - 1 by omega)
    constructor <;> simp only [lo, hi] <;> omega
  have t := abs_add_le S B
  have e2 : clamp 32 (S + B) = S + B := by
    apply clamp_of_inRange
    have := abs_le.1 (show |S + B| ≤ 2 ^ 31 - 1 by omega)
    constructor <;> simp only [lo, hi] <;> omega
  rw [e1, e2] at hs
  exact hs

/-- **C100**, 16-bit fixed point convolution.  Partial: the conditions of `c36_conv2d_fx16_partial`. -/
theorem c100_conv2d_fx16_partial (m : Rnd) (ks : Int) (apart : Bool) (f : FxQ) (src wts bias dst : Buf)
    (tin tw tb tout : Tensor) (c : ConvCfg) (ih iw ic kh kw kn oh ow : Int)
    (A : ConvArgs tin tw tb tout c src wts bias dst 16 16 16) (hchk : chkConvFx false ks apart f tin tw tb c tout = some .ok)
    (si : tin.shape = [ih, iw, ic]) (sk : tw.shape = [kh, kw, ic, kn]) (so : tout.shape = [oh, ow, kn])
    (hmeet : RowsMeet ih kh oh c) (hb : f.fi + f.fw - f.fb ≤ 16) (h1 : f.relu = .one → f.fo < 30) :
    ∃ dst' val, krnConvFx m 64 ks apart f src wts bias tin tw tb c tout dst = some (.ok, dst') ∧
      tout.Writes val dst dst' ∧ ∀ y x k, InShape tout.shape [y, x, k] →
        f.Close 16 (val [y, x, k]) (convSumQ kh kw ic (paddedQ ih iw fun r p ch => fxNum f.fi (src.get (tin.addr [r, p, ch])))
          (fun i j ch => fxNum f.fw (wts.get (tw.addr [i, j, ch, k]))) c.sh c.sw c.pt c.pl c.dh c.dw y x +
          fxNum f.fb (bias.get (tb.addr [k]))) := by
  have hf := (chkConvFx_ok hchk).1
  obtain ⟨dst', val, r1, r2, r3⟩ := c36_conv2d_fx16_partial m ks apart f src wts bias dst tin tw tb tout c ih iw ic kh kw kn oh ow A hchk si sk so hmeet hb h1
  refine ⟨dst', val, r1, r2, fun y x k hs => ?_⟩
  obtain ⟨r, h1', h2'⟩ := r3 y x k hs
  have e := convSumQ_eq ((2 : ℚ) ^ (-f.fi)) ((2 : ℚ) ^ (-f.fw)) (kh := kh) (kw := kw) (ic := ic)
    (X := padded ih iw 0 fun r p ch => src.get (tin.addr [r, p, ch])) (W := fun i j ch => wts.get (tw.addr [i, j, ch, k]))
    (XQ := paddedQ ih iw fun r p ch => fxNum f.fi (src.get (tin.addr [r, p, ch]))) (WQ := fun i j ch => fxNum f.fw (wts.get (tw.addr [i, j, ch, k])))
    (paddedQ_eq _ fun r p ch => rfl) (fun i j ch => rfl) c.sh c.sw c.pt c.pl c.dh c.dw y x
  rw [e]
  exact fx_real (by decide) hf h1' h2'

/-- **C100**, 16-bit fixed point depthwise convolution.  Partial: the conditions of `c36_depthwise_fx16_partial`. -/
theorem c100_depthwise_fx16_partial (m : Rnd) (ks : Int) (apart : Bool) (f : FxQ) (src wts bias dst : Buf)
    (tin tw tb tout : Tensor) (c : ConvCfg) (ih iw ic kh kw oh ow : Int)
    (A : ConvArgs tin tw tb tout c src wts bias dst 16 16 16) (hchk : chkConvFx true ks apart f tin tw tb c tout = some .ok)
    (si : tin.shape = [ih, iw, ic]) (sk : tw.shape = [kh, kw, 1, ic]) (so : tout.shape = [oh, ow, ic])
    (hb : f.fi + f.fw - f.fb ≤ 16) (h1 : f.relu = .one → f.fo < 30) :
    ∃ dst' val, krnDwFx m 64 ks apart f src wts bias tin tw tb c tout dst = some (.ok, dst') ∧
      tout.Writes val dst dst' ∧ ∀ y x k, InShape tout.shape [y, x, k] →
        f.Close 16 (val [y, x, k]) (convSumQ kh kw 1 (paddedQ ih iw fun r p _ => fxNum f.fi (src.get (tin.addr [r, p, k])))
          (fun i j _ => fxNum f.fw (wts.get (tw.addr [i, j, 0, k]))) c.sh c.sw c.pt c.pl c.dh c.dw y x +
          fxNum f.fb (bias.get (tb.addr [k]))) := by
  have hf := (chkConvFx_ok hchk).1
  obtain ⟨dst', val, r1, r2, r3⟩ := c36_depthwise_fx16_partial m ks apart f src wts bias dst tin tw tb tout c ih iw ic kh kw oh ow A hchk si sk so hb h1
  refine ⟨dst', val, r1, r2, fun y x k hs => ?_⟩
  obtain ⟨r, h1', h2'⟩ := r3 y x k hs
  have e := convSumQ_eq ((2 : ℚ) ^ (-f.fi)) ((2 : ℚ) ^ (-f.fw)) (kh := kh) (kw := kw) (ic := 1)
    (X := padded ih iw 0 fun r p _ => src.get (tin.addr [r, p, k])) (W := fun i j _ => wts.get (tw.addr [i, j, 0, k]))
    (XQ := paddedQ ih iw fun r p _ => fxNum f.fi (src.get (tin.addr [r, p, k]))) (WQ := fun i j _ => fxNum f.fw (wts.get (tw.addr [i, j, 0, k])))
    (paddedQ_eq _ fun r p _ => rfl) (fun i j _ => rfl) c.sh c.sw c.pt c.pl c.dh c.dw y x
  rw [e]
  exact fx_real (by decide) hf h1' h2'

/-- **C100**, 16-bit fixed point group convolution.  Partial: the conditions of `c57_fx16_partial`. -/
theorem c100_group_fx16_partial (m : Rnd) (ks : Int) (apart : Bool) (f : FxQ) (src wts bias dst : Buf)
    (tin tw tb tout : Tensor) (c : ConvCfg) (ih iw kh kw kc g n oh ow : Int)
    (A : ConvArgs tin tw tb tout c src wts bias dst 16 16 16) (hchk : chkGroupFx ks apart f tin tw tb c tout = some .ok)
    (si : tin.shape = [ih, iw, g * kc]) (sk : tw.shape = [kh, kw, kc, g * n]) (so : tout.shape = [oh, ow, g * n])
    (hmeet : RowsMeet ih kh oh c) (hb : f.fi + f.fw - f.fb ≤ 16) (h1 : f.relu = .one → f.fo < 30) :
    ∃ dst' val, krnGroupFx m 64 ks apart f src wts bias tin tw tb c tout dst = some (.ok, dst') ∧
      tout.Writes val dst dst' ∧ ∀ y x j i, 0 ≤ j → j < g → 0 ≤ i → i < n → InShape tout.shape [y, x, j * n + i] →
        f.Close 16 (val [y, x, j * n + i]) (convSumQ kh kw kc (paddedQ ih iw fun r p ch => fxNum f.fi (src.get (tin.addr [r, p, j * kc + ch])))
          (fun a b ch => fxNum f.fw (wts.get (tw.addr [a, b, ch, j * n + i]))) c.sh c.sw c.pt c.pl c.dh c.dw y x +
          fxNum f.fb (bias.get (tb.addr [j * n + i]))) := by
  have hf := (chkGroupFx_ok hchk).1
  obtain ⟨dst', val, r1, r2, r3⟩ := c57_fx16_partial m ks apart f src wts bias dst tin tw tb tout c ih iw kh kw kc g n oh ow A hchk si sk so hmeet hb h1
  refine ⟨dst', val, r1, r2, fun y x j i j0 j1 i0 i1 hs => ?_⟩
  obtain ⟨r, h1', h2'⟩ := r3 y x j i j0 j1 i0 i1 hs
  have e := convSumQ_eq ((2 : ℚ) ^ (-f.fi)) ((2 : ℚ) ^ (-f.fw)) (kh := kh) (kw := kw) (ic := kc)
    (X := padded ih iw 0 fun r p ch => src.get (tin.addr [r, p, j * kc + ch])) (W := fun a b ch => wts.get (tw.addr [a, b, ch, j * n + i]))
    (XQ := paddedQ ih iw fun r p ch => fxNum f.fi (src.get (tin.addr [r, p, j * kc + ch]))) (WQ := fun a b ch => fxNum f.fw (wts.get (tw.addr [a, b, ch, j * n + i])))
    (paddedQ_eq _ fun r p ch => rfl) (fun a b ch => rfl) c.sh c.sw c.pt c.pl c.dh c.dw y x
  rw [e]
  exact fx_real (by decide) hf h1' h2'

/-- **C100**, 16-bit fixed point transposed convolution.  Partial: the conditions of `c45_fx16`. -/
theorem c100_transpose_fx16_partial (m : Rnd) (ks : Int) (apart : Bool) (f : FxQ) (src wts bias dst : Buf)
    (tin tw tb tout : Tensor) (c : ConvCfg) (ih iw ic kh kw kn oh ow : Int)
    (A : ConvArgs tin tw tb tout c src wts bias dst 16 16 16) (hchk : chkTcFx ks apart f tin tw tb c tout = some .ok)
    (si : tin.shape = [ih, iw, ic]) (sk : tw.shape = [kh, kw, ic, kn]) (so : tout.shape = [oh, ow, kn])
    (hb : f.fi + f.fw - f.fb ≤ 16) (h1 : f.relu = .one → f.fo < 30) :
    ∃ dst' val, krnTcFx m 64 ks apart f src wts bias tin tw tb c tout dst = some (.ok, dst') ∧
      tout.Writes val dst dst' ∧ ∀ y x k, InShape tout.shape [y, x, k] →
        f.Close 16 (val [y, x, k]) (scatterSumQ ih iw kh kw ic (fun r p ch => fxNum f.fi (src.get (tin.addr [r, p, ch])))
          (fun i j ch => fxNum f.fw (wts.get (tw.addr [i, j, ch, k]))) c.sh c.sw c.pt c.pl y x +
          fxNum f.fb (bias.get (tb.addr [k]))) := by
  have hf := (chkTcFx_ok hchk).1
  obtain ⟨dst', val, r1, r2, r3⟩ := c45_fx16 m ks apart f src wts bias dst tin tw tb tout c ih iw ic kh kw kn oh ow A hchk si sk so hb h1
  refine ⟨dst', val, r1, r2, fun y x k hs => ?_⟩
  obtain ⟨r, h1', h2'⟩ := r3 y x k hs
  have e := scatterSumQ_eq ((2 : ℚ) ^ (-f.fi)) ((2 : ℚ) ^ (-f.fw)) (ih := ih) (iw := iw) (kh := kh) (kw := kw) (ic := ic)
    (X := fun r p ch => src.get (tin.addr [r, p, ch])) (W := fun i j ch => wts.get (tw.addr [i, j, ch, k]))
    (XQ := fun r p ch => fxNum f.fi (src.get (tin.addr [r, p, ch]))) (WQ := fun i j ch => fxNum f.fw (wts.get (tw.addr [i, j, ch, k])))
    (fun r p ch => rfl) (fun i j ch => rfl) c.sh c.sw c.pt c.pl y x
  rw [e]
  exact fx_real (by decide) hf h1' h2'

/-- **C100**, 16-bit input with 8-bit weights convolution.  Partial: the conditions of `c36_conv2d_fx16_fx8_partial`. -/
theorem c100_conv2d_fx16_fx8_partial (m : Rnd) (ks : Int) (apart : Bool) (f : FxQ) (src wts bias dst : Buf)
    (tin tw tb tout : Tensor) (c : ConvCfg) (ih iw ic kh kw kn oh ow : Int)
    (A : ConvArgs tin tw tb tout c src wts bias dst 16 8 8) (hchk : chkConvFx false ks apart f tin tw tb c tout = some .ok)
    (si : tin.shape = [ih, iw, ic]) (sk : tw.shape = [kh, kw, ic, kn]) (so : tout.shape = [oh, ow, kn])
    (hmeet : RowsMeet ih kh oh c) (ht : ic * (kh * kw) ≤ 511) (h1 : f.relu = .one → f.fo < 30)
    (hup : m = .up → f.fi + f.fw - f.fo ≤ 16 ∨ 32 ≤ f.fi + f.fw - f.fo) :
    ∃ dst' val, krnConvFx m 32 ks apart f src wts bias tin tw tb c tout dst = some (.ok, dst') ∧
      tout.Writes val dst dst' ∧ ∀ y x k, InShape tout.shape [y, x, k] →
        SumFits true (convSum kh kw ic (padded ih iw 0 fun r p ch => src.get (tin.addr [r, p, ch]))
          (fun i j ch => wts.get (tw.addr [i, j, ch, k])) c.sh c.sw c.pt c.pl c.dh c.dw y x) (bias.get (tb.addr [k]) * 2 ^ (f.fi + f.fw - f.fb).toNat) →
        f.Close 16 (val [y, x, k]) (convSumQ kh kw ic (paddedQ ih iw fun r p ch => fxNum f.fi (src.get (tin.addr [r, p, ch])))
          (fun i j ch => fxNum f.fw (wts.get (tw.addr [i, j, ch, k]))) c.sh c.sw c.pt c.pl c.dh c.dw y x +
          fxNum f.fb (bias.get (tb.addr [k]))) := by
  have hf := (chkConvFx_ok hchk).1
  obtain ⟨dst', val, r1, r2, r3⟩ := c36_conv2d_fx16_fx8_partial m ks apart f src wts bias dst tin tw tb tout c ih iw ic kh kw kn oh ow A hchk si sk so hmeet ht h1 hup
  refine ⟨dst', val, r1, r2, fun y x k hs hfit => ?_⟩
  obtain ⟨r, h1', h2'⟩ := r3 y x k hs
  have e := convSumQ_eq ((2 : ℚ) ^ (-f.fi)) ((2 : ℚ) ^ (-f.fw)) (kh := kh) (kw := kw) (ic := ic)
    (X := padded ih iw 0 fun r p ch => src.get (tin.addr [r, p, ch])) (W := fun i j ch => wts.get (tw.addr [i, j, ch, k]))
    (XQ := paddedQ ih iw fun r p ch => fxNum f.fi (src.get (tin.addr [r, p, ch]))) (WQ := fun i j ch => fxNum f.fw (wts.get (tw.addr [i, j, ch, k])))
    (paddedQ_eq _ fun r p ch => rfl) (fun i j ch => rfl) c.sh c.sw c.pt c.pl c.dh c.dw y x
  rw [e]
  exact fx32_real (by decide) hf hfit h1' h2'

/-- **C100**, 16-bit input with 8-bit weights depthwise convolution.  Partial: the conditions of `c36_depthwise_fx16_fx8_partial`. -/
theorem c100_depthwise_fx16_fx8_partial (m : Rnd) (ks : Int) (apart : Bool) (f : FxQ) (src wts bias dst : Buf)
    (tin tw tb tout : Tensor) (c : ConvCfg) (ih iw ic kh kw oh ow : Int)
    (A : ConvArgs tin tw tb tout c src wts bias dst 16 8 8) (hchk : chkConvFx true ks apart f tin tw tb c tout = some .ok)
    (si : tin.shape = [ih, iw, ic]) (sk : tw.shape = [kh, kw, 1, ic]) (so : tout.shape = [oh, ow, ic])
    (ht : kh * kw ≤ 511) (h1 : f.relu = .one → f.fo < 30)
    (hup : m = .up → f.fi + f.fw - f.fo ≤ 16 ∨ 32 ≤ f.fi + f.fw - f.fo) :
    ∃ dst' val, krnDwFx m 32 ks apart f src wts bias tin tw tb c tout dst = some (.ok, dst') ∧
      tout.Writes val dst dst' ∧ ∀ y x k, InShape tout.shape [y, x, k] →
        SumFits true (convSum kh kw 1 (padded ih iw 0 fun r p _ => src.get (tin.addr [r, p, k]))
          (fun i j _ => wts.get (tw.addr [i, j, 0, k])) c.sh c.sw c.pt c.pl c.dh c.dw y x) (bias.get (tb.addr [k]) * 2 ^ (f.fi + f.fw - f.fb).toNat) →
        f.Close 16 (val [y, x, k]) (convSumQ kh kw 1 (paddedQ ih iw fun r p _ => fxNum f.fi (src.get (tin.addr [r, p, k])))
          (fun i j _ => fxNum f.fw (wts.get (tw.addr [i, j, 0, k]))) c.sh c.sw c.pt c.pl c.dh c.dw y x +
          fxNum f.fb (bias.get (tb.addr [k]))) := by
  have hf := (chkConvFx_ok hchk).1
  obtain ⟨dst', val, r1, r2, r3⟩ := c36_depthwise_fx16_fx8_partial m ks apart f src wts bias dst tin tw tb tout c ih iw ic kh kw oh ow A hchk si sk so ht h1 hup
  refine ⟨dst', val, r1, r2, fun y x k hs hfit => ?_⟩
  obtain ⟨r, h1', h2'⟩ := r3 y x k hs
  have e := convSumQ_eq ((2 : ℚ) ^ (-f.fi)) ((2 : ℚ) ^ (-f.fw)) (kh := kh) (kw := kw) (ic := 1)
    (X := padded ih iw 0 fun r p _ => src.get (tin.addr [r, p, k])) (W := fun i j _ => wts.get (tw.addr [i, j, 0, k]))
    (XQ := paddedQ ih iw fun r p _ => fxNum f.fi (src.get (tin.addr [r, p, k]))) (WQ := fun i j _ => fxNum f.fw (wts.get (tw.addr [i, j, 0, k])))
    (paddedQ_eq _ fun r p _ => rfl) (fun i j _ => rfl) c.sh c.sw c.pt c.pl c.dh c.dw y x
  rw [e]
  exact fx32_real (by decide) hf hfit h1' h2'

/-- **C100**, 16-bit input with 8-bit weights group convolution.  Partial: the conditions of `c57_fx16_fx8_partial`. -/
theorem c100_group_fx16_fx8_partial (m : Rnd) (ks : Int) (apart : Bool) (f : FxQ) (src wts bias dst : Buf)
    (tin tw tb tout : Tensor) (c : ConvCfg) (ih iw kh kw kc g n oh ow : Int)
    (A : ConvArgs tin tw tb tout c src wts bias dst 16 8 8) (hchk : chkGroupFx ks apart f tin tw tb c tout = some .ok)
    (si : tin.shape = [ih, iw, g * kc]) (sk : tw.shape = [kh, kw, kc, g * n]) (so : tout.shape = [oh, ow, g * n])
    (hmeet : RowsMeet ih kh oh c) (ht : kc * (kh * kw) ≤ 511) (h1 : f.relu = .one → f.fo < 30)
    (hup : m = .up → f.fi + f.fw - f.fo ≤ 16 ∨ 32 ≤ f.fi + f.fw - f.fo) :
    ∃ dst' val, krnGroupFx m 32 ks apart f src wts bias tin tw tb c tout dst = some (.ok, dst') ∧
      tout.Writes val dst dst' ∧ ∀ y x j i, 0 ≤ j → j < g → 0 ≤ i → i < n → InShape tout.shape [y, x, j * n + i] →
        SumFits true (convSum kh kw kc (padded ih iw 0 fun r p ch => src.get (tin.addr [r, p, j * kc + ch]))
          (fun a b ch => wts.get (tw.addr [a, b, ch, j * n + i])) c.sh c.sw c.pt c.pl c.dh c.dw y x) (bias.get (tb.addr [j * n + i]) * 2 ^ (f.fi + f.fw - f.fb).toNat) →
        f.Close 16 (val [y, x, j * n + i]) (convSumQ kh kw kc (paddedQ ih iw fun r p ch => fxNum f.fi (src.get (tin.addr [r, p, j * kc + ch])))
          (fun a b ch => fxNum f.fw (wts.get (tw.addr [a, b, ch, j * n + i]))) c.sh c.sw c.pt c.pl c.dh c.dw y x +
          fxNum f.fb (bias.get (tb.addr [j * n + i]))) := by
  have hf := (chkGroupFx_ok hchk).1
  obtain ⟨dst', val, r1, r2, r3⟩ := c57_fx16_fx8_partial m ks apart f src wts bias dst tin tw tb tout c ih iw kh kw kc g n oh ow A hchk si sk so hmeet ht h1 hup
  refine ⟨dst', val, r1, r2, fun y x j i j0 j1 i0 i1 hs hfit => ?_⟩
  obtain ⟨r, h1', h2'⟩ := r3 y x j i j0 j1 i0 i1 hs
  have e := convSumQ_eq ((2 : ℚ) ^ (-f.fi)) ((2 : ℚ) ^ (-f.fw)) (kh := kh) (kw := kw) (ic := kc)
    (X := padded ih iw 0 fun r p ch => src.get (tin.addr [r, p, j * kc + ch])) (W := fun a b ch => wts.get (tw.addr [a, b, ch, j * n + i]))
    (XQ := paddedQ ih iw fun r p ch => fxNum f.fi (src.get (tin.addr [r, p, j * kc + ch]))) (WQ := fun a b ch => fxNum f.fw (wts.get (tw.addr [a, b, ch, j * n + i])))
    (paddedQ_eq _ fun r p ch => rfl) (fun a b ch => rfl) c.sh c.sw c.pt c.pl c.dh c.dw y x
  rw [e]
  exact fx32_real (by decide) hf hfit h1' h2'

/-- **C100**, 16-bit input with 8-bit weights transposed convolution.  Partial: the conditions of `c45_fx16_fx8`. -/
theorem c100_transpose_fx16_fx8_partial (m : Rnd) (ks : Int) (apart : Bool) (f : FxQ) (src wts bias dst : Buf)
    (tin tw tb tout : Tensor) (c : ConvCfg) (ih iw ic kh kw kn oh ow : Int)
    (A : ConvArgs tin tw tb tout c src wts bias dst 16 8 8) (hchk : chkTcFx ks apart f tin tw tb c tout = some .ok)
    (si : tin.shape = [ih, iw, ic]) (sk : tw.shape = [kh, kw, ic, kn]) (so : tout.shape = [oh, ow, kn])
    (ht : ic * (kh * kw) ≤ 511) (h1 : f.relu = .one → f.fo < 30)
    (hup : m = .up → f.fi + f.fw - f.fo ≤ 16 ∨ 32 ≤ f.fi + f.fw - f.fo) :
    ∃ dst' val, krnTcFx m 32 ks apart f src wts bias tin tw tb c tout dst = some (.ok, dst') ∧
      tout.Writes val dst dst' ∧ ∀ y x k, InShape tout.shape [y, x, k] →
        SumFits true (scatterSum ih iw kh kw ic (fun r p ch => src.get (tin.addr [r, p, ch]))
          (fun i j ch => wts.get (tw.addr [i, j, ch, k])) c.sh c.sw c.pt c.pl y x) (bias.get (tb.addr [k]) * 2 ^ (f.fi + f.fw - f.fb).toNat) →
        f.Close 16 (val [y, x, k]) (scatterSumQ ih iw kh kw ic (fun r p ch => fxNum f.fi (src.get (tin.addr [r, p, ch])))
          (fun i j ch => fxNum f.fw (wts.get (tw.addr [i, j, ch, k]))) c.sh c.sw c.pt c.pl y x +
          fxNum f.fb (bias.get (tb.addr [k]))) := by
  have hf := (chkTcFx_ok hchk).1
  obtain ⟨dst', val, r1, r2, r3⟩ := c45_fx16_fx8 m ks apart f src wts bias dst tin tw tb tout c ih iw ic kh kw kn oh ow A hchk si sk so ht h1 hup
  refine ⟨dst', val, r1, r2, fun y x k hs hfit => ?_⟩
  obtain ⟨r, h1', h2'⟩ := r3 y x k hs
  have e := scatterSumQ_eq ((2 : ℚ) ^ (-f.fi)) ((2 : ℚ) ^ (-f.fw)) (ih := ih) (iw := iw) (kh := kh) (kw := kw) (ic := ic)
    (X := fun r p ch => src.get (tin.addr [r, p, ch])) (W := fun i j ch => wts.get (tw.addr [i, j, ch, k]))
    (XQ := fun r p ch => fxNum f.fi (src.get (tin.addr [r, p, ch]))) (WQ := fun i j ch => fxNum f.fw (wts.get (tw.addr [i, j, ch, k])))
    (fun r p ch => rfl) (fun i j ch => rfl) c.sh c.sw c.pt c.pl y x
  rw [e]
  exact fx32_real (by decide) hf hfit h1' h2'

/-- **C100**, 16-bit fixed-point fully connected layer.  Partial: the conditions of `c39_fx16_partial`. -/
theorem c100_fc_fx16_partial (m : Rnd) (apart : Bool) (f : FxQ) (src wts bias dst : Buf) (tin tw tb tout : Tensor) (n k : Int)
    (A : FcArgs tin tw tb tout src wts bias dst 16 16 16) (hchk : chkFcFx apart f tin tw tb tout = some .ok)
    (sw : tw.shape = [n, k]) (hb : f.fi + f.fw - f.fb ≤ 16) (h1 : f.relu = .one → f.fo < 30) :
    ∃ dst' val X, tin.Flat src X ∧ krnFcFx m 16 64 apart f src wts bias tin tw tb tout dst = some (.ok, dst') ∧
      tout.Writes val dst dst' ∧ ∀ o, InShape tout.shape [o] →
        f.Close 16 (val [o]) (dotSumQ n (fun i => fxNum f.fi (X i)) (fun i => fxNum f.fw (wts.get (tw.addr [i, o]))) +
          fxNum f.fb (bias.get (tb.addr [o]))) := by
  have hf := (chkFcFx_ok hchk).1
  obtain ⟨dst', val, X, hX, r1, r2, r3⟩ := c39_fx16_partial m apart f src wts bias dst tin tw tb tout n k A hchk sw hb h1
  refine ⟨dst', val, X, hX, r1, r2, fun o hs => ?_⟩
  obtain ⟨r, h1', h2'⟩ := r3 o hs
  have e := dotSumQ_eq ((2 : ℚ) ^ (-f.fi)) ((2 : ℚ) ^ (-f.fw)) (n := n) (X := X) (W := fun i => wts.get (tw.addr [i, o]))
    (XQ := fun i => fxNum f.fi (X i)) (WQ := fun i => fxNum f.fw (wts.get (tw.addr [i, o]))) (fun i => rfl) (fun i => rfl)
  rw [e]
  exact fx_real (by decide) hf h1' h2'

/-- **C100**, 16-bit input with 8-bit weights,  fully connected layer.  Partial: the conditions of `c39_fx16_fx8_partial`. -/
theorem c100_fc_fx16_fx8_partial (m : Rnd) (apart : Bool) (f : FxQ) (src wts bias dst : Buf) (tin tw tb tout : Tensor) (n k : Int)
    (A : FcArgs tin tw tb tout src wts bias dst 16 8 8) (hchk : chkFcFx apart f tin tw tb tout = some .ok)
    (sw : tw.shape = [n, k]) (hn : n ≤ 511) (h1 : f.relu = .one → f.fo < 30)
    (hup : m = .up → f.fi + f.fw - f.fo ≤ 16 ∨ 32 ≤ f.fi + f.fw - f.fo) :
    ∃ dst' val X, tin.Flat src X ∧ krnFcFx m 16 32 apart f src wts bias tin tw tb tout dst = some (.ok, dst') ∧
      tout.Writes val dst dst' ∧ ∀ o, InShape tout.shape [o] →
        SumFits true (dotSum n X (fun i => wts.get (tw.addr [i, o]))) (bias.get (tb.addr [o]) * 2 ^ (f.fi + f.fw - f.fb).toNat) →
        f.Close 16 (val [o]) (dotSumQ n (fun i => fxNum f.fi (X i)) (fun i => fxNum f.fw (wts.get (tw.addr [i, o]))) +
          fxNum f.fb (bias.get (tb.addr [o]))) := by
  have hf := (chkFcFx_ok hchk).1
  obtain ⟨dst', val, X, hX, r1, r2, r3⟩ := c39_fx16_fx8_partial m apart f src wts bias dst tin tw tb tout n k A hchk sw hn h1 hup
  refine ⟨dst', val, X, hX, r1, r2, fun o hs hfit => ?_⟩
  obtain ⟨r, h1', h2'⟩ := r3 o hs
  have e := dotSumQ_eq ((2 : ℚ) ^ (-f.fi)) ((2 : ℚ) ^ (-f.fw)) (n := n) (X := X) (W := fun i => wts.get (tw.addr [i, o]))
    (XQ := fun i => fxNum f.fi (X i)) (WQ := fun i => fxNum f.fw (wts.get (tw.addr [i, o]))) (fun i => rfl) (fun i => rfl)
  rw [e]
  exact fx32_real (by decide) hf hfit h1' h2'

/-- **C100**, 8-bit fixed-point fully connected layer.  Partial: the conditions of `c39_fx8_partial`. -/
theorem c100_fc_fx8_partial (m : Rnd) (apart : Bool) (f : FxQ) (src wts bias dst : Buf) (tin tw tb tout : Tensor) (n k : Int)
    (A : FcArgs tin tw tb tout src wts bias dst 8 8 8) (hchk : chkFcFx apart f tin tw tb tout = some .ok)
    (sw : tw.shape = [n, k]) (hn : n ≤ 131071) (h1 : f.relu = .one → f.fo < 30)
    (hup : m = .up → f.fi + f.fw - f.fo ≤ 24 ∨ 32 ≤ f.fi + f.fw - f.fo) :
    ∃ dst' val X, tin.Flat src X ∧ krnFcFx m 8 32 apart f src wts bias tin tw tb tout dst = some (.ok, dst') ∧
      tout.Writes val dst dst' ∧ ∀ o, InShape tout.shape [o] →
        SumFits true (dotSum n X (fun i => wts.get (tw.addr [i, o]))) (bias.get (tb.addr [o]) * 2 ^ (f.fi + f.fw - f.fb).toNat) →
        f.Close 8 (val [o]) (dotSumQ n (fun i => fxNum f.fi (X i)) (fun i => fxNum f.fw (wts.get (tw.addr [i, o]))) +
          fxNum f.fb (bias.get (tb.addr [o]))) := by
  have hf := (chkFcFx_ok hchk).1
  obtain ⟨dst', val, X, hX, r1, r2, r3⟩ := c39_fx8_partial m apart f src wts bias dst tin tw tb tout n k A hchk sw hn h1 hup
  refine ⟨dst', val, X, hX, r1, r2, fun o hs hfit => ?_⟩
  obtain ⟨r, h1', h2'⟩ := r3 o hs
  have e := dotSumQ_eq ((2 : ℚ) ^ (-f.fi)) ((2 : ℚ) ^ (-f.fw)) (n := n) (X := X) (W := fun i => wts.get (tw.addr [i, o]))
    (XQ := fun i => fxNum f.fi (X i)) (WQ := fun i => fxNum f.fw (wts.get (tw.addr [i, o]))) (fun i => rfl) (fun i => rfl)
  rw [e]
  exact fx32_real (by decide) hf hfit h1' h2'

/-! ## Instances -/

/-- Hypotheses of `c100_conv2d_sa8_partial` and `c100_bias_scale_partial` (with `exArgsSa8`, `exMeet`), for the call whose results are given beside
`c36_conv2d_sa8_partial`. -/
example :
    chkConv false 0 true exIn.bytes exWt.bytes exBias32 exCfg exOut.bytes = some .ok ∧
    chkSa8 .convergent exQ exIn.bytes exWt.bytes exBias32 exOut.bytes = some .ok ∧ (exQ.qi.Typed ∧ exQ.qw.Typed ∧ exQ.qo.Typed) ∧
    exIn.bytes.shape = [3, 4, 2] ∧ exWt.bytes.shape = [2, 3, 2, 2] ∧ exBias32.shape = [2] ∧ exOut.bytes.shape = [2, 2, 2] ∧
    (∀ i : Nat, i < 2 → (0 < exQ.qi.scaleAt 0 ∧ exQ.qi.scaleAt 0 < 2 ^ 15) ∧ (0 < exQ.qw.scaleAt i ∧ exQ.qw.scaleAt i < 2 ^ 15) ∧
      (0 < exQ.qb.scaleAt i ∧ exQ.qb.scaleAt i < 2 ^ 15) ∧ 0 < exQ.qi.fracAt 0 + exQ.qw.fracAt i - exQ.qb.fracAt i) ∧
    ∀ y : Nat, y < 2 → ∀ x : Nat, x < 2 → ∀ k : Nat, k < 2 → SumFits false (convSum 2 3 2 (padded 3 4 0 fun r p ch => (Buf.ofList exSrc).get (exIn.bytes.addr [r, p, ch]) - exQ.qi.zpAt 0)
      (fun i j ch => (Buf.ofList exWts).get (exWt.bytes.addr [i, j, ch, k])) exCfg.sh exCfg.sw exCfg.pt exCfg.pl exCfg.dh exCfg.dw y x)
      ((Buf.ofList [500, -600]).get (exBias32.addr [k])) := by
  decide +kernel

/-- The first element of that call is 19, which stands for 35.16; the convolution is 35.00 (a step is 2.93). -/
example : saNum exQ.qo 0 19 = 1125 / 32 ∧
    exQ.conv (Buf.ofList exSrc) (Buf.ofList exWts) (Buf.ofList [500, -600]) exIn.bytes exWt.bytes exBias32 exCfg 3 4 2 2 3 0 0 0 =
      (12026 * 3000000 + 91500 * 16384) / 2 ^ 30 := by
  refine ⟨by decide +kernel, ?_⟩
  have e := convSumQ_eq (scaleVal 20000 18) (scaleVal 150 12) (kh := 2) (kw := 3) (ic := 2)
    (X := padded 3 4 0 fun r p ch => (Buf.ofList exSrc).get (exIn.bytes.addr [r, p, ch]) - exQ.qi.zpAt 0)
    (W := fun i j ch => (Buf.ofList exWts).get (exWt.bytes.addr [i, j, ch, 0]))
    (XQ := paddedQ 3 4 fun r p ch => saNum exQ.qi 0 ((Buf.ofList exSrc).get (exIn.bytes.addr [r, p, ch])))
    (WQ := fun i j ch => saNum exQ.qw 0 ((Buf.ofList exWts).get (exWt.bytes.addr [i, j, ch, 0])))
    (paddedQ_eq _ fun r p ch => by unfold saNum; push_cast; rfl)
    (fun i j ch => by unfold saNum; rw [show exQ.qw.zpAt 0 = 0 from rfl, Int.cast_zero, sub_zero]; rfl)
    exCfg.sh exCfg.sw exCfg.pt exCfg.pl exCfg.dh exCfg.dw 0 0
  unfold Sa8Q.conv
  rw [e, show convSum 2 3 2 (padded 3 4 0 fun r p ch => (Buf.ofList exSrc).get (exIn.bytes.addr [r, p, ch]) - exQ.qi.zpAt 0)
      (fun i j ch => (Buf.ofList exWts).get (exWt.bytes.addr [i, j, ch, 0])) exCfg.sh exCfg.sw exCfg.pt exCfg.pl exCfg.dh exCfg.dw 0 0 = 12026 by decide +kernel,
    show saNum exQ.qb 0 ((Buf.ofList [500, -600]).get (exBias32.addr [0])) = 91500 / 65536 by decide +kernel]
  norm_num [scaleVal]

/-- Hypotheses of the fixed-point theorems for 32-bit accumulation (with `exArgs8`, `exMeet`): the sums of the call beside
`c36_conv2d_fx16_fx8_partial`. -/
example :
    let f : FxQ := { fi := 3, fw := 4, fb := 5, fo := 2, relu := .none }
    chkConvFx false 0 true f exIn exWt.bytes exBias.bytes exCfg exOut = some .ok ∧
    ∀ y : Nat, y < 2 → ∀ x : Nat, x < 2 → ∀ k : Nat, k < 2 → SumFits true (convSum 2 3 2 (padded 3 4 0 fun r p ch => (Buf.ofList exSrc).get (exIn.addr [r, p, ch]))
      (fun i j ch => (Buf.ofList exWts).get (exWt.bytes.addr [i, j, ch, k])) exCfg.sh exCfg.sw exCfg.pt exCfg.pl exCfg.dh exCfg.dw y x)
      ((Buf.ofList [5, -6]).get (exBias.bytes.addr [k]) * 2 ^ (f.fi + f.fw - f.fb).toNat) := by
  decide +kernel

end Mli
