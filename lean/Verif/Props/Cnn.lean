import Verif.Model.Cnn
import Verif.Spec.Cnn
import Verif.Props.Net
import Verif.Props.AvePool
import Verif.Props.ConvMore

/-!
# C103: convolutional networks

The error of a network of convolutions, pooling and fully connected layers of any depth, in 16-bit fixed point.
-/

namespace Mli

open Spec

/-! ## Sums over windows -/

theorem windowSum_taps (x : Int → Int → Int) (ih iw kh kw sh sw pt pl oy ox : Int) :
    windowSum x ih iw kh kw sh sw pt pl oy ox =
      ∑ p ∈ windowTaps ih iw kh kw sh sw pt pl oy ox, x (tapCoord sh pt 1 oy p.1) (tapCoord sw pl 1 ox p.2) := by
  have hl : ∀ (n : Nat) (f : Nat → Int), ((List.range n).map f).sum = ∑ i ∈ Finset.range n, f i := fun n f => rfl
  unfold windowSum tapSum windowTaps
  rw [hl, Finset.sum_filter, Finset.sum_product]
  refine Finset.sum_congr rfl fun i _ => ?_
  split
  · rename_i hi
    beta_reduce
    rw [hl]
    refine Finset.sum_congr rfl fun j _ => ?_
    split
    · rename_i hj; rw [if_pos ⟨hi, hj⟩]
    · rename_i hj; rw [if_neg fun h => hj h.2]
  · rename_i hi
    symm
    exact Finset.sum_eq_zero fun j _ => if_neg fun h => hi h.1

theorem windowCount_taps (ih iw kh kw sh sw pt pl oy ox : Int) :
    windowCount ih iw kh kw sh sw pt pl oy ox = (windowTaps ih iw kh kw sh sw pt pl oy ox).card := by
  unfold windowCount
  rw [windowSum_taps]
  simp

theorem mem_windowTaps {ih iw kh kw sh sw pt pl oy ox : Int} {p : ℕ × ℕ} (h : p ∈ windowTaps ih iw kh kw sh sw pt pl oy ox) :
    ((p.1 : Int) < kh ∧ (p.2 : Int) < kw) ∧
    (0 ≤ tapCoord sh pt 1 oy p.1 ∧ tapCoord sh pt 1 oy p.1 < ih) ∧ (0 ≤ tapCoord sw pl 1 ox p.2 ∧ tapCoord sw pl 1 ox p.2 < iw) := by
  unfold windowTaps at h
  obtain ⟨h1, h2⟩ := Finset.mem_filter.1 h
  obtain ⟨h3, h4⟩ := Finset.mem_product.1 h1
  have h3 := Finset.mem_range.1 h3
  have h4 := Finset.mem_range.1 h4
  exact ⟨⟨by omega, by omega⟩, h2⟩

theorem fxNum_mono {f a b : Int} (h : a ≤ b) : fxNum f a ≤ fxNum f b := by
  unfold fxNum
  exact mul_le_mul_of_nonneg_right (by exact_mod_cast h) (by positivity)

/-- The largest element of a window stands for the largest number. -/
theorem maxQ_close {X : Int → Int → Int} {x : Int → Int → ℚ} {num : Int → ℚ} (mono : ∀ {a b}, a ≤ b → num a ≤ num b) {e : ℚ} {ih iw kh kw sh sw pt pl oy ox v : Int}
    (hm : IsWindowMax X ih iw kh kw sh sw pt pl oy ox v)
    (h : ∀ r q, 0 ≤ r → r < ih → 0 ≤ q → q < iw → |num (X r q) - x r q| ≤ e) :
    |num v - maxQ x ih iw kh kw sh sw pt pl oy ox| ≤ e := by
  obtain ⟨hle, i, j, ⟨i0, i1⟩, ⟨j0, j1⟩, ⟨r0, r1⟩, ⟨c0, c1⟩, hv⟩ := hm
  lift i to ℕ using i0
  lift j to ℕ using j0
  have hmem : (i, j) ∈ windowTaps ih iw kh kw sh sw pt pl oy ox := by
    unfold windowTaps
    refine Finset.mem_filter.2 ⟨Finset.mem_product.2 ⟨Finset.mem_range.2 ?_, Finset.mem_range.2 ?_⟩, ⟨r0, r1⟩, c0, c1⟩ <;> simp only <;> omega
  unfold maxQ
  rw [dif_pos ⟨_, hmem⟩]
  have up : (windowTaps ih iw kh kw sh sw pt pl oy ox).sup' ⟨_, hmem⟩ (fun p => x (tapCoord sh pt 1 oy p.1) (tapCoord sw pl 1 ox p.2)) ≤ num v + e := by
    refine Finset.sup'_le _ _ fun p hp => ?_
    obtain ⟨⟨a1, a2⟩, ⟨b1, b2⟩, c1, c2⟩ := mem_windowTaps hp
    have h1 := hle p.1 p.2 (by omega) a1 (by omega) a2 b1 b2 c1 c2
    have h2 := mono h1
    have h3 := abs_le.1 (h _ _ b1 b2 c1 c2)
    linarith [h3.1]
  have low := Finset.le_sup' (fun p : ℕ × ℕ => x (tapCoord sh pt 1 oy p.1) (tapCoord sw pl 1 ox p.2)) hmem
  have h3 := abs_le.1 (h _ _ r0 r1 c0 c1)
  rw [hv] at h3
  simp only at low
  rw [abs_le]
  constructor <;> linarith [h3.1, h3.2]

theorem meanQ_lip {X x : Int → Int → ℚ} {e : ℚ} (he : 0 ≤ e) {ih iw kh kw sh sw pt pl oy ox : Int}
    (h : ∀ r q, 0 ≤ r → r < ih → 0 ≤ q → q < iw → |X r q - x r q| ≤ e) :
    |meanQ X ih iw kh kw sh sw pt pl oy ox - meanQ x ih iw kh kw sh sw pt pl oy ox| ≤ e := by
  unfold meanQ
  rw [← sub_div, ← Finset.sum_sub_distrib, abs_div, Nat.abs_cast]
  refine div_le_of_le_mul₀ (by positivity) he ?_
  refine (Finset.abs_sum_le_sum_abs _ _).trans ((Finset.sum_le_sum (g := fun _ => e) fun p hp => ?_).trans ?_)
  · obtain ⟨-, ⟨b1, b2⟩, c1, c2⟩ := mem_windowTaps hp
    exact h _ _ b1 b2 c1 c2
  · rw [Finset.sum_const, nsmul_eq_mul, mul_comm]

theorem meanQ_abs {X : Int → Int → ℚ} {B : ℚ} (hB : 0 ≤ B) {ih iw kh kw sh sw pt pl oy ox : Int}
    (h : ∀ r q, 0 ≤ r → r < ih → 0 ≤ q → q < iw → |X r q| ≤ B) : |meanQ X ih iw kh kw sh sw pt pl oy ox| ≤ B := by
  have := meanQ_lip (x := fun _ _ => 0) hB (kh := kh) (kw := kw) (sh := sh) (sw := sw) (pt := pt) (pl := pl) (oy := oy) (ox := ox)
    (ih := ih) (iw := iw) (X := X) (fun r q a b c d => by rw [sub_zero]; exact h r q a b c d)
  have e0 : meanQ (fun _ _ => 0) ih iw kh kw sh sw pt pl oy ox = 0 := by unfold meanQ; simp
  rwa [e0, sub_zero] at this

theorem meanQ_fx (X : Int → Int → Int) (f ih iw kh kw sh sw pt pl oy ox : Int) :
    meanQ (fun r q => fxNum f (X r q)) ih iw kh kw sh sw pt pl oy ox =
      (windowSum X ih iw kh kw sh sw pt pl oy ox : Int) / (windowCount ih iw kh kw sh sw pt pl oy ox : Int) * (2 : ℚ) ^ (-f) := by
  unfold meanQ fxNum
  rw [windowSum_taps, windowCount_taps, ← Finset.sum_mul]
  push_cast
  ring

/-- The average that the kernel computes, in real numbers: half an output step for the rounding, and two input steps for the reciprocal of the number
of elements, which has 15 bits. -/
theorem mean_close {m : Rnd} {fi fo D S mul v : Int} {s : Nat} (hD : 1 ≤ D) (hr : IsRecip D mul s) (hs : Scaled m (mul * S) (fi - fo + s) v)
    (hS : |(S : ℚ) / D| ≤ 2 ^ 15) :
    |fxNum fo (clamp 16 v) - limitQ (fxNum fo (lo 16)) (fxNum fo (hi 16)) ((S : ℚ) / D * (2 : ℚ) ^ (-fi))| ≤ (2 : ℚ) ^ (-fo) / 2 + 2 * (2 : ℚ) ^ (-fi) := by
  obtain ⟨m1, m2, r1, r2⟩ := hr
  have he := scaled_err hs
  have two : (2 : ℚ) ≠ 0 := by norm_num
  have hp : (0 : ℚ) < (2 : ℚ) ^ (-fo) := by positivity
  have hq : (0 : ℚ) < (2 : ℚ) ^ (-fi) := by positivity
  have hD' : (0 : ℚ) < D := by exact_mod_cast hD
  have hs' : (0 : ℚ) < (2 : ℚ) ^ s := by positivity
  -- the reciprocal
  have q1 : (D : ℚ) * mul ≤ 2 ^ s := by exact_mod_cast r1
  have q2 : (2 : ℚ) ^ s < D * (mul + 1) := by exact_mod_cast r2
  have q3 : (2 : ℚ) ^ 14 ≤ mul := by exact_mod_cast m1
  have hrec : |(mul : ℚ) * D / 2 ^ s - 1| ≤ 1 / 2 ^ 14 := by
    rw [abs_le]
    have h1 : (mul : ℚ) * D / 2 ^ s ≤ 1 := by rw [div_le_one hs']; linarith
    have h2 : (1 : ℚ) - 1 / 2 ^ 14 ≤ (mul : ℚ) * D / 2 ^ s := by
      rw [le_div_iff₀ hs']
      have h3 : (D : ℚ) * 2 ^ 14 ≤ 2 ^ s := (mul_le_mul_of_nonneg_left q3 hD'.le).trans q1
      have h4 : (D : ℚ) ≤ 2 ^ s * (1 / 2 ^ 14) := by
        rw [mul_one_div, le_div_iff₀ (by positivity)]
        exact h3
      linarith
    constructor <;> linarith [show (0 : ℚ) < 1 / 2 ^ 14 by positivity]
  -- the value before the limits, in output steps times the step
  have e1 : ((mul * S : Int) : ℚ) * (2 : ℚ) ^ (-(fi - fo + s)) * (2 : ℚ) ^ (-fo) = (S : ℚ) / D * (2 : ℚ) ^ (-fi) * ((mul : ℚ) * D / 2 ^ s) := by
    have : -(fi - fo + (s : Int)) + -fo = -fi + -(s : Int) := by ring
    rw [mul_assoc, ← zpow_add₀ two, this, zpow_add₀ two, zpow_neg _ (s : Int), zpow_natCast]
    push_cast
    field_simp
  have h5 : |((mul * S : Int) : ℚ) * (2 : ℚ) ^ (-(fi - fo + s)) * (2 : ℚ) ^ (-fo) - (S : ℚ) / D * (2 : ℚ) ^ (-fi)| ≤ 2 * (2 : ℚ) ^ (-fi) := by
    rw [e1, show (S : ℚ) / D * (2 : ℚ) ^ (-fi) * ((mul : ℚ) * D / 2 ^ s) - (S : ℚ) / D * (2 : ℚ) ^ (-fi) =
      (S : ℚ) / D * (2 : ℚ) ^ (-fi) * ((mul : ℚ) * D / 2 ^ s - 1) by ring, abs_mul, abs_mul, abs_of_pos hq]
    calc |(S : ℚ) / D| * (2 : ℚ) ^ (-fi) * |(mul : ℚ) * D / 2 ^ s - 1|
        ≤ 2 ^ 15 * (2 : ℚ) ^ (-fi) * (1 / 2 ^ 14) :=
          mul_le_mul (mul_le_mul_of_nonneg_right hS hq.le) hrec (abs_nonneg _) (by positivity)
      _ = 2 * (2 : ℚ) ^ (-fi) := by ring
  have h6 : |fxNum fo (clamp 16 v) - limitQ (fxNum fo (lo 16)) (fxNum fo (hi 16)) ((v : ℚ) * (2 : ℚ) ^ (-fo))| = 0 := by
    rw [abs_eq_zero, sub_eq_zero]
    unfold fxNum
    rw [clamp_limitQ]
    have := limitQ_affine (z := 0) hp (lo 16) (hi 16) v
    simpa using this
  have h7 := limitQ_lip (fxNum fo (lo 16)) (fxNum fo (hi 16)) ((v : ℚ) * (2 : ℚ) ^ (-fo)) ((S : ℚ) / D * (2 : ℚ) ^ (-fi))
  have h8 : |(v : ℚ) * (2 : ℚ) ^ (-fo) - ((mul * S : Int) : ℚ) * (2 : ℚ) ^ (-(fi - fo + s)) * (2 : ℚ) ^ (-fo)| ≤ (2 : ℚ) ^ (-fo) / 2 := by
    rw [← sub_mul, abs_mul, abs_of_pos hp]
    have := mul_le_mul_of_nonneg_right he hp.le
    linarith
  have t1 := abs_sub_le (fxNum fo (clamp 16 v)) (limitQ (fxNum fo (lo 16)) (fxNum fo (hi 16)) ((v : ℚ) * (2 : ℚ) ^ (-fo)))
    (limitQ (fxNum fo (lo 16)) (fxNum fo (hi 16)) ((S : ℚ) / D * (2 : ℚ) ^ (-fi)))
  have t2 := abs_sub_le ((v : ℚ) * (2 : ℚ) ^ (-fo)) (((mul * S : Int) : ℚ) * (2 : ℚ) ^ (-(fi - fo + s)) * (2 : ℚ) ^ (-fo)) ((S : ℚ) / D * (2 : ℚ) ^ (-fi))
  linarith

/-! ## Convolution -/

theorem paddedQ_near {ih iw : Int} {X x : Int → Int → Int → ℚ} {e : ℚ} (he : 0 ≤ e) {r q c : Int}
    (h : 0 ≤ r → r < ih → 0 ≤ q → q < iw → |X r q c - x r q c| ≤ e) : |paddedQ ih iw X r q c - paddedQ ih iw x r q c| ≤ e := by
  unfold paddedQ
  split
  · rename_i hc; exact h hc.1 hc.2.1 hc.2.2.1 hc.2.2.2
  · simpa using he

theorem convSumQ_lip {kh kw ic : Int} {X x W : Int → Int → Int → ℚ} {e g : ℚ} (he : 0 ≤ e)
    (h : ∀ r q c, 0 ≤ c → c < ic → |X r q c - x r q c| ≤ e)
    (hg : ∑ i ∈ Finset.range kh.toNat, ∑ j ∈ Finset.range kw.toNat, ∑ c ∈ Finset.range ic.toNat, |W i j c| ≤ g) (sh sw pt pl dh dw y z : Int) :
    |convSumQ kh kw ic X W sh sw pt pl dh dw y z - convSumQ kh kw ic x W sh sw pt pl dh dw y z| ≤ g * e := by
  unfold convSumQ
  rw [← Finset.sum_sub_distrib]
  refine (Finset.abs_sum_le_sum_abs _ _).trans (le_trans ?_ (mul_le_mul_of_nonneg_right hg he))
  rw [Finset.sum_mul]
  refine Finset.sum_le_sum fun i _ => ?_
  rw [← Finset.sum_sub_distrib, Finset.sum_mul]
  refine (Finset.abs_sum_le_sum_abs _ _).trans (Finset.sum_le_sum fun j _ => ?_)
  rw [← Finset.sum_sub_distrib, Finset.sum_mul]
  refine (Finset.abs_sum_le_sum_abs _ _).trans (Finset.sum_le_sum fun c hc => ?_)
  have hc' := Finset.mem_range.1 hc
  rw [← sub_mul, abs_mul, mul_comm]
  exact mul_le_mul_of_nonneg_left (h _ _ _ (by omega) (by omega)) (abs_nonneg _)

/-! ## The layers -/

/-- A convolution in real numbers: `K` is the kernel of an output channel (as a function of row, column and input channel), `inp` selects the input
channels of an output channel. -/
def WtPar.convReal (p : WtPar) (ih iw kc : Int) (inp : Int → Int → Int) (x : List Int → ℚ) (is : List Int) : ℚ :=
  reluQ p.f.relu (limitQ (fxNum p.f.fo (lo 16)) (fxNum p.f.fo (hi 16))
    (convSumQ (p.tw.shape.getD 0 0) (p.tw.shape.getD 1 0) kc (paddedQ ih iw fun r q ch => x [r, q, inp (is.getD 2 0) ch])
      (fun i j ch => fxNum p.f.fw (p.wts.get (p.tw.addr [i, j, ch, is.getD 2 0]))) p.c.sh p.c.sw p.c.pt p.c.pl p.c.dh p.c.dw (is.getD 0 0) (is.getD 1 0) +
      fxNum p.f.fb (p.bias.get (p.tb.addr [is.getD 2 0]))))

/-- What a layer computes in real numbers from an input of the shape `ish`, limited to the range of the 16-bit output where it computes something. -/
def CnnOp.real (ish : List Int) (x : List Int → ℚ) (is : List Int) : CnnOp → ℚ
  | .conv p => p.convReal (ish.getD 0 0) (ish.getD 1 0) (ish.getD 2 0) (fun _ ch => ch) x is
  | .depthwise p => p.convReal (ish.getD 0 0) (ish.getD 1 0) 1 (fun k _ => k) x is
  | .maxpool g => maxQ (fun r q => x [r, q, is.getD 2 0]) (ish.getD 0 0) (ish.getD 1 0) g.kh g.kw g.sh g.sw g.pt g.pl (is.getD 0 0) (is.getD 1 0)
  | .avepool fo g => limitQ (fxNum fo (lo 16)) (fxNum fo (hi 16))
      (meanQ (fun r q => x [r, q, is.getD 2 0]) (ish.getD 0 0) (ish.getD 1 0) g.kh g.kw g.sh g.sw g.pt g.pl (is.getD 0 0) (is.getD 1 0))
  | .dense p => denseQ (prod ish) (fun o i => fxNum p.f.fw (p.wts.get (p.tw.addr [i, o]))) (fun o => fxNum p.f.fb (p.bias.get (p.tb.addr [o])))
      p.f.relu (fxNum p.f.fo (lo 16)) (fxNum p.f.fo (hi 16)) (fun i => x (unflat ish i)) (is.getD 0 0)

/-- The error a layer adds: half an output step (one step where the limits of the ReLU are not multiples of it); nothing for maximum pooling; for average
pooling also two input steps. -/
def CnnOp.err (fi : Int) : CnnOp → ℚ
  | .conv p => reluErr (1 / 2) p.f.relu * (2 : ℚ) ^ (-p.f.fo)
  | .depthwise p => reluErr (1 / 2) p.f.relu * (2 : ℚ) ^ (-p.f.fo)
  | .maxpool _ => 0
  | .avepool fo _ => (2 : ℚ) ^ (-fo) / 2 + 2 * (2 : ℚ) ^ (-fi)
  | .dense p => reluErr (1 / 2) p.f.relu * (2 : ℚ) ^ (-p.f.fo)

/-- The layer amplifies errors at most by `g`: no output has weights whose absolute values add up to more; pooling does not amplify. -/
def CnnOp.Gain (ish : List Int) (g : ℚ) : CnnOp → Prop
  | .conv p => ∀ k, 0 ≤ k → k < p.tw.shape.getD 3 0 → ∑ i ∈ Finset.range (p.tw.shape.getD 0 0).toNat, ∑ j ∈ Finset.range (p.tw.shape.getD 1 0).toNat,
      ∑ ch ∈ Finset.range (ish.getD 2 0).toNat, |fxNum p.f.fw (p.wts.get (p.tw.addr [(i : Int), (j : Int), (ch : Int), k]))| ≤ g
  | .depthwise p => ∀ k, 0 ≤ k → k < p.tw.shape.getD 3 0 → ∑ i ∈ Finset.range (p.tw.shape.getD 0 0).toNat, ∑ j ∈ Finset.range (p.tw.shape.getD 1 0).toNat,
      |fxNum p.f.fw (p.wts.get (p.tw.addr [(i : Int), (j : Int), 0, k]))| ≤ g
  | .maxpool _ => 1 ≤ g
  | .avepool _ _ => 1 ≤ g
  | .dense p => ∀ o, 0 ≤ o → o < p.tw.shape.getD 1 0 →
      ∑ i ∈ Finset.range (prod ish).toNat, |fxNum p.f.fw (p.wts.get (p.tw.addr [(i : Int), o]))| ≤ g

/-- Weights and bias are 16-bit elements in their buffers, the formats fit, and the bias is shifted by at most 16 bits (see `c39_bias_violated`). -/
structure WtPar.Ok (fi : Int) (p : WtPar) : Prop where
  frac : p.f.fi = fi
  vw : p.tw.Valid p.wts
  vb : p.tb.Valid p.bias
  hw : p.tw.Holds p.wts 16
  hb : p.tb.Holds p.bias 16
  shift : p.f.fi + p.f.fw - p.f.fb ≤ 16
  one : p.f.relu = .one → p.f.fo < 30

/-- What the kernel asks of its arguments: it accepts them, and the windows meet the input (convolution) or the padding is not larger than the output
positions step over (pooling), see `c36_rows_meet` and C34. -/
def CnnLayer.Accepted (fi : Int) (tin : Tensor) (l : CnnLayer) : Prop :=
  match l.op with
  | .conv p => p.Ok fi ∧ chkConvFx false p.ks p.apart p.f tin p.tw p.tb p.c l.tout = some .ok ∧ p.c.Typed ∧
      RowsMeet (tin.shape.getD 0 0) (p.tw.shape.getD 0 0) (l.tout.shape.getD 0 0) p.c
  | .depthwise p => p.Ok fi ∧ chkConvFx true p.ks p.apart p.f tin p.tw p.tb p.c l.tout = some .ok ∧ p.c.Typed
  | .maxpool g => chkPool tin g l.tout = some .ok ∧ ∃ ih iw ic oh ow, PoolGeo tin g l.tout ih iw ic oh ow
  | .avepool _ g => chkPool tin g l.tout = some .ok ∧ ∃ ih iw ic oh ow, PoolGeo tin g l.tout ih iw ic oh ow
  | .dense p => p.Ok fi ∧ chkFcFx p.apart p.f tin p.tw p.tb l.tout = some .ok

/-- The elements of a tensor stand for the numbers `x`, each with an error of at most `e`. -/
def Tensor.NearAt (t : Tensor) (src : Buf) (f : Int) (x : List Int → ℚ) (e : ℚ) : Prop :=
  ∀ is, InShape t.shape is → |fxNum f (src.get (t.addr is)) - x is| ≤ e

theorem inShape_three {a b c : Int} {is : List Int} (h : InShape [a, b, c] is) :
    ∃ y x k, is = [y, x, k] ∧ (0 ≤ y ∧ y < a) ∧ (0 ≤ x ∧ x < b) ∧ (0 ≤ k ∧ k < c) := by
  match is, h with
  | [y, x, k], h => exact ⟨y, x, k, rfl, h.1, h.2.1, h.2.2.1⟩

/-- What is shown of each layer. -/
def LayerGood (m : Rnd) (fi : Int) (tin : Tensor) (src : Buf) (l : CnnLayer) (x : List Int → ℚ) (e g : ℚ) : Prop :=
  0 ≤ g ∧ ∃ dst', l.run m fi tin src = some (.ok, dst') ∧ dst'.size = l.dst.size ∧ l.tout.Valid dst' ∧ l.tout.Holds dst' 16 ∧
    l.tout.NearAt dst' (l.op.frac fi) (fun is => l.op.real tin.shape x is) (g * e + l.op.err fi)

/-- A value within `d` of the layer applied to stored inputs, for inputs within `e`. -/
theorem close_lip {ty : ReluType} {low high y d ge s s' b : ℚ} (hy : |y - reluQ ty (limitQ low high (s + b))| ≤ d) (h : |s - s'| ≤ ge) :
    |y - reluQ ty (limitQ low high (s' + b))| ≤ ge + d := by
  have h1 : |reluQ ty (limitQ low high (s + b)) - reluQ ty (limitQ low high (s' + b))| ≤ ge := by
    refine (reluQ_lip _ _ _).trans ((limitQ_lip _ _ _ _).trans ?_)
    rwa [add_sub_add_right_eq_sub]
  have := abs_sub_le y (reluQ ty (limitQ low high (s + b))) (reluQ ty (limitQ low high (s' + b)))
  linarith

theorem conv_good (m : Rnd) {fi : Int} {tin : Tensor} {src : Buf} {p : WtPar} {tout : Tensor} {dst : Buf} {x : List Int → ℚ} {e g : ℚ}
    (vi : tin.Valid src) (hi : tin.Holds src 16) (vo : tout.Valid dst) (h : CnnLayer.Accepted fi tin ⟨.conv p, tout, dst⟩)
    (hg : (CnnOp.conv p).Gain tin.shape g) (he : 0 ≤ e) (hx : tin.NearAt src fi x e) : LayerGood m fi tin src ⟨.conv p, tout, dst⟩ x e g := by
  obtain ⟨P, hck, ct, hmeet⟩ := h
  replace hck : chkConvFx false p.ks p.apart p.f tin p.tw p.tb p.c tout = some .ok := hck
  replace hmeet : RowsMeet (tin.shape.getD 0 0) (p.tw.shape.getD 0 0) (tout.shape.getD 0 0) p.c := hmeet
  obtain ⟨ih, iw, ic, kh, kw, kc, kn, bn, oh, ow, oc, d1, d2, d3, d4, ⟨-, h6⟩, h7, -⟩ := chkConv_ok (chkConvFx_ok hck).2.2
  have h6 := h6 rfl
  have si : tin.shape = [ih.shape, iw.shape, ic.shape] := by simp [Tensor.shape, d1]
  have sk : p.tw.shape = [kh.shape, kw.shape, ic.shape, kn.shape] := by simp [Tensor.shape, d2, h6]
  have so : tout.shape = [oh.shape, ow.shape, kn.shape] := by simp [Tensor.shape, d4, h7]
  simp only [si, sk, so, List.getD_cons_zero] at hmeet
  simp only [CnnOp.Gain, si, sk, List.getD_cons_zero, List.getD_cons_succ] at hg
  have A : ConvArgs tin p.tw p.tb tout p.c src p.wts p.bias dst 16 16 16 := ⟨vi, P.vw, P.vb, vo, hi, P.hw, P.hb, ct⟩
  obtain ⟨dst', val, r1, r2, r3⟩ := c36_conv2d_fx16_partial m p.ks p.apart p.f src p.wts p.bias dst tin p.tw p.tb tout p.c _ _ _ _ _ _ _ _ A hck si sk so hmeet
    P.shift P.one
  have hk : 1 ≤ kn.shape := by have := vo.shape_pos oc (by rw [d4]; simp); omega
  refine ⟨(Finset.sum_nonneg fun _ _ => Finset.sum_nonneg fun _ _ => Finset.sum_nonneg fun _ _ => abs_nonneg _).trans (hg 0 le_rfl (by omega)),
    dst', r1, r2.size, vo.of_size r2.size, ?_, ?_⟩
  · intro is his
    rw [r2.elem is his]
    simp only [so] at his
    obtain ⟨y, z, k, rfl, -⟩ := inShape_three his
    obtain ⟨r, -, h2⟩ := r3 y z k (by rw [so]; exact his)
    exact h2.1.1
  · intro is his
    rw [r2.elem is his]
    have his' := his
    simp only [so] at his'
    obtain ⟨y, z, k, rfl, -, -, k0, k1⟩ := inShape_three his'
    obtain ⟨r, h1, h2⟩ := r3 y z k his
    have e' := convSumQ_eq ((2 : ℚ) ^ (-p.f.fi)) ((2 : ℚ) ^ (-p.f.fw)) (kh := kh.shape) (kw := kw.shape) (ic := ic.shape)
      (X := padded ih.shape iw.shape 0 fun r q ch => src.get (tin.addr [r, q, ch])) (W := fun i j ch => p.wts.get (p.tw.addr [i, j, ch, k]))
      (XQ := paddedQ ih.shape iw.shape fun r q ch => fxNum p.f.fi (src.get (tin.addr [r, q, ch]))) (WQ := fun i j ch => fxNum p.f.fw (p.wts.get (p.tw.addr [i, j, ch, k])))
      (paddedQ_eq _ fun r q ch => rfl) (fun i j ch => rfl) p.c.sh p.c.sw p.c.pt p.c.pl p.c.dh p.c.dw y z
    have main := fx_real (m := m) (by decide) (chkConvFx_ok hck).1 h1 h2
    unfold FxQ.Close inElem wtElem at main
    rw [← e', P.frac] at main
    simp only [CnnOp.real, CnnOp.err, CnnOp.frac, WtPar.convReal, si, sk, List.getD_cons_zero, List.getD_cons_succ]
    refine close_lip main (convSumQ_lip (kh := kh.shape) (kw := kw.shape) (ic := ic.shape)
      (X := paddedQ ih.shape iw.shape fun r q ch => fxNum fi (src.get (tin.addr [r, q, ch])))
      (x := paddedQ ih.shape iw.shape fun r q ch => x [r, q, ch]) (W := fun i j ch => fxNum p.f.fw (p.wts.get (p.tw.addr [i, j, ch, k]))) he
      (fun r q ch c0 c1 => paddedQ_near he fun a1 a2 b1 b2 => ?_) (hg k k0 k1) _ _ _ _ _ _ _ _)
    exact hx [r, q, ch] (by rw [si]; exact ⟨⟨a1, a2⟩, ⟨b1, b2⟩, ⟨c0, c1⟩, trivial⟩)

theorem depthwise_good (m : Rnd) {fi : Int} {tin : Tensor} {src : Buf} {p : WtPar} {tout : Tensor} {dst : Buf} {x : List Int → ℚ} {e g : ℚ}
    (vi : tin.Valid src) (hi : tin.Holds src 16) (vo : tout.Valid dst) (h : CnnLayer.Accepted fi tin ⟨.depthwise p, tout, dst⟩)
    (hg : (CnnOp.depthwise p).Gain tin.shape g) (he : 0 ≤ e) (hx : tin.NearAt src fi x e) : LayerGood m fi tin src ⟨.depthwise p, tout, dst⟩ x e g := by
  obtain ⟨P, hck, ct⟩ := h
  replace hck : chkConvFx true p.ks p.apart p.f tin p.tw p.tb p.c tout = some .ok := hck
  obtain ⟨ih, iw, ic, kh, kw, kc, kn, bn, oh, ow, oc, d1, d2, d3, d4, ⟨h6, -⟩, h7, -⟩ := chkConv_ok (chkConvFx_ok hck).2.2
  obtain ⟨h6, h6'⟩ := h6 rfl
  have si : tin.shape = [ih.shape, iw.shape, ic.shape] := by simp [Tensor.shape, d1]
  have sk : p.tw.shape = [kh.shape, kw.shape, 1, ic.shape] := by simp [Tensor.shape, d2, h6, h6']
  have so : tout.shape = [oh.shape, ow.shape, ic.shape] := by simp [Tensor.shape, d4, h7, h6']
  simp only [CnnOp.Gain, sk, List.getD_cons_zero, List.getD_cons_succ] at hg
  have A : ConvArgs tin p.tw p.tb tout p.c src p.wts p.bias dst 16 16 16 := ⟨vi, P.vw, P.vb, vo, hi, P.hw, P.hb, ct⟩
  obtain ⟨dst', val, r1, r2, r3⟩ := c36_depthwise_fx16_partial m p.ks p.apart p.f src p.wts p.bias dst tin p.tw p.tb tout p.c _ _ _ _ _ _ _ A hck si sk so
    P.shift P.one
  have hk : 1 ≤ ic.shape := by have := vo.shape_pos oc (by rw [d4]; simp); omega
  refine ⟨(Finset.sum_nonneg fun _ _ => Finset.sum_nonneg fun _ _ => abs_nonneg _).trans (hg 0 le_rfl (by omega)), dst', r1, r2.size, vo.of_size r2.size, ?_, ?_⟩
  · intro is his
    rw [r2.elem is his]
    simp only [so] at his
    obtain ⟨y, z, k, rfl, -⟩ := inShape_three his
    obtain ⟨r, -, h2⟩ := r3 y z k (by rw [so]; exact his)
    exact h2.1.1
  · intro is his
    rw [r2.elem is his]
    have his' := his
    simp only [so] at his'
    obtain ⟨y, z, k, rfl, -, -, k0, k1⟩ := inShape_three his'
    obtain ⟨r, h1, h2⟩ := r3 y z k his
    have e' := convSumQ_eq ((2 : ℚ) ^ (-p.f.fi)) ((2 : ℚ) ^ (-p.f.fw)) (kh := kh.shape) (kw := kw.shape) (ic := 1)
      (X := padded ih.shape iw.shape 0 fun r q _ => src.get (tin.addr [r, q, k])) (W := fun i j _ => p.wts.get (p.tw.addr [i, j, 0, k]))
      (XQ := paddedQ ih.shape iw.shape fun r q _ => fxNum p.f.fi (src.get (tin.addr [r, q, k]))) (WQ := fun i j _ => fxNum p.f.fw (p.wts.get (p.tw.addr [i, j, 0, k])))
      (paddedQ_eq _ fun r q _ => rfl) (fun i j _ => rfl) p.c.sh p.c.sw p.c.pt p.c.pl p.c.dh p.c.dw y z
    have main := fx_real (m := m) (by decide) (chkConvFx_ok hck).1 h1 h2
    unfold FxQ.Close inElem wtElem at main
    rw [← e', P.frac] at main
    simp only [CnnOp.real, CnnOp.err, CnnOp.frac, WtPar.convReal, si, sk, List.getD_cons_zero, List.getD_cons_succ]
    have one : ∀ (X : Int → Int → Int → ℚ) (W : Int → Int → Int → ℚ), convSumQ kh.shape kw.shape 1 X W p.c.sh p.c.sw p.c.pt p.c.pl p.c.dh p.c.dw y z =
        convSumQ kh.shape kw.shape 1 X (fun i j _ => W i j 0) p.c.sh p.c.sw p.c.pt p.c.pl p.c.dh p.c.dw y z := by
      intro X W
      unfold convSumQ
      simp
    rw [one _ fun i j ch => fxNum p.f.fw (p.wts.get (p.tw.addr [i, j, ch, k]))]
    refine close_lip main (convSumQ_lip he (fun r q ch c0 c1 => paddedQ_near he fun a1 a2 b1 b2 => ?_) ?_ _ _ _ _ _ _ _ _)
    · exact hx [r, q, k] (by rw [si]; exact ⟨⟨a1, a2⟩, ⟨b1, b2⟩, ⟨k0, k1⟩, trivial⟩)
    · simpa using hg k k0 k1

theorem maxpool_good (m : Rnd) {fi : Int} {tin : Tensor} {src : Buf} {gm : Geo} {tout : Tensor} {dst : Buf} {x : List Int → ℚ} {e g : ℚ}
    (vi : tin.Valid src) (hi : tin.Holds src 16) (vo : tout.Valid dst) (h : CnnLayer.Accepted fi tin ⟨.maxpool gm, tout, dst⟩)
    (hg : (CnnOp.maxpool gm).Gain tin.shape g) (he : 0 ≤ e) (hx : tin.NearAt src fi x e) : LayerGood m fi tin src ⟨.maxpool gm, tout, dst⟩ x e g := by
  obtain ⟨hck, ih, iw, ic, oh, ow, G⟩ := h
  obtain ⟨dst', val, r1, r2, r3⟩ := c34_maxpool_partial tin tout gm src dst ih iw ic oh ow vi vo hck G
  have hg : 1 ≤ g := hg
  refine ⟨by linarith, dst', r1, r2.size, vo.of_size r2.size, ?_, ?_⟩
  · intro is his
    rw [r2.elem is his]
    simp only [G.sout] at his
    obtain ⟨y, z, k, rfl, -, -, k0, k1⟩ := inShape_three his
    obtain ⟨-, i, j, -, -, hr, hc, hv⟩ := r3 y z k (by rw [G.sout]; exact his)
    rw [← hv]
    exact hi _ (by rw [G.sin]; exact ⟨hr, hc, ⟨k0, k1⟩, trivial⟩)
  · intro is his
    rw [r2.elem is his]
    have his' := his
    simp only [G.sout] at his'
    obtain ⟨y, z, k, rfl, -, -, k0, k1⟩ := inShape_three his'
    have main := maxQ_close (num := fxNum fi) fxNum_mono (x := fun r q => x [r, q, k]) (r3 y z k his) (e := e)
      (fun r q a1 a2 b1 b2 => hx [r, q, k] (by rw [G.sin]; exact ⟨⟨a1, a2⟩, ⟨b1, b2⟩, ⟨k0, k1⟩, trivial⟩))
    simp only [CnnOp.real, CnnOp.err, CnnOp.frac, G.sin, List.getD_cons_zero, List.getD_cons_succ]
    have := mul_le_mul_of_nonneg_right hg he
    linarith

theorem avepool_good (m : Rnd) {fi fo : Int} {tin : Tensor} {src : Buf} {gm : Geo} {tout : Tensor} {dst : Buf} {x : List Int → ℚ} {e g : ℚ}
    (vi : tin.Valid src) (hi : tin.Holds src 16) (vo : tout.Valid dst) (h : CnnLayer.Accepted fi tin ⟨.avepool fo gm, tout, dst⟩)
    (hg : (CnnOp.avepool fo gm).Gain tin.shape g) (he : 0 ≤ e) (hx : tin.NearAt src fi x e) : LayerGood m fi tin src ⟨.avepool fo gm, tout, dst⟩ x e g := by
  obtain ⟨hck, ih, iw, ic, oh, ow, G⟩ := h
  obtain ⟨dst', val, r1, r2, r3⟩ := c55_avepool_fx_partial m 16 fi fo tin tout gm src dst ih iw ic oh ow vi vo hck G hi (.inr rfl)
  have hg : 1 ≤ g := hg
  refine ⟨by linarith, dst', r1, r2.size, vo.of_size r2.size, ?_, ?_⟩
  · intro is his
    rw [r2.elem is his]
    simp only [G.sout] at his
    obtain ⟨y, z, k, rfl, -⟩ := inShape_three his
    obtain ⟨mul, s, v, -, -, hv⟩ := r3 y z k (by rw [G.sout]; exact his)
    rw [hv]
    exact clamp_inRange _ _
  · intro is his
    rw [r2.elem is his]
    have his' := his
    simp only [G.sout] at his'
    obtain ⟨y, z, k, rfl, -, -, k0, k1⟩ := inShape_three his'
    obtain ⟨mul, s, v, hrec, hsc, hv⟩ := r3 y z k his
    have hD : 1 ≤ windowCount ih iw gm.kh gm.kw gm.sh gm.sw gm.pt gm.pl y z := by
      obtain ⟨m1, -, -, r2⟩ := hrec
      by_contra hn
      have : windowCount ih iw gm.kh gm.kw gm.sh gm.sw gm.pt gm.pl y z * (mul + 1) ≤ 0 := Int.mul_nonpos_of_nonpos_of_nonneg (by omega) (by omega)
      have : (0 : Int) < 2 ^ s := by positivity
      omega
    have inr : ∀ r q, 0 ≤ r → r < ih → 0 ≤ q → q < iw → InShape tin.shape [r, q, k] :=
      fun r q a1 a2 b1 b2 => by rw [G.sin]; exact ⟨⟨a1, a2⟩, ⟨b1, b2⟩, ⟨k0, k1⟩, trivial⟩
    have hS : |((windowSum (fun r q => src.get (tin.addr [r, q, k])) ih iw gm.kh gm.kw gm.sh gm.sw gm.pt gm.pl y z : Int) : ℚ) /
        (windowCount ih iw gm.kh gm.kw gm.sh gm.sw gm.pt gm.pl y z : Int)| ≤ 2 ^ 15 := by
      have h0 := meanQ_fx (fun r q => src.get (tin.addr [r, q, k])) 0 ih iw gm.kh gm.kw gm.sh gm.sw gm.pt gm.pl y z
      have h1 := meanQ_abs (X := fun r q => fxNum 0 (src.get (tin.addr [r, q, k]))) (B := 2 ^ 15) (by positivity) (ih := ih) (iw := iw) (kh := gm.kh) (kw := gm.kw)
        (sh := gm.sh) (sw := gm.sw) (pt := gm.pt) (pl := gm.pl) (oy := y) (ox := z) (fun r q a1 a2 b1 b2 => by
          have h := inRange_abs (by omega) (hi _ (inr r q a1 a2 b1 b2))
          unfold fxNum
          rw [neg_zero, zpow_zero, mul_one]
          exact_mod_cast h)
      rw [h0] at h1
      simpa using h1
    have main := mean_close hD hrec hsc hS
    rw [← meanQ_fx] at main
    rw [hv]
    simp only [CnnOp.real, CnnOp.err, CnnOp.frac, G.sin, List.getD_cons_zero, List.getD_cons_succ]
    have lip := (limitQ_lip (fxNum fo (lo 16)) (fxNum fo (Mli.Spec.hi 16)) _ _).trans (meanQ_lip (X := fun r q => fxNum fi (src.get (tin.addr [r, q, k]))) (x := fun r q => x [r, q, k])
      he (ih := ih) (iw := iw) (kh := gm.kh) (kw := gm.kw) (sh := gm.sh) (sw := gm.sw) (pt := gm.pt) (pl := gm.pl) (oy := y) (ox := z)
      (fun r q a1 a2 b1 b2 => hx [r, q, k] (inr r q a1 a2 b1 b2)))
    have t := abs_sub_le (fxNum fo (clamp 16 v))
      (limitQ (fxNum fo (lo 16)) (fxNum fo (Mli.Spec.hi 16)) (meanQ (fun r q => fxNum fi (src.get (tin.addr [r, q, k]))) ih iw gm.kh gm.kw gm.sh gm.sw gm.pt gm.pl y z))
      (limitQ (fxNum fo (lo 16)) (fxNum fo (Mli.Spec.hi 16)) (meanQ (fun r q => x [r, q, k]) ih iw gm.kh gm.kw gm.sh gm.sw gm.pt gm.pl y z))
    have := mul_le_mul_of_nonneg_right hg he
    linarith

theorem unflat_spec : ∀ ns : List Int, (∀ n ∈ ns, 1 ≤ n) → ∀ i, 0 ≤ i → i < prod ns → InShape ns (unflat ns i) ∧ flatIndex ns (unflat ns i) = i
  | [], _, i, h0, h1 => ⟨trivial, by simp only [prod] at h1; simp only [flatIndex]; omega⟩
  | n :: ns, hp, i, h0, h1 => by
    have hps : ∀ n ∈ ns, 1 ≤ n := fun m hm => hp m (by simp [hm])
    have p1 : 1 ≤ prod ns := prod_pos hps
    obtain ⟨a, b⟩ := unflat_spec ns hps (i % prod ns) (Int.emod_nonneg _ (by omega)) (Int.emod_lt_of_pos _ (by omega))
    refine ⟨⟨⟨Int.ediv_nonneg h0 (by omega), Int.ediv_lt_of_lt_mul (by omega) h1⟩, a⟩, ?_⟩
    simp only [unflat, flatIndex, b]
    have := Int.mul_ediv_add_emod i (prod ns)
    rw [mul_comm] at this
    exact this

theorem dense_good (m : Rnd) {fi : Int} {tin : Tensor} {src : Buf} {p : WtPar} {tout : Tensor} {dst : Buf} {x : List Int → ℚ} {e g : ℚ}
    (vi : tin.Valid src) (hi : tin.Holds src 16) (vo : tout.Valid dst) (h : CnnLayer.Accepted fi tin ⟨.dense p, tout, dst⟩)
    (hg : (CnnOp.dense p).Gain tin.shape g) (he : 0 ≤ e) (hx : tin.NearAt src fi x e) : LayerGood m fi tin src ⟨.dense p, tout, dst⟩ x e g := by
  obtain ⟨P, hck⟩ := h
  replace hck : chkFcFx p.apart p.f tin p.tw p.tb tout = some .ok := hck
  obtain ⟨wi, wo, bn, on, e1, e2, e3, hc, hbs, hos, -⟩ := chkFc_ok (chkFcFx_ok hck).2.2
  have hn : wi.shape = prod tin.shape := by rw [← hc, (countElemNum_eq vi).1]
  have sw : p.tw.shape = [wi.shape, wo.shape] := by simp [Tensor.shape, e1]
  have so : tout.shape = [wo.shape] := by simp [Tensor.shape, e3, hos]
  have hk : 1 ≤ wo.shape := by have := vo.shape_pos on (by rw [e3]; simp); omega
  simp only [CnnOp.Gain, sw, List.getD_cons_zero, List.getD_cons_succ] at hg
  obtain ⟨dst', val, X, hX, r1, r2, r3⟩ := c39_fx16_partial m p.apart p.f src p.wts p.bias dst tin p.tw p.tb tout _ _
    ⟨vi, P.vw, P.vb, vo, hi, P.hw, P.hb⟩ hck sw P.shift P.one
  refine ⟨(Finset.sum_nonneg fun _ _ => abs_nonneg _).trans (hg 0 le_rfl (by omega)), dst', r1, r2.size, vo.of_size r2.size, ?_, ?_⟩
  · intro is his
    rw [r2.elem is his]
    simp only [so] at his
    obtain ⟨o, rfl, -⟩ := inShape_one his
    obtain ⟨r, -, h2⟩ := r3 o (by rw [so]; exact his)
    exact h2.1.1
  · intro is his
    rw [r2.elem is his]
    have his' := his
    simp only [so] at his'
    obtain ⟨o, rfl, o0, o1⟩ := inShape_one his'
    obtain ⟨r, h1, h2⟩ := r3 o his
    have e' := dotSumQ_eq ((2 : ℚ) ^ (-p.f.fi)) ((2 : ℚ) ^ (-p.f.fw)) (n := wi.shape) (X := X) (W := fun i => p.wts.get (p.tw.addr [i, o]))
      (XQ := fun i => fxNum p.f.fi (X i)) (WQ := fun i => fxNum p.f.fw (p.wts.get (p.tw.addr [i, o]))) (fun i => rfl) (fun i => rfl)
    have main := fx_real (m := m) (by decide) (chkFcFx_ok hck).1 h1 h2
    unfold FxQ.Close at main
    rw [← e', P.frac, hn] at main
    simp only [CnnOp.real, CnnOp.err, CnnOp.frac, List.getD_cons_zero]
    refine denseQ_close (X := fun i => fxNum fi (X i)) main (fun i a b => ?_) (hg o o0 o1) he
    have hp : ∀ n ∈ tin.shape, 1 ≤ n := by
      intro n hn
      obtain ⟨d, hd, rfl⟩ := List.mem_map.1 hn
      exact vi.shape_pos d hd
    obtain ⟨u1, u2⟩ := unflat_spec tin.shape hp i a b
    have := hx _ u1
    rwa [← hX _ u1, u2] at this

/-! ## Networks -/

/-- The layers of a network with their gains, from an input tensor with `fi` fractional bits. -/
def CnnNet : Int → Tensor → List (CnnLayer × ℚ) → Prop
  | _, _, [] => True
  | fi, tin, (l, g) :: ls => l.tout.Valid l.dst ∧ l.Accepted fi tin ∧ l.op.Gain tin.shape g ∧ CnnNet (l.op.frac fi) l.tout ls

/-- The network in real numbers. -/
def cnnReal : Tensor → List (CnnLayer × ℚ) → (List Int → ℚ) → List Int → ℚ
  | _, [], x => x
  | tin, (l, _) :: ls, x => cnnReal l.tout ls fun is => l.op.real tin.shape x is

/-- The gain of each layer and the error it adds. -/
def cnnErrs : Int → List (CnnLayer × ℚ) → List (ℚ × ℚ)
  | _, [] => []
  | fi, (l, g) :: ls => (g, l.op.err fi) :: cnnErrs (l.op.frac fi) ls

/-- The tensor a network ends with, and its fractional bits. -/
def cnnLast : Int → Tensor → List (CnnLayer × ℚ) → Int × Tensor
  | fi, tin, [] => (fi, tin)
  | fi, _, (l, _) :: ls => cnnLast (l.op.frac fi) l.tout ls

theorem CnnOp.err_nonneg (fi : Int) (op : CnnOp) : 0 ≤ op.err fi := by
  have h : ∀ ty, (0 : ℚ) ≤ reluErr (1 / 2) ty := by intro ty; unfold reluErr; split <;> norm_num
  cases op
  · exact mul_nonneg (h _) (by positivity)
  · exact mul_nonneg (h _) (by positivity)
  · exact le_rfl
  · simp only [CnnOp.err]; positivity
  · exact mul_nonneg (h _) (by positivity)

theorem layer_good (m : Rnd) {fi : Int} {tin : Tensor} {src : Buf} {l : CnnLayer} {x : List Int → ℚ} {e g : ℚ}
    (vi : tin.Valid src) (hi : tin.Holds src 16) (vo : l.tout.Valid l.dst) (h : l.Accepted fi tin)
    (hg : l.op.Gain tin.shape g) (he : 0 ≤ e) (hx : tin.NearAt src fi x e) : LayerGood m fi tin src l x e g := by
  obtain ⟨op, tout, dst⟩ := l
  cases op
  · exact conv_good m vi hi vo h hg he hx
  · exact depthwise_good m vi hi vo h hg he hx
  · exact maxpool_good m vi hi vo h hg he hx
  · exact avepool_good m vi hi vo h hg he hx
  · exact dense_good m vi hi vo h hg he hx

/-- **C103**: a network of any number of convolutions (2D and depthwise), maximum and average pooling and fully connected layers in 16-bit fixed point, each
called with the output of the one before.  All calls succeed, and every output element stands for a number within `netErr` of what the network makes of
`x` in real numbers, if the input elements stand for numbers within `e` of `x`.  Partial: the conditions in `CnnLayer.Accepted` (bias shifts, windows that
meet the input, paddings) of the kernels' theorems. -/
theorem c103_cnn_fx16_partial (m : Rnd) : ∀ (ls : List (CnnLayer × ℚ)) (fi : Int) (tin : Tensor) (src : Buf) (x : List Int → ℚ) (e : ℚ),
    CnnNet fi tin ls → tin.Valid src → tin.Holds src 16 → 0 ≤ e → tin.NearAt src fi x e →
    ∃ out, runCnn m fi (ls.map (·.1)) tin src = some ((cnnLast fi tin ls).2, out) ∧
      (cnnLast fi tin ls).2.NearAt out (cnnLast fi tin ls).1 (cnnReal tin ls x) (netErr (cnnErrs fi ls) e)
  | [], fi, tin, src, x, e, _, _, _, _, hx => ⟨src, rfl, hx⟩
  | (l, g) :: ls, fi, tin, src, x, e, h, vi, hi, he, hx => by
    obtain ⟨vo, acc, hg, rest⟩ := h
    obtain ⟨g0, dst', r1, -, r2, r3, r4⟩ := layer_good m vi hi vo acc hg he hx
    obtain ⟨out, o1, o2⟩ := c103_cnn_fx16_partial m ls (l.op.frac fi) l.tout dst' _ _ rest r2 r3 (add_nonneg (mul_nonneg g0 he) (l.op.err_nonneg fi)) r4
    refine ⟨out, ?_, o2⟩
    simp only [List.map_cons, runCnn, r1, Option.bind_some, if_true]
    exact o1

/-! ## Instance -/

theorem sum_range_le {n : Nat} {a : Nat → ℚ} {b : ℚ} (h : ∀ i, i < n → a i ≤ b) : ∑ i ∈ Finset.range n, a i ≤ n * b := by
  refine (Finset.sum_le_sum fun i hi => h i (Finset.mem_range.1 hi)).trans ?_
  rw [Finset.sum_const, Finset.card_range, nsmul_eq_mul]

def exCnn1 : WtPar := ⟨{ fi := 3, fw := 4, fb := 5, fo := 2, relu := .none }, 0, exCfg, exWt, exBias, Buf.ofList exWts, Buf.ofList [5, -6], true⟩

/-- Depthwise convolution with a kernel of 2 by 2 and a padding of 1 at the top and on the left, with ReLU. -/
def exCnn2 : WtPar :=
  ⟨{ fi := 2, fw := 3, fb := 4, fo := 1, relu := .gen }, 0, { sh := 1, sw := 1, pt := 1, pl := 1 },
    { dims := [⟨2, 4⟩, ⟨2, 2⟩, ⟨1, 2⟩, ⟨2, 1⟩], cap := 16, es := 2 }, exBias, Buf.ofList [3, -1, 2, 5, -4, 6, 7, -2], Buf.ofList [9, 4], true⟩

def exCnn5 : WtPar :=
  ⟨{ fi := 1, fw := 2, fb := 1, fo := 1, relu := .none }, 0, { sh := 1, sw := 1 },
    { dims := [⟨2, 2⟩, ⟨2, 1⟩], cap := 8, es := 2 }, exBias, Buf.ofList [3, -2, 5, 7], Buf.ofList [1, -2], true⟩

def exRow : Tensor := { dims := [⟨2, 2⟩, ⟨1, 2⟩, ⟨2, 1⟩], cap := 8, es := 2 }
def exPix : Tensor := { dims := [⟨1, 2⟩, ⟨1, 2⟩, ⟨2, 1⟩], cap := 4, es := 2 }
def exGeo3 : Geo := { kh := 1, kw := 2, sh := 1, sw := 1, pt := 0, pb := 0, pl := 0, pr := 0 }
def exGeo4 : Geo := { kh := 2, kw := 1, sh := 1, sw := 1, pt := 0, pb := 0, pl := 0, pr := 0 }

/-- Convolution, depthwise convolution, maximum pooling, average pooling and a fully connected layer. -/
def exCnn : List (CnnLayer × ℚ) :=
  [(⟨.conv exCnn1, exOut, Buf.ofList (List.replicate 8 99)⟩, 87 / 2), (⟨.depthwise exCnn2, exOut, Buf.ofList (List.replicate 8 98)⟩, 7 / 2),
    (⟨.maxpool exGeo3, exRow, Buf.ofList [1, 2, 3, 4]⟩, 1), (⟨.avepool 1 exGeo4, exPix, Buf.ofList [1, 2]⟩, 1),
    (⟨.dense exCnn5, exBias, Buf.ofList [1, 2]⟩, 7 / 2)]

theorem exCnn_wts : (∀ k : Nat, k < 2 → ∀ i : Nat, i < 2 → ∀ j : Nat, j < 3 → ∀ c : Nat, c < 2 →
      |(Buf.ofList exWts).get (exWt.addr [(i : Int), (j : Int), (c : Int), (k : Int)])| ≤ 58) ∧
    (∀ k : Nat, k < 2 → ∀ i : Nat, i < 2 → ∀ j : Nat, j < 2 → |exCnn2.wts.get (exCnn2.tw.addr [(i : Int), (j : Int), 0, (k : Int)])| ≤ 7) ∧
    (∀ k : Nat, k < 2 → ∀ i : Nat, i < 2 → |exCnn5.wts.get (exCnn5.tw.addr [(i : Int), (k : Int)])| ≤ 7) := by
  decide +kernel

theorem exCnn_gain1 : (CnnOp.conv exCnn1).Gain [3, 4, 2] (87 / 2) := by
  intro k h0 h1
  lift k to ℕ using h0
  have hk : k < 2 := Int.ofNat_lt.1 h1
  have h : ∀ i : Nat, i < 2 → ∀ j : Nat, j < 3 →
      ∑ ch ∈ Finset.range 2, |fxNum 4 ((Buf.ofList exWts).get (exWt.addr [(i : Int), (j : Int), (ch : Int), (k : Int)]))| ≤ 29 / 4 := by
    intro i hi j hj
    refine (fxGain (n := 2) (B := 58) (W := fun c => (Buf.ofList exWts).get (exWt.addr [(i : Int), (j : Int), c, (k : Int)])) (exCnn_wts.1 k hk i hi j hj)).trans ?_
    norm_num
  refine (sum_range_le (n := 2) (b := 3 * (29 / 4)) fun i hi => sum_range_le (n := 3) fun j hj => h i hi j hj).trans ?_
  norm_num

theorem exCnn_gain2 : (CnnOp.depthwise exCnn2).Gain [2, 2, 2] (7 / 2) := by
  intro k h0 h1
  lift k to ℕ using h0
  have hk : k < 2 := Int.ofNat_lt.1 h1
  have h : ∀ i : Nat, i < 2 → ∑ j ∈ Finset.range 2, |fxNum 3 (exCnn2.wts.get (exCnn2.tw.addr [(i : Int), (j : Int), 0, (k : Int)]))| ≤ 7 / 4 := by
    intro i hi
    refine (fxGain (n := 2) (B := 7) (W := fun j => exCnn2.wts.get (exCnn2.tw.addr [(i : Int), j, 0, (k : Int)])) (exCnn_wts.2.1 k hk i hi)).trans ?_
    norm_num
  refine (sum_range_le (n := 2) fun i hi => h i hi).trans ?_
  norm_num

theorem exCnn_gain5 : (CnnOp.dense exCnn5).Gain [1, 1, 2] (7 / 2) := by
  intro k h0 h1
  lift k to ℕ using h0
  have hk : k < 2 := Int.ofNat_lt.1 h1
  rw [show (prod [1, 1, 2]).toNat = 2 by decide]
  refine (fxGain (n := 2) (B := 7) (W := fun i => exCnn5.wts.get (exCnn5.tw.addr [i, (k : Int)])) (exCnn_wts.2.2 k hk)).trans ?_
  norm_num [show exCnn5.f.fw = 2 from rfl]

theorem exCnn_ok : exCnn1.Ok 3 ∧ exCnn2.Ok 2 ∧ exCnn5.Ok 1 :=
  ⟨⟨rfl, ⟨by decide, by decide, by decide, by decide⟩, ⟨by decide, by decide, by decide, by decide⟩, holds_ofList (by decide) _, holds_ofList (by decide) _,
      by decide, by decide⟩,
    ⟨rfl, ⟨by decide, by decide, by decide, by decide⟩, ⟨by decide, by decide, by decide, by decide⟩, holds_ofList (by decide) _, holds_ofList (by decide) _,
      by decide, by decide⟩,
    ⟨rfl, ⟨by decide, by decide, by decide, by decide⟩, ⟨by decide, by decide, by decide, by decide⟩, holds_ofList (by decide) _, holds_ofList (by decide) _,
      by decide, by decide⟩⟩

theorem exCnn_geo : PoolGeo exOut exGeo3 exRow 2 2 2 2 1 ∧ PoolGeo exRow exGeo4 exPix 2 1 2 1 1 :=
  ⟨⟨by decide, by decide, ⟨by decide, by decide, by decide, by decide⟩, ⟨by decide, by decide, by decide, by decide⟩⟩,
    ⟨by decide, by decide, ⟨by decide, by decide, by decide, by decide⟩, ⟨by decide, by decide, by decide, by decide⟩⟩⟩

/-- The network meets the hypotheses of `c103_cnn_fx16_partial`. -/
theorem exCnn_fits : CnnNet 3 exIn exCnn :=
  ⟨⟨by decide, by decide, by decide, by decide⟩, ⟨exCnn_ok.1, by decide, by decide, exMeet⟩, exCnn_gain1,
    ⟨by decide, by decide, by decide, by decide⟩, ⟨exCnn_ok.2.1, by decide, by decide⟩, exCnn_gain2,
    ⟨by decide, by decide, by decide, by decide⟩, ⟨by decide, _, _, _, _, _, exCnn_geo.1⟩, le_rfl,
    ⟨by decide, by decide, by decide, by decide⟩, ⟨by decide, _, _, _, _, _, exCnn_geo.2⟩, le_rfl,
    ⟨by decide, by decide, by decide, by decide⟩, ⟨exCnn_ok.2.2, by decide⟩, exCnn_gain5, trivial⟩

/-- The other hypotheses, with an input that stands exactly for the numbers, and what the calls give. -/
example : exIn.Valid (Buf.ofList exSrc) ∧ exIn.Holds (Buf.ofList exSrc) 16 ∧
    exIn.NearAt (Buf.ofList exSrc) 3 (fun is => fxNum 3 ((Buf.ofList exSrc).get (exIn.addr is))) 0 ∧
    ((runCnn .convergent 3 (exCnn.map (·.1)) exIn (Buf.ofList exSrc)).map fun p => p.2.toList) = some [238, 194] := by
  refine ⟨⟨by decide, by decide, by decide, by decide⟩, holds_ofList (by decide) _, ?_, by decide +kernel⟩
  intro is _
  simp

/-- The bound for that network: 119 and 97 are within about 7 of the numbers. -/
example : netErr (cnnErrs 3 exCnn) 0 = 225 / 32 := by
  norm_num [netErr, cnnErrs, exCnn, CnnOp.err, CnnOp.frac, exCnn1, exCnn2, exCnn5, reluErr]

end Mli
