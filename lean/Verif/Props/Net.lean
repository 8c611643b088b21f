import Verif.Model.Net
import Verif.Spec.Net
import Verif.Props.RealLayer
import Mathlib.Algebra.Order.BigOperators.Group.Finset
import Mathlib.Algebra.Order.Ring.Abs

/-!
# C102: networks of fully connected layers

The error of a network of any depth: each layer multiplies the error of its input by at most the largest sum of absolute weights of an output, and adds
its own error (C100).
-/

namespace Mli

open Spec

/-! ## Positions and errors -/

theorem flatIndex_surj : ∀ ns : List Int, (∀ n ∈ ns, 1 ≤ n) → ∀ i, 0 ≤ i → i < prod ns → ∃ is, InShape ns is ∧ flatIndex ns is = i
  | [], _, i, h0, h1 => ⟨[], trivial, by simp only [prod] at h1; simp only [flatIndex]; omega⟩
  | n :: ns, hp, i, h0, h1 => by
    have hps : ∀ n ∈ ns, 1 ≤ n := fun m hm => hp m (by simp [hm])
    have p1 : 1 ≤ prod ns := prod_pos hps
    obtain ⟨is, a, b⟩ := flatIndex_surj ns hps (i % prod ns) (Int.emod_nonneg _ (by omega)) (Int.emod_lt_of_pos _ (by omega))
    refine ⟨i / prod ns :: is, ⟨⟨Int.ediv_nonneg h0 (by omega), Int.ediv_lt_of_lt_mul (by omega) h1⟩, a⟩, ?_⟩
    simp only [flatIndex, b]
    have := Int.mul_ediv_add_emod i (prod ns)
    rw [mul_comm] at this
    exact this

theorem Tensor.Flat.index {t : Tensor} {b : Buf} {X : Int → Int} (hv : t.Valid b) (hX : t.Flat b X) {i : Int} (h0 : 0 ≤ i) (h1 : i < prod t.shape) :
    ∃ is, InShape t.shape is ∧ flatIndex t.shape is = i ∧ X i = b.get (t.addr is) := by
  have hp : ∀ n ∈ t.shape, 1 ≤ n := by
    intro n hn
    obtain ⟨d, hd, rfl⟩ := List.mem_map.1 hn
    exact hv.shape_pos d hd
  obtain ⟨is, a, e⟩ := flatIndex_surj t.shape hp i h0 h1
  exact ⟨is, a, e, by rw [← hX is a, e]⟩

/-- The inner product changes by at most the sum of the absolute weights times the change of the inputs. -/
theorem dotSumQ_lip {n : Int} {X x W : Int → ℚ} {e g : ℚ} (h : ∀ i, 0 ≤ i → i < n → |X i - x i| ≤ e)
    (hg : ∑ i ∈ Finset.range n.toNat, |W i| ≤ g) (he : 0 ≤ e) : |dotSumQ n X W - dotSumQ n x W| ≤ g * e := by
  unfold dotSumQ
  rw [← Finset.sum_sub_distrib]
  refine (Finset.abs_sum_le_sum_abs _ _).trans (le_trans ?_ (mul_le_mul_of_nonneg_right hg he))
  rw [Finset.sum_mul]
  refine Finset.sum_le_sum fun i hi => ?_
  have hi' := Finset.mem_range.1 hi
  rw [← sub_mul, abs_mul, mul_comm]
  exact mul_le_mul_of_nonneg_left (h i (by omega) (by omega)) (abs_nonneg _)

/-- One layer: an element within `d` of what the layer makes of the stored inputs is within `g * e + d` of what it makes of inputs within `e`. -/
theorem denseQ_close {n : Int} {W : Int → Int → ℚ} {b : Int → ℚ} {ty : ReluType} {low high y d e g : ℚ} {X x : Int → ℚ} {o : Int}
    (hy : |y - denseQ n W b ty low high X o| ≤ d) (h : ∀ i, 0 ≤ i → i < n → |X i - x i| ≤ e)
    (hg : ∑ i ∈ Finset.range n.toNat, |W o i| ≤ g) (he : 0 ≤ e) : |y - denseQ n W b ty low high x o| ≤ g * e + d := by
  have h1 : |denseQ n W b ty low high X o - denseQ n W b ty low high x o| ≤ g * e := by
    unfold denseQ
    refine (reluQ_lip _ _ _).trans ((limitQ_lip _ _ _ _).trans ?_)
    rw [add_sub_add_right_eq_sub]
    exact dotSumQ_lip h hg he
  have := abs_sub_le y (denseQ n W b ty low high X o) (denseQ n W b ty low high x o)
  linarith

/-- The elements of a tensor stand for the vector `x`, each with an error of at most `e`; `num` is the number an element stands for. -/
def Tensor.Near (t : Tensor) (src : Buf) (num : Int → ℚ) (x : Int → ℚ) (e : ℚ) : Prop :=
  ∀ is, InShape t.shape is → |num (src.get (t.addr is)) - x (flatIndex t.shape is)| ≤ e

theorem Tensor.Near.flat {t : Tensor} {src : Buf} {num x : Int → ℚ} {e : ℚ} {X : Int → Int} (hv : t.Valid src) (hX : t.Flat src X)
    (h : t.Near src num x e) : ∀ i, 0 ≤ i → i < prod t.shape → |num (X i) - x i| ≤ e := by
  intro i h0 h1
  obtain ⟨is, a, b, c⟩ := hX.index hv h0 h1
  have := h is a
  rwa [b, ← c] at this

theorem Tensor.Valid.of_size {t : Tensor} {b b' : Buf} (h : t.Valid b) (e : b'.size = b.size) : t.Valid b' :=
  ⟨h.typed, h.small, h.accepted, by have := h.fits; unfold Tensor.Fits at this ⊢; rwa [e]⟩

theorem inShape_one {k : Int} {is : List Int} (h : InShape [k] is) : ∃ o, is = [o] ∧ 0 ≤ o ∧ o < k := by
  match is, h with
  | [o], h => exact ⟨o, rfl, h.1.1, h.1.2⟩

/-! ## Fixed point -/

/-- What the layer computes in real numbers, from `n` inputs, with output of `w` bits. -/
def FcFxCall.real (w : Nat) (n : Int) (l : FcFxCall) : (Int → ℚ) → Int → ℚ :=
  denseQ n (fun o i => fxNum l.f.fw (l.wts.get (l.tw.addr [i, o]))) (fun o => fxNum l.f.fb (l.bias.get (l.tb.addr [o]))) l.f.relu
    (fxNum l.f.fo (lo w)) (fxNum l.f.fo (hi w))

/-- The error a layer adds: half an output step, one step where the limits of the ReLU are not multiples of it. -/
def FcFxCall.err (l : FcFxCall) : ℚ := reluErr (1 / 2) l.f.relu * (2 : ℚ) ^ (-l.f.fo)

/-- A layer that can follow an input tensor `tin` with `fi` fractional bits: the kernel accepts its tensors, these are over buffers that hold
weights and biases of `ww` bits, and no output has weights whose absolute values add up to more than `g`. -/
structure FcFxCall.Fits (ww : Nat) (fi : Int) (tin : Tensor) (l : FcFxCall) (g : ℚ) : Prop where
  frac : l.f.fi = fi
  accepted : chkFcFx l.apart l.f tin l.tw l.tb l.tout = some .ok
  vw : l.tw.Valid l.wts
  vb : l.tb.Valid l.bias
  vo : l.tout.Valid l.dst
  hw : l.tw.Holds l.wts ww
  hb : l.tb.Holds l.bias ww
  one : l.f.relu = .one → l.f.fo < 30
  gain : ∀ o, InShape l.tout.shape [o] → ∑ i ∈ Finset.range (prod tin.shape).toNat, |fxNum l.f.fw (l.wts.get (l.tw.addr [(i : Int), o]))| ≤ g

/-- The layers of a network with their gains, from an input tensor with `fi` fractional bits; `extra` is what else each layer must meet. -/
def FcFxNet (ww : Nat) (extra : Tensor → FcFxCall → Prop) : Int → Tensor → List (FcFxCall × ℚ) → Prop
  | _, _, [] => True
  | fi, tin, (l, g) :: ls => l.Fits ww fi tin g ∧ extra tin l ∧ FcFxNet ww extra l.f.fo l.tout ls

/-- The network in real numbers. -/
def fcFxReal (w : Nat) : Tensor → List (FcFxCall × ℚ) → List ((Int → ℚ) → Int → ℚ)
  | _, [] => []
  | tin, (l, _) :: ls => l.real w (prod tin.shape) :: fcFxReal w l.tout ls

/-- The tensor a network ends with, and its fractional bits. -/
def fcFxLast : Int → Tensor → List (FcFxCall × ℚ) → Int × Tensor
  | fi, tin, [] => (fi, tin)
  | _, _, (l, _) :: ls => fcFxLast l.f.fo l.tout ls

/-- One layer of a network. -/
theorem fcFx_layer {m : Rnd} {w ww aw : Nat} {fi : Int} {tin : Tensor} {l : FcFxCall} {g e : ℚ} {src : Buf} {x : Int → ℚ} {n k : Int}
    (F : l.Fits ww fi tin g) (sw : l.tw.shape = [n, k]) (hn : n = prod tin.shape) (so : l.tout.shape = [k])
    (K : ∃ dst' val X, tin.Flat src X ∧ krnFcFx m w aw l.apart l.f src l.wts l.bias tin l.tw l.tb l.tout l.dst = some (.ok, dst') ∧
      l.tout.Writes val l.dst dst' ∧ ∀ o, InShape l.tout.shape [o] → InRange w (val [o]) ∧
        l.f.Close w (val [o]) (dotSumQ n (fun i => fxNum l.f.fi (X i)) (fun i => fxNum l.f.fw (l.wts.get (l.tw.addr [i, o]))) +
          fxNum l.f.fb (l.bias.get (l.tb.addr [o]))))
    (vi : tin.Valid src) (he : 0 ≤ e) (hx : tin.Near src (fxNum fi) x e) :
    ∃ dst', krnFcFx m w aw l.apart l.f src l.wts l.bias tin l.tw l.tb l.tout l.dst = some (.ok, dst') ∧ l.tout.Valid dst' ∧
      l.tout.Holds dst' w ∧ l.tout.Near dst' (fxNum l.f.fo) (l.real w (prod tin.shape) x) (g * e + l.err) := by
  obtain ⟨dst', val, X, hX, r1, r2, r3⟩ := K
  refine ⟨dst', r1, F.vo.of_size r2.size, ?_, ?_⟩
  · intro is his
    rw [r2.elem is his]
    rw [so] at his
    obtain ⟨o, rfl, h0, h1⟩ := inShape_one his
    exact (r3 o (by rw [so]; exact his)).1
  · intro is his
    rw [r2.elem is his]
    have his' := his
    rw [so] at his'
    obtain ⟨o, rfl, h0, h1⟩ := inShape_one his'
    have c := (r3 o his).2
    have hfl := hx.flat vi hX
    rw [show flatIndex l.tout.shape [o] = o by rw [so]; simp [flatIndex, prod]]
    refine denseQ_close (X := fun i => fxNum fi (X i)) ?_ hfl (F.gain o his) he
    unfold FxQ.Close at c
    rw [F.frac, hn] at c
    exact c

theorem FcFxCall.Fits.shapes {w : Nat} {fi : Int} {tin : Tensor} {l : FcFxCall} {g : ℚ} {src : Buf} (F : l.Fits w fi tin g) (vi : tin.Valid src) :
    ∃ n k, l.tw.shape = [n, k] ∧ n = prod tin.shape ∧ l.tout.shape = [k] ∧ 1 ≤ k := by
  obtain ⟨wi, wo, bn, on, e1, e2, e3, hc, hb, ho, -⟩ := chkFc_ok (chkFcFx_ok F.accepted).2.2
  refine ⟨wi.shape, wo.shape, by simp [Tensor.shape, e1], by rw [← hc, (countElemNum_eq vi).1], by simp [Tensor.shape, e3, ho], ?_⟩
  have := F.vo.shape_pos on (by rw [e3]; simp)
  omega

theorem err_nonneg (l : FcFxCall) : 0 ≤ l.err := by
  unfold FcFxCall.err
  refine mul_nonneg ?_ (by positivity)
  unfold reluErr
  split <;> norm_num

theorem gain_nonneg {w : Nat} {fi : Int} {tin : Tensor} {l : FcFxCall} {g : ℚ} (F : l.Fits w fi tin g) {k : Int} (so : l.tout.shape = [k]) (hk : 1 ≤ k) :
    0 ≤ g :=
  (Finset.sum_nonneg fun _ _ => abs_nonneg _).trans (F.gain 0 (by rw [so]; exact ⟨⟨le_rfl, by omega⟩, trivial⟩))

/-- A network whose layers are right. -/
theorem fcFx_net (m : Rnd) (w ww aw : Nat) (extra : Tensor → FcFxCall → Prop)
    (K : ∀ (fi : Int) (tin : Tensor) (l : FcFxCall) (g : ℚ) (src : Buf) (n k : Int), l.Fits ww fi tin g → extra tin l → tin.Valid src → tin.Holds src w →
      l.tw.shape = [n, k] →
      ∃ dst' val X, tin.Flat src X ∧ krnFcFx m w aw l.apart l.f src l.wts l.bias tin l.tw l.tb l.tout l.dst = some (.ok, dst') ∧
      l.tout.Writes val l.dst dst' ∧ ∀ o, InShape l.tout.shape [o] → InRange w (val [o]) ∧
        l.f.Close w (val [o]) (dotSumQ n (fun i => fxNum l.f.fi (X i)) (fun i => fxNum l.f.fw (l.wts.get (l.tw.addr [i, o]))) +
          fxNum l.f.fb (l.bias.get (l.tb.addr [o])))) :
    ∀ (ls : List (FcFxCall × ℚ)) (fi : Int) (tin : Tensor) (src : Buf) (x : Int → ℚ) (e : ℚ), FcFxNet ww extra fi tin ls → tin.Valid src → tin.Holds src w →
      0 ≤ e → tin.Near src (fxNum fi) x e →
      ∃ out, runFcFx m w aw (ls.map (·.1)) tin src = some ((fcFxLast fi tin ls).2, out) ∧
        (fcFxLast fi tin ls).2.Near out (fxNum (fcFxLast fi tin ls).1) (netQ (fcFxReal w tin ls) x) (netErr (ls.map fun p => (p.2, p.1.err)) e)
  | [], fi, tin, src, x, e, _, _, _, _, hx => ⟨src, rfl, hx⟩
  | (l, g) :: ls, fi, tin, src, x, e, h, vi, hi, he, hx => by
    obtain ⟨F, ex, rest⟩ := h
    obtain ⟨n, k, sw, hn, so, hk⟩ := F.shapes vi
    obtain ⟨dst', r1, r2, r3, r4⟩ := fcFx_layer F sw hn so (K fi tin l g src n k F ex vi hi sw) vi he hx
    have hg := gain_nonneg F so hk
    obtain ⟨out, o1, o2⟩ := fcFx_net m w ww aw extra K ls l.f.fo l.tout dst' _ _ rest r2 r3 (add_nonneg (mul_nonneg hg he) (err_nonneg l)) r4
    refine ⟨out, ?_, o2⟩
    simp only [List.map_cons, runFcFx, r1, Option.bind_some, if_true]
    exact o1

/-- **C102**, 16 bits: a network of any number of fully connected layers, each called with the output of the one before.  All calls succeed, and every
output element stands for a number within `netErr` of what the network makes of `x` in real numbers, if the input elements stand for numbers within `e`
of `x`.  Partial: the conditions of `c39_fx16_partial` on the bias (shifted by at most 16 bits, see `c39_bias_violated`) and `ReLU1`. -/
theorem c102_fx16_partial (m : Rnd) (ls : List (FcFxCall × ℚ)) (fi : Int) (tin : Tensor) (src : Buf) (x : Int → ℚ) (e : ℚ)
    (h : FcFxNet 16 (fun _ l => l.f.fi + l.f.fw - l.f.fb ≤ 16) fi tin ls) (vi : tin.Valid src) (hi : tin.Holds src 16) (he : 0 ≤ e)
    (hx : tin.Near src (fxNum fi) x e) :
    ∃ out, runFcFx m 16 64 (ls.map (·.1)) tin src = some ((fcFxLast fi tin ls).2, out) ∧
      (fcFxLast fi tin ls).2.Near out (fxNum (fcFxLast fi tin ls).1) (netQ (fcFxReal 16 tin ls) x) (netErr (ls.map fun p => (p.2, p.1.err)) e) := by
  refine fcFx_net m 16 16 64 _ (fun fi tin l g src n k F ex vi hi sw => ?_) ls fi tin src x e h vi hi he hx
  obtain ⟨dst', val, X, hX, r1, r2, r3⟩ := c39_fx16_partial m l.apart l.f src l.wts l.bias l.dst tin l.tw l.tb l.tout n k
    ⟨vi, F.vw, F.vb, F.vo, hi, F.hw, F.hb⟩ F.accepted sw ex F.one
  refine ⟨dst', val, X, hX, r1, r2, fun o ho => ?_⟩
  obtain ⟨r, h1, h2⟩ := r3 o ho
  refine ⟨h2.1.1, ?_⟩
  have e := dotSumQ_eq ((2 : ℚ) ^ (-l.f.fi)) ((2 : ℚ) ^ (-l.f.fw)) (n := n) (X := X) (W := fun i => l.wts.get (l.tw.addr [i, o]))
    (XQ := fun i => fxNum l.f.fi (X i)) (WQ := fun i => fxNum l.f.fw (l.wts.get (l.tw.addr [i, o]))) (fun i => rfl) (fun i => rfl)
  rw [e]
  exact fx_real (by decide) (chkFcFx_ok F.accepted).1 h1 h2

theorem dotSum_bound {n : Int} {X W : Int → Int} {A B : Int} (hn : 0 ≤ n) (hX : ∀ i, 0 ≤ i → i < n → |X i| ≤ A) (hW : ∀ i, 0 ≤ i → i < n → |W i| ≤ B)
    (hA : 0 ≤ A) : |dotSum n X W| ≤ n * (A * B) := by
  unfold dotSum
  refine (Finset.abs_sum_le_sum_abs _ _).trans ?_
  have h : ∀ i ∈ Finset.range n.toNat, |X i * W i| ≤ A * B := by
    intro i hi
    have hi' := Finset.mem_range.1 hi
    rw [abs_mul]
    exact mul_le_mul (hX i (by omega) (by omega)) (hW i (by omega) (by omega)) (abs_nonneg _) hA
  refine (Finset.sum_le_sum h).trans ?_
  rw [Finset.sum_const, Finset.card_range, nsmul_eq_mul, Int.toNat_of_nonneg hn]

theorem inRange_abs {w : Nat} (hw : 1 ≤ w) {x : Int} (h : InRange w x) : |x| ≤ 2 ^ (w - 1) := by
  obtain ⟨a, b⟩ := h
  simp only [lo, hi] at a b
  rw [abs_le]
  constructor <;> omega

theorem zpDiff_abs {x z : Int} (hx : InRange 8 x) (hz : InRange 8 z) : |x - z| ≤ 255 := by
  obtain ⟨a, b⟩ := hx
  obtain ⟨c, d⟩ := hz
  simp only [lo, hi] at a b c d
  rw [abs_le]
  constructor <;> omega

/-- The inputs and weights of a layer. -/
theorem fc_operands {tin tw : Tensor} {src wts : Buf} {w ww : Nat} {X : Int → Int} {n k o : Int} (vi : tin.Valid src) (hi : tin.Holds src w)
    (hw : tw.Holds wts ww) (hX : tin.Flat src X) (sw : tw.shape = [n, k]) (hn : n = prod tin.shape) (ho : 0 ≤ o ∧ o < k) :
    0 ≤ n ∧ (∀ i, 0 ≤ i → i < n → InRange w (X i)) ∧ ∀ i, 0 ≤ i → i < n → InRange ww (wts.get (tw.addr [i, o])) := by
  refine ⟨by have := (countElemNum_eq vi).2.1; omega, fun i h0 h1 => ?_, fun i h0 h1 => hw [i, o] (by rw [sw]; exact ⟨⟨h0, h1⟩, ho, trivial⟩)⟩
  obtain ⟨is, a, -, c⟩ := hX.index vi h0 (by omega)
  rw [c]
  exact hi is a

/-- What a network with 32-bit accumulators needs besides: products of an input of `w` bits and a weight of `ww` bits and the bias cannot add up to
more than 32 bits, and rounding "up" does not meet a shift that it does not support (C04). -/
def Acc32 (m : Rnd) (w ww : Nat) (tin : Tensor) (l : FcFxCall) : Prop :=
  (∀ o, InShape l.tout.shape [o] → prod tin.shape * (2 ^ (w - 1) * 2 ^ (ww - 1)) +
    |l.bias.get (l.tb.addr [o]) * 2 ^ (l.f.fi + l.f.fw - l.f.fb).toNat| < 2 ^ 31) ∧
  (m = .up → l.f.fi + l.f.fw - l.f.fo ≤ 32 - w ∨ 32 ≤ l.f.fi + l.f.fw - l.f.fo)

theorem acc32_fits {m : Rnd} {w ww : Nat} {fi : Int} {tin : Tensor} {l : FcFxCall} {g : ℚ} {src : Buf} {n k : Int} {X : Int → Int} (hw1 : 1 ≤ w) (hw2 : 1 ≤ ww)
    (F : l.Fits ww fi tin g) (ex : Acc32 m w ww tin l) (vi : tin.Valid src) (hi : tin.Holds src w) (hX : tin.Flat src X) (sw : l.tw.shape = [n, k]) :
    n = prod tin.shape ∧ ∀ o, InShape l.tout.shape [o] → SumFits true (dotSum n X (fun i => l.wts.get (l.tw.addr [i, o])))
      (l.bias.get (l.tb.addr [o]) * 2 ^ (l.f.fi + l.f.fw - l.f.fb).toNat) := by
  obtain ⟨n', k', sw', hn, so, hk⟩ := F.shapes vi
  rw [sw] at sw'
  simp only [List.cons.injEq, and_true] at sw'
  obtain ⟨rfl, rfl⟩ := sw'
  refine ⟨hn, fun o ho => ?_⟩
  have ho' : 0 ≤ o ∧ o < k := by rw [so] at ho; exact ho.1
  obtain ⟨n0, bX, bW⟩ := fc_operands vi hi F.hw hX sw hn ho'
  have hb := dotSum_bound n0 (fun i h0 h1 => inRange_abs hw1 (bX i h0 h1)) (fun i h0 h1 => inRange_abs hw2 (bW i h0 h1)) (by positivity)
  have := ex.1 o ho
  unfold SumFits
  rw [← hn] at this
  rw [if_pos rfl]
  omega

/-- **C102**, 8 bits.  Partial: the sums must fit 32 bits (the accumulator wraps otherwise), the shifts are restricted for rounding "up" and `ReLU1`
as in `c39_fx8_partial`. -/
theorem c102_fx8_partial (m : Rnd) (ls : List (FcFxCall × ℚ)) (fi : Int) (tin : Tensor) (src : Buf) (x : Int → ℚ) (e : ℚ)
    (h : FcFxNet 8 (Acc32 m 8 8) fi tin ls) (vi : tin.Valid src) (hi : tin.Holds src 8) (he : 0 ≤ e) (hx : tin.Near src (fxNum fi) x e) :
    ∃ out, runFcFx m 8 32 (ls.map (·.1)) tin src = some ((fcFxLast fi tin ls).2, out) ∧
      (fcFxLast fi tin ls).2.Near out (fxNum (fcFxLast fi tin ls).1) (netQ (fcFxReal 8 tin ls) x) (netErr (ls.map fun p => (p.2, p.1.err)) e) := by
  refine fcFx_net m 8 8 32 _ (fun fi tin l g src n k F ex vi hi sw => ?_) ls fi tin src x e h vi hi he hx
  obtain ⟨n', k', sw', hn', so, hk⟩ := F.shapes vi
  have hn : n ≤ 131071 := by
    have e1 : n = n' := by rw [sw] at sw'; simp only [List.cons.injEq] at sw'; exact sw'.1
    have := ex.1 0 (by rw [so]; exact ⟨⟨le_rfl, by omega⟩, trivial⟩)
    have := abs_nonneg (l.bias.get (l.tb.addr [0]) * 2 ^ (l.f.fi + l.f.fw - l.f.fb).toNat)
    omega
  obtain ⟨dst', val, X, hX, r1, r2, r3⟩ := c39_fx8_partial m l.apart l.f src l.wts l.bias l.dst tin l.tw l.tb l.tout n k
    ⟨vi, F.vw, F.vb, F.vo, hi, F.hw, F.hb⟩ F.accepted sw hn F.one ex.2
  refine ⟨dst', val, X, hX, r1, r2, fun o ho => ?_⟩
  obtain ⟨r, h1, h2⟩ := r3 o ho
  refine ⟨h2.1.1, ?_⟩
  have e := dotSumQ_eq ((2 : ℚ) ^ (-l.f.fi)) ((2 : ℚ) ^ (-l.f.fw)) (n := n) (X := X) (W := fun i => l.wts.get (l.tw.addr [i, o]))
    (XQ := fun i => fxNum l.f.fi (X i)) (WQ := fun i => fxNum l.f.fw (l.wts.get (l.tw.addr [i, o]))) (fun i => rfl) (fun i => rfl)
  rw [e]
  exact fx32_real (by decide) (chkFcFx_ok F.accepted).1 ((acc32_fits (by omega) (by omega) F ex vi hi hX sw).2 o ho) h1 h2

/-- **C102**, 16 bits with 8-bit weights and biases.  Partial: as `c102_fx8_partial`. -/
theorem c102_fx16_fx8_partial (m : Rnd) (ls : List (FcFxCall × ℚ)) (fi : Int) (tin : Tensor) (src : Buf) (x : Int → ℚ) (e : ℚ)
    (h : FcFxNet 8 (Acc32 m 16 8) fi tin ls) (vi : tin.Valid src) (hi : tin.Holds src 16) (he : 0 ≤ e) (hx : tin.Near src (fxNum fi) x e) :
    ∃ out, runFcFx m 16 32 (ls.map (·.1)) tin src = some ((fcFxLast fi tin ls).2, out) ∧
      (fcFxLast fi tin ls).2.Near out (fxNum (fcFxLast fi tin ls).1) (netQ (fcFxReal 16 tin ls) x) (netErr (ls.map fun p => (p.2, p.1.err)) e) := by
  refine fcFx_net m 16 8 32 _ (fun fi tin l g src n k F ex vi hi sw => ?_) ls fi tin src x e h vi hi he hx
  obtain ⟨n', k', sw', hn', so, hk⟩ := F.shapes vi
  have hn : n ≤ 511 := by
    have e1 : n = n' := by rw [sw] at sw'; simp only [List.cons.injEq] at sw'; exact sw'.1
    have := ex.1 0 (by rw [so]; exact ⟨⟨le_rfl, by omega⟩, trivial⟩)
    have := abs_nonneg (l.bias.get (l.tb.addr [0]) * 2 ^ (l.f.fi + l.f.fw - l.f.fb).toNat)
    omega
  obtain ⟨dst', val, X, hX, r1, r2, r3⟩ := c39_fx16_fx8_partial m l.apart l.f src l.wts l.bias l.dst tin l.tw l.tb l.tout n k
    ⟨vi, F.vw, F.vb, F.vo, hi, F.hw, F.hb⟩ F.accepted sw hn F.one ex.2
  refine ⟨dst', val, X, hX, r1, r2, fun o ho => ?_⟩
  obtain ⟨r, h1, h2⟩ := r3 o ho
  refine ⟨h2.1.1, ?_⟩
  have e := dotSumQ_eq ((2 : ℚ) ^ (-l.f.fi)) ((2 : ℚ) ^ (-l.f.fw)) (n := n) (X := X) (W := fun i => l.wts.get (l.tw.addr [i, o]))
    (XQ := fun i => fxNum l.f.fi (X i)) (WQ := fun i => fxNum l.f.fw (l.wts.get (l.tw.addr [i, o]))) (fun i => rfl) (fun i => rfl)
  rw [e]
  exact fx32_real (by decide) (chkFcFx_ok F.accepted).1 ((acc32_fits (by omega) (by omega) F ex vi hi hX sw).2 o ho) h1 h2

/-! ## 8-bit asymmetric -/

theorem sumFits_acc {full : Bool} {S b b' acc : Int} (hb : BiasFor full b b') (hacc : acc = clamp 32 (S + b')) (hfit : SumFits full S b) :
    full = true ∨ |acc| < 2 ^ 23 - 2 ^ 7 := by
  cases full
  · right
    unfold SumFits at hfit
    rw [if_neg (by decide)] at hfit
    have hb2 := hb.2
    have t1 := abs_add_le S b'
    have t2 : |b'| ≤ |b| + |b' - b| := by
      have := abs_add_le b (b' - b)
      rwa [add_sub_cancel] at this
    have hS0 := abs_nonneg S
    have e : clamp 32 (S + b') = S + b' := by
      apply clamp_of_inRange
      have := abs_le.1 (show |S + b'| ≤ 2 ^ 23 by omega)
      constructor <;> simp only [lo, hi] <;> omega
    rw [hacc, e]
    omega
  · exact .inl rfl

/-- What the layer computes in real numbers, from `n` inputs. -/
def FcSaCall.real (n : Int) (l : FcSaCall) : (Int → ℚ) → Int → ℚ :=
  denseQ n (fun o i => saNum l.q.qw o (l.wts.get (l.tw.addr [i, o]))) (fun o => saNum l.q.qb o (l.bias.get (l.tb.addr [o]))) l.q.relu
    (saNum l.q.qo 0 (-128)) (saNum l.q.qo 0 127)

/-- A layer that can follow an input tensor `tin` with the quantization parameters `qi`: the kernel accepts its tensors and parameters, the tensors are over
buffers that hold their elements, and the sums fit the accumulator; no output has weights whose absolute values add up to more than `g`, and the
rounding and the format of the bias (C100) cost at most `d`. -/
structure FcSaCall.Fits (m : Rnd) (full : Bool) (qi : SaQ) (tin : Tensor) (l : FcSaCall) (g d : ℚ) : Prop where
  quant : l.q.qi = qi
  typed : l.q.qi.Typed ∧ l.q.qw.Typed ∧ l.q.qo.Typed
  accepted : chkFc l.apart tin l.tw l.tb l.tout = some .ok
  params : chkSa8At 1 m l.q tin l.tw l.tb l.tout = some .ok
  vw : l.tw.Valid l.wts
  vb : l.tb.Valid l.bias
  vo : l.tout.Valid l.dst
  hw : l.tw.Holds l.wts 8
  hb : l.tb.Holds l.bias 32
  six : l.q.relu = .six → l.q.qo.zpAt 0 = 0 ∨ l.q.qo.fracAt 0 < 28
  one : l.q.relu = .one → l.q.qo.fracAt 0 < 30
  sums : ∀ o, InShape l.tout.shape [o] → prod tin.shape * 2 ^ 15 + |l.bias.get (l.tb.addr [o])| < if full then 2 ^ 31 else 2 ^ 23 - 2 ^ 10
  gain : ∀ o, InShape l.tout.shape [o] → ∑ i ∈ Finset.range (prod tin.shape).toNat, |saNum l.q.qw o (l.wts.get (l.tw.addr [(i : Int), o]))| ≤ g
  err : ∀ o, InShape l.tout.shape [o] → reluErr (3 / 5) l.q.relu * l.q.step + l.q.biasErr full o (l.bias.get (l.tb.addr [o])) ≤ d

/-- The layers of a network with their gains and errors. -/
def FcSaNet (m : Rnd) (full : Bool) : SaQ → Tensor → List (FcSaCall × ℚ × ℚ) → Prop
  | _, _, [] => True
  | qi, tin, (l, g, d) :: ls => l.Fits m full qi tin g d ∧ FcSaNet m full l.q.qo l.tout ls

/-- The network in real numbers. -/
def fcSaReal : Tensor → List (FcSaCall × ℚ × ℚ) → List ((Int → ℚ) → Int → ℚ)
  | _, [] => []
  | tin, (l, _) :: ls => l.real (prod tin.shape) :: fcSaReal l.tout ls

/-- The tensor a network ends with, and its quantization parameters. -/
def fcSaLast : SaQ → Tensor → List (FcSaCall × ℚ × ℚ) → SaQ × Tensor
  | qi, tin, [] => (qi, tin)
  | _, _, (l, _) :: ls => fcSaLast l.q.qo l.tout ls

/-- One layer of a network. -/
theorem fcSa_layer {m : Rnd} {full : Bool} {qi : SaQ} {tin : Tensor} {l : FcSaCall} {g d e : ℚ} {src : Buf} {x : Int → ℚ}
    (F : l.Fits m full qi tin g d) (vi : tin.Valid src) (hi : tin.Holds src 8) (he : 0 ≤ e) (hx : tin.Near src (saNum qi 0) x e) :
    0 ≤ g ∧ 0 ≤ d ∧ ∃ dst', krnFcSa8 m full false l.apart l.q src l.wts l.bias tin l.tw l.tb l.tout l.dst = some (.ok, dst') ∧ l.tout.Valid dst' ∧
      l.tout.Holds dst' 8 ∧ l.tout.Near dst' (saNum l.q.qo 0) (l.real (prod tin.shape) x) (g * e + d) := by
  obtain ⟨wi, wo, bn, on, e1, e2, e3, hc, hbs, hos, -⟩ := chkFc_ok F.accepted
  have hn : wi.shape = prod tin.shape := by rw [← hc, (countElemNum_eq vi).1]
  have sw : l.tw.shape = [wi.shape, wo.shape] := by simp [Tensor.shape, e1]
  have sb : l.tb.shape = [wo.shape] := by simp [Tensor.shape, e2, hbs]
  have so : l.tout.shape = [wo.shape] := by simp [Tensor.shape, e3, hos]
  have hk : 1 ≤ wo.shape := by have := F.vo.shape_pos on (by rw [e3]; simp); omega
  have o0 : InShape l.tout.shape [0] := by rw [so]; exact ⟨⟨le_rfl, by omega⟩, trivial⟩
  obtain ⟨-, ⟨I1, I2⟩, ⟨O1, O2⟩, hWt⟩ := chkSa8At_ok F.params
  have hsum := fun o ho => F.sums o ho
  have hn' : wi.shape ≤ 65536 := by
    have h1 := hsum 0 o0
    have h2 := abs_nonneg (l.bias.get (l.tb.addr [0]))
    cases full
    · rw [if_neg (by decide)] at h1; omega
    · rw [if_pos rfl] at h1; omega
  have hd : 0 ≤ d := by
    refine le_trans (add_nonneg (mul_nonneg ?_ ?_) ?_) (F.err 0 o0)
    · unfold reluErr; split <;> norm_num
    · unfold Sa8Q.step scaleVal; have : (0 : ℚ) < l.q.qo.scaleAt 0 := by exact_mod_cast O1
      positivity
    · unfold Sa8Q.biasErr
      refine mul_nonneg (abs_nonneg _) (add_nonneg ?_ (abs_nonneg _))
      split
      · exact le_rfl
      · have h1 : (0 : ℚ) < l.q.qi.scaleAt 0 := by exact_mod_cast I1
        have h2 : (0 : ℚ) < l.q.qw.scaleAt 0 := by exact_mod_cast (hWt 0 le_rfl (by rw [sw]; exact hk)).1
        unfold Sa8Q.inScale scaleVal
        positivity
  refine ⟨(Finset.sum_nonneg fun _ _ => abs_nonneg _).trans (F.gain 0 o0), hd, ?_⟩
  have A : FcArgs tin l.tw l.tb l.tout src l.wts l.bias l.dst 8 8 32 := ⟨vi, F.vw, F.vb, F.vo, hi, F.hw, F.hb⟩
  obtain ⟨dst', val, X, hX, r1, r2, r3⟩ := c39_sa8_partial m full false l.apart l.q src l.wts l.bias l.dst tin l.tw l.tb l.tout _ _ A F.typed
    F.accepted F.params sw hn' F.six F.one
  have hfit : ∀ o, InShape l.tout.shape [o] →
      SumFits full (dotSum wi.shape (fun i => X i - l.q.qi.zpAt 0) (fun i => l.wts.get (l.tw.addr [i, o]))) (l.bias.get (l.tb.addr [o])) := by
    intro o ho
    have ho' : 0 ≤ o ∧ o < wo.shape := by rw [so] at ho; exact ho.1
    obtain ⟨n0, bX, bW⟩ := fc_operands vi hi F.hw hX sw hn ho'
    have hb := dotSum_bound (A := 255) (B := 128) n0 (X := fun i => X i - l.q.qi.zpAt 0) (fun i h0 h1 => zpDiff_abs (bX i h0 h1) I2) (fun i h0 h1 => inRange_abs (by omega) (bW i h0 h1)) (by omega)
    have := F.sums o ho
    unfold SumFits
    rw [← hn] at this
    omega
  refine ⟨dst', r1, F.vo.of_size r2.size, ?_, ?_⟩
  · intro is his
    rw [r2.elem is his]
    rw [so] at his
    obtain ⟨o, rfl, h0, h1⟩ := inShape_one his
    rw [← so] at his
    obtain ⟨b', acc, hb, hacc, h⟩ := r3 o his
    obtain ⟨-, v, -, hv⟩ : True ∧ ∃ v : Int, True ∧ NearestIn (l.q.relu.Admissible 8 (l.q.qo.zpAt 0) (l.q.qo.scaleAt 0) (l.q.qo.fracAt 0)) v (val [o]) := by
      obtain ⟨v, -, hv⟩ := h (sumFits_acc hb hacc (hfit o his))
      exact ⟨trivial, v, trivial, hv⟩
    exact hv.1.1
  · intro is his
    rw [r2.elem is his]
    have his' := his
    rw [so] at his'
    obtain ⟨o, rfl, h0, h1⟩ := inShape_one his'
    obtain ⟨b', acc, hb, hacc, h⟩ := r3 o his
    obtain ⟨hw1, hw2⟩ := hWt o h0 (by rw [sw]; exact h1)
    have hzb := chkSa8At_bias F.params (k := o) (by rw [sb]; exact ⟨h0, h1⟩)
    have main := sa8_real I1 hw1 O1 O2 hzb hb hacc (hfit o his) h
    have e := dotSumQ_eq (scaleVal (l.q.qi.scaleAt 0) (l.q.qi.fracAt 0)) (scaleVal (l.q.qw.scaleAt o) (l.q.qw.fracAt o)) (n := wi.shape)
      (X := fun i => X i - l.q.qi.zpAt 0) (W := fun i => l.wts.get (l.tw.addr [i, o]))
      (XQ := fun i => saNum l.q.qi 0 (X i)) (WQ := fun i => saNum l.q.qw o (l.wts.get (l.tw.addr [i, o])))
      (fun i => by unfold saNum; simp) (fun i => by unfold saNum; rw [hw2]; simp)
    have hfl := hx.flat vi hX
    rw [show flatIndex l.tout.shape [o] = o by rw [so]; simp [flatIndex, prod]]
    refine denseQ_close (X := fun i => saNum qi 0 (X i)) ?_ hfl (F.gain o his) he
    unfold Sa8Q.Close at main
    unfold Sa8Q.inScale at main
    simp only [Bool.false_eq_true, if_false] at main
    rw [← e, F.quant, hn] at main
    exact main.trans (F.err o his)

/-- **C102**, 8-bit asymmetric.  Partial: the sums must fit the accumulator (32 bits, 23 in the default build, see `c46_result_cast_violated`), and the
ReLU limits as in `c39_sa8_partial`. -/
theorem c102_sa8_partial (m : Rnd) (full : Bool) : ∀ (ls : List (FcSaCall × ℚ × ℚ)) (qi : SaQ) (tin : Tensor) (src : Buf) (x : Int → ℚ) (e : ℚ),
    FcSaNet m full qi tin ls → tin.Valid src → tin.Holds src 8 → 0 ≤ e → tin.Near src (saNum qi 0) x e →
    ∃ out, runFcSa8 m full (ls.map (·.1)) tin src = some ((fcSaLast qi tin ls).2, out) ∧
      (fcSaLast qi tin ls).2.Near out (saNum (fcSaLast qi tin ls).1 0) (netQ (fcSaReal tin ls) x) (netErr (ls.map (·.2)) e)
  | [], qi, tin, src, x, e, _, _, _, _, hx => ⟨src, rfl, hx⟩
  | (l, g, d) :: ls, qi, tin, src, x, e, h, vi, hi, he, hx => by
    obtain ⟨F, rest⟩ := h
    obtain ⟨hg, hd, dst', r1, r2, r3, r4⟩ := fcSa_layer F vi hi he hx
    obtain ⟨out, o1, o2⟩ := c102_sa8_partial m full ls l.q.qo l.tout dst' _ _ rest r2 r3 (add_nonneg (mul_nonneg hg he) hd) r4
    refine ⟨out, ?_, o2⟩
    simp only [List.map_cons, runFcSa8, r1, Option.bind_some, if_true]
    exact o1

/-! ## Instances -/

theorem fxGain {n : Nat} {f B : Int} {W : Int → Int} (h : ∀ i : Nat, i < n → |W i| ≤ B) :
    ∑ i ∈ Finset.range n, |fxNum f (W i)| ≤ n * (B * (2 : ℚ) ^ (-f)) := by
  have h' : ∀ i ∈ Finset.range n, |fxNum f (W i)| ≤ B * (2 : ℚ) ^ (-f) := by
    intro i hi
    have hp : (0 : ℚ) < (2 : ℚ) ^ (-f) := by positivity
    unfold fxNum
    rw [abs_mul, abs_of_pos hp]
    refine mul_le_mul_of_nonneg_right ?_ hp.le
    exact_mod_cast h i (Finset.mem_range.1 hi)
  refine (Finset.sum_le_sum h').trans ?_
  rw [Finset.sum_const, Finset.card_range, nsmul_eq_mul]

theorem saGain {n : Nat} {q : SaQ} {o B : Int} {s : ℚ} {W : Int → Int} (hs : |scaleVal (q.scaleAt o) (q.fracAt o)| ≤ s) (h : ∀ i : Nat, i < n → |W i - q.zpAt o| ≤ B) :
    ∑ i ∈ Finset.range n, |saNum q o (W i)| ≤ n * (B * s) := by
  have h' : ∀ i ∈ Finset.range n, |saNum q o (W i)| ≤ B * s := by
    intro i hi
    have h1 := h i (Finset.mem_range.1 hi)
    have h2 : |((W i : ℚ) - q.zpAt o)| ≤ B := by exact_mod_cast h1
    unfold saNum
    rw [abs_mul]
    exact mul_le_mul h2 hs (abs_nonneg _) ((abs_nonneg _).trans h2)
  refine (Finset.sum_le_sum h').trans ?_
  rw [Finset.sum_const, Finset.card_range, nsmul_eq_mul]

def exNet1 : FcFxCall :=
  ⟨exFcF, exFcW, exFcB, exFcO, Buf.ofList exFcWts, Buf.ofList [5, -6, 7, -8], Buf.ofList (List.replicate 6 99), true⟩

def exNet2 : FcFxCall :=
  ⟨{ fi := 2, fw := 5, fb := 3, fo := 1, relu := .gen }, { dims := [⟨4, 2⟩, ⟨2, 1⟩], cap := 16, es := 2 }, { dims := [⟨2, 1⟩], cap := 4, es := 2 },
    { dims := [⟨2, 1⟩], cap := 4, es := 2 }, Buf.ofList [10, -11, 12, -13, 14, 15, -16, -17], Buf.ofList [3, -4], Buf.ofList [7, 7], true⟩

theorem exNet_gains : (∀ o : Nat, o < 4 → ∀ i : Nat, i < 6 → |exNet1.wts.get (exNet1.tw.addr [(i : Int), (o : Int)])| ≤ 48) ∧
    (∀ o : Nat, o < 2 → ∀ i : Nat, i < 4 → |exNet2.wts.get (exNet2.tw.addr [(i : Int), (o : Int)])| ≤ 17) := by
  decide +kernel

theorem exGain1 : ∀ o, InShape exNet1.tout.shape [o] →
    ∑ i ∈ Finset.range (prod exFcIn.shape).toNat, |fxNum exNet1.f.fw (exNet1.wts.get (exNet1.tw.addr [(i : Int), o]))| ≤ 18 := by
  intro o ho
  have ho' : 0 ≤ o ∧ o < 4 := ho.1
  obtain ⟨h0, h1⟩ := ho'
  lift o to ℕ using h0
  rw [show (prod exFcIn.shape).toNat = 6 by decide]
  refine (fxGain (n := 6) (B := 48) (W := fun i => exNet1.wts.get (exNet1.tw.addr [i, (o : Int)])) (exNet_gains.1 o (by omega))).trans ?_
  norm_num [show exNet1.f.fw = 4 from rfl]

theorem exGain2 : ∀ o, InShape exNet2.tout.shape [o] →
    ∑ i ∈ Finset.range (prod exNet1.tout.shape).toNat, |fxNum exNet2.f.fw (exNet2.wts.get (exNet2.tw.addr [(i : Int), o]))| ≤ 17 / 8 := by
  intro o ho
  have ho' : 0 ≤ o ∧ o < 2 := ho.1
  obtain ⟨h0, h1⟩ := ho'
  lift o to ℕ using h0
  rw [show (prod exNet1.tout.shape).toNat = 4 by decide]
  refine (fxGain (n := 4) (B := 17) (W := fun i => exNet2.wts.get (exNet2.tw.addr [i, (o : Int)])) (exNet_gains.2 o (by omega))).trans ?_
  norm_num [show exNet2.f.fw = 5 from rfl]

/-- A network of two layers with 6, 4 and 2 values meets the hypotheses of `c102_fx16_partial`: the gains of its layers are 18 and 17/8. -/
theorem exNet_fits : FcFxNet 16 (fun _ l => l.f.fi + l.f.fw - l.f.fb ≤ 16) 3 exFcIn [(exNet1, 18), (exNet2, 17 / 8)] := by
  refine ⟨⟨rfl, by decide, ⟨by decide, by decide, by decide, by decide⟩, ⟨by decide, by decide, by decide, by decide⟩,
    ⟨by decide, by decide, by decide, by decide⟩, holds_ofList (by decide) _, holds_ofList (by decide) _, by decide, ?_⟩, by decide,
    ⟨rfl, by decide, ⟨by decide, by decide, by decide, by decide⟩, ⟨by decide, by decide, by decide, by decide⟩,
    ⟨by decide, by decide, by decide, by decide⟩, holds_ofList (by decide) _, holds_ofList (by decide) _, by decide, ?_⟩, by decide, trivial⟩
  · exact exGain1
  · exact exGain2

/-- The other hypotheses, with an input that stands exactly for the numbers, and what the calls give: 8 and 0. -/
example : exFcIn.Valid (Buf.ofList exFcSrc) ∧ exFcIn.Holds (Buf.ofList exFcSrc) 16 ∧
    exFcIn.Near (Buf.ofList exFcSrc) (fxNum 3) (fun i => fxNum 3 ((Buf.ofList exFcSrc).get i)) 0 ∧
    ((runFcFx .convergent 16 64 [exNet1, exNet2] exFcIn (Buf.ofList exFcSrc)).map fun p => p.2.toList) = some [16, 0] := by
  refine ⟨⟨by decide, by decide, by decide, by decide⟩, holds_ofList (by decide) _, ?_, by decide +kernel⟩
  intro is his
  match is, his with
  | [a, b], _ => simp [Tensor.addr, exFcIn, Tensor.shape, Tensor.strides, flatIndex, prod, offset]

/-- The bound for that network: `17/8 * (18 * 0 + 1/8) + 1/4`, about one output step. -/
example : netErr ([(exNet1, (18 : ℚ)), (exNet2, 17 / 8)].map fun p => (p.2, p.1.err)) 0 = 33 / 64 := by
  norm_num [netErr, FcFxCall.err, exNet1, exNet2, exFcF, reluErr]

/-- The same layers over bytes (`tb`: whether the activations are bytes too). -/
def exNetB (tb : Bool) (l : FcFxCall) : FcFxCall := { l with tw := l.tw.bytes, tb := l.tb.bytes, tout := if tb then l.tout.bytes else l.tout }

theorem exNetB_gains : (∀ o : Nat, o < 4 → ∀ i : Nat, i < 6 → |exNet1.wts.get (exNet1.tw.bytes.addr [(i : Int), (o : Int)])| ≤ 48) ∧
    (∀ o : Nat, o < 2 → ∀ i : Nat, i < 4 → |exNet2.wts.get (exNet2.tw.bytes.addr [(i : Int), (o : Int)])| ≤ 17) := by
  decide +kernel

theorem exGainB1 : ∀ o, InShape [4] [o] →
    ∑ i ∈ Finset.range 6, |fxNum exNet1.f.fw (exNet1.wts.get (exNet1.tw.bytes.addr [(i : Int), o]))| ≤ 18 := by
  intro o ho
  have ho' : 0 ≤ o ∧ o < 4 := ho.1
  obtain ⟨h0, h1⟩ := ho'
  lift o to ℕ using h0
  refine (fxGain (n := 6) (B := 48) (W := fun i => exNet1.wts.get (exNet1.tw.bytes.addr [i, (o : Int)])) (exNetB_gains.1 o (by omega))).trans ?_
  norm_num [show exNet1.f.fw = 4 from rfl]

theorem exGainB2 : ∀ o, InShape [2] [o] →
    ∑ i ∈ Finset.range 4, |fxNum exNet2.f.fw (exNet2.wts.get (exNet2.tw.bytes.addr [(i : Int), o]))| ≤ 17 / 8 := by
  intro o ho
  have ho' : 0 ≤ o ∧ o < 2 := ho.1
  obtain ⟨h0, h1⟩ := ho'
  lift o to ℕ using h0
  refine (fxGain (n := 4) (B := 17) (W := fun i => exNet2.wts.get (exNet2.tw.bytes.addr [i, (o : Int)])) (exNetB_gains.2 o (by omega))).trans ?_
  norm_num [show exNet2.f.fw = 5 from rfl]

theorem exAcc : (∀ o : Nat, o < 4 → |exNet1.bias.get (exNet1.tb.bytes.addr [(o : Int)]) * 2 ^ 2| < 2 ^ 20) ∧
    (∀ o : Nat, o < 2 → |exNet2.bias.get (exNet2.tb.bytes.addr [(o : Int)]) * 2 ^ 4| < 2 ^ 20) := by
  decide +kernel

/-- The network over bytes meets the hypotheses of `c102_fx8_partial` (`tb = true`) and `c102_fx16_fx8_partial` (`tb = false`). -/
example (tb : Bool) : FcFxNet 8 (Acc32 .up (if tb then 8 else 16) 8) 3 (if tb then exFcIn.bytes else exFcIn)
    [(exNetB tb exNet1, 18), (exNetB tb exNet2, 17 / 8)] := by
  cases tb <;>
  refine ⟨⟨rfl, by decide, ⟨by decide, by decide, by decide, by decide⟩, ⟨by decide, by decide, by decide, by decide⟩,
    ⟨by decide, by decide, by decide, by decide⟩, holds_ofList (by decide) _, holds_ofList (by decide) _, by decide, exGainB1⟩, ⟨?_, by decide⟩,
    ⟨rfl, by decide, ⟨by decide, by decide, by decide, by decide⟩, ⟨by decide, by decide, by decide, by decide⟩,
    ⟨by decide, by decide, by decide, by decide⟩, holds_ofList (by decide) _, holds_ofList (by decide) _, by decide, exGainB2⟩, ⟨?_, by decide⟩, trivial⟩
  all_goals
    intro o ho
    have h0 : 0 ≤ o := ho.1.1
    have h1 := ho.1.2
    lift o to ℕ using h0
  · have := exAcc.1 o (Int.ofNat_lt.1 h1)
    exact lt_of_lt_of_le (add_lt_add_of_le_of_lt (b := 6 * (2 ^ 15 * 2 ^ 7)) (by decide) this) (by decide)
  · have := exAcc.2 o (Int.ofNat_lt.1 h1)
    exact lt_of_lt_of_le (add_lt_add_of_le_of_lt (b := 6 * (2 ^ 15 * 2 ^ 7)) (by decide) this) (by decide)
  · have := exAcc.1 o (Int.ofNat_lt.1 h1)
    exact lt_of_lt_of_le (add_lt_add_of_le_of_lt (b := 6 * (2 ^ 15 * 2 ^ 7)) (by decide) this) (by decide)
  · have := exAcc.2 o (Int.ofNat_lt.1 h1)
    exact lt_of_lt_of_le (add_lt_add_of_le_of_lt (b := 6 * (2 ^ 15 * 2 ^ 7)) (by decide) this) (by decide)

def exSaNet1 : FcSaCall :=
  ⟨exFcQ, exFcW.bytes, exFcB32, exFcO.bytes, Buf.ofList exFcWts, Buf.ofList [1500, -600, 700, -800], Buf.ofList (List.replicate 6 99), true⟩

def exSaNet2 : FcSaCall :=
  ⟨{ qi := exFcQ.qo
     qw := { dim := 1, zp := [0, 0], scale := [100, 120], frac := [12, 12] }
     qb := { dim := 0, zp := [0, 0], scale := [18750, 22500], frac := [22, 22] }
     qo := { dim := -1, zp := [-5], scale := [9000], frac := [15] }
     relu := .none }, { dims := [⟨4, 2⟩, ⟨2, 1⟩], cap := 8, es := 1 }, { dims := [⟨2, 1⟩], cap := 8, es := 4 },
    { dims := [⟨2, 1⟩], cap := 2, es := 1 }, Buf.ofList [10, -11, 12, -13, 14, 15, -16, -17], Buf.ofList [3000, -400], Buf.ofList [7, 7], true⟩

theorem exSaNet_num : (∀ o : Nat, o < 4 → ∀ i : Nat, i < 6 → |exSaNet1.wts.get (exSaNet1.tw.addr [(i : Int), (o : Int)]) - exSaNet1.q.qw.zpAt o| ≤ 48) ∧
    (∀ o : Nat, o < 2 → ∀ i : Nat, i < 4 → |exSaNet2.wts.get (exSaNet2.tw.addr [(i : Int), (o : Int)]) - exSaNet2.q.qw.zpAt o| ≤ 17) ∧
    (∀ o : Nat, o < 4 → |scaleVal (exSaNet1.q.qw.scaleAt o) (exSaNet1.q.qw.fracAt o)| ≤ 1 / 10) ∧
    (∀ o : Nat, o < 2 → |scaleVal (exSaNet2.q.qw.scaleAt o) (exSaNet2.q.qw.fracAt o)| ≤ 3 / 100) ∧
    (∀ o : Nat, o < 4 → reluErr (3 / 5) exSaNet1.q.relu * exSaNet1.q.step + exSaNet1.q.biasErr true o (exSaNet1.bias.get (exSaNet1.tb.addr [(o : Int)])) ≤ 1 / 8) ∧
    (∀ o : Nat, o < 2 → reluErr (3 / 5) exSaNet2.q.relu * exSaNet2.q.step + exSaNet2.q.biasErr true o (exSaNet2.bias.get (exSaNet2.tb.addr [(o : Int)])) ≤ 1 / 5) ∧
    (∀ o : Nat, o < 4 → |exSaNet1.bias.get (exSaNet1.tb.addr [(o : Int)])| < 2 ^ 20) ∧
    (∀ o : Nat, o < 2 → |exSaNet2.bias.get (exSaNet2.tb.addr [(o : Int)])| < 2 ^ 20) := by
  decide +kernel

/-- A network of two layers meets the hypotheses of `c102_sa8_partial`, and what the calls give. -/
example : FcSaNet .convergent true exFcQ.qi exFcIn.bytes [(exSaNet1, 144 / 5, 1 / 8), (exSaNet2, 51 / 25, 1 / 5)] ∧
    ((runFcSa8 .convergent true [exSaNet1, exSaNet2] exFcIn.bytes (Buf.ofList exFcSrc)).map fun p => p.2.toList) = some [55, -28] := by
  obtain ⟨g1, g2, s1, s2, d1, d2, b1, b2⟩ := exSaNet_num
  refine ⟨⟨⟨rfl, by decide, by decide, by decide, ⟨by decide, by decide, by decide, by decide⟩, ⟨by decide, by decide, by decide, by decide⟩,
    ⟨by decide, by decide, by decide, by decide⟩, holds_ofList (by decide) _, holds_ofList (by decide) _, by decide, by decide, ?_, ?_, ?_⟩,
    ⟨rfl, by decide, by decide, by decide, ⟨by decide, by decide, by decide, by decide⟩, ⟨by decide, by decide, by decide, by decide⟩,
    ⟨by decide, by decide, by decide, by decide⟩, holds_ofList (by decide) _, holds_ofList (by decide) _, by decide, by decide, ?_, ?_, ?_⟩, trivial⟩, by decide +kernel⟩
  all_goals
    intro o ho
    have h0 : 0 ≤ o := ho.1.1
    have h1 := ho.1.2
    lift o to ℕ using h0
  · exact lt_of_lt_of_le (add_lt_add_of_le_of_lt (b := 6 * 2 ^ 15) (by decide) (b1 o (Int.ofNat_lt.1 h1))) (by decide)
  · refine (saGain (n := 6) (B := 48) (s := 1 / 10) (W := fun i => exSaNet1.wts.get (exSaNet1.tw.addr [i, (o : Int)])) (s1 o (Int.ofNat_lt.1 h1))
      (g1 o (Int.ofNat_lt.1 h1))).trans ?_
    norm_num
  · exact d1 o (Int.ofNat_lt.1 h1)
  · exact lt_of_lt_of_le (add_lt_add_of_le_of_lt (b := 6 * 2 ^ 15) (by decide) (b2 o (Int.ofNat_lt.1 h1))) (by decide)
  · refine (saGain (n := 4) (B := 17) (s := 3 / 100) (W := fun i => exSaNet2.wts.get (exSaNet2.tw.addr [i, (o : Int)])) (s2 o (Int.ofNat_lt.1 h1))
      (g2 o (Int.ofNat_lt.1 h1))).trans ?_
    norm_num
  · exact d2 o (Int.ofNat_lt.1 h1)

end Mli
