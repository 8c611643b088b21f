import Verif.Model.CifarW
import Verif.Props.Cifar
import Verif.Props.CnnW

/-!
# The CIFAR-10 example network with 8-bit weights (C104)
-/

namespace Mli

open Spec

/-! ## Two buffers that take turns -/

/-- `PingNet` for the kernels with 8-bit weights. -/
def PingNetW (m : Rnd) : Int → Tensor → List (CnnLayer × ℚ) → Buf → Buf → Prop
  | _, _, [], _, _ => True
  | fi, tin, (l, g) :: ls, cur, other => l.tout.Valid other ∧ l.AcceptedW m fi tin ∧ l.op.Gain tin.shape g ∧ PingNetW m (l.op.frac fi) l.tout ls other cur

theorem PingNetW.of_size {m : Rnd} : ∀ (ls : List (CnnLayer × ℚ)) {fi : Int} {tin : Tensor} {c c' o o' : Buf}, PingNetW m fi tin ls c o → c'.size = c.size →
    o'.size = o.size → PingNetW m fi tin ls c' o'
  | [], _, _, _, _, _, _, _, _, _ => trivial
  | (_, _) :: ls, _, _, _, _, _, _, h, hc, ho => ⟨h.1.of_size ho, h.2.1, h.2.2.1, PingNetW.of_size ls h.2.2.2 ho hc⟩

/-- C104, for networks of any depth with 8-bit weights: `c103_cnn_fx16_fx8_partial` with two buffers that take turns, whatever they contain. -/
theorem c104_two_buffers_fx8_partial (m : Rnd) : ∀ (ls : List (CnnLayer × ℚ)) (fi : Int) (tin : Tensor) (cur other : Buf) (x : List Int → ℚ) (e : ℚ),
    PingNetW m fi tin ls cur other → tin.Valid cur → tin.Holds cur 16 → 0 ≤ e → tin.NearAt cur fi x e →
    ∃ out rest, runPingW m fi (ls.map (·.1)) tin cur other = some ((cnnLast fi tin ls).2, out, rest) ∧
      (cnnLast fi tin ls).2.NearAt out (cnnLast fi tin ls).1 (cnnReal tin ls x) (netErr (cnnErrs fi ls) e) ∧
      (cnnLast fi tin ls).2.Holds out 16 ∧ out.size = (if ls.length % 2 = 0 then cur.size else other.size)
  | [], fi, tin, cur, other, x, e, _, _, hi, _, hx => ⟨cur, other, rfl, hx, hi, rfl⟩
  | (l, g) :: ls, fi, tin, cur, other, x, e, h, vi, hi, he, hx => by
    obtain ⟨vo, acc, hg, rest⟩ := h
    have acc' : CnnLayer.AcceptedW m fi tin { l with dst := other } := by
      obtain ⟨op, tout, dst⟩ := l
      cases op <;> exact acc
    obtain ⟨g0, dst', r1, rs, r2, r3, r4⟩ := layer_goodW m (l := { l with dst := other }) vi hi vo acc' hg he hx
    obtain ⟨out, b, o1, o2, o3, o4⟩ := c104_two_buffers_fx8_partial m ls (l.op.frac fi) l.tout dst' cur _ _ (rest.of_size _ rs rfl) r2 r3
      (add_nonneg (mul_nonneg g0 he) (l.op.err_nonneg fi)) r4
    refine ⟨out, b, ?_, o2, o3, ?_⟩
    · simp only [List.map_cons, runPingW, r1, Option.bind_some, if_true]
      exact o1
    · rw [o4, List.length_cons, rs]
      rcases Nat.mod_two_eq_zero_or_one ls.length with h0 | h0
      · rw [if_pos h0, if_neg (by omega)]
      · rw [if_neg (by omega), if_pos (by omega)]

/-! ## The example -/

/-- Weights and biases are 8-bit elements, as many as the network has. -/
structure CifarWts.OkW (W : CifarWts) : Prop where
  size : W.w1.size = 2400 ∧ W.b1.size = 32 ∧ W.w2.size = 12800 ∧ W.b2.size = 16 ∧ W.w3.size = 12800 ∧ W.b3.size = 32 ∧ W.w4.size = 5120 ∧ W.b4.size = 10
  range : ∀ a, InRange 8 (W.w1.get a) ∧ InRange 8 (W.b1.get a) ∧ InRange 8 (W.w2.get a) ∧ InRange 8 (W.b2.get a) ∧
    InRange 8 (W.w3.get a) ∧ InRange 8 (W.b3.get a) ∧ InRange 8 (W.w4.get a) ∧ InRange 8 (W.b4.get a)

/-- The weights and biases as numbers: 8 fractional bits for the weights, 7, 8, 9 and 9 for the biases. -/
def CifarWts.realW (W : CifarWts) : CifarReal where
  w1 i j c k := fxNum 8 (W.w1.get ((cifarWtW 3 32).addr [i, j, c, k]))
  b1 k := fxNum 7 (W.b1.get ((cifarBiasW 32).addr [k]))
  w2 i j c k := fxNum 8 (W.w2.get ((cifarWtW 32 16).addr [i, j, c, k]))
  b2 k := fxNum 8 (W.b2.get ((cifarBiasW 16).addr [k]))
  w3 i j c k := fxNum 8 (W.w3.get ((cifarWtW 16 32).addr [i, j, c, k]))
  b3 k := fxNum 9 (W.b3.get ((cifarBiasW 32).addr [k]))
  w4 i k := fxNum 8 (W.w4.get (cifarFcWtW.addr [i, k]))
  b4 k := fxNum 9 (W.b4.get ((cifarBiasW 10).addr [k]))

/-- Where the weights are. -/
theorem cifarW_addr (i j c k : Int) : (cifarWtW 3 32).addr [i, j, c, k] = ((i * 5 + j) * 3 + c) * 32 + k ∧
    (cifarWtW 32 16).addr [i, j, c, k] = ((i * 5 + j) * 32 + c) * 16 + k ∧ (cifarWtW 16 32).addr [i, j, c, k] = ((i * 5 + j) * 16 + c) * 32 + k ∧
    cifarFcWtW.addr [i, k] = i * 10 + k ∧ (cifarBiasW 32).addr [k] = k ∧ (cifarBiasW 16).addr [k] = k ∧ (cifarBiasW 10).addr [k] = k := by
  simp only [Tensor.addr, Tensor.strides, cifarWtW, cifarFcWtW, cifarBiasW, List.map_cons, List.map_nil, offset]
  refine ⟨?_, ?_, ?_, ?_, ?_, ?_, ?_⟩ <;> ring

/-- No output of the layer has weights whose absolute values add up to more than `g1`, …, `g4`. -/
structure Spec.CifarReal.Gains (N : CifarReal) (g1 g2 g3 g4 : ℚ) : Prop where
  c1 : ∀ k, 0 ≤ k → k < 32 → ∑ i ∈ Finset.range 5, ∑ j ∈ Finset.range 5, ∑ c ∈ Finset.range 3, |N.w1 i j c k| ≤ g1
  c2 : ∀ k, 0 ≤ k → k < 16 → ∑ i ∈ Finset.range 5, ∑ j ∈ Finset.range 5, ∑ c ∈ Finset.range 32, |N.w2 i j c k| ≤ g2
  c3 : ∀ k, 0 ≤ k → k < 32 → ∑ i ∈ Finset.range 5, ∑ j ∈ Finset.range 5, ∑ c ∈ Finset.range 16, |N.w3 i j c k| ≤ g3
  c4 : ∀ o, 0 ≤ o → o < 10 → ∑ i ∈ Finset.range 512, |N.w4 i o| ≤ g4

/-- The layers with their gains. -/
def cifarGainedW (W : CifarWts) (g1 g2 g3 g4 : ℚ) : List (CnnLayer × ℚ) := (cifarLayersW W).zip [g1, 1, g2, 1, g3, 1, g4]

theorem cifarW_tensors : ∀ t ∈ [cifarWtW 3 32, cifarWtW 32 16, cifarWtW 16 32, cifarFcWtW, cifarBiasW 32, cifarBiasW 16, cifarBiasW 10],
    (t.WellTyped ∧ t.footprint ≤ int32Max ∧ checkTensorPrivate t = some .ok) ∧ t.base = 0 ∧ t.es = 1 := by
  decide +kernel

theorem cifarW_valid (t : Tensor) {b : Buf} (ht : t ∈ [cifarWtW 3 32, cifarWtW 32 16, cifarWtW 16 32, cifarFcWtW, cifarBiasW 32, cifarBiasW 16, cifarBiasW 10])
    {n : Int} (hn : b.size = n) (hc : t.cap ≤ n) : t.Valid b := by
  obtain ⟨h, h0, h2⟩ := cifarW_tensors t ht
  exact ⟨h.1, h.2.1, h.2.2, by unfold Tensor.Fits; rw [h0, h2, hn]; omega⟩

def cifarQW (fi fb fo : Int) (r : ReluType) : FxQ := { fi := fi, fw := 8, fb := fb, fo := fo, relu := r }

/-- The library accepts the arguments of every call with weights. -/
theorem cifarW_checks :
    chkConvFx false 0 true (cifarQW 7 7 12 .gen) cifarIn (cifarWtW 3 32) (cifarBiasW 32) cifarConvCfg (cifarShape3 (2 * cifarX) 32 32 32) = some .ok ∧
    chkConvFx false 0 true (cifarQW 12 8 10 .gen) (cifarShape3 (2 * cifarY) 16 16 32) (cifarWtW 32 16) (cifarBiasW 16) cifarConvCfg
      (cifarShape3 (2 * cifarX) 16 16 16) = some .ok ∧
    chkConvFx false 0 true (cifarQW 12 9 10 .gen) (cifarShape3 (2 * cifarY) 8 8 16) (cifarWtW 16 32) (cifarBiasW 32) cifarConvCfg
      (cifarShape3 (2 * cifarX) 8 8 32) = some .ok ∧
    chkFcFx true (cifarQW 12 9 10 .none) (cifarShape3 (2 * cifarY) 4 4 32) cifarFcWtW (cifarBiasW 10) (cifarShape1 (2 * cifarX) 10) = some .ok := by
  decide +kernel

theorem absSum_gain (kh kw ic : Nat) (W : Int → Int → Int → Int)
    (h : ∑ i ∈ Finset.range kh, ∑ j ∈ Finset.range kw, ∑ c ∈ Finset.range ic, |fxNum 8 (W i j c)| ≤ 65519 / 256) : absSum kh kw ic W ≤ 65519 := by
  have e : ∀ v : Int, |fxNum 8 v| = ((|v| : Int) : ℚ) * (1 / 256) := by
    intro v
    unfold fxNum
    rw [abs_mul, Int.cast_abs]
    norm_num
  simp only [e, ← Finset.sum_mul] at h
  have h : ((absSum kh kw ic W : Int) : ℚ) ≤ 65519 := by
    unfold absSum
    push_cast [Int.toNat_natCast] at h ⊢
    linarith
  exact_mod_cast h

theorem absLine_gain (n : Nat) (W : Int → Int) (h : ∑ i ∈ Finset.range n, |fxNum 8 (W i)| ≤ 65519 / 256) : absLine n W ≤ 65519 := by
  have := absSum_gain 1 1 n (fun _ _ c => W c) (by simpa using h)
  simpa [absSum, absLine] using this

/-- A bias of 8 bits that is shifted left by at most 12. -/
theorem cifarW_fit {b s total : Int} (hb : InRange 8 b) (hs : s ≤ 12) (ht : total ≤ 65519) : 2 ^ 15 * total + |b * 2 ^ s.toNat| < 2 ^ 31 := by
  have h1 : |b| ≤ 128 := by
    unfold InRange lo Mli.Spec.hi at hb
    rw [abs_le]; omega
  have h2 : (2 : Int) ^ s.toNat ≤ 2 ^ 12 := pow_le_pow_right₀ (by decide) (by omega)
  have h3 : |b * 2 ^ s.toNat| ≤ 128 * 2 ^ 12 := by
    rw [abs_mul, abs_of_nonneg (by positivity : (0 : Int) ≤ 2 ^ s.toNat)]
    exact mul_le_mul h1 h2 (by positivity) (by decide)
  omega

/-- A convolution is accepted. -/
theorem cifarConvW_accepted (m : Rnd) {fi fb fo ic oc n : Int} {tin tout : Tensor} {wts bias dst : Buf} (vw : (cifarWtW ic oc).Valid wts)
    (vb : (cifarBiasW oc).Valid bias) (hw : ∀ a, InRange 8 (wts.get a)) (hb : ∀ a, InRange 8 (bias.get a)) (hs : fi + 8 - fb ≤ 12) (ho : fi + 8 - fo ≤ 16)
    (hc : chkConvFx false 0 true (cifarQW fi fb fo .gen) tin (cifarWtW ic oc) (cifarBiasW oc) cifarConvCfg tout = some .ok)
    (h1 : tin.shape.getD 0 0 = n) (h2 : tout.shape.getD 0 0 = n) (hn : n = 32 ∨ n = 16 ∨ n = 8)
    (hg : ∀ k, 0 ≤ k → k < oc → absSum 5 5 ic (wtElem wts (cifarWtW ic oc) k) ≤ 65519) :
    CnnLayer.AcceptedW m fi tin ⟨cifarConvW fi fb fo ic oc wts bias, tout, dst⟩ := by
  refine ⟨⟨rfl, vw, vb, fun _ _ => hw _, fun _ _ => hb _, fun h => (by cases h), fun _ => Or.inl ho⟩, hc, by show cifarConvCfg.Typed; decide, ?_, ?_⟩
  · show RowsMeet (tin.shape.getD 0 0) 5 (tout.shape.getD 0 0) cifarConvCfg
    rw [h1, h2]
    exact cifar_meet hn
  · intro k h0 hk
    exact cifarW_fit (hb _) hs (hg k h0 hk)

/-- The gains of any 8-bit weights. -/
theorem cifarW_gains {W : CifarWts} (hW : W.OkW) : W.realW.Gains (75 / 2) 400 200 256 := by
  have ab : ∀ {v : Int}, InRange 8 v → |v| ≤ 128 := by
    intro v h
    unfold InRange lo Mli.Spec.hi at h
    rw [abs_le]
    omega
  have r := hW.range
  have three : ∀ (ic : Nat) (w : Int → Int → Int → Int), (∀ i j c, |w i j c| ≤ 128) →
      ∑ i ∈ Finset.range 5, ∑ j ∈ Finset.range 5, ∑ c ∈ Finset.range ic, |fxNum 8 (w i j c)| ≤ 25 / 2 * ic := by
    intro ic w h
    refine (sum_range_le (n := 5) (b := 5 * (ic * (1 / 2))) fun i _ => sum_range_le (n := 5) fun j _ => ?_).trans (le_of_eq (by push_cast; ring))
    refine (fxGain (n := ic) (f := 8) (B := 128) (W := fun c => w i j c) fun c _ => h i j c).trans (le_of_eq ?_)
    norm_num
  refine ⟨fun k _ _ => ?_, fun k _ _ => ?_, fun k _ _ => ?_, fun k _ _ => ?_⟩
  · exact (three 3 (fun i j c => W.w1.get ((cifarWtW 3 32).addr [i, j, c, k])) fun i j c => ab (r _).1).trans (by norm_num)
  · exact (three 32 (fun i j c => W.w2.get ((cifarWtW 32 16).addr [i, j, c, k])) fun i j c => ab (r _).2.2.1).trans (by norm_num)
  · exact (three 16 (fun i j c => W.w3.get ((cifarWtW 16 32).addr [i, j, c, k])) fun i j c => ab (r _).2.2.2.2.1).trans (by norm_num)
  · refine (fxGain (n := 512) (f := 8) (B := 128) (W := fun i => W.w4.get (cifarFcWtW.addr [i, k])) fun i _ => ab (r _).2.2.2.2.2.2.1).trans (le_of_eq ?_)
    norm_num

theorem cifarW_fits (m : Rnd) {W : CifarWts} (hW : W.OkW) {g1 g2 g3 g4 : ℚ} (G : W.realW.Gains g1 g2 g3 g4) (h2 : g2 ≤ 65519 / 256) (h4 : g4 ≤ 65519 / 256)
    {X Y : Buf} (hX : X.size = cifarX) (hY : Y.size = cifarY) :
    PingNetW m 7 cifarIn (cifarGainedW W g1 g2 g3 g4) Y X := by
  obtain ⟨s1, s2, s3, s4, s5, s6, s7, s8⟩ := hW.size
  have r := hW.range
  have R := cifarW_gains hW
  obtain ⟨k1, k2, k3, k4⟩ := cifarW_checks
  obtain ⟨-, -, -, -, k5, k6, k7⟩ := cifar_checks
  have p1 := cifar_valid (cifarShape3 (2 * cifarX) 32 32 32) (by simp) hX (by decide)
  have p2 := cifar_valid (cifarShape3 (2 * cifarY) 16 16 32) (by simp) hY (by decide)
  have p3 := cifar_valid (cifarShape3 (2 * cifarX) 16 16 16) (by simp) hX (by decide)
  have p4 := cifar_valid (cifarShape3 (2 * cifarY) 8 8 16) (by simp) hY (by decide)
  have p5 := cifar_valid (cifarShape3 (2 * cifarX) 8 8 32) (by simp) hX (by decide)
  have p6 := cifar_valid (cifarShape3 (2 * cifarY) 4 4 32) (by simp) hY (by decide)
  have p7 := cifar_valid (cifarShape1 (2 * cifarX) 10) (by simp) hX (by decide)
  have a1 := cifarConvW_accepted m (dst := ⟨0, fun _ => 0⟩) (cifarW_valid (cifarWtW 3 32) (by simp) s1 (by decide)) (cifarW_valid (cifarBiasW 32) (by simp) s2 (by decide))
    (fun a => (r a).1) (fun a => (r a).2.1) (by decide) (by decide) k1 (by decide) (by decide) (.inl rfl)
    (fun k h0 hk => absSum_gain 5 5 3 _ ((R.c1 k h0 hk).trans (by norm_num)))
  have a2 := cifarConvW_accepted m (dst := ⟨0, fun _ => 0⟩) (cifarW_valid (cifarWtW 32 16) (by simp) s3 (by decide)) (cifarW_valid (cifarBiasW 16) (by simp) s4 (by decide))
    (fun a => (r a).2.2.1) (fun a => (r a).2.2.2.1) (by decide) (by decide) k2 (by decide) (by decide) (.inr (.inl rfl))
    (fun k h0 hk => absSum_gain 5 5 32 _ ((G.c2 k h0 hk).trans h2))
  have a3 := cifarConvW_accepted m (dst := ⟨0, fun _ => 0⟩) (cifarW_valid (cifarWtW 16 32) (by simp) s5 (by decide)) (cifarW_valid (cifarBiasW 32) (by simp) s6 (by decide))
    (fun a => (r a).2.2.2.2.1) (fun a => (r a).2.2.2.2.2.1) (by decide) (by decide) k3 (by decide) (by decide) (.inr (.inr rfl))
    (fun k h0 hk => absSum_gain 5 5 16 _ ((R.c3 k h0 hk).trans (by norm_num)))
  have v7 := cifarW_valid cifarFcWtW (by simp) s7 (by decide)
  have v8 := cifarW_valid (cifarBiasW 10) (by simp) s8 (by decide)
  exact ⟨p1, a1, G.c1, p2, ⟨k5, _, _, _, _, _, cifar_geo.1⟩, le_rfl, p3, a2, G.c2, p4, ⟨k6, _, _, _, _, _, cifar_geo.2.1⟩, le_rfl, p5, a3, G.c3,
    p6, ⟨k7, _, _, _, _, _, cifar_geo.2.2⟩, le_rfl, p7,
    ⟨⟨rfl, v7, v8, fun _ _ => (r _).2.2.2.2.2.2.1, fun _ _ => (r _).2.2.2.2.2.2.2, fun h => (by cases h), fun _ => Or.inl (by show (12 : Int) + 8 - 10 ≤ 16; decide)⟩, k4,
      fun k h0 hk => cifarW_fit ((r _).2.2.2.2.2.2.2) (by show (12 : Int) + 8 - 9 ≤ 12; decide) (absLine_gain 512 _ ((G.c4 k h0 hk).trans h4))⟩, G.c4, trivial⟩

theorem cifarW_real (W : CifarWts) (g1 g2 g3 g4 : ℚ) (x : List Int → ℚ) (k : Int) :
    cnnReal cifarIn (cifarGainedW W g1 g2 g3 g4) x [k] = cifarScore W.realW x k := rfl

theorem cifarW_err (W : CifarWts) (g1 g2 g3 g4 e : ℚ) : netErr (cnnErrs 7 (cifarGainedW W g1 g2 g3 g4)) e = cifarErr g1 g2 g3 g4 e := by
  simp only [cifarGainedW, cifarLayersW, cifarConvW, List.zip_cons_cons, List.zip_nil_left, cnnErrs, netErr, CnnOp.err, CnnOp.frac, reluErr, cifarErr]
  norm_num

/-- **C104**: the CIFAR-10 example with 16-bit data and 8-bit weights and biases, as `c104_cifar10_partial`, for any image, any contents of the buffers and any
weights whose absolute values add up to at most 65519 / 256 for each output of the second convolution and of the fully connected layer, so that the 32-bit
accumulator cannot overflow (the first and the third convolution have too few products for that; the weights in cifar10_coefficients_hwcn_small.c add up to at most 8224 / 256 and
8707 / 256 there).  Partial: the limits of `c104_cifar10_partial`. -/
theorem c104_cifar10_fx8_partial (m : Rnd) (W : CifarWts) (hW : W.OkW) (g1 g2 g3 g4 : ℚ) (G : W.realW.Gains g1 g2 g3 g4) (h2 : g2 ≤ 65519 / 256)
    (h4 : g4 ≤ 65519 / 256) (X Y : Buf) (hX : X.size = cifarX) (hY : Y.size = cifarY)
    (img : ∀ is, InShape [32, 32, 3] is → InRange 16 (Y.get (cifarIn.addr is))) (x : List Int → ℚ) (e : ℚ) (he : 0 ≤ e)
    (hx : ∀ is, InShape [32, 32, 3] is → |fxNum 7 (Y.get (cifarIn.addr is)) - x is| ≤ e) :
    ∃ (out : Buf) (score : Int → ℚ), cifarNetW m W X Y = some out ∧
      (∀ k, 0 ≤ k → k < 10 → |score k - cifarScore W.realW x k| ≤ cifarErr g1 g2 g3 g4 e) ∧
      (∀ k, 0 ≤ k → k < 10 → 0 ≤ out.get k ∧
        |(out.get k : ℝ) - limitReal 16 (2 ^ 15 * cifarProb (fun j => (score j : ℝ)) k)| ≤ 9.2 + 57 * cifarProb (fun j => (score j : ℝ)) k) ∧
      ∀ j k, 0 ≤ j → j < 10 → 0 ≤ k → k < 10 → cifarScore W.realW x j + 2 * cifarErr g1 g2 g3 g4 e < cifarScore W.realW x k → out.get j ≤ out.get k := by
  obtain ⟨B, rest, r1, r2, r3, r4⟩ := c104_two_buffers_fx8_partial m (cifarGainedW W g1 g2 g3 g4) 7 cifarIn Y X x e (cifarW_fits m hW G h2 h4 hX hY)
    (cifar_valid cifarIn (by simp) hY (by decide)) img he hx
  have r1 : runPingW m 7 (cifarLayersW W) cifarIn Y X = some (cifarShape1 (2 * cifarX) 10, B, rest) := r1
  have r2 : (cifarShape1 (2 * cifarX) 10).NearAt B 10 (cnnReal cifarIn (cifarGainedW W g1 g2 g3 g4) x) (netErr (cnnErrs 7 (cifarGainedW W g1 g2 g3 g4)) e) := r2
  have r3 : (cifarShape1 (2 * cifarX) 10).Holds B 16 := r3
  have r4 : B.size = X.size := by
    have hl : (cifarGainedW W g1 g2 g3 g4).length = 7 := rfl
    rw [hl] at r4
    exact r4
  obtain ⟨out, s1, s2⟩ := cifar_softmax m B (r4.trans hX) r3
  have hs : ∀ k, ((fxNum 10 (B.get k) : ℚ) : ℝ) = fxReal (B.get k) 10 := by
    intro k
    unfold fxNum fxReal
    push_cast
    rw [zpow_neg, div_eq_mul_inv]
  have near : ∀ k, 0 ≤ k → k < 10 → |fxNum 10 (B.get k) - cifarScore W.realW x k| ≤ cifarErr g1 g2 g3 g4 e := by
    intro k h0 h1
    have := r2 [k] ⟨⟨h0, h1⟩, trivial⟩
    rw [cifarW_err, cifarW_real] at this
    rwa [show (cifarShape1 (2 * cifarX) 10).addr [k] = k by simp [Tensor.addr, Tensor.strides, cifarShape1, offset]] at this
  refine ⟨out, fun k => fxNum 10 (B.get k), ?_, near, ?_, ?_⟩
  · simp only [cifarNetW, r1, Option.bind_some, s1, if_true]
  · intro k h0 h1
    obtain ⟨a, b, -⟩ := s2 k h0 h1
    simp only [hs]
    exact ⟨b, a⟩
  · intro j k j0 j1 k0 k1 hlt
    refine (s2 k k0 k1).2.2 j j0 j1 ?_
    have nj := abs_le.1 (near j j0 j1)
    have nk := abs_le.1 (near k k0 k1)
    by_contra hc
    have := fxNum_mono (f := 10) (a := B.get k) (b := B.get j) (by omega)
    linarith [nj.2, nk.1]

/-- **C104**: the results of the CIFAR-10 example with 8-bit weights against the probabilities of the network in real numbers: with `E` for `cifarErr`, each result (in units of
`2^-15`) is the probability up to a factor of `exp (2 E)` and `9.2 + 57 exp (2 E) P` units, limited to 32767. -/
theorem c104_cifar10_fx8_probability_partial (m : Rnd) (W : CifarWts) (hW : W.OkW) (g1 g2 g3 g4 : ℚ) (G : W.realW.Gains g1 g2 g3 g4)
    (g2' : g2 ≤ 65519 / 256) (g4' : g4 ≤ 65519 / 256) (X Y : Buf) (hX : X.size = cifarX) (hY : Y.size = cifarY) (img : ∀ is, InShape [32, 32, 3] is → InRange 16 (Y.get (cifarIn.addr is))) (x : List Int → ℚ) (e : ℚ)
    (he : 0 ≤ e) (hx : ∀ is, InShape [32, 32, 3] is → |fxNum 7 (Y.get (cifarIn.addr is)) - x is| ≤ e) :
    ∃ out, cifarNetW m W X Y = some out ∧ ∀ k, 0 ≤ k → k < 10 →
      let P := cifarProb (fun j => (cifarScore W.realW x j : ℝ)) k
      let F := Real.exp (2 * (cifarErr g1 g2 g3 g4 e : ℝ))
      min 32767 (2 ^ 15 * (P / F)) - (9.2 + 57 * (F * P)) ≤ (out.get k : ℝ) ∧ (out.get k : ℝ) ≤ min 32767 (2 ^ 15 * (F * P)) + (9.2 + 57 * (F * P)) := by
  obtain ⟨out, score, h1, h2, h3, -⟩ := c104_cifar10_fx8_partial m W hW g1 g2 g3 g4 G g2' g4' X Y hX hY img x e he hx
  refine ⟨out, h1, fun k k0 k1 => ?_⟩
  intro P F
  have hF : 0 < F := Real.exp_pos _
  have near : ∀ j, 0 ≤ j → j < 10 → |(score j : ℝ) - (cifarScore W.realW x j : ℝ)| ≤ (cifarErr g1 g2 g3 g4 e : ℝ) := fun j j0 j1 => by exact_mod_cast h2 j j0 j1
  have up : cifarProb (fun j => (score j : ℝ)) k ≤ F * P := cifarProb_close (s := fun j => (score j : ℝ)) (r := fun j => (cifarScore W.realW x j : ℝ)) near k0 k1
  have low : P ≤ F * cifarProb (fun j => (score j : ℝ)) k :=
    cifarProb_close (s := fun j => (cifarScore W.realW x j : ℝ)) (r := fun j => (score j : ℝ)) (fun j j0 j1 => by rw [abs_sub_comm]; exact near j j0 j1) k0 k1
  have low' : P / F ≤ cifarProb (fun j => (score j : ℝ)) k := by rw [div_le_iff₀ hF]; linarith
  obtain ⟨-, h⟩ := h3 k k0 k1
  generalize cifarProb (fun j => (score j : ℝ)) k = Q at *
  have Q0 : 0 ≤ P / F := by
    refine div_nonneg (div_nonneg (Real.exp_pos _).le (Finset.sum_nonneg fun _ _ => (Real.exp_pos _).le)) hF.le
  clear_value F P
  have hl : limitReal 16 (2 ^ 15 * Q) = min 32767 (2 ^ 15 * Q) := by
    unfold limitReal
    rw [show (2 : ℝ) ^ (16 - 1) - 1 = 32767 by norm_num]
    exact max_eq_right (le_trans (by norm_num : -(2 : ℝ) ^ (16 - 1) ≤ 0) (le_min (by norm_num) (by linarith)))
  rw [hl] at h
  have h := abs_le.1 h
  have m1 : min (32767 : ℝ) (2 ^ 15 * (P / F)) ≤ min 32767 (2 ^ 15 * Q) := min_le_min le_rfl (by linarith)
  have m2 : min (32767 : ℝ) (2 ^ 15 * Q) ≤ min 32767 (2 ^ 15 * (F * P)) := min_le_min le_rfl (by linarith)
  generalize min (32767 : ℝ) (2 ^ 15 * (F * P)) = A at *
  generalize min (32767 : ℝ) (2 ^ 15 * (P / F)) = B at *
  generalize min (32767 : ℝ) (2 ^ 15 * Q) = C at *
  generalize F * P = D at *
  obtain ⟨h4, h5⟩ := h
  constructor
  · linarith
  · linarith

/-- Weights, biases and an image the theorems apply to. -/
example : ∃ (W : CifarWts) (X Y : Buf), W.OkW ∧ W.realW.Gains (75 / 2) 160 200 150 ∧ X.size = cifarX ∧ Y.size = cifarY ∧
    (∀ is, InShape [32, 32, 3] is → InRange 16 (Y.get (cifarIn.addr is))) ∧ W.w2.get 5 ≠ W.w2.get 6 ∧ Y.get 0 ≠ Y.get 1 := by
  have h : ∀ a : Int, InRange 8 (a % 101 - 50) := by
    intro a
    unfold InRange lo Mli.Spec.hi
    omega
  have ab : ∀ a : Int, |a % 101 - 50| ≤ 50 := by
    intro a
    rw [abs_le]
    omega
  have ok : CifarWts.OkW ⟨⟨2400, fun a => a % 101 - 50⟩, ⟨32, fun a => a % 101 - 50⟩, ⟨12800, fun a => a % 101 - 50⟩, ⟨16, fun a => a % 101 - 50⟩,
      ⟨12800, fun a => a % 101 - 50⟩, ⟨32, fun a => a % 101 - 50⟩, ⟨5120, fun a => a % 101 - 50⟩, ⟨10, fun a => a % 101 - 50⟩⟩ :=
    ⟨⟨rfl, rfl, rfl, rfl, rfl, rfl, rfl, rfl⟩, fun a => ⟨h a, h a, h a, h a, h a, h a, h a, h a⟩⟩
  have R := cifarW_gains ok
  refine ⟨_, ⟨cifarX, fun _ => 0⟩, ⟨cifarY, fun a => a % 101 - 50⟩, ok, ⟨R.c1, fun k _ _ => ?_, R.c3, fun k _ _ => ?_⟩, rfl, rfl, fun is _ => ?_, by decide, by decide⟩
  · refine (sum_range_le (n := 5) (b := 5 * (32 * (50 / 256))) fun i _ => sum_range_le (n := 5) fun j _ => ?_).trans (by norm_num)
    refine (fxGain (n := 32) (f := 8) (B := 50) (W := fun c => (cifarWtW 32 16).addr [(i : Int), (j : Int), c, k] % 101 - 50) fun c _ => ab _).trans (le_of_eq ?_)
    norm_num
  · refine (fxGain (n := 512) (f := 8) (B := 50) (W := fun i => cifarFcWtW.addr [i, k] % 101 - 50) fun i _ => ab _).trans ?_
    norm_num
  · have := h (cifarIn.addr is)
    unfold InRange lo Mli.Spec.hi at this ⊢
    exact ⟨by simp only; omega, by simp only; omega⟩

end Mli
