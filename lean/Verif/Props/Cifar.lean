import Verif.Model.Cifar
import Verif.Props.Cnn
import Verif.Props.Softmax
import Verif.Spec.Cifar

/-!
# The CIFAR-10 example network (C104)
-/

namespace Mli

open Spec

/-! ## Two buffers that take turns -/

/-- The layers of a network with their gains, from an input tensor in the buffer `cur`; the first layer writes `other`. -/
def PingNet : Int → Tensor → List (CnnLayer × ℚ) → Buf → Buf → Prop
  | _, _, [], _, _ => True
  | fi, tin, (l, g) :: ls, cur, other => l.tout.Valid other ∧ l.Accepted fi tin ∧ l.op.Gain tin.shape g ∧ PingNet (l.op.frac fi) l.tout ls other cur

/-- Only the sizes of the buffers matter. -/
theorem PingNet.of_size : ∀ (ls : List (CnnLayer × ℚ)) {fi : Int} {tin : Tensor} {c c' o o' : Buf}, PingNet fi tin ls c o → c'.size = c.size →
    o'.size = o.size → PingNet fi tin ls c' o'
  | [], _, _, _, _, _, _, _, _, _ => trivial
  | (_, _) :: ls, _, _, _, _, _, _, h, hc, ho => ⟨h.1.of_size ho, h.2.1, h.2.2.1, PingNet.of_size ls h.2.2.2 ho hc⟩

/-- C104, for networks of any depth: `c103_cnn_fx16_partial` with two buffers that take turns, whatever they contain.  The last layer's output is where
the number of layers says it is. -/
theorem c104_two_buffers_partial (m : Rnd) : ∀ (ls : List (CnnLayer × ℚ)) (fi : Int) (tin : Tensor) (cur other : Buf) (x : List Int → ℚ) (e : ℚ),
    PingNet fi tin ls cur other → tin.Valid cur → tin.Holds cur 16 → 0 ≤ e → tin.NearAt cur fi x e →
    ∃ out rest, runPing m fi (ls.map (·.1)) tin cur other = some ((cnnLast fi tin ls).2, out, rest) ∧
      (cnnLast fi tin ls).2.NearAt out (cnnLast fi tin ls).1 (cnnReal tin ls x) (netErr (cnnErrs fi ls) e) ∧
      (cnnLast fi tin ls).2.Holds out 16 ∧ out.size = (if ls.length % 2 = 0 then cur.size else other.size)
  | [], fi, tin, cur, other, x, e, _, _, hi, _, hx => ⟨cur, other, rfl, hx, hi, rfl⟩
  | (l, g) :: ls, fi, tin, cur, other, x, e, h, vi, hi, he, hx => by
    obtain ⟨vo, acc, hg, rest⟩ := h
    have acc' : CnnLayer.Accepted fi tin { l with dst := other } := by
      obtain ⟨op, tout, dst⟩ := l
      cases op <;> exact acc
    obtain ⟨g0, dst', r1, rs, r2, r3, r4⟩ := layer_good m (l := { l with dst := other }) vi hi vo acc' hg he hx
    obtain ⟨out, b, o1, o2, o3, o4⟩ := c104_two_buffers_partial m ls (l.op.frac fi) l.tout dst' cur _ _ (rest.of_size _ rs rfl) r2 r3
      (add_nonneg (mul_nonneg g0 he) (l.op.err_nonneg fi)) r4
    refine ⟨out, b, ?_, o2, o3, ?_⟩
    · simp only [List.map_cons, runPing, r1, Option.bind_some, if_true]
      exact o1
    · rw [o4, List.length_cons, rs]
      rcases Nat.mod_two_eq_zero_or_one ls.length with h0 | h0
      · rw [if_pos h0, if_neg (by omega)]
      · rw [if_neg (by omega), if_pos (by omega)]

/-! ## The example -/

/-- Weights and biases are 16-bit elements, as many as the network has. -/
structure CifarWts.Ok (W : CifarWts) : Prop where
  size : W.w1.size = 2400 ∧ W.b1.size = 32 ∧ W.w2.size = 12800 ∧ W.b2.size = 16 ∧ W.w3.size = 12800 ∧ W.b3.size = 32 ∧ W.w4.size = 5120 ∧ W.b4.size = 10
  range : ∀ a, InRange 16 (W.w1.get a) ∧ InRange 16 (W.b1.get a) ∧ InRange 16 (W.w2.get a) ∧ InRange 16 (W.b2.get a) ∧
    InRange 16 (W.w3.get a) ∧ InRange 16 (W.b3.get a) ∧ InRange 16 (W.w4.get a) ∧ InRange 16 (W.b4.get a)

/-- No output of the layer has weights whose absolute values add up to more than `g1`, …, `g4`. -/
structure CifarGains (W : CifarWts) (g1 g2 g3 g4 : ℚ) : Prop where
  c1 : ∀ k, 0 ≤ k → k < 32 → ∑ i ∈ Finset.range 5, ∑ j ∈ Finset.range 5, ∑ c ∈ Finset.range 3,
    |fxNum 16 (W.w1.get ((cifarWt 3 32).addr [(i : Int), (j : Int), (c : Int), k]))| ≤ g1
  c2 : ∀ k, 0 ≤ k → k < 16 → ∑ i ∈ Finset.range 5, ∑ j ∈ Finset.range 5, ∑ c ∈ Finset.range 32,
    |fxNum 16 (W.w2.get ((cifarWt 32 16).addr [(i : Int), (j : Int), (c : Int), k]))| ≤ g2
  c3 : ∀ k, 0 ≤ k → k < 32 → ∑ i ∈ Finset.range 5, ∑ j ∈ Finset.range 5, ∑ c ∈ Finset.range 16,
    |fxNum 16 (W.w3.get ((cifarWt 16 32).addr [(i : Int), (j : Int), (c : Int), k]))| ≤ g3
  c4 : ∀ o, 0 ≤ o → o < 10 → ∑ i ∈ Finset.range 512, |fxNum 16 (W.w4.get (cifarFcWt.addr [(i : Int), o]))| ≤ g4

/-- The layers with their gains. -/
def cifarGained (W : CifarWts) (g1 g2 g3 g4 : ℚ) : List (CnnLayer × ℚ) := (cifarLayers W).zip [g1, 1, g2, 1, g3, 1, g4]

theorem cifar_meet {n : Int} (h : n = 32 ∨ n = 16 ∨ n = 8) : RowsMeet n 5 n cifarConvCfg := by
  rcases h with rfl | rfl | rfl
  · exact c36_rows_meet (iw := 32) (kw := 5) (ow := 32) (by decide) (by decide) (by decide) (by decide)
  · exact c36_rows_meet (iw := 16) (kw := 5) (ow := 16) (by decide) (by decide) (by decide) (by decide)
  · exact c36_rows_meet (iw := 8) (kw := 5) (ow := 8) (by decide) (by decide) (by decide) (by decide)

/-- The tensors of the network. -/
theorem cifar_tensors : ∀ t ∈ [cifarIn, cifarOut, cifarShape3 (2 * cifarX) 32 32 32, cifarShape3 (2 * cifarY) 16 16 32, cifarShape3 (2 * cifarX) 16 16 16,
      cifarShape3 (2 * cifarY) 8 8 16, cifarShape3 (2 * cifarX) 8 8 32, cifarShape3 (2 * cifarY) 4 4 32, cifarShape1 (2 * cifarX) 10,
      cifarWt 3 32, cifarWt 32 16, cifarWt 16 32, cifarFcWt, cifarBias 32, cifarBias 16, cifarBias 10],
    (t.WellTyped ∧ t.footprint ≤ int32Max ∧ checkTensorPrivate t = some .ok) ∧ t.base = 0 ∧ t.es = 2 := by
  decide +kernel

theorem cifar_valid (t : Tensor) {b : Buf} (ht : t ∈ [cifarIn, cifarOut, cifarShape3 (2 * cifarX) 32 32 32, cifarShape3 (2 * cifarY) 16 16 32,
      cifarShape3 (2 * cifarX) 16 16 16, cifarShape3 (2 * cifarY) 8 8 16, cifarShape3 (2 * cifarX) 8 8 32, cifarShape3 (2 * cifarY) 4 4 32,
      cifarShape1 (2 * cifarX) 10, cifarWt 3 32, cifarWt 32 16, cifarWt 16 32, cifarFcWt, cifarBias 32, cifarBias 16, cifarBias 10]) {n : Int}
    (hn : b.size = n) (hc : t.cap ≤ n * 2) : t.Valid b := by
  obtain ⟨h, h0, h2⟩ := cifar_tensors t ht
  exact ⟨h.1, h.2.1, h.2.2, by unfold Tensor.Fits; rw [h0, h2, hn]; omega⟩

/-- The formats of the convolutions and of the fully connected layer. -/
def cifarQ (fi fb fo : Int) (r : ReluType) : FxQ := { fi := fi, fw := 16, fb := fb, fo := fo, relu := r }

/-- The library accepts the arguments of every call. -/
theorem cifar_checks :
    chkConvFx false 5 true (cifarQ 7 15 12 .gen) cifarIn (cifarWt 3 32) (cifarBias 32) cifarConvCfg (cifarShape3 (2 * cifarX) 32 32 32) = some .ok ∧
    chkConvFx false 5 true (cifarQ 12 16 10 .gen) (cifarShape3 (2 * cifarY) 16 16 32) (cifarWt 32 16) (cifarBias 16) cifarConvCfg
      (cifarShape3 (2 * cifarX) 16 16 16) = some .ok ∧
    chkConvFx false 5 true (cifarQ 12 17 10 .gen) (cifarShape3 (2 * cifarY) 8 8 16) (cifarWt 16 32) (cifarBias 32) cifarConvCfg
      (cifarShape3 (2 * cifarX) 8 8 32) = some .ok ∧
    chkFcFx true (cifarQ 12 17 10 .none) (cifarShape3 (2 * cifarY) 4 4 32) cifarFcWt (cifarBias 10) (cifarShape1 (2 * cifarX) 10) = some .ok ∧
    chkPool (cifarShape3 (2 * cifarX) 32 32 32) cifarPool (cifarShape3 (2 * cifarY) 16 16 32) = some .ok ∧
    chkPool (cifarShape3 (2 * cifarX) 16 16 16) cifarPool (cifarShape3 (2 * cifarY) 8 8 16) = some .ok ∧
    chkPool (cifarShape3 (2 * cifarX) 8 8 32) cifarPool (cifarShape3 (2 * cifarY) 4 4 32) = some .ok := by
  decide +kernel

theorem cifar_geo : PoolGeo (cifarShape3 (2 * cifarX) 32 32 32) cifarPool (cifarShape3 (2 * cifarY) 16 16 32) 32 32 32 16 16 ∧
    PoolGeo (cifarShape3 (2 * cifarX) 16 16 16) cifarPool (cifarShape3 (2 * cifarY) 8 8 16) 16 16 16 8 8 ∧
    PoolGeo (cifarShape3 (2 * cifarX) 8 8 32) cifarPool (cifarShape3 (2 * cifarY) 4 4 32) 8 8 32 4 4 :=
  ⟨⟨by decide, by decide, ⟨by decide, by decide, by decide, by decide⟩, ⟨by decide, by decide, by decide, by decide⟩⟩,
    ⟨by decide, by decide, ⟨by decide, by decide, by decide, by decide⟩, ⟨by decide, by decide, by decide, by decide⟩⟩,
    ⟨by decide, by decide, ⟨by decide, by decide, by decide, by decide⟩, ⟨by decide, by decide, by decide, by decide⟩⟩⟩

/-- A convolution is accepted. -/
theorem cifarConv_accepted {fi fb fo ic oc n : Int} {tin tout : Tensor} {wts bias dst : Buf} (vw : (cifarWt ic oc).Valid wts) (vb : (cifarBias oc).Valid bias)
    (hw : ∀ a, InRange 16 (wts.get a)) (hb : ∀ a, InRange 16 (bias.get a)) (hs : fi + 16 - fb ≤ 16)
    (hc : chkConvFx false 5 true (cifarQ fi fb fo .gen) tin (cifarWt ic oc) (cifarBias oc) cifarConvCfg tout = some .ok)
    (h1 : tin.shape.getD 0 0 = n) (h2 : tout.shape.getD 0 0 = n) (hn : n = 32 ∨ n = 16 ∨ n = 8) :
    CnnLayer.Accepted fi tin ⟨cifarConv fi fb fo ic oc wts bias, tout, dst⟩ := by
  refine ⟨⟨rfl, vw, vb, fun _ _ => hw _, fun _ _ => hb _, hs, fun h => by cases h⟩, hc, by show cifarConvCfg.Typed; decide, ?_⟩
  show RowsMeet (tin.shape.getD 0 0) 5 (tout.shape.getD 0 0) cifarConvCfg
  rw [h1, h2]
  exact cifar_meet hn

theorem cifar_fits {W : CifarWts} (hW : W.Ok) {g1 g2 g3 g4 : ℚ} (G : CifarGains W g1 g2 g3 g4) {X Y : Buf} (hX : X.size = cifarX) (hY : Y.size = cifarY) :
    PingNet 7 cifarIn (cifarGained W g1 g2 g3 g4) Y X := by
  obtain ⟨s1, s2, s3, s4, s5, s6, s7, s8⟩ := hW.size
  have r := hW.range
  obtain ⟨k1, k2, k3, k4, k5, k6, k7⟩ := cifar_checks
  have p1 := cifar_valid (cifarShape3 (2 * cifarX) 32 32 32) (by simp) hX (by decide)
  have p2 := cifar_valid (cifarShape3 (2 * cifarY) 16 16 32) (by simp) hY (by decide)
  have p3 := cifar_valid (cifarShape3 (2 * cifarX) 16 16 16) (by simp) hX (by decide)
  have p4 := cifar_valid (cifarShape3 (2 * cifarY) 8 8 16) (by simp) hY (by decide)
  have p5 := cifar_valid (cifarShape3 (2 * cifarX) 8 8 32) (by simp) hX (by decide)
  have p6 := cifar_valid (cifarShape3 (2 * cifarY) 4 4 32) (by simp) hY (by decide)
  have p7 := cifar_valid (cifarShape1 (2 * cifarX) 10) (by simp) hX (by decide)
  have a1 := cifarConv_accepted (dst := ⟨0, fun _ => 0⟩) (cifar_valid (cifarWt 3 32) (by simp) s1 (by decide)) (cifar_valid (cifarBias 32) (by simp) s2 (by decide))
    (fun a => (r a).1) (fun a => (r a).2.1) (by decide) k1 (by decide) (by decide) (.inl rfl)
  have a2 := cifarConv_accepted (dst := ⟨0, fun _ => 0⟩) (cifar_valid (cifarWt 32 16) (by simp) s3 (by decide)) (cifar_valid (cifarBias 16) (by simp) s4 (by decide))
    (fun a => (r a).2.2.1) (fun a => (r a).2.2.2.1) (by decide) k2 (by decide) (by decide) (.inr (.inl rfl))
  have a3 := cifarConv_accepted (dst := ⟨0, fun _ => 0⟩) (cifar_valid (cifarWt 16 32) (by simp) s5 (by decide)) (cifar_valid (cifarBias 32) (by simp) s6 (by decide))
    (fun a => (r a).2.2.2.2.1) (fun a => (r a).2.2.2.2.2.1) (by decide) k3 (by decide) (by decide) (.inr (.inr rfl))
  have v7 := cifar_valid cifarFcWt (by simp) s7 (by decide)
  have v8 := cifar_valid (cifarBias 10) (by simp) s8 (by decide)
  exact ⟨p1, a1, G.c1, p2, ⟨k5, _, _, _, _, _, cifar_geo.1⟩, le_rfl, p3, a2, G.c2, p4, ⟨k6, _, _, _, _, _, cifar_geo.2.1⟩, le_rfl, p5, a3, G.c3,
    p6, ⟨k7, _, _, _, _, _, cifar_geo.2.2⟩, le_rfl, p7,
    ⟨⟨rfl, v7, v8, fun _ _ => (r _).2.2.2.2.2.2.1, fun _ _ => (r _).2.2.2.2.2.2.2, by show (12 : Int) + 16 - 17 ≤ 16; decide, fun h => by cases h⟩, k4⟩, G.c4, trivial⟩

/-- The weights and biases as numbers: 16 fractional bits for the weights, 15, 16, 17 and 17 for the biases. -/
def CifarWts.real (W : CifarWts) : CifarReal where
  w1 i j c k := fxNum 16 (W.w1.get ((cifarWt 3 32).addr [i, j, c, k]))
  b1 k := fxNum 15 (W.b1.get ((cifarBias 32).addr [k]))
  w2 i j c k := fxNum 16 (W.w2.get ((cifarWt 32 16).addr [i, j, c, k]))
  b2 k := fxNum 16 (W.b2.get ((cifarBias 16).addr [k]))
  w3 i j c k := fxNum 16 (W.w3.get ((cifarWt 16 32).addr [i, j, c, k]))
  b3 k := fxNum 17 (W.b3.get ((cifarBias 32).addr [k]))
  w4 i k := fxNum 16 (W.w4.get (cifarFcWt.addr [i, k]))
  b4 k := fxNum 17 (W.b4.get ((cifarBias 10).addr [k]))

/-- Where the weights are. -/
theorem cifar_addr (i j c k : Int) : (cifarWt 3 32).addr [i, j, c, k] = ((i * 5 + j) * 3 + c) * 32 + k ∧
    (cifarWt 32 16).addr [i, j, c, k] = ((i * 5 + j) * 32 + c) * 16 + k ∧ (cifarWt 16 32).addr [i, j, c, k] = ((i * 5 + j) * 16 + c) * 32 + k ∧
    cifarFcWt.addr [i, k] = i * 10 + k ∧ (cifarBias 32).addr [k] = k ∧ (cifarBias 16).addr [k] = k ∧ (cifarBias 10).addr [k] = k := by
  simp only [Tensor.addr, Tensor.strides, cifarWt, cifarFcWt, cifarBias, List.map_cons, List.map_nil, offset]
  refine ⟨?_, ?_, ?_, ?_, ?_, ?_, ?_⟩ <;> ring

theorem cifar_real (W : CifarWts) (g1 g2 g3 g4 : ℚ) (x : List Int → ℚ) (k : Int) :
    cnnReal cifarIn (cifarGained W g1 g2 g3 g4) x [k] = cifarScore W.real x k := rfl

theorem cifar_err (W : CifarWts) (g1 g2 g3 g4 e : ℚ) : netErr (cnnErrs 7 (cifarGained W g1 g2 g3 g4)) e = cifarErr g1 g2 g3 g4 e := by
  simp only [cifarGained, cifarLayers, cifarConv, List.zip_cons_cons, List.zip_nil_left, cnnErrs, netErr, CnnOp.err, CnnOp.frac, reluErr, cifarErr]
  norm_num

theorem slice_ten (is : List Int) : slice (-1) [10] is = (List.range 10).map fun (n : Nat) => [(n : Int)] := by
  unfold slice
  rw [List.filter_eq_self.2 fun js _ => by simp [sameSlice]]
  decide

/-- The softmax of ten scores, in place in x_mem_buf. -/
theorem cifar_softmax (m : Rnd) (B : Buf) (hB : B.size = cifarX) (hel : (cifarShape1 (2 * cifarX) 10).Holds B 16) :
    ∃ B', krnSoftmaxFx m expnegLut 16 10 (-1) (cifarShape1 (2 * cifarX) 10) cifarOut B = some (.ok, B') ∧
      ∀ k, 0 ≤ k → k < 10 →
        |(B'.get k : ℝ) - limitReal 16 (2 ^ 15 * cifarProb (fun j => fxReal (B.get j) 10) k)| ≤ 9.2 + 57 * cifarProb (fun j => fxReal (B.get j) 10) k ∧
        0 ≤ B'.get k ∧ ∀ j, 0 ≤ j → j < 10 → B.get j ≤ B.get k → B'.get j ≤ B'.get k := by
  have vi := cifar_valid (cifarShape1 (2 * cifarX) 10) (by simp) hB (by decide)
  have vo := cifar_valid cifarOut (by simp) hB (by decide)
  have sep : (cifarShape1 (2 * cifarX) 10).Separate cifarOut := Tensor.Separate.refl _ B vi
  have ad : ∀ k, (cifarShape1 (2 * cifarX) 10).addr [k] = k := by
    intro k
    simp [Tensor.addr, Tensor.strides, cifarShape1, offset]
  have hin : ∀ k, 0 ≤ k → k < 10 → InShape (cifarShape1 (2 * cifarX) 10).shape [k] := fun k h0 h1 => ⟨⟨h0, h1⟩, trivial⟩
  obtain ⟨B', val, r1, r2, r3⟩ := c63_softmax_fx16 m 10 (-1) (cifarShape1 (2 * cifarX) 10) cifarOut B vi vo rfl rfl rfl sep hel (by decide)
    (fun is _ => by rw [show (cifarShape1 (2 * cifarX) 10).shape = [10] from rfl, slice_ten]; decide)
  have hval : ∀ k, 0 ≤ k → k < 10 → B'.get k = val [k] := by
    intro k h0 h1
    have := r2.elem [k] (hin k h0 h1)
    rwa [show cifarOut.addr [k] = k from ad k] at this
  have hP : ∀ k, softmax (-1) (cifarShape1 (2 * cifarX) 10).shape (fun js => fxReal (B.get ((cifarShape1 (2 * cifarX) 10).addr js)) 10) [k] =
      cifarProb (fun j => fxReal (B.get j) 10) k := by
    intro k
    unfold softmax cifarProb
    rw [show (cifarShape1 (2 * cifarX) 10).shape = [10] from rfl, slice_ten, List.map_map]
    beta_reduce
    rw [ad]
    congr 1
  refine ⟨B', r1, fun k h0 h1 => ?_⟩
  obtain ⟨a, b, c⟩ := r3 [k] (hin k h0 h1)
  rw [hval k h0 h1]
  simp only [hP] at a
  rw [show (cifarShape1 (2 * cifarX) 10).shape = [10] from rfl, slice_ten, List.length_map, List.length_range] at a
  refine ⟨by norm_num at a ⊢; exact a, b, fun j j0 j1 hle => ?_⟩
  obtain ⟨-, -, c'⟩ := r3 [j] (hin j j0 j1)
  rw [hval j j0 j1]
  refine c' [k] ?_ (by simpa [ad] using hle)
  rw [show (cifarShape1 (2 * cifarX) 10).shape = [10] from rfl, slice_ten]
  lift k to ℕ using h0
  exact List.mem_map.2 ⟨k, List.mem_range.2 (by omega), rfl⟩

/-- **C104**: the CIFAR-10 example in 16-bit fixed point, for any weights, any image and any contents of the buffers.  Every call succeeds.  The ten results are
the softmax, in units of `2^-15` and up to `9.2 + 57 P` of them, of scores that are within `cifarErr` of those of the network in real numbers; and if the
score of a class in real numbers leads that of another by more than twice `cifarErr`, so (or equal) does its result.  Partial: the network in real numbers
limits what average pooling gives to the range from -8 to 8, see `c104_average_violated`. -/
theorem c104_cifar10_partial (m : Rnd) (W : CifarWts) (hW : W.Ok) (g1 g2 g3 g4 : ℚ) (G : CifarGains W g1 g2 g3 g4) (X Y : Buf) (hX : X.size = cifarX)
    (hY : Y.size = cifarY) (img : ∀ is, InShape [32, 32, 3] is → InRange 16 (Y.get (cifarIn.addr is))) (x : List Int → ℚ) (e : ℚ) (he : 0 ≤ e)
    (hx : ∀ is, InShape [32, 32, 3] is → |fxNum 7 (Y.get (cifarIn.addr is)) - x is| ≤ e) :
    ∃ (out : Buf) (score : Int → ℚ), cifarNet m W X Y = some out ∧
      (∀ k, 0 ≤ k → k < 10 → |score k - cifarScore W.real x k| ≤ cifarErr g1 g2 g3 g4 e) ∧
      (∀ k, 0 ≤ k → k < 10 → 0 ≤ out.get k ∧
        |(out.get k : ℝ) - limitReal 16 (2 ^ 15 * cifarProb (fun j => (score j : ℝ)) k)| ≤ 9.2 + 57 * cifarProb (fun j => (score j : ℝ)) k) ∧
      ∀ j k, 0 ≤ j → j < 10 → 0 ≤ k → k < 10 → cifarScore W.real x j + 2 * cifarErr g1 g2 g3 g4 e < cifarScore W.real x k → out.get j ≤ out.get k := by
  obtain ⟨B, rest, r1, r2, r3, r4⟩ := c104_two_buffers_partial m (cifarGained W g1 g2 g3 g4) 7 cifarIn Y X x e (cifar_fits hW G hX hY)
    (cifar_valid cifarIn (by simp) hY (by decide)) img he hx
  have r1 : runPing m 7 (cifarLayers W) cifarIn Y X = some (cifarShape1 (2 * cifarX) 10, B, rest) := r1
  have r2 : (cifarShape1 (2 * cifarX) 10).NearAt B 10 (cnnReal cifarIn (cifarGained W g1 g2 g3 g4) x) (netErr (cnnErrs 7 (cifarGained W g1 g2 g3 g4)) e) := r2
  have r3 : (cifarShape1 (2 * cifarX) 10).Holds B 16 := r3
  have r4 : B.size = X.size := by
    have hl : (cifarGained W g1 g2 g3 g4).length = 7 := rfl
    rw [hl] at r4
    exact r4
  obtain ⟨out, s1, s2⟩ := cifar_softmax m B (r4.trans hX) r3
  have hs : ∀ k, ((fxNum 10 (B.get k) : ℚ) : ℝ) = fxReal (B.get k) 10 := by
    intro k
    unfold fxNum fxReal
    push_cast
    rw [zpow_neg, div_eq_mul_inv]
  have near : ∀ k, 0 ≤ k → k < 10 → |fxNum 10 (B.get k) - cifarScore W.real x k| ≤ cifarErr g1 g2 g3 g4 e := by
    intro k h0 h1
    have := r2 [k] ⟨⟨h0, h1⟩, trivial⟩
    rw [cifar_err, cifar_real] at this
    rwa [show (cifarShape1 (2 * cifarX) 10).addr [k] = k by simp [Tensor.addr, Tensor.strides, cifarShape1, offset]] at this
  refine ⟨out, fun k => fxNum 10 (B.get k), ?_, near, ?_, ?_⟩
  · simp only [cifarNet, r1, Option.bind_some, s1, if_true]
  · intro k h0 h1
    obtain ⟨a, b, -⟩ := s2 k h0 h1
    simp only [hs]
    exact ⟨b, a⟩
  · intro j k j0 j1 k0 k1 hlt
    refine (s2 k k0 k1).2.2 j j0 j1 ?_
    have nj := abs_le.1 (near j j0 j1)
    have nk := abs_le.1 (near k k0 k1)
    by_contra hc
    have := fxNum_mono (f := 10) (a := B.get k) (b := B.get j) (by omega)
    linarith [nj.2, nk.1]

/-- Scores that are off by at most `E` change a probability by a factor of at most `exp (2 E)`. -/
theorem cifarProb_close {s r : Int → ℝ} {E : ℝ} (h : ∀ k, 0 ≤ k → k < 10 → |s k - r k| ≤ E) {k : Int} (h0 : 0 ≤ k) (h1 : k < 10) :
    cifarProb s k ≤ Real.exp (2 * E) * cifarProb r k := by
  have hs : 0 < ∑ j ∈ Finset.range 10, Real.exp (s j) := Finset.sum_pos (fun _ _ => Real.exp_pos _) ⟨0, by simp⟩
  have hr : 0 < ∑ j ∈ Finset.range 10, Real.exp (r j) := Finset.sum_pos (fun _ _ => Real.exp_pos _) ⟨0, by simp⟩
  have a : Real.exp (s k) ≤ Real.exp E * Real.exp (r k) := by
    rw [← Real.exp_add]
    exact Real.exp_le_exp.2 (by linarith [(abs_le.1 (h k h0 h1)).2])
  have b : ∑ j ∈ Finset.range 10, Real.exp (r j) ≤ Real.exp E * ∑ j ∈ Finset.range 10, Real.exp (s j) := by
    rw [Finset.mul_sum]
    refine Finset.sum_le_sum fun j hj => ?_
    rw [← Real.exp_add]
    have := Finset.mem_range.1 hj
    exact Real.exp_le_exp.2 (by linarith [(abs_le.1 (h (j : Int) (by omega) (by omega))).1])
  unfold cifarProb
  rw [div_le_iff₀ hs, two_mul, Real.exp_add]
  calc Real.exp (s k) ≤ Real.exp E * Real.exp (r k) := a
    _ = Real.exp E * (Real.exp (r k) / ∑ j ∈ Finset.range 10, Real.exp (r j)) * ∑ j ∈ Finset.range 10, Real.exp (r j) := by field_simp
    _ ≤ Real.exp E * (Real.exp (r k) / ∑ j ∈ Finset.range 10, Real.exp (r j)) * (Real.exp E * ∑ j ∈ Finset.range 10, Real.exp (s j)) :=
        mul_le_mul_of_nonneg_left b (by positivity)
    _ = _ := by ring

/-- **C104**: the results of the CIFAR-10 example against the probabilities of the network in real numbers: with `E` for `cifarErr`, each result (in units of
`2^-15`) is the probability up to a factor of `exp (2 E)` and `9.2 + 57 exp (2 E) P` units, limited to 32767. -/
theorem c104_cifar10_probability_partial (m : Rnd) (W : CifarWts) (hW : W.Ok) (g1 g2 g3 g4 : ℚ) (G : CifarGains W g1 g2 g3 g4) (X Y : Buf)
    (hX : X.size = cifarX) (hY : Y.size = cifarY) (img : ∀ is, InShape [32, 32, 3] is → InRange 16 (Y.get (cifarIn.addr is))) (x : List Int → ℚ) (e : ℚ)
    (he : 0 ≤ e) (hx : ∀ is, InShape [32, 32, 3] is → |fxNum 7 (Y.get (cifarIn.addr is)) - x is| ≤ e) :
    ∃ out, cifarNet m W X Y = some out ∧ ∀ k, 0 ≤ k → k < 10 →
      let P := cifarProb (fun j => (cifarScore W.real x j : ℝ)) k
      let F := Real.exp (2 * (cifarErr g1 g2 g3 g4 e : ℝ))
      min 32767 (2 ^ 15 * (P / F)) - (9.2 + 57 * (F * P)) ≤ (out.get k : ℝ) ∧ (out.get k : ℝ) ≤ min 32767 (2 ^ 15 * (F * P)) + (9.2 + 57 * (F * P)) := by
  obtain ⟨out, score, h1, h2, h3, -⟩ := c104_cifar10_partial m W hW g1 g2 g3 g4 G X Y hX hY img x e he hx
  refine ⟨out, h1, fun k k0 k1 => ?_⟩
  intro P F
  have hF : 0 < F := Real.exp_pos _
  have near : ∀ j, 0 ≤ j → j < 10 → |(score j : ℝ) - (cifarScore W.real x j : ℝ)| ≤ (cifarErr g1 g2 g3 g4 e : ℝ) := fun j j0 j1 => by exact_mod_cast h2 j j0 j1
  have up : cifarProb (fun j => (score j : ℝ)) k ≤ F * P := cifarProb_close (s := fun j => (score j : ℝ)) (r := fun j => (cifarScore W.real x j : ℝ)) near k0 k1
  have low : P ≤ F * cifarProb (fun j => (score j : ℝ)) k :=
    cifarProb_close (s := fun j => (cifarScore W.real x j : ℝ)) (r := fun j => (score j : ℝ)) (fun j j0 j1 => by rw [abs_sub_comm]; exact near j j0 j1) k0 k1
  have low' : P / F ≤ cifarProb (fun j => (score j : ℝ)) k := by rw [div_le_iff₀ hF]; linarith
  obtain ⟨-, h⟩ := h3 k k0 k1
  generalize cifarProb (fun j => (score j : ℝ)) k = Q at *
  have Q0 : 0 ≤ P / F := by
    refine div_nonneg (div_nonneg (Real.exp_pos _).le (Finset.sum_nonneg fun _ _ => (Real.exp_pos _).le)) hF.le
  clear_value F P
  have hl : limitReal 16 (2 ^ 15 * Q) = min 32767 (2 ^ 15 * Q) := by
    unfold limitReal
    rw [show (2 : ℝ) ^ (16 - 1) - 1 = 32767 by norm_num]
    exact max_eq_right (le_trans (by norm_num : -(2 : ℝ) ^ (16 - 1) ≤ 0) (le_min (by norm_num) (by linarith)))
  rw [hl] at h
  have h := abs_le.1 h
  have m1 : min (32767 : ℝ) (2 ^ 15 * (P / F)) ≤ min 32767 (2 ^ 15 * Q) := min_le_min le_rfl (by linarith)
  have m2 : min (32767 : ℝ) (2 ^ 15 * Q) ≤ min 32767 (2 ^ 15 * (F * P)) := min_le_min le_rfl (by linarith)
  generalize min (32767 : ℝ) (2 ^ 15 * (F * P)) = A at *
  generalize min (32767 : ℝ) (2 ^ 15 * (P / F)) = B at *
  generalize min (32767 : ℝ) (2 ^ 15 * Q) = C at *
  generalize F * P = D at *
  obtain ⟨h4, h5⟩ := h
  constructor
  · linarith
  · linarith

/-- The gains of any 16-bit weights. -/
theorem cifar_gains {W : CifarWts} (hW : W.Ok) : CifarGains W (75 / 2) 400 200 256 := by
  have ab : ∀ {v : Int}, InRange 16 v → |v| ≤ 32768 := by
    intro v h
    unfold InRange lo Mli.Spec.hi at h
    rw [abs_le]
    omega
  have r := hW.range
  have three : ∀ (ic : Nat) (w : Int → Int → Int → Int), (∀ i j c, |w i j c| ≤ 32768) →
      ∑ i ∈ Finset.range 5, ∑ j ∈ Finset.range 5, ∑ c ∈ Finset.range ic, |fxNum 16 (w i j c)| ≤ 25 / 2 * ic := by
    intro ic w h
    refine (sum_range_le (n := 5) (b := 5 * (ic * (1 / 2))) fun i _ => sum_range_le (n := 5) fun j _ => ?_).trans (le_of_eq (by push_cast; ring))
    refine (fxGain (n := ic) (f := 16) (B := 32768) (W := fun c => w i j c) fun c _ => h i j c).trans (le_of_eq ?_)
    norm_num
  refine ⟨fun k _ _ => ?_, fun k _ _ => ?_, fun k _ _ => ?_, fun k _ _ => ?_⟩
  · exact (three 3 (fun i j c => W.w1.get ((cifarWt 3 32).addr [i, j, c, k])) fun i j c => ab (r _).1).trans (by norm_num)
  · exact (three 32 (fun i j c => W.w2.get ((cifarWt 32 16).addr [i, j, c, k])) fun i j c => ab (r _).2.2.1).trans (by norm_num)
  · exact (three 16 (fun i j c => W.w3.get ((cifarWt 16 32).addr [i, j, c, k])) fun i j c => ab (r _).2.2.2.2.1).trans (by norm_num)
  · refine (fxGain (n := 512) (f := 16) (B := 32768) (W := fun i => W.w4.get (cifarFcWt.addr [i, k])) fun i _ => ab (r _).2.2.2.2.2.2.1).trans (le_of_eq ?_)
    norm_num

/-- Every call of the example succeeds, whatever the weights, the image and the contents of the buffers, and the ten results are not negative. -/
theorem c104_cifar10_runs (m : Rnd) (W : CifarWts) (hW : W.Ok) (X Y : Buf) (hX : X.size = cifarX) (hY : Y.size = cifarY)
    (img : ∀ is, InShape [32, 32, 3] is → InRange 16 (Y.get (cifarIn.addr is))) :
    ∃ out, cifarNet m W X Y = some out ∧ ∀ k, 0 ≤ k → k < 10 → 0 ≤ out.get k := by
  obtain ⟨out, _, h1, -, h2, -⟩ := c104_cifar10_partial m W hW _ _ _ _ (cifar_gains hW) X Y hX hY img (fun is => fxNum 7 (Y.get (cifarIn.addr is))) 0 le_rfl
    (fun is _ => by simp)
  exact ⟨out, h1, fun k h0 hk => (h2 k h0 hk).1⟩

/-- **Violation**: in the 16-bit CIFAR-10 example the input of the average pooling of layer 2 has a format for numbers below 32, but its output keeps the
format maximum pooling has left in the tensor, for numbers below 8: where all activations are 20, every average is given as less than 8. -/
theorem c104_average_violated (m : Rnd) : ∃ (src dst dst' : Buf),
    (∀ is, InShape [16, 16, 16] is → fxNum 10 (src.get ((cifarShape3 (2 * cifarX) 16 16 16).addr is)) = 20) ∧
    krnAvepoolFx m 16 10 12 src (cifarShape3 (2 * cifarX) 16 16 16) cifarPool (cifarShape3 (2 * cifarY) 8 8 16) dst = some (.ok, dst') ∧
    ∀ is, InShape [8, 8, 16] is → fxNum 12 (dst'.get ((cifarShape3 (2 * cifarY) 8 8 16).addr is)) < 8 := by
  have vi := cifar_valid (cifarShape3 (2 * cifarX) 16 16 16) (b := ⟨cifarX, fun _ => 20480⟩) (by simp) rfl (by decide)
  have vo := cifar_valid (cifarShape3 (2 * cifarY) 8 8 16) (b := ⟨cifarY, fun _ => 0⟩) (by simp) rfl (by decide)
  obtain ⟨-, dst', r1, -, -, r3, -⟩ := avepool_good m (fi := 10) (fo := 12) (gm := cifarPool) (x := fun _ => 20) (e := 0) (g := 1) vi
    (fun _ _ => by show InRange 16 20480; decide) vo ⟨cifar_checks.2.2.2.2.2.1, _, _, _, _, _, cifar_geo.2.1⟩ (le_refl (1 : ℚ)) le_rfl
    (fun _ _ => by simp only [fxNum]; norm_num)
  refine ⟨⟨cifarX, fun _ => 20480⟩, ⟨cifarY, fun _ => 0⟩, dst', fun _ _ => by simp only [fxNum]; norm_num, r1, fun is his => ?_⟩
  have h := (r3 is his).2
  have h' : dst'.get ((cifarShape3 (2 * cifarY) 8 8 16).addr is) ≤ 32767 := h
  refine (fxNum_mono (f := 12) h').trans_lt ?_
  simp only [fxNum]
  norm_num

/-- Weights, biases and an image the theorems apply to. -/
example : ∃ (W : CifarWts) (X Y : Buf), W.Ok ∧ CifarGains W (75 / 2) 400 200 256 ∧ X.size = cifarX ∧ Y.size = cifarY ∧
    (∀ is, InShape [32, 32, 3] is → InRange 16 (Y.get (cifarIn.addr is))) ∧ W.w1.get 5 ≠ W.w1.get 6 ∧ Y.get 0 ≠ Y.get 1 := by
  have h : ∀ a : Int, InRange 16 (a % 101 - 50) := by
    intro a
    unfold InRange lo Mli.Spec.hi
    omega
  have ok : CifarWts.Ok ⟨⟨2400, fun a => a % 101 - 50⟩, ⟨32, fun a => a % 101 - 50⟩, ⟨12800, fun a => a % 101 - 50⟩, ⟨16, fun a => a % 101 - 50⟩,
      ⟨12800, fun a => a % 101 - 50⟩, ⟨32, fun a => a % 101 - 50⟩, ⟨5120, fun a => a % 101 - 50⟩, ⟨10, fun a => a % 101 - 50⟩⟩ :=
    ⟨⟨rfl, rfl, rfl, rfl, rfl, rfl, rfl, rfl⟩, fun a => ⟨h a, h a, h a, h a, h a, h a, h a, h a⟩⟩
  exact ⟨_, ⟨cifarX, fun _ => 0⟩, ⟨cifarY, fun a => a % 101 - 50⟩, ok, cifar_gains ok, rfl, rfl, fun _ _ => h _, by decide, by decide⟩

end Mli
