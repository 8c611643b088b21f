import Verif.Model.HarW
import Verif.Props.Har

/-! # The human activity recognition example with 8-bit weights (C105) -/

namespace Mli

open Spec

/-! ## Arguments of the calls -/

theorem har_valid0W {t : Tensor} {b : Buf} {n : Int} (hn : b.size = n)
    (h : (t.WellTyped ∧ t.footprint ≤ int32Max ∧ checkTensorPrivate t = some .ok) ∧ t.base = 0 ∧ t.es = 1) (hc : t.cap ≤ n) : t.Valid b :=
  ⟨h.1.1, h.1.2.1, h.1.2.2, by unfold Tensor.Fits; rw [hn, h.2.1, h.2.2]; omega⟩

/-- The library accepts tensors and arguments of every call for one sample of layer 1. -/
theorem har_fc1_finW : ∀ b : Fin 128, (∀ t ∈ [harVec (9 * b) (8192 - 18 * b) 9, harVec (4096 + 32 * b) (8192 - 64 * b) 32],
      (t.WellTyped ∧ t.footprint ≤ int32Max ∧ checkTensorPrivate t = some .ok) ∧ 0 ≤ t.base ∧ t.base * t.es + t.cap ≤ harEnd * t.es) ∧
    chkFcFx true harQ1W (harVec (9 * b) (8192 - 18 * b) 9) (harMatW 288 9 32) (harVecW 32) (harVec (4096 + 32 * b) (8192 - 64 * b) 32) = some .ok := by
  decide +kernel

theorem har_fc1_checksW {b : Nat} (h : b < 128) : (∀ t ∈ [harVec (9 * b) (8192 - 18 * b) 9, harVec (4096 + 32 * b) (8192 - 64 * b) 32],
      (t.WellTyped ∧ t.footprint ≤ int32Max ∧ checkTensorPrivate t = some .ok) ∧ 0 ≤ t.base ∧ t.base * t.es + t.cap ≤ harEnd * t.es) ∧
    chkFcFx true harQ1W (harVec (9 * b) (8192 - 18 * b) 9) (harMatW 288 9 32) (harVecW 32) (harVec (4096 + 32 * b) (8192 - 64 * b) 32) = some .ok :=
  har_fc1_finW ⟨b, h⟩

/-- The tensors of the network. -/
theorem har_tensorsW : (∀ t ∈ [harVec harCell 64 32, harVec harX 8192 32, harVec harY 8192 32, harMat harX 8192 128 32, harMat harY 8192 128 32,
      harMat harY 8192 1 32, harVec harX 8192 6],
      (t.WellTyped ∧ t.footprint ≤ int32Max ∧ checkTensorPrivate t = some .ok) ∧ 0 ≤ t.base ∧ t.base * t.es + t.cap ≤ harEnd * t.es) ∧
    ∀ t ∈ [harMatW 288 9 32, harVecW 32, harGatesW, harMatW 128 4 32, harMatW 192 32 6, harVecW 6],
      (t.WellTyped ∧ t.footprint ≤ int32Max ∧ checkTensorPrivate t = some .ok) ∧ t.base = 0 ∧ t.es = 1 := by
  decide +kernel

theorem har_checksW (W : HarWts) :
    chkEltwise (harVec harCell 64 32) harZero.t (harVec harCell 64 32) = some .ok ∧ chkEltwise (harVec harX 8192 32) harZero.t (harVec harX 8192 32) = some .ok ∧
    chkEltwise (harVec harY 8192 32) harZero.t (harVec harY 8192 32) = some .ok ∧
    chkLstmFx harF2W (harArgs2W W) (harVec harCell 64 32) = some .ok ∧
    chkLstmFx harF3W (harArgs3W W (harMat harX 8192 128 32)) (harVec harCell 64 32) = some .ok ∧
    chkFcFx true harQ4W (harMat harY 8192 1 32) (harMatW 192 32 6) (harVecW 6) (harVec harX 8192 6) = some .ok := by
  refine ⟨by decide +kernel, by decide +kernel, by decide +kernel, ?_, ?_, by decide +kernel⟩
  · rw [chkLstmFx_bufs _ _ _ ⟨0, fun _ => 0⟩]
    show chkLstmFx harF2W (harArgs2W harNoWts) _ = _
    decide +kernel
  · rw [chkLstmFx_bufs _ _ _ ⟨0, fun _ => 0⟩]
    show chkLstmFx harF3W (harArgs3W harNoWts (harMat harX 8192 128 32)) _ = _
    decide +kernel

/-- Weights and biases of 8-bit elements, in arrays of their sizes. -/
structure HarWts.Ok8 (W : HarWts) : Prop where
  size : W.w1.size = 288 ∧ W.b1.size = 32 ∧ W.wi2.size = 4096 ∧ W.wo2.size = 4096 ∧ W.b2.size = 128 ∧ W.wi3.size = 4096 ∧ W.wo3.size = 4096 ∧
    W.b3.size = 128 ∧ W.w4.size = 192 ∧ W.b4.size = 6
  range : ∀ a, InRange 8 (W.w1.get a) ∧ InRange 8 (W.b1.get a) ∧ InRange 8 (W.wi2.get a) ∧ InRange 8 (W.wo2.get a) ∧ InRange 8 (W.b2.get a) ∧
    InRange 8 (W.wi3.get a) ∧ InRange 8 (W.wo3.get a) ∧ InRange 8 (W.b3.get a) ∧ InRange 8 (W.w4.get a) ∧ InRange 8 (W.b4.get a)

/-! ## Fully connected layers -/

/-- A fully connected layer with the input in a row of elements: with at most 32 of them the sums fit. -/
theorem har_fcW (m : Rnd) (f : FxQ) {src wts bias dst : Buf} {tin tw tb tout : Tensor} {n k : Int} (A : FcArgs tin tw tb tout src wts bias dst 16 8 8)
    (hchk : chkFcFx true f tin tw tb tout = some .ok) (sw : tw.shape = [n, k]) (hn : 0 ≤ n ∧ n ≤ 32) (hb : (f.fi + f.fw - f.fb).toNat = 13)
    (ho : f.fi + f.fw - f.fo ≤ 16) (hr : f.relu = .gen ∨ f.relu = .none) (hwr : ∀ a, InRange 8 (wts.get a)) (hbr : ∀ a, InRange 8 (bias.get a))
    (hX : ∀ i, 0 ≤ i → i < n → ∃ is, InShape tin.shape is ∧ flatIndex tin.shape is = i ∧ tin.addr is = tin.base + i) :
    ∃ dst', krnFcFx m 16 32 true f src wts bias tin tw tb tout dst = some (.ok, dst') ∧ dst'.size = dst.size ∧
      (∀ o, InShape tout.shape [o] → DenseFx m n (fun i => src.get (tin.base + i)) (fun i => wts.get (tw.addr [i, o])) (bias.get (tb.addr [o]))
        13 (f.fi + f.fw - f.fo) (decide (f.relu = .gen)) (dst'.get (tout.addr [o]))) ∧
      ∀ a, (∀ is, InShape tout.shape is → tout.addr is ≠ a) → dst'.get a = dst.get a := by
  obtain ⟨dst', val, X, hXf, r1, r2, r3⟩ := c39_fx16_fx8_partial m true f src wts bias dst tin tw tb tout n k A hchk sw (by omega)
    (fun h => by rcases hr with e | e <;> rw [e] at h <;> cases h) (fun _ => .inl ho)
  refine ⟨dst', r1, r2.size, fun o ho => ?_, r2.frame⟩
  obtain ⟨r, h1, h2⟩ := r3 o ho
  refine ⟨r, ?_, ?_⟩
  · have hXr : ∀ i, 0 ≤ i → i < n → InRange 16 (X i) := by
      intro i i0 i1
      obtain ⟨is, j1, j2, j3⟩ := hX i i0 i1
      rw [← j2, hXf is j1]
      exact A.hi is j1
    have hd : |dotSum n X fun i => wts.get (tw.addr [i, o])| ≤ n * 2 ^ 22 := abs_dotSum_le hn.1 fun i i0 i1 =>
      (abs_mul_le (by omega) (by omega) (hXr i i0 i1) (hwr _)).trans (by decide)
    have hd := abs_le.1 hd
    have hbb := hbr (tb.addr [o])
    rw [hb] at h1
    unfold InRange lo Mli.Spec.hi at hbb
    rw [clamp_of_inRange (x := bias.get (tb.addr [o]) * 2 ^ 13) ⟨by unfold lo; omega, by unfold Mli.Spec.hi; omega⟩,
      clamp_of_inRange ⟨by unfold lo; omega, by unfold Mli.Spec.hi; omega⟩] at h1
    rwa [dotSum_congr (X' := X) (h := ?_)]
    intro i h0 h1
    obtain ⟨is, i1, i2, i3⟩ := hX i h0 h1
    rw [← i3, ← hXf is i1, i2]
    exact ⟨rfl, rfl⟩
  · rw [r2.elem _ ho]
    exact har_relu hr h2

/-- The loop over the samples, from sample `b` on. -/
theorem har_fc_loopW (m : Rnd) {W : HarWts} (hW : W.Ok8) : ∀ (k b : Nat) (mem : Buf), b + k = 128 → mem.size = harEnd →
    (∀ a, InRange 16 (mem.get a)) →
    ∃ mem', harFcLoopW m W k (harVec (9 * b) (8192 - 18 * b) 9) (harVec (4096 + 32 * b) (8192 - 64 * b) 32) (.ok, mem) = some (.ok, mem') ∧
      mem'.size = harEnd ∧ (∀ a, InRange 16 (mem'.get a)) ∧ (∀ a : Int, a < 4096 + 32 * b ∨ 8192 ≤ a → mem'.get a = mem.get a) ∧
      ∀ t : Nat, b ≤ t → t < 128 → ∀ o, 0 ≤ o → o < 32 →
        DenseFx m 9 (fun i => mem.get (9 * t + i)) (fun i => W.w1.get (32 * i + o)) (W.b1.get o) 13 7 true (mem'.get (4096 + 32 * t + o))
  | 0, b, mem, hb, hs, hr => ⟨mem, rfl, hs, hr, fun _ _ => rfl, fun t h0 h1 => by omega⟩
  | k + 1, b, mem, hb, hs, hr => by
    obtain ⟨hv, hchk⟩ := har_fc1_checksW (b := b) (by omega)
    have vi := har_valid hs (hv (harVec (9 * b) (8192 - 18 * b) 9) (by simp))
    have vo := har_valid hs (hv (harVec (4096 + 32 * b) (8192 - 64 * b) 32) (by simp))
    have vw := har_valid0W hW.size.1 (har_tensorsW.2 (harMatW 288 9 32) (by simp)) (by decide)
    have vb := har_valid0W hW.size.2.1 (har_tensorsW.2 (harVecW 32) (by simp)) (by decide)
    obtain ⟨mem1, r1, r2, r3, r4⟩ := har_fcW m harQ1W (src := mem) (dst := mem) (n := 9) (k := 32)
      ⟨vi, vw, vb, vo, fun _ _ => hr _, fun _ _ => (hW.range _).1, fun _ _ => (hW.range _).2.1⟩ hchk rfl (by decide) (by decide) (by decide) (.inl rfl)
      (fun a => (hW.range a).1) (fun a => (hW.range a).2.1)
      (fun i h0 h1 => ⟨[i], ⟨⟨h0, h1⟩, trivial⟩, by simp [flatIndex, prod, harVec, Tensor.shape], by simp [Tensor.addr, harVec, Tensor.strides, offset]⟩)
    have rowE : ∀ o : Int, (harVec (4096 + 32 * b) (8192 - 64 * b) 32).addr [o] = 4096 + 32 * b + o := fun o => by
      simp [Tensor.addr, harVec, Tensor.strides, offset]
    have q3 : ∀ o, 0 ≤ o → o < 32 →
        DenseFx m 9 (fun i => mem.get (9 * b + i)) (fun i => W.w1.get (32 * i + o)) (W.b1.get o) 13 7 true (mem1.get (4096 + 32 * b + o)) := by
      intro o h0 h1
      have := r3 o ⟨⟨h0, h1⟩, trivial⟩
      rw [rowE] at this
      have e1 : (fun i => W.w1.get ((harMatW 288 9 32).addr [i, o])) = fun i => W.w1.get (32 * i + o) := by
        funext i
        congr 1
        simp [Tensor.addr, harMatW, Tensor.strides, offset]
        omega
      have e2 : (harVecW 32).addr [o] = o := by simp [Tensor.addr, harVecW, Tensor.strides, offset]
      rw [e1, e2] at this
      exact this
    have q4 : ∀ a : Int, a < 4096 + 32 * b ∨ 4096 + 32 * b + 32 ≤ a → mem1.get a = mem.get a := by
      intro a ha
      refine r4 a fun is his => ?_
      match is, his with
      | [o], ⟨⟨h0, h1⟩, _⟩ =>
        rw [rowE]
        have : o < 32 := h1
        omega
    have hr1 : ∀ a, InRange 16 (mem1.get a) := by
      intro a
      by_cases ha : a < 4096 + 32 * b ∨ 4096 + 32 * b + 32 ≤ a
      · rw [q4 a ha]; exact hr a
      · have := (q3 (a - (4096 + 32 * b)) (by omega) (by omega)).inRange
        rwa [show (4096 : Int) + 32 * b + (a - (4096 + 32 * b)) = a by omega] at this
    obtain ⟨mem2, s1, s2, s3, s4, s5⟩ := har_fc_loopW m hW k (b + 1) mem1 (by omega) (r2.trans hs) hr1
    refine ⟨mem2, ?_, s2, s3, fun a ha => ?_, fun t h0 h1 o ho0 ho1 => ?_⟩
    · have e1 : { harVec (9 * b) (8192 - 18 * b) 9 with base := (harVec (9 * b) (8192 - 18 * b) 9).base + 9, cap := (harVec (9 * b) (8192 - 18 * b) 9).cap - 18 } =
          harVec (9 * ((b + 1 : Nat) : Int)) (8192 - 18 * ((b + 1 : Nat) : Int)) 9 := by
        simp only [harVec, Tensor.mk.injEq, true_and, and_true]
        push_cast
        constructor <;> ring
      have e2 : { harVec (4096 + 32 * b) (8192 - 64 * b) 32 with
            base := (harVec (4096 + 32 * b) (8192 - 64 * b) 32).base + 32, cap := (harVec (4096 + 32 * b) (8192 - 64 * b) 32).cap - 64 } =
          harVec (4096 + 32 * ((b + 1 : Nat) : Int)) (8192 - 64 * ((b + 1 : Nat) : Int)) 32 := by
        simp only [harVec, Tensor.mk.injEq, true_and, and_true]
        push_cast
        constructor <;> ring
      rw [harFcLoopW, if_neg (not_not.2 rfl), r1, Option.bind_some, e1, e2]
      exact s1
    · rw [s4 a (by push_cast; omega), q4 a (by omega)]
    · by_cases e : t = b
      · subst e
        rw [s4 _ (by left; push_cast; omega)]
        exact q3 o ho0 ho1
      · obtain ⟨r, z1, z2⟩ := s5 t (by omega) h1 o ho0 ho1
        refine ⟨r, ?_, z2⟩
        rwa [dotSum_congr (X' := fun i => mem1.get (9 * t + i)) (h := ?_)]
        intro i i0 i1
        exact ⟨(q4 _ (by left; omega)).symm, rfl⟩

/-! ## LSTM layers -/

theorem harGatesW_addr (g i o : Int) : harGatesW.addr [g, i, o] = 1024 * g + 32 * i + o := by
  simp [Tensor.addr, harGatesW, Tensor.strides, offset]
  omega

theorem harMatW_addr (cap r n i j : Int) : (harMatW cap r n).addr [i, j] = n * i + j := by
  simp only [Tensor.addr, harMatW, Tensor.strides, offset, List.map_cons, List.map_nil]
  ring

theorem har_wW (W : HarWts) (t : Tensor) : (harArgs2W W).w = harCellW W.wi2 W.wo2 W.b2 ∧ (harArgs3W W t).w = harCellW W.wi3 W.wo3 W.b3 := by
  constructor <;>
  · simp only [CellArgs.w, harCellW, harArgs2W, harArgs3W, harGatesW_addr, harMatW_addr]

/-- Layer 2 or 3 from a cleared cell and previous output. -/
theorem har_lstmW (m : Rnd) {f : CellFx} {a : CellArgs} {mem : Buf} {x y rows : Int} (hm : mem.size = harEnd)
    (A : a.Lstm168 m f .tanh (harVec harCell 64 32) mem) (hir : min 10 (f.fi + f.fwi) = 10) (hfh : f.fh = 15 ∧ f.fo = 15)
    (hin : a.tin = harMat x 8192 128 32) (hprev : a.tprev = harVec y 8192 32) (hout : a.tout = harMat y 8192 rows 32) (hscr : a.scr = harIr)
    (hbw : a.backward = false) (hrows : rows = if a.all then 128 else 1)
    (hh : ∀ i, 0 ≤ i → i < 32 → mem.get (y + i) = 0) (hc : ∀ i, 0 ≤ i → i < 32 → mem.get (harCell + i) = 0) :
    ∃ mem' H C, krnLstmFx m 32 f .tanh a (harVec harCell 64 32) mem = some (.ok, mem', harMat y 8192 rows 32) ∧ mem'.size = harEnd ∧
      LstmRun m f 10 a.w (fun t i => mem.get (x + 32 * t + i)) H C ∧
      (∀ r i : Int, 0 ≤ r → r < rows → 0 ≤ i → i < 32 → mem'.get (y + 32 * r + i) = H (if a.all then r.toNat + 1 else 128) i) ∧
      (∀ i, 0 ≤ i → i < 32 → InRange 16 (mem'.get (harCell + i))) ∧
      ∀ b, b < harIr → (b < y ∨ y + 32 * rows ≤ b) → mem'.get b = mem.get b := by
  have hV : ∀ (b cap i : Int), (harVec b cap 32).addr [i] = b + i := fun b cap i => by simp [Tensor.addr, harVec, Tensor.strides, offset]
  have hn : a.n = 32 := by unfold CellArgs.n; rw [hprev]; rfl
  have hk : a.k = 32 := by unfold CellArgs.k; rw [hin]; rfl
  have hs : a.seq = 128 := by unfold CellArgs.seq; rw [hin]; rfl
  have hd : a.outDesc = harMat y 8192 rows 32 := by
    unfold CellArgs.outDesc
    rw [hs, hn, hout, ← hrows]
    rfl
  have hsh : a.outDesc.shape = [rows, 32] := by rw [hd]; rfl
  obtain ⟨mem', H, C, e, H0, C0, hst, R⟩ := c66_lstm_fx16_fx8_partial m f .tanh a (harVec harCell 64 32) mem A
  rw [hs] at hst
  have hL : LstmRun m f 10 a.w (fun t i => mem.get (x + 32 * t + i)) H C := by
    refine ⟨fun i h0 h1 => ⟨?_, ?_⟩, fun t ht => ?_⟩
    · rw [H0, hprev, hV, hh i h0 h1]
    · rw [C0, hV, hc i h0 h1]
    · have := hst t (by omega)
      rw [hn, hk, hir, hfh.1, hfh.2, ite_self] at this
      refine lstmFxStep_input (fun i _ _ => ?_) this
      unfold CellArgs.input
      rw [hbw, hin, if_neg (by decide), harMat_addr]
  refine ⟨mem', H, C, by rw [e, hd], R.size.trans hm, hL, fun r i r0 r1 i0 i1 => ?_, fun i i0 i1 => ?_, fun b hb1 hb2 => ?_⟩
  · have := R.out r i (by rw [hsh]; exact ⟨⟨r0, r1⟩, ⟨i0, i1⟩, trivial⟩)
    rw [hd, harMat_addr, hs] at this
    exact this
  · have := R.state (harVec harCell 64 32) (by simp) i ⟨⟨i0, i1⟩, trivial⟩
    rw [hV] at this
    rw [this, hs]
    exact (lstmFxStep_range (hL.2 127 (by decide)) i i0 i1).2
  · refine R.frame b (.inl (by rw [hscr]; exact hb1)) (fun c hc' i hi => ?_) fun r i hi => ?_
    · rw [List.mem_singleton.1 hc', hV]
      have : 0 ≤ i := by
        rw [List.mem_singleton.1 hc'] at hi
        exact hi.1.1
      have : harIr = 8192 := rfl
      have : harCell = 8320 := rfl
      omega
    · rw [hsh] at hi
      rw [hd, harMat_addr]
      obtain ⟨⟨r0, r1⟩, ⟨i0, i1⟩, -⟩ := hi
      omega

theorem har_args2W (m : Rnd) {W : HarWts} (hW : W.Ok8) {mem : Buf} (hm : mem.size = harEnd) (hx : ∀ a, a < harIr → InRange 16 (mem.get a))
    (hc : ∀ i, 0 ≤ i → i < 32 → InRange 16 (mem.get (harCell + i))) : (harArgs2W W).Lstm168 m harF2W .tanh (harVec harCell 64 32) mem := by
  obtain ⟨v, v0⟩ := har_tensorsW
  have vc := har_valid hm (v (harVec harCell 64 32) (by simp))
  have hn : (harArgs2W W).n = 32 := rfl
  have hk : (harArgs2W W).k = 32 := rfl
  have hs : (harArgs2W W).seq = 128 := rfl
  have hr : (harArgs2W W).rows = 128 := rfl
  have hM : ∀ b r n i, InShape (harMat b 8192 r n).shape i → ∃ p q, i = [p, q] ∧ (0 ≤ p ∧ p < r) ∧ 0 ≤ q ∧ q < n := by
    intro b r n i hi
    match i, hi with
    | [p, q], ⟨h1, h2, _⟩ => exact ⟨p, q, rfl, h1, h2⟩
  have hV : ∀ b cap i, InShape (harVec b cap 32).shape i → ∃ p, i = [p] ∧ 0 ≤ p ∧ p < 32 := by
    intro b cap i hi
    match i, hi with
    | [p], ⟨h1, _⟩ => exact ⟨p, rfl, h1⟩
  have hVa : ∀ (b cap i : Int), (harVec b cap 32).addr [i] = b + i := fun b cap i => by simp [Tensor.addr, harVec, Tensor.strides, offset]
  have kI : harIr = 8192 := rfl
  refine ⟨⟨har_valid hm (v (harMat harY 8192 128 32) (by simp)), har_valid hm (v (harVec harX 8192 32) (by simp)),
      har_valid hm (v (harMat harX 8192 128 32) (by simp)), ?_, har_valid0W hW.size.2.2.1 (v0 harGatesW (by simp)) (of_decide_eq_true rfl),
      har_valid0W hW.size.2.2.2.1 (v0 harGatesW (by simp)) (of_decide_eq_true rfl), har_valid0W hW.size.2.2.2.2.1 (v0 (harMatW 128 4 32) (by simp)) (of_decide_eq_true rfl),
      .inr rfl, rfl, rfl, ?_, ?_, ?_, of_decide_eq_true rfl, ?_, ?_, ?_, ?_, ?_, ?_, ?_⟩, ?_, ?_, ?_, fun _ _ => (hW.range _).2.2.1,
    fun _ _ => (hW.range _).2.2.2.1, fun _ _ => (hW.range _).2.2.2.2.1, (har_checksW W).2.2.2.1, ?_, ?_⟩
  · intro c h; rw [List.mem_singleton.1 h]; exact vc
  · intro c h; rw [List.mem_singleton.1 h]; rfl
  · rw [hr, hn]; exact of_decide_eq_true rfl
  · rw [hm]; exact ⟨by show (0 : Int) ≤ 8192; decide, by show (8192 : Int) * 2 + 256 ≤ 8352 * 2; decide⟩
  · rw [hs, hk, hn]; exact .inl (of_decide_eq_true rfl)
  · rw [hn]; exact .inl (of_decide_eq_true rfl)
  · rw [hr, hn]; exact .inl (of_decide_eq_true rfl)
  · rw [hs, hk, hr, hn]; exact .inr (of_decide_eq_true rfl)
  · intro c h; rw [List.mem_singleton.1 h, hn]; exact .inr (of_decide_eq_true rfl)
  · intro c h; rw [List.mem_singleton.1 h, hn, hr]; exact .inr (of_decide_eq_true rfl)
  · intro c h; rw [List.mem_singleton.1 h, hn, hs, hk]; exact .inl (of_decide_eq_true rfl)
  · intro i hi
    obtain ⟨p, q, rfl, hp, hq⟩ := hM _ _ _ i hi
    refine hx _ ?_
    rw [show (harArgs2W W).tin = harMat harY 8192 128 32 from rfl, harMat_addr, kI]
    have : harY = 4096 := rfl
    omega
  · intro i hi
    obtain ⟨p, rfl, hp⟩ := hV _ _ i hi
    refine hx _ ?_
    rw [show (harArgs2W W).tprev = harVec harX 8192 32 from rfl, hVa, kI]
    have : harX = 0 := rfl
    omega
  · intro i hi
    obtain ⟨p, rfl, hp⟩ := hV _ _ i hi
    rw [hVa]
    exact hc p hp.1 hp.2
  · exact ⟨by decide, by decide, by decide, .inr (of_decide_eq_true rfl)⟩
  · refine ⟨fun g o _ => ?_, ?_⟩
    · have h := (hW.range ((harArgs2W W).tb.addr [g, o])).2.2.2.2.1
      rw [hk, show (harArgs2W W).bias = W.b2 from rfl]
      generalize W.b2.get ((harArgs2W W).tb.addr [g, o]) = b at h ⊢
      have hb : |b| ≤ 128 := by
        unfold InRange lo Mli.Spec.hi at h
        exact abs_le.2 (by omega)
      have e : (harF2W.fi + harF2W.fwi - harF2W.fb).toNat = 13 := rfl
      rw [e]
      split <;> omega
    · rw [hn]
      split <;> decide

theorem har_args3W (m : Rnd) {W : HarWts} (hW : W.Ok8) {mem : Buf} (hm : mem.size = harEnd) (hx : ∀ a, 0 ≤ a → a < harIr → InRange 16 (mem.get a))
    (hc : ∀ i, 0 ≤ i → i < 32 → InRange 16 (mem.get (harCell + i))) :
    (harArgs3W W (harMat harX 8192 128 32)).Lstm168 m harF3W .tanh (harVec harCell 64 32) mem := by
  obtain ⟨v, v0⟩ := har_tensorsW
  have vc := har_valid hm (v (harVec harCell 64 32) (by simp))
  have hn : (harArgs3W W (harMat harX 8192 128 32)).n = 32 := rfl
  have hk : (harArgs3W W (harMat harX 8192 128 32)).k = 32 := rfl
  have hs : (harArgs3W W (harMat harX 8192 128 32)).seq = 128 := rfl
  have hr : (harArgs3W W (harMat harX 8192 128 32)).rows = 1 := rfl
  have hM : ∀ b r n i, InShape (harMat b 8192 r n).shape i → ∃ p q, i = [p, q] ∧ (0 ≤ p ∧ p < r) ∧ 0 ≤ q ∧ q < n := by
    intro b r n i hi
    match i, hi with
    | [p, q], ⟨h1, h2, _⟩ => exact ⟨p, q, rfl, h1, h2⟩
  have hV : ∀ b cap i, InShape (harVec b cap 32).shape i → ∃ p, i = [p] ∧ 0 ≤ p ∧ p < 32 := by
    intro b cap i hi
    match i, hi with
    | [p], ⟨h1, _⟩ => exact ⟨p, rfl, h1⟩
  have hVa : ∀ (b cap i : Int), (harVec b cap 32).addr [i] = b + i := fun b cap i => by simp [Tensor.addr, harVec, Tensor.strides, offset]
  have kI : harIr = 8192 := rfl
  have s := hW.size.2.2.2.2.2
  refine ⟨⟨har_valid hm (v (harMat harX 8192 128 32) (by simp)), har_valid hm (v (harVec harY 8192 32) (by simp)),
      har_valid hm (v (harMat harY 8192 1 32) (by simp)), ?_, har_valid0W s.1 (v0 harGatesW (by simp)) (of_decide_eq_true rfl),
      har_valid0W s.2.1 (v0 harGatesW (by simp)) (of_decide_eq_true rfl), har_valid0W s.2.2.1 (v0 (harMatW 128 4 32) (by simp)) (of_decide_eq_true rfl),
      .inr rfl, rfl, rfl, ?_, ?_, ?_, of_decide_eq_true rfl, ?_, ?_, ?_, ?_, ?_, ?_, ?_⟩, ?_, ?_, ?_, fun _ _ => (hW.range _).2.2.2.2.2.1,
    fun _ _ => (hW.range _).2.2.2.2.2.2.1, fun _ _ => (hW.range _).2.2.2.2.2.2.2.1, (har_checksW W).2.2.2.2.1, ?_, ?_⟩
  · intro c h; rw [List.mem_singleton.1 h]; exact vc
  · intro c h; rw [List.mem_singleton.1 h]; rfl
  · rw [hr, hn]; exact of_decide_eq_true rfl
  · rw [hm]; exact ⟨by show (0 : Int) ≤ 8192; decide, by show (8192 : Int) * 2 + 256 ≤ 8352 * 2; decide⟩
  · rw [hs, hk, hn]; exact .inl (of_decide_eq_true rfl)
  · rw [hn]; exact .inl (of_decide_eq_true rfl)
  · rw [hr, hn]; exact .inl (of_decide_eq_true rfl)
  · rw [hs, hk, hr, hn]; exact .inl (of_decide_eq_true rfl)
  · intro c h; rw [List.mem_singleton.1 h, hn]; exact .inr (of_decide_eq_true rfl)
  · intro c h; rw [List.mem_singleton.1 h, hn, hr]; exact .inr (of_decide_eq_true rfl)
  · intro c h; rw [List.mem_singleton.1 h, hn, hs, hk]; exact .inl (of_decide_eq_true rfl)
  · intro i hi
    obtain ⟨p, q, rfl, hp, hq⟩ := hM _ _ _ i hi
    rw [show (harArgs3W W (harMat harX 8192 128 32)).tin = harMat harX 8192 128 32 from rfl, harMat_addr]
    have : harX = 0 := rfl
    refine hx _ (by omega) ?_
    rw [kI]
    omega
  · intro i hi
    obtain ⟨p, rfl, hp⟩ := hV _ _ i hi
    rw [show (harArgs3W W (harMat harX 8192 128 32)).tprev = harVec harY 8192 32 from rfl, hVa]
    have : harY = 4096 := rfl
    refine hx _ (by omega) ?_
    rw [kI]
    omega
  · intro i hi
    obtain ⟨p, rfl, hp⟩ := hV _ _ i hi
    rw [hVa]
    exact hc p hp.1 hp.2
  · exact ⟨by decide, by decide, by decide, .inr (of_decide_eq_true rfl)⟩
  · refine ⟨fun g o _ => ?_, ?_⟩
    · have h := (hW.range ((harArgs3W W (harMat harX 8192 128 32)).tb.addr [g, o])).2.2.2.2.2.2.2.1
      rw [hk, show (harArgs3W W (harMat harX 8192 128 32)).bias = W.b3 from rfl]
      generalize W.b3.get ((harArgs3W W (harMat harX 8192 128 32)).tb.addr [g, o]) = b at h ⊢
      have hb : |b| ≤ 128 := by
        unfold InRange lo Mli.Spec.hi at h
        exact abs_le.2 (by omega)
      have e : (harF3W.fi + harF3W.fwi - harF3W.fb).toNat = 16 := rfl
      rw [e]
      split <;> omega
    · rw [hn]
      split <;> decide

/-! ## The network -/

/-- What layer 3 has to do, with `fr` fractional bits in its gates: from a cleared cell and output, 128 steps over the rows of its input. -/
def HarLayer3W (m : Rnd) (fr : Int) (W : HarWts) (layer3 : Tensor → Buf → Option (Status × Buf × Tensor)) : Prop :=
  ∀ mem : Buf, mem.size = harEnd → (∀ a, 0 ≤ a → a < harIr → InRange 16 (mem.get a)) → (∀ i, 0 ≤ i → i < 32 → mem.get (harY + i) = 0) →
    (∀ i, 0 ≤ i → i < 32 → mem.get (harCell + i) = 0) →
    ∃ mem' H C, layer3 (harMat harX 8192 128 32) mem = some (.ok, mem', harMat harY 8192 1 32) ∧ mem'.size = harEnd ∧
      LstmRun m harF3W fr (harCellW W.wi3 W.wo3 W.b3) (fun t i => mem.get (harX + 32 * t + i)) H C ∧
      ∀ i, 0 ≤ i → i < 32 → mem'.get (harY + i) = H 128 i

theorem har_layer3W (m : Rnd) {W : HarWts} (hW : W.Ok8) :
    HarLayer3W m 10 W fun tin => krnLstmFx m 32 harF3W .tanh (harArgs3W W tin) (harVec harCell 64 32) := by
  intro m6 s6 g6 g3 g5
  obtain ⟨m7, H3, C3, p1, p2, p3, p4, -, -⟩ := har_lstmW m (a := harArgs3W W (harMat harX 8192 128 32)) (x := harX) (y := harY) (rows := 1) s6
    (har_args3W m hW s6 g6 fun i h0 h1 => by rw [g5 i h0 h1]; decide) (by decide) ⟨rfl, rfl⟩ rfl rfl rfl rfl rfl rfl g3 g5
  rw [(har_wW W _).2] at p3
  refine ⟨m7, H3, C3, p1, p2, p3, fun i h0 h1 => ?_⟩
  have := p4 0 i (by omega) (by omega) h0 h1
  rw [Int.mul_zero, Int.add_zero] at this
  exact this

/-- The network around layer 3. -/
theorem har_net_withW (m : Rnd) (fr : Int) (W : HarWts) (hW : W.Ok8) (layer3 : Tensor → Buf → Option (Status × Buf × Tensor)) (hL : HarLayer3W m fr W layer3)
    (mem : Buf) (hs : mem.size = harEnd) (hr : ∀ a, InRange 16 (mem.get a)) :
    ∃ (mem' : Buf) (Y H2 C2 H3 C3 : Nat → Int → Int), harNetWithW m W layer3 mem = some (List.replicate 8 .ok, mem') ∧
      (∀ t : Nat, t < 128 → ∀ o, 0 ≤ o → o < 32 →
        DenseFx m 9 (fun i => mem.get (harX + 9 * t + i)) (fun i => W.w1.get (32 * i + o)) (W.b1.get o) 13 7 true (Y t o)) ∧
      LstmRun m harF2W 10 (harCellW W.wi2 W.wo2 W.b2) Y H2 C2 ∧
      LstmRun m harF3W fr (harCellW W.wi3 W.wo3 W.b3) (fun t => H2 (t + 1)) H3 C3 ∧
      ∀ o, 0 ≤ o → o < 6 → DenseFx m 32 (H3 128) (fun i => W.w4.get (6 * i + o)) (W.b4.get o) 13 10 false (mem'.get (harX + o)) := by
  obtain ⟨v, v0⟩ := har_tensorsW
  obtain ⟨k1, k2, k3, -, -, k6⟩ := har_checksW W
  have kX : harX = 0 := rfl
  have kY : harY = 4096 := rfl
  have kI : harIr = 8192 := rfl
  have kC : harCell = 8320 := rfl
  -- layer 1
  obtain ⟨m1, a1, a2, a3, -, a5⟩ := har_fc_loopW m hW 128 0 mem (by omega) hs hr
  have e1 : harFc1W m W mem = some (.ok, m1) := by
    unfold harFc1W
    rw [show createSubtensor (harMat harX 8192 128 9) { offs := [0, 0], sizes := [1, 9], rank := 1 } = some (.ok, harVec 0 8192 9) by decide +kernel,
      Option.bind_some, if_neg (not_not.2 rfl),
      show createSubtensor (harMat harY 8192 128 32) { offs := [0, 0], sizes := [1, 32], rank := 1 } = some (.ok, harVec 4096 8192 32) by decide +kernel,
      Option.bind_some]
    exact a1
  -- layer 2
  obtain ⟨m2, b1, b2, b3, b4⟩ := har_clear m (frac := 11) k1 (har_valid a2 (v _ (by simp))) fun i _ _ => a3 _
  have b5 : ∀ a, InRange 16 (m2.get a) := fun a => by
    by_cases h : a < harCell ∨ harCell + 32 ≤ a
    · rw [b4 a h]; exact a3 a
    · have := b3 (a - harCell) (by omega) (by omega)
      rw [show harCell + (a - harCell) = a by omega] at this
      rw [this]; decide
  obtain ⟨m3, c1, c2, c3, c4⟩ := har_clear m (frac := 15) k2 (har_valid (b2.trans a2) (v _ (by simp))) fun i _ _ => b5 _
  have c5 : ∀ a, InRange 16 (m3.get a) := fun a => by
    by_cases h : a < harX ∨ harX + 32 ≤ a
    · rw [c4 a h]; exact b5 a
    · have := c3 (a - harX) (by omega) (by omega)
      rw [show harX + (a - harX) = a by omega] at this
      rw [this]; decide
  have s3 : m3.size = harEnd := c2.trans (b2.trans a2)
  obtain ⟨m4, H2, C2, d1, d2, d3, d4, d5, d6⟩ := har_lstmW m (a := harArgs2W W) (x := harY) (y := harX) (rows := 128) s3
    (har_args2W m hW s3 (fun a _ => c5 a) fun i _ _ => c5 _) (by decide) ⟨rfl, rfl⟩ rfl rfl rfl rfl rfl rfl c3
    (fun i h0 h1 => by rw [c4 _ (by omega)]; exact b3 i h0 h1)
  rw [(har_wW W harGatesW).1] at d3
  -- layer 3
  have d7 : ∀ a, 0 ≤ a → a < harIr → InRange 16 (m4.get a) := by
    intro a h0 h1
    by_cases h : a < 4096
    · have := d4 (a / 32) (a % 32) (by omega) (by omega) (by omega) (by omega)
      rw [show harX + 32 * (a / 32) + a % 32 = a by omega] at this
      rw [this, show (harArgs2W W).all = true from rfl, if_pos rfl]
      exact (lstmFxStep_range (d3.2 (a / 32).toNat (by omega)) (a % 32) (by omega) (by omega)).1
    · rw [d6 a h1 (by omega)]
      exact c5 a
  obtain ⟨m5, f1, f2, f3, f4⟩ := har_clear m (frac := 12) k1 (har_valid d2 (v _ (by simp))) d5
  obtain ⟨m6, g1, g2, g3, g4⟩ := har_clear m (frac := 15) k3 (har_valid (f2.trans d2) (v _ (by simp)))
    fun i h0 h1 => by rw [f4 _ (by omega)]; exact d7 _ (by omega) (by omega)
  have s6 : m6.size = harEnd := g2.trans (f2.trans d2)
  have g5 : ∀ i, 0 ≤ i → i < 32 → m6.get (harCell + i) = 0 := fun i h0 h1 => by rw [g4 _ (by omega)]; exact f3 i h0 h1
  have g6 : ∀ a, 0 ≤ a → a < harIr → InRange 16 (m6.get a) := by
    intro a h0 h1
    by_cases h : a < harY ∨ harY + 32 ≤ a
    · rw [g4 a h, f4 a (by omega)]; exact d7 a h0 h1
    · have := g3 (a - harY) (by omega) (by omega)
      rw [show harY + (a - harY) = a by omega] at this
      rw [this]; decide
  obtain ⟨m7, H3, C3, p1, p2, p3, p6⟩ := hL m6 s6 g6 g3 g5
  have p5 : LstmRun m harF3W fr (harCellW W.wi3 W.wo3 W.b3) (fun t => H2 (t + 1)) H3 C3 := by
    refine ⟨p3.1, fun t ht => lstmFxStep_input (fun i h0 h1 => ?_) (p3.2 t ht)⟩
    have := d4 t i (by omega) (by omega) h0 h1
    rw [show (harArgs2W W).all = true from rfl, if_pos rfl, Int.toNat_natCast] at this
    beta_reduce
    rw [← this, g4 _ (by omega), f4 _ (by omega)]
  -- layer 4
  have sz := hW.size.2.2.2.2.2.2.2.2
  obtain ⟨m8, q1, -, q3, -⟩ := har_fcW m harQ4W (src := m7) (dst := m7) (wts := W.w4) (bias := W.b4) (n := 32) (k := 6)
    ⟨har_valid p2 (v (harMat harY 8192 1 32) (by simp)), har_valid0W sz.1 (v0 (harMatW 192 32 6) (by simp)) (by decide),
      har_valid0W sz.2 (v0 (harVecW 6) (by simp)) (by decide), har_valid p2 (v (harVec harX 8192 6) (by simp)), fun is his => by
        match is, his with
        | [r, i], ⟨⟨r0, r1⟩, ⟨i0, i1⟩, _⟩ =>
          have hr1 : r < 1 := r1
          rw [harMat_addr, show r = 0 by omega, Int.mul_zero, Int.add_zero, p6 i i0 i1]
          exact (lstmFxStep_range (p5.2 127 (by decide)) i i0 i1).1,
      fun _ _ => (hW.range _).2.2.2.2.2.2.2.2.1, fun _ _ => (hW.range _).2.2.2.2.2.2.2.2.2⟩ k6 rfl (by decide) (by decide) (by decide) (.inr rfl)
    (fun a => (hW.range a).2.2.2.2.2.2.2.2.1) (fun a => (hW.range a).2.2.2.2.2.2.2.2.2)
    (fun i h0 h1 => ⟨[0, i], ⟨⟨le_rfl, by decide⟩, ⟨h0, h1⟩, trivial⟩, by simp [flatIndex, prod, harMat, Tensor.shape], by
      rw [harMat_addr, Int.mul_zero, Int.add_zero]; rfl⟩)
  refine ⟨m8, fun t i => m3.get (harY + 32 * t + i), H2, C2, H3, C3, ?_, ?_, d3, p5, ?_⟩
  · unfold harNetWithW
    simp only [e1, b1, c1, d1, f1, g1, p1, q1, Option.bind_some]
    rfl
  · intro t ht o h0 h1
    have := a5 t (by omega) ht o h0 h1
    beta_reduce
    rw [c4 _ (by omega), b4 _ (by omega), kX, kY]
    simp only [Int.zero_add]
    exact this
  · intro o h0 h1
    obtain ⟨r, z1, z2⟩ := q3 o ⟨⟨h0, h1⟩, trivial⟩
    have ea : (harVec harX 8192 6).addr [o] = harX + o := by simp [Tensor.addr, harVec, Tensor.strides, offset]
    have eb : (harVecW 6).addr [o] = o := by simp [Tensor.addr, harVecW, Tensor.strides, offset]
    rw [ea] at z2
    rw [eb] at z1
    refine ⟨r, ?_, z2⟩
    rw [dotSum_congr (X := fun i => m7.get ((harMat harY 8192 1 32).base + i)) (W := fun i => W.w4.get ((harMatW 192 32 6).addr [i, o]))
      (X' := H3 128) (W' := fun i => W.w4.get (6 * i + o)) (fun i i0 i1 => ⟨p6 i i0 i1, by rw [harMatW_addr]⟩)] at z1
    exact z1

/-- C105, the human activity recognition example with 16-bit data and 8-bit weights and biases, with any weights, any
input (128 samples of 9 elements at the beginning of x_mem_buf) and any contents of its arrays: every call succeeds.  `Y t` is the output of the first layer for sample `t`; `H2`, `C2` and `H3`, `C3` are
the outputs and cells of 128 steps of the two LSTM layers, both from zeros, the second over all outputs of the first; the six results are the last layer
of the last output.  Partial: from the converted input on, with the LSTM of the library for layer 3. -/
theorem c105_har_8w16d_partial (m : Rnd) (W : HarWts) (hW : W.Ok8) (mem : Buf) (hs : mem.size = harEnd) (hr : ∀ a, InRange 16 (mem.get a)) :
    ∃ (mem' : Buf) (Y H2 C2 H3 C3 : Nat → Int → Int), harNetW m W mem = some (List.replicate 8 .ok, mem') ∧
      (∀ t : Nat, t < 128 → ∀ o, 0 ≤ o → o < 32 →
        DenseFx m 9 (fun i => mem.get (harX + 9 * t + i)) (fun i => W.w1.get (32 * i + o)) (W.b1.get o) 13 7 true (Y t o)) ∧
      LstmRun m { fi := 12, fh := 15, fwi := 7, fwo := 7, fb := 6, fc := 11, fo := 15 } 10
        (harCellW W.wi2 W.wo2 W.b2) Y H2 C2 ∧
      LstmRun m { fi := 15, fh := 15, fwi := 7, fwo := 7, fb := 6, fc := 12, fo := 15 } 10
        (harCellW W.wi3 W.wo3 W.b3) (fun t => H2 (t + 1)) H3 C3 ∧
      ∀ o, 0 ≤ o → o < 6 → DenseFx m 32 (H3 128) (fun i => W.w4.get (6 * i + o)) (W.b4.get o) 13 10 false (mem'.get (harX + o)) :=
  har_net_withW m 10 W hW _ (har_layer3W m hW) mem hs hr

/-- Weights and an input the theorem applies to. -/
example : ∃ (W : HarWts) (mem : Buf), W.Ok8 ∧ mem.size = harEnd ∧ (∀ a, InRange 16 (mem.get a)) ∧ W.wi2.get 5 ≠ W.wi2.get 6 ∧ mem.get 0 ≠ mem.get 1 := by
  have h : ∀ a : Int, InRange 16 (a % 101 - 50) := by
    intro a
    unfold InRange lo Mli.Spec.hi
    omega
  have h8 : ∀ a : Int, InRange 8 (a % 101 - 50) := by
    intro a
    unfold InRange lo Mli.Spec.hi
    omega
  exact ⟨⟨⟨288, fun a => a % 101 - 50⟩, ⟨32, fun a => a % 101 - 50⟩, ⟨4096, fun a => a % 101 - 50⟩, ⟨4096, fun a => a % 101 - 50⟩,
    ⟨128, fun a => a % 101 - 50⟩, ⟨4096, fun a => a % 101 - 50⟩, ⟨4096, fun a => a % 101 - 50⟩, ⟨128, fun a => a % 101 - 50⟩,
    ⟨192, fun a => a % 101 - 50⟩, ⟨6, fun a => a % 101 - 50⟩⟩, ⟨harEnd, fun a => a % 101 - 50⟩,
    ⟨⟨rfl, rfl, rfl, rfl, rfl, rfl, rfl, rfl, rfl, rfl⟩, fun a => ⟨h8 a, h8 a, h8 a, h8 a, h8 a, h8 a, h8 a, h8 a, h8 a, h8 a⟩⟩, rfl, h, by decide, by decide⟩

end Mli
