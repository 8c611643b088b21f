import Verif.Model.HarLstm
import Verif.Props.Har
import Verif.Props.Rnn
import Verif.Lemmas.CellFx
import Verif.Props.ConvertFloat

/-! # The human activity recognition example with its own LSTM layer (C105) -/

namespace Mli

open Spec

/-! ## Arguments of the calls -/

/-- The tensors of gate `g`. -/
def harP (g : Nat) : HarPart :=
  let w : Tensor := { dims := [⟨32, 32⟩, ⟨32, 1⟩], base := 1024 * g, cap := 8192 - 2048 * g, es := 2 }
  ⟨w, w, harVec (32 * g) (256 - 64 * g) 32⟩

theorem harPart_eq : ∀ g : Fin 4, harPart g = some (.ok, harP g) := by decide +kernel

theorem harRow_eq : ∀ t : Fin 128, createSubtensor (harMat harX 8192 128 32) { offs := [((t : Nat) : Int), 0], sizes := [1, 32], rank := 1 } =
    some (.ok, harVec (32 * ((t : Nat) : Int)) (8192 - 64 * ((t : Nat) : Int)) 32) := by decide +kernel

theorem harRow_ok : ∀ t : Fin 128, ∀ s ∈ [harVec (32 * ((t : Nat) : Int)) (8192 - 64 * ((t : Nat) : Int)) 32],
    (s.WellTyped ∧ s.footprint ≤ int32Max ∧ checkTensorPrivate s = some .ok) ∧ 0 ≤ s.base ∧ s.base * s.es + s.cap ≤ harEnd * s.es := by decide +kernel

theorem harGate_ok : ∀ g : Fin 4, ∀ s ∈ [harGate g],
    (s.WellTyped ∧ s.footprint ≤ int32Max ∧ checkTensorPrivate s = some .ok) ∧ 0 ≤ s.base ∧ s.base * s.es + s.cap ≤ harEnd * s.es := by decide +kernel

theorem harP_ok : ∀ g : Fin 4, (∀ s ∈ [(harP g).wi],
      (s.WellTyped ∧ s.footprint ≤ int32Max ∧ checkTensorPrivate s = some .ok) ∧ 0 ≤ s.base ∧ s.base * s.es + s.cap ≤ 4096 * s.es) ∧
    ∀ s ∈ [(harP g).b],
      (s.WellTyped ∧ s.footprint ≤ int32Max ∧ checkTensorPrivate s = some .ok) ∧ 0 ≤ s.base ∧ s.base * s.es + s.cap ≤ 128 * s.es := by decide +kernel

/-- An empty memory. -/
def harNone : Buf := ⟨0, fun _ => 0⟩

/-- Formats of the dense part. -/
def harQr : RnnFxQ := { fi := [15, 15], fw := [15, 15], fb := 14, fo := 12 }

theorem harDense_fin : ∀ t : Fin 128, ∀ g : Fin 4,
    chkRnnFx harQr [⟨harNone, harVec (32 * ((t : Nat) : Int)) (8192 - 64 * ((t : Nat) : Int)) 32, harNone, (harP g).wi, true⟩,
      ⟨harNone, harVec harY 8192 32, harNone, (harP g).wo, true⟩] (harP g).b (harGate g) = some .ok := by decide +kernel

theorem harDense_chk {t g : Nat} (ht : t < 128) (hg : g < 4) (a b c d : Buf) :
    chkRnnFx harQr [⟨a, harVec (32 * (t : Int)) (8192 - 64 * (t : Int)) 32, b, (harP g).wi, true⟩, ⟨c, harVec harY 8192 32, d, (harP g).wo, true⟩]
      (harP g).b (harGate g) = some .ok := harDense_fin ⟨t, ht⟩ ⟨g, hg⟩

/-! ## Rows of 32 elements -/

theorem harVec_addr (b cap i : Int) : (harVec b cap 32).addr [i] = b + i := by simp [Tensor.addr, harVec, Tensor.strides, offset]

theorem harVec_at {b cap : Int} {is : List Int} (h : InShape (harVec b cap 32).shape is) : ∃ i, is = [i] ∧ 0 ≤ i ∧ i < 32 := by
  match is, h with
  | [i], ⟨⟨h0, h1⟩, _⟩ => exact ⟨i, rfl, h0, h1⟩

theorem harVec_sep {b1 c1 b2 c2 : Int} (h : RowSep 32 b1 b2) : (harVec b1 c1 32).Separate (harVec b2 c2 32) := by
  intro is js h1 h2 e
  obtain ⟨i, rfl, i0, i1⟩ := harVec_at h1
  obtain ⟨j, rfl, j0, j1⟩ := harVec_at h2
  simp only [harVec_addr] at e
  unfold RowSep at h
  rw [show i = j by omega]

theorem harVec_puts {b cap : Int} {val : List Int → Int} {mem mem' : Buf} (h : (harVec b cap 32).Writes val mem mem') :
    mem.Puts b 32 (fun i => val [i]) mem' := by
  refine ⟨h.size, fun i h0 h1 => ?_, fun x hx => h.frame x fun is his => ?_⟩
  · rw [← harVec_addr b cap, h.elem [i] ⟨⟨h0, h1⟩, trivial⟩]
  · obtain ⟨i, rfl, h0, h1⟩ := harVec_at his
    rw [harVec_addr]
    omega

theorem harElt (m : Rnd) (op : EltOp) {f1 f2 fo b1 c1 b2 c2 bo co : Int} {mem : Buf}
    (hc : chkEltwise (harVec b1 c1 32) (harVec b2 c2 32) (harVec bo co 32) = some .ok) (v1 : (harVec b1 c1 32).Valid mem)
    (v2 : (harVec b2 c2 32).Valid mem) (vo : (harVec bo co 32).Valid mem) (s1 : RowSep 32 b1 bo) (s2 : RowSep 32 b2 bo)
    (r1 : ∀ i, 0 ≤ i → i < 32 → InRange 16 (mem.get (b1 + i))) (r2 : ∀ i, 0 ≤ i → i < 32 → InRange 16 (mem.get (b2 + i)))
    (hop : op = .mul ∧ f1 + f2 - fo ≤ 31 ∨ op = .add ∧ |f1 - f2| ≤ 15 ∧ max f1 f2 - fo ≤ 31) :
    ∃ mem' v, krnEltwiseFx m 16 op f1 f2 fo ⟨harVec b1 c1 32, 0⟩ ⟨harVec b2 c2 32, 0⟩ (harVec bo co 32) mem = some (.ok, mem') ∧ mem.Puts bo 32 v mem' ∧
      ∀ i, 0 ≤ i → i < 32 → EltExact m 16 op f1 f2 fo (mem.get (b1 + i)) (mem.get (b2 + i)) (v i) := by
  have hat : ∀ b c i, (⟨harVec b c 32, 0⟩ : Operand).at mem [i] = mem.get (b + i) := by
    intro b c i
    unfold Operand.at
    rw [if_neg (show (harVec b c 32).dims ≠ [] by simp [harVec]), if_neg (by rw [show prod (harVec b c 32).shape = 32 by simp [harVec, Tensor.shape, prod]]; decide),
      harVec_addr]
  obtain ⟨mem', val, k1, k2, k3⟩ := c31_kernel_partial m 16 (.inr rfl) op f1 f2 fo ⟨harVec b1 c1 32, 0⟩ ⟨harVec b2 c2 32, 0⟩ (harVec bo co 32) mem hc vo
    ⟨fun _ => v1, fun _ => harVec_sep s1⟩ ⟨fun _ => v2, fun _ => harVec_sep s2⟩
    (fun is his => by obtain ⟨i, rfl, h0, h1⟩ := harVec_at his; rw [hat]; exact r1 i h0 h1)
    (fun is his => by obtain ⟨i, rfl, h0, h1⟩ := harVec_at his; rw [hat]; exact r2 i h0 h1)
    (fun h => by
      rcases hop with ⟨rfl, -⟩ | ⟨-, a, b⟩
      · rcases h with h | h <;> cases h
      · exact ⟨by push_cast; omega, by push_cast; omega⟩)
    (fun h => by
      rcases hop with ⟨-, a⟩ | ⟨rfl, -⟩
      · exact .inr (by push_cast; omega)
      · cases h)
    (fun h => by rcases hop with ⟨rfl, -⟩ | ⟨rfl, -⟩ <;> rcases h with h | h <;> cases h)
  refine ⟨mem', fun i => val [i], k1, harVec_puts k2, fun i h0 h1 => ?_⟩
  have := k3 [i] ⟨⟨h0, h1⟩, trivial⟩
  rwa [hat, hat] at this

theorem harAct {m : Rnd} {l : Lut} {f : Int} {g : Int → Int} (h : ActOk 16 (krnActivationFx m l 16 f) g) {b1 c1 bo co : Int} {mem : Buf}
    (h1 : 64 ≤ c1 ∧ c1 ≤ 16384) (h2 : 64 ≤ co ∧ co ≤ 16384) (hc : chkBasicActivation (harVec b1 c1 32) (harVec bo co 32) = some .ok)
    (bi : 0 ≤ b1 ∧ b1 + 32 ≤ mem.size) (b2 : 0 ≤ bo ∧ bo + 32 ≤ mem.size) (hs : RowSep 32 b1 bo)
    (hr : ∀ i, 0 ≤ i → i < 32 → InRange 16 (mem.get (b1 + i))) :
    ∃ mem', krnActivationFx m l 16 f (harVec b1 c1 32) (harVec bo co 32) mem = some (.ok, mem') ∧ mem.Puts bo 32 (fun i => g (mem.get (b1 + i))) mem' := by
  have hR : ∀ b c : Int, 64 ≤ c ∧ c ≤ 16384 → RowT (harVec b c 32) 32 b := fun b c h =>
    ⟨.inl rfl, rfl, .inr rfl, by decide, by show (32 : Int) * 2 ≤ c; omega, by show c ≤ int32Max; unfold int32Max; omega⟩
  obtain ⟨mem', k1, k2⟩ := h.run (hR b1 c1 h1) (hR bo co h2) rfl bi b2 hs hr
  refine ⟨mem', ?_, k2⟩
  unfold runAct krnActivationFx at k1
  unfold krnActivationFx
  simp only [hc, Option.bind_eq_bind, Option.bind_some, ne_eq, not_true_eq_false, if_false] at k1 ⊢
  cases e : activationLut m l .fx (.fx 16) f (harVec b1 c1 32) (harVec bo co 32) mem with
  | none => rw [e] at k1; cases k1
  | some d =>
    rw [e] at k1
    have : d = mem' := Option.some.inj k1
    rw [this]
    rfl

/-! ## One step -/

theorem harDense_eq (m : Rnd) {W : HarWts} (hW : W.Ok) {t g : Nat} (ht : t < 128) (hg : g < 4) {mem : Buf} (hs : mem.size = harEnd)
    (hx : ∀ i, 0 ≤ i → i < 32 → InRange 16 (mem.get (32 * t + i))) (hh : ∀ i, 0 ≤ i → i < 32 → InRange 16 (mem.get (harY + i))) :
    ∃ mem' v, harDense m W (harP g) (harVec (32 * t) (8192 - 64 * t) 32) (harVec harY 8192 32) g mem = some (.ok, mem') ∧
      mem.Puts (harIr + 32 * g) 32 v mem' ∧ ∀ o, 0 ≤ o → o < 32 →
        GateFx m harF3 12 15 32 32 (harCellW W.wi3 W.wo3 W.b3) (fun i => mem.get (32 * t + i)) (fun i => mem.get (harY + i)) g o (v o) := by
  have s := hW.size.2.2.2.2.2
  have hP := harP_ok ⟨g, hg⟩
  have vx := har_valid hs (harRow_ok ⟨t, ht⟩ _ (List.mem_singleton_self _))
  have vh := har_valid hs (har_tensors.1 (harVec harY 8192 32) (by simp))
  have vg := har_valid hs (harGate_ok ⟨g, hg⟩ _ (List.mem_singleton_self _))
  have fits : ∀ {T : Tensor} {b : Buf} {n : Int}, b.size = n → (T.WellTyped ∧ T.footprint ≤ int32Max ∧ checkTensorPrivate T = some .ok) ∧ 0 ≤ T.base ∧
      T.base * T.es + T.cap ≤ n * T.es → T.Valid b := fun hn h => ⟨h.1.1, h.1.2.1, h.1.2.2, by unfold Tensor.Fits; rw [hn]; exact h.2⟩
  have vwi := fits s.1 (hP.1 _ (List.mem_singleton_self _))
  have vwo := fits s.2.1 (hP.1 _ (List.mem_singleton_self _))
  have vb := fits s.2.2.1 (hP.2 _ (List.mem_singleton_self _))
  have hwa : ∀ i o : Int, (harP g).wi.addr [i, o] = 1024 * g + 32 * i + o := fun i o => by
    simp [Tensor.addr, harP, Tensor.strides, offset]
    omega
  have hba : ∀ o : Int, (harP g).b.addr [o] = 32 * g + o := fun o => harVec_addr _ _ _
  obtain ⟨mem', val, X, e1, e2, e3, e4⟩ := c65_fx16_partial m harQr
    [⟨mem, harVec (32 * t) (8192 - 64 * t) 32, W.wi3, (harP g).wi, true⟩, ⟨mem, harVec harY 8192 32, W.wo3, (harP g).wo, true⟩] W.b3 mem (harP g).b (harGate g)
    (by
      intro a ha
      simp only [List.mem_cons, List.not_mem_nil, or_false] at ha
      rcases ha with rfl | rfl
      · refine ⟨vx, vwi, fun is his => ?_, fun _ _ => (hW.range _).2.2.2.2.2.1⟩
        obtain ⟨i, rfl, h0, h1⟩ := harVec_at his
        show InRange 16 (mem.get ((harVec _ _ 32).addr [i]))
        rw [harVec_addr]
        exact hx i h0 h1
      · refine ⟨vh, vwo, fun is his => ?_, fun _ _ => (hW.range _).2.2.2.2.2.2.1⟩
        obtain ⟨i, rfl, h0, h1⟩ := harVec_at his
        show InRange 16 (mem.get ((harVec _ _ 32).addr [i]))
        rw [harVec_addr]
        exact hh i h0 h1)
    vb vg (fun _ _ => (hW.range _).2.2.2.2.2.2.2.1) (harDense_chk ht hg _ _ _ _) (by decide)
    (by
      intro k hk
      have : k = 0 ∨ k = 1 := by simp at hk; omega
      rcases this with rfl | rfl <;> decide)
    (by
      intro a ha
      simp only [List.mem_cons, List.not_mem_nil, or_false] at ha
      rcases ha with rfl | rfl <;> simp [harVec, Tensor.shape, prod])
  refine ⟨mem', fun i => val [i], e2, harVec_puts e3, fun o h0 h1 => ?_⟩
  obtain ⟨r, hr, hk⟩ := e4 o ⟨⟨h0, h1⟩, trivial⟩
  have k0 := hk 0 (by simp)
  have k1 := hk 1 (by simp)
  have x0 := e1 0 (by simp)
  have x1 := e1 1 (by simp)
  have fx : ∀ {b c : Int} {Z : Int → Int}, (harVec b c 32).Flat mem Z → ∀ i, 0 ≤ i → i < 32 → Z i = mem.get (b + i) := by
    intro b c Z h i i0 i1
    have := h [i] ⟨⟨i0, i1⟩, trivial⟩
    rw [harVec_addr] at this
    simpa [flatIndex, prod, harVec, Tensor.shape] using this
  refine ⟨r 0, r 1, ?_, ?_, ?_⟩
  · have k0 : Scaled m (dotSum 32 (fun i => X 0 i - 0) (fun i => W.wi3.get ((harP g).wi.addr [i, o])) + W.b3.get ((harP g).b.addr [o]) * 2 ^ 16) 18 (r 0) := k0
    rw [hba, dotSum_congr (X' := fun i => mem.get (32 * t + i)) (W' := fun i => W.wi3.get (1024 * g + 32 * i + o))
      (fun i i0 i1 => ⟨by rw [Int.sub_zero]; exact fx x0 i i0 i1, by rw [hwa]⟩)] at k0
    exact k0
  · have k1 : Scaled m (dotSum 32 (fun i => X 1 i - 0) (fun i => W.wo3.get ((harP g).wi.addr [i, o])) + 0) 18 (r 1) := k1
    rw [Int.add_zero, dotSum_congr (X' := fun i => mem.get (harY + i)) (W' := fun i => W.wo3.get (1024 * g + 32 * i + o))
      (fun i i0 i1 => ⟨by rw [Int.sub_zero]; exact fx x1 i i0 i1, by rw [hwa]⟩)] at k1
    exact k1
  · beta_reduce
    rw [hr]
    simp [Finset.sum_range_succ]

theorem harCalls_cons {c : Buf → Option (Status × Buf)} {cs : List (Buf → Option (Status × Buf))} {mem mem' : Buf} (h : c mem = some (.ok, mem')) :
    harCalls (c :: cs) mem = harCalls cs mem' := by
  rw [harCalls, h, Option.bind_some, if_neg (not_not.2 rfl)]

theorem Spec.GateFx.inRange {m : Rnd} {f : CellFx} {fr fh k n : Int} {W : CellW} {X H : Int → Int} {g : Nat} {o v : Int}
    (h : GateFx m f fr fh k n W X H g o v) : InRange 16 v := by
  obtain ⟨_, _, _, _, rfl⟩ := h
  exact clamp_inRange _ _

theorem gateFx_congr {m : Rnd} {f : CellFx} {fr fh k n : Int} {W : CellW} {X H X' H' : Int → Int} {g : Nat} {o v : Int}
    (hX : ∀ i, 0 ≤ i → i < k → X i = X' i) (hH : ∀ i, 0 ≤ i → i < n → H i = H' i) (h : GateFx m f fr fh k n W X H g o v) :
    GateFx m f fr fh k n W X' H' g o v := by
  obtain ⟨r0, r1, e0, e1, e2⟩ := h
  refine ⟨r0, r1, ?_, ?_, e2⟩
  · rwa [dotSum_congr (X' := X) (W' := fun i => W.wi g i o) (fun i a b => ⟨(hX i a b).symm, rfl⟩)]
  · rwa [dotSum_congr (X' := H) (W' := fun i => W.wo g i o) (fun i a b => ⟨(hH i a b).symm, rfl⟩)]

/-- The calls of one step do a step of the LSTM cell; they change the output, the gates and the cell only. -/
theorem harStep_eq (m : Rnd) {W : HarWts} (hW : W.Ok) {t : Nat} (ht : t < 128) {mem : Buf} (hs : mem.size = harEnd)
    (hx : ∀ i, 0 ≤ i → i < 32 → InRange 16 (mem.get (32 * t + i))) (hh : ∀ i, 0 ≤ i → i < 32 → InRange 16 (mem.get (harY + i)))
    (hc : ∀ i, 0 ≤ i → i < 32 → InRange 16 (mem.get (harCell + i))) :
    ∃ mem', harStep m W (harP 0) (harP 1) (harP 2) (harP 3) (harVec (32 * t) (8192 - 64 * t) 32) (harVec harY 8192 32) (harVec harY 8192 32) mem =
        some (.ok, mem') ∧ mem'.size = harEnd ∧
      LstmFxStep m harF3 12 15 .tanh 32 32 (harCellW W.wi3 W.wo3 W.b3) (fun i => mem.get (32 * t + i)) (fun i => mem.get (harY + i))
        (fun i => mem.get (harCell + i)) (fun i => mem'.get (harY + i)) (fun i => mem'.get (harCell + i)) ∧
      ∀ a, a < harY → mem'.get a = mem.get a := by
  have kY : harY = 4096 := rfl
  have kI : harIr = 8192 := rfl
  have kC : harCell = 8320 := rfl
  have kE : harEnd = 8352 := rfl
  have vG : ∀ {d : Buf}, d.size = harEnd → ∀ g, g < 4 → (harGate g).Valid d := fun h g hg => har_valid h (harGate_ok ⟨g, hg⟩ _ (List.mem_singleton_self _))
  have vY : ∀ {d : Buf}, d.size = harEnd → (harVec harY 8192 32).Valid d := fun h => har_valid h (har_tensors.1 (harVec harY 8192 32) (by simp))
  have vC : ∀ {d : Buf}, d.size = harEnd → (harVec harCell 64 32).Valid d := fun h => har_valid h (har_tensors.1 (harVec harCell 64 32) (by simp))
  obtain ⟨sg, aS, nS⟩ := sigmFx m 12
  obtain ⟨th, aT, nT⟩ := tanhFx m 12
  -- dense part
  obtain ⟨m1, V0, c1, w1, g0⟩ := harDense_eq m hW ht (g := 0) (by decide) hs hx hh
  have s1 := w1.size.trans hs
  obtain ⟨m2, V1, c2, w2, g1⟩ := harDense_eq m hW ht (g := 1) (by decide) s1
    (fun i h0 h1 => by rw [w1.frame _ (by omega)]; exact hx i h0 h1) (fun i h0 h1 => by rw [w1.frame _ (by omega)]; exact hh i h0 h1)
  have s2 := w2.size.trans s1
  obtain ⟨m3, V2, c3, w3, g2⟩ := harDense_eq m hW ht (g := 2) (by decide) s2
    (fun i h0 h1 => by rw [w2.frame _ (by omega), w1.frame _ (by omega)]; exact hx i h0 h1)
    (fun i h0 h1 => by rw [w2.frame _ (by omega), w1.frame _ (by omega)]; exact hh i h0 h1)
  have s3 := w3.size.trans s2
  obtain ⟨m4, V3, c4, w4, g3⟩ := harDense_eq m hW ht (g := 3) (by decide) s3
    (fun i h0 h1 => by rw [w3.frame _ (by omega), w2.frame _ (by omega), w1.frame _ (by omega)]; exact hx i h0 h1)
    (fun i h0 h1 => by rw [w3.frame _ (by omega), w2.frame _ (by omega), w1.frame _ (by omega)]; exact hh i h0 h1)
  have s4 := w4.size.trans s3
  -- activations
  have r0 : ∀ i, 0 ≤ i → i < 32 → m4.get (harIr + 32 * (0 : Nat) + i) = V0 i := fun i h0 h1 => by
    rw [w4.frame _ (by omega), w3.frame _ (by omega), w2.frame _ (by omega), w1.hit i h0 h1]
  obtain ⟨m5, c5, w5⟩ := harAct aS (b1 := harIr + 32 * (0 : Nat)) (c1 := 64) (bo := harIr + 32 * (0 : Nat)) (co := 64) (mem := m4) (by decide) (by decide) (by decide +kernel) (by omega) (by omega) (.inl rfl)
    fun i h0 h1 => by rw [r0 i h0 h1]; exact (g0 i h0 h1).inRange
  have s5 := w5.size.trans s4
  have r1 : ∀ i, 0 ≤ i → i < 32 → m5.get (harIr + 32 * (1 : Nat) + i) = V1 i := fun i h0 h1 => by
    rw [w5.frame _ (by omega), w4.frame _ (by omega), w3.frame _ (by omega), w2.hit i h0 h1]
  obtain ⟨m6, c6, w6⟩ := harAct aT (b1 := harIr + 32 * (1 : Nat)) (c1 := 64) (bo := harIr + 32 * (1 : Nat)) (co := 64) (mem := m5) (by decide) (by decide) (by decide +kernel) (by omega) (by omega) (.inl rfl)
    fun i h0 h1 => by rw [r1 i h0 h1]; exact (g1 i h0 h1).inRange
  have s6 := w6.size.trans s5
  have r2 : ∀ i, 0 ≤ i → i < 32 → m6.get (harIr + 32 * (2 : Nat) + i) = V2 i := fun i h0 h1 => by
    rw [w6.frame _ (by omega), w5.frame _ (by omega), w4.frame _ (by omega), w3.hit i h0 h1]
  obtain ⟨m7, c7, w7⟩ := harAct aS (b1 := harIr + 32 * (2 : Nat)) (c1 := 64) (bo := harIr + 32 * (2 : Nat)) (co := 64) (mem := m6) (by decide) (by decide) (by decide +kernel) (by omega) (by omega) (.inl rfl)
    fun i h0 h1 => by rw [r2 i h0 h1]; exact (g2 i h0 h1).inRange
  have s7 := w7.size.trans s6
  have r3 : ∀ i, 0 ≤ i → i < 32 → m7.get (harIr + 32 * (3 : Nat) + i) = V3 i := fun i h0 h1 => by
    rw [w7.frame _ (by omega), w6.frame _ (by omega), w5.frame _ (by omega), w4.hit i h0 h1]
  obtain ⟨m8, c8, w8⟩ := harAct aS (b1 := harIr + 32 * (3 : Nat)) (c1 := 64) (bo := harIr + 32 * (3 : Nat)) (co := 64) (mem := m7) (by decide) (by decide) (by decide +kernel) (by omega) (by omega) (.inl rfl)
    fun i h0 h1 => by rw [r3 i h0 h1]; exact (g3 i h0 h1).inRange
  have s8 := w8.size.trans s7
  have a0 : ∀ i, 0 ≤ i → i < 32 → m8.get (harIr + 32 * (0 : Nat) + i) = sg (V0 i) := fun i h0 h1 => by
    rw [w8.frame _ (by omega), w7.frame _ (by omega), w6.frame _ (by omega), w5.hit i h0 h1, r0 i h0 h1]
  have a1 : ∀ i, 0 ≤ i → i < 32 → m8.get (harIr + 32 * (1 : Nat) + i) = th (V1 i) := fun i h0 h1 => by
    rw [w8.frame _ (by omega), w7.frame _ (by omega), w6.hit i h0 h1, r1 i h0 h1]
  have a2 : ∀ i, 0 ≤ i → i < 32 → m8.get (harIr + 32 * (2 : Nat) + i) = sg (V2 i) := fun i h0 h1 => by
    rw [w8.frame _ (by omega), w7.hit i h0 h1, r2 i h0 h1]
  have a3 : ∀ i, 0 ≤ i → i < 32 → m8.get (harIr + 32 * (3 : Nat) + i) = sg (V3 i) := fun i h0 h1 => by
    rw [w8.hit i h0 h1, r3 i h0 h1]
  have lo8 : ∀ a, a < harIr ∨ harIr + 128 ≤ a → m8.get a = mem.get a := fun a h => by
    rw [w8.frame _ (by omega), w7.frame _ (by omega), w6.frame _ (by omega), w5.frame _ (by omega), w4.frame _ (by omega), w3.frame _ (by omega),
      w2.frame _ (by omega), w1.frame _ (by omega)]
  have q0 : ∀ i, 0 ≤ i → i < 32 → InRange 16 (sg (V0 i)) := fun i h0 h1 => aS.range _ (g0 i h0 h1).inRange
  have q1 : ∀ i, 0 ≤ i → i < 32 → InRange 16 (th (V1 i)) := fun i h0 h1 => aT.range _ (g1 i h0 h1).inRange
  have q2 : ∀ i, 0 ≤ i → i < 32 → InRange 16 (sg (V2 i)) := fun i h0 h1 => aS.range _ (g2 i h0 h1).inRange
  have q3 : ∀ i, 0 ≤ i → i < 32 → InRange 16 (sg (V3 i)) := fun i h0 h1 => aS.range _ (g3 i h0 h1).inRange
  -- products and sum
  obtain ⟨m9, P, c9, w9, x9⟩ := harElt m .mul (f1 := 15) (f2 := 12) (fo := 12) (b1 := harIr + 32 * (2 : Nat)) (c1 := 64) (b2 := harCell) (c2 := 64)
    (bo := harCell) (co := 64) (mem := m8) (by decide +kernel) (vG s8 2 (by decide)) (vC s8) (vC s8) (.inr (.inl (by decide))) (.inl rfl)
    (fun i h0 h1 => by rw [a2 i h0 h1]; exact q2 i h0 h1) (fun i h0 h1 => by rw [lo8 _ (by omega)]; exact hc i h0 h1) (.inl ⟨rfl, by decide⟩)
  have s9 := w9.size.trans s8
  obtain ⟨m10, Q, c10, w10, x10⟩ := harElt m .mul (f1 := 15) (f2 := 15) (fo := 15) (b1 := harIr + 32 * (0 : Nat)) (c1 := 64) (b2 := harIr + 32 * (1 : Nat))
    (c2 := 64) (bo := harIr + 32 * (1 : Nat)) (co := 64) (mem := m9) (by decide +kernel) (vG s9 0 (by decide)) (vG s9 1 (by decide)) (vG s9 1 (by decide))
    (.inr (.inl (by decide))) (.inl rfl)
    (fun i h0 h1 => by rw [w9.frame _ (by omega), a0 i h0 h1]; exact q0 i h0 h1) (fun i h0 h1 => by rw [w9.frame _ (by omega), a1 i h0 h1]; exact q1 i h0 h1)
    (.inl ⟨rfl, by decide⟩)
  have s10 := w10.size.trans s9
  have rP : ∀ i, 0 ≤ i → i < 32 → m10.get (harCell + i) = P i := fun i h0 h1 => by rw [w10.frame _ (by omega), w9.hit i h0 h1]
  obtain ⟨m11, D, c11, w11, x11⟩ := harElt m .add (f1 := 12) (f2 := 15) (fo := 12) (b1 := harCell) (c1 := 64) (b2 := harIr + 32 * (1 : Nat)) (c2 := 64)
    (bo := harCell) (co := 64) (mem := m10) (by decide +kernel) (vC s10) (vG s10 1 (by decide)) (vC s10) (.inl rfl) (.inr (.inl (by decide)))
    (fun i h0 h1 => by
      rw [rP i h0 h1]
      obtain ⟨q, e, -⟩ := x9 i h0 h1
      rw [e]; exact clamp_inRange _ _)
    (fun i h0 h1 => by
      rw [w10.hit i h0 h1]
      obtain ⟨q, e, -⟩ := x10 i h0 h1
      rw [e]; exact clamp_inRange _ _) (.inr ⟨rfl, by decide, by decide⟩)
  have s11 := w11.size.trans s10
  have rD : ∀ i, 0 ≤ i → i < 32 → InRange 16 (D i) := fun i h0 h1 => by
    obtain ⟨q, e, -⟩ := x11 i h0 h1
    rw [e]; exact clamp_inRange _ _
  -- output
  obtain ⟨m12, c12, w12⟩ := harAct aT (b1 := harCell) (c1 := 64) (bo := harIr + 32 * (1 : Nat)) (co := 64) (mem := m11) (by decide) (by decide)
    (by decide +kernel) (by omega) (by omega) (.inr (.inr (by decide))) fun i h0 h1 => by rw [w11.hit i h0 h1]; exact rD i h0 h1
  have s12 := w12.size.trans s11
  have r12 : ∀ i, 0 ≤ i → i < 32 → m12.get (harIr + 32 * (1 : Nat) + i) = th (D i) := fun i h0 h1 => by rw [w12.hit i h0 h1, w11.hit i h0 h1]
  have r13 : ∀ i, 0 ≤ i → i < 32 → m12.get (harIr + 32 * (3 : Nat) + i) = sg (V3 i) := fun i h0 h1 => by
    rw [w12.frame _ (by omega), w11.frame _ (by omega), w10.frame _ (by omega), w9.frame _ (by omega), a3 i h0 h1]
  obtain ⟨m13, E, c13, w13, x13⟩ := harElt m .mul (f1 := 15) (f2 := 15) (fo := 15) (b1 := harIr + 32 * (1 : Nat)) (c1 := 64) (b2 := harIr + 32 * (3 : Nat))
    (c2 := 64) (bo := harY) (co := 8192) (mem := m12) (by decide +kernel) (vG s12 1 (by decide)) (vG s12 3 (by decide)) (vY s12)
    (.inr (.inr (by decide))) (.inr (.inr (by decide)))
    (fun i h0 h1 => by rw [r12 i h0 h1]; exact aT.range _ (rD i h0 h1)) (fun i h0 h1 => by rw [r13 i h0 h1]; exact q3 i h0 h1)
    (.inl ⟨rfl, by decide⟩)
  refine ⟨m13, ?_, w13.size.trans s12, ⟨fun g => if g = 0 then V0 else if g = 1 then V1 else if g = 2 then V2 else V3, fun o h0 h1 => ⟨?_, ?_⟩⟩, ?_⟩
  · unfold harStep harGate
    rw [harCalls_cons c1, harCalls_cons c2, harCalls_cons c3, harCalls_cons c4, harCalls_cons c5, harCalls_cons c6, harCalls_cons c7, harCalls_cons c8,
      harCalls_cons c9, harCalls_cons c10, harCalls_cons c11, harCalls_cons c12, harCalls_cons c13]
    rfl
  · intro g hg
    have : g = 0 ∨ g = 1 ∨ g = 2 ∨ g = 3 := by omega
    rcases this with rfl | rfl | rfl | rfl
    · exact g0 o h0 h1
    · exact gateFx_congr (fun i i0 i1 => w1.frame _ (by omega)) (fun i i0 i1 => w1.frame _ (by omega)) (g1 o h0 h1)
    · exact gateFx_congr (fun i i0 i1 => by rw [w2.frame _ (by omega), w1.frame _ (by omega)])
        (fun i i0 i1 => by rw [w2.frame _ (by omega), w1.frame _ (by omega)]) (g2 o h0 h1)
    · exact gateFx_congr (fun i i0 i1 => by rw [w3.frame _ (by omega), w2.frame _ (by omega), w1.frame _ (by omega)])
        (fun i i0 i1 => by rw [w3.frame _ (by omega), w2.frame _ (by omega), w1.frame _ (by omega)]) (g3 o h0 h1)
  · refine ⟨sg (V0 o), th (V1 o), sg (V2 o), sg (V3 o), P o, Q o, th (D o), nS _ (g0 o h0 h1).inRange, nT _ (g1 o h0 h1).inRange, nS _ (g2 o h0 h1).inRange,
      nS _ (g3 o h0 h1).inRange, ?_, ?_, ?_, ?_, ?_⟩
    · obtain ⟨q, e, h⟩ := x9 o h0 h1
      rw [a2 o h0 h1, lo8 _ (by omega)] at h
      refine ⟨q, ?_, e⟩
      rw [mul_comm]
      exact h
    · obtain ⟨q, e, h⟩ := x10 o h0 h1
      rw [w9.frame _ (by omega), w9.frame _ (by omega), a0 o h0 h1, a1 o h0 h1] at h
      refine ⟨q, ?_, e⟩
      rw [mul_comm]
      exact h
    · obtain ⟨q, e, h⟩ := x11 o h0 h1
      rw [rP o h0 h1, w10.hit o h0 h1] at h
      refine ⟨q, h, ?_⟩
      beta_reduce
      rw [w13.frame _ (by omega), w12.frame _ (by omega), w11.hit o h0 h1, e]
    · have : m13.get (harCell + o) = D o := by rw [w13.frame _ (by omega), w12.frame _ (by omega), w11.hit o h0 h1]
      beta_reduce
      rw [this]
      exact nT _ (rD o h0 h1)
    · obtain ⟨q, e, h⟩ := x13 o h0 h1
      rw [r12 o h0 h1, r13 o h0 h1] at h
      refine ⟨q, h, ?_⟩
      beta_reduce
      rw [w13.hit o h0 h1, e]
  · intro a ha
    rw [w13.frame _ (by omega), w12.frame _ (by omega), w11.frame _ (by omega), w10.frame _ (by omega), w9.frame _ (by omega), lo8 _ (by omega)]

/-! ## The layer -/

/-- The loop over the samples from sample `t` on. -/
theorem harUserLoop_eq (m : Rnd) {W : HarWts} (hW : W.Ok) : ∀ (k t : Nat) (mem : Buf), t + k = 128 → mem.size = harEnd →
    (∀ a, 0 ≤ a → a < harY → InRange 16 (mem.get a)) → (∀ i, 0 ≤ i → i < 32 → InRange 16 (mem.get (harY + i))) →
    (∀ i, 0 ≤ i → i < 32 → InRange 16 (mem.get (harCell + i))) →
    ∃ (mem' : Buf) (H C : Nat → Int → Int),
      harUserLoop m W (harP 0) (harP 1) (harP 2) (harP 3) (harMat harX 8192 128 32) (harVec harY 8192 32) k t (harVec harY 8192 32) mem = some (.ok, mem') ∧
      mem'.size = harEnd ∧ H t = (fun i => mem.get (harY + i)) ∧ C t = (fun i => mem.get (harCell + i)) ∧
      (∀ s, t ≤ s → s < 128 → LstmFxStep m harF3 12 15 .tanh 32 32 (harCellW W.wi3 W.wo3 W.b3) (fun i => mem.get (32 * s + i)) (H s) (C s) (H (s + 1)) (C (s + 1))) ∧
      ∀ i, mem'.get (harY + i) = H 128 i
  | 0, t, mem, ht, hs, hx, hh, hc =>
    ⟨mem, fun _ i => mem.get (harY + i), fun _ i => mem.get (harCell + i), rfl, hs, rfl, rfl, fun s h0 h1 => by omega, fun _ => rfl⟩
  | k + 1, t, mem, ht, hs, hx, hh, hc => by
    have kY : harY = 4096 := rfl
    have ht' : t < 128 := by omega
    obtain ⟨m1, e1, e2, e3, e4⟩ := harStep_eq m hW ht' hs (fun i h0 h1 => hx _ (by omega) (by omega)) hh hc
    obtain ⟨m2, H, C, f1, f2, f3, f4, f5, f6⟩ := harUserLoop_eq m hW k (t + 1) m1 (by omega) e2 (fun a h0 h1 => by rw [e4 a h1]; exact hx a h0 h1)
      (fun i h0 h1 => (lstmFxStep_range e3 i h0 h1).1) (fun i h0 h1 => (lstmFxStep_range e3 i h0 h1).2)
    refine ⟨m2, fun s => if s = t then fun i => mem.get (harY + i) else H s, fun s => if s = t then fun i => mem.get (harCell + i) else C s, ?_, f2, by simp, by simp, ?_, ?_⟩
    · rw [harUserLoop, harRow_eq ⟨t, ht'⟩, Option.bind_some, if_neg (not_not.2 rfl), e1, Option.bind_some, if_neg (not_not.2 rfl)]
      exact f1
    · intro s h0 h1
      beta_reduce
      rw [if_neg (show s + 1 ≠ t by omega), if_neg (show s + 1 ≠ t by omega)]
      by_cases e : s = t
      · rw [if_pos e, if_pos e, e, f3, f4]
        exact e3
      · rw [if_neg e, if_neg e]
        exact lstmFxStep_input (fun i i0 i1 => e4 _ (by omega)) (f5 s (by omega) h1)
    · intro i
      beta_reduce
      rw [if_neg (by omega)]
      exact f6 i

theorem har_user (m : Rnd) {W : HarWts} (hW : W.Ok) : HarLayer3 m 12 W (harUserLstm m W) := by
  intro mem hs hx hh hc
  have kY : harY = 4096 := rfl
  have kI : harIr = 8192 := rfl
  obtain ⟨m1, H, C, e1, e2, e3, e4, e5, e6⟩ := harUserLoop_eq m hW 128 0 mem (by omega) hs (fun a h0 h1 => hx a h0 (by omega))
    (fun i h0 h1 => by rw [hh i h0 h1]; decide) (fun i h0 h1 => by rw [hc i h0 h1]; decide)
  refine ⟨m1, H, C, ?_, e2, ⟨fun i h0 h1 => ⟨by rw [e3]; exact hh i h0 h1, by rw [e4]; exact hc i h0 h1⟩, fun t ht => ?_⟩, fun i _ _ => e6 i⟩
  · have p0 : harPart 0 = some (.ok, harP 0) := harPart_eq 0
    have p1 : harPart 1 = some (.ok, harP 1) := harPart_eq 1
    have p2 : harPart 2 = some (.ok, harP 2) := harPart_eq 2
    have p3 : harPart 3 = some (.ok, harP 3) := harPart_eq 3
    unfold harUserLstm
    rw [p0, Option.bind_some, if_neg (not_not.2 rfl), p1, Option.bind_some, if_neg (not_not.2 rfl), p2, Option.bind_some, if_neg (not_not.2 rfl), p3,
      Option.bind_some, if_neg (not_not.2 rfl),
      show createSubtensor (harMat harY 8192 1 32) { offs := [0, 0], sizes := [1, 32], rank := 1 } = some (.ok, harVec harY 8192 32) by decide +kernel,
      Option.bind_some, if_neg (not_not.2 rfl), e1]
    rfl
  · refine lstmFxStep_input (fun i _ _ => ?_) (e5 t (by omega) ht)
    show _ = mem.get (0 + 32 * t + i)
    rw [Int.zero_add]

/-- C105, the example as it is configured by default: layer 3 is the LSTM of the application, made of the kernels of the library.  As
`c105_har_partial`, with 12 instead of 10 fractional bits in the gates of layer 3.  Partial: from the converted input on; this configuration of the example
only. -/
theorem c105_har_user_partial (m : Rnd) (W : HarWts) (hW : W.Ok) (mem : Buf) (hs : mem.size = harEnd) (hr : ∀ a, InRange 16 (mem.get a)) :
    ∃ (mem' : Buf) (Y H2 C2 H3 C3 : Nat → Int → Int), harNetUser m W mem = some (List.replicate 8 .ok, mem') ∧
      (∀ t : Nat, t < 128 → ∀ o, 0 ≤ o → o < 32 →
        DenseFx m 9 (fun i => mem.get (harX + 9 * t + i)) (fun i => W.w1.get (32 * i + o)) (W.b1.get o) 13 15 true (Y t o)) ∧
      LstmRun m { fi := 12, fh := 15, fwi := 15, fwo := 15, fb := 14, fc := 11, fo := 15 } 10
        (harCellW W.wi2 W.wo2 W.b2) Y H2 C2 ∧
      LstmRun m { fi := 15, fh := 15, fwi := 15, fwo := 15, fb := 14, fc := 12, fo := 15 } 12
        (harCellW W.wi3 W.wo3 W.b3) (fun t => H2 (t + 1)) H3 C3 ∧
      ∀ o, 0 ≤ o → o < 6 → DenseFx m 32 (H3 128) (fun i => W.w4.get (6 * i + o)) (W.b4.get o) 13 18 false (mem'.get (harX + o)) :=
  har_net_with m 12 W hW _ (har_user m hW) mem hs hr

/-! ## With the conversion of the input -/

theorem har_convert (m : Rnd) {inp mem : Buf} (hi : inp.size = 2048) (hs : mem.size = harEnd) (hr : ∀ a, InRange 16 (mem.get a)) {v : Nat → Int → ℚ}
    (hv : ∀ t : Nat, t < 128 → ∀ i, 0 ≤ i → i < 9 → f32val (inp.get (9 * t + i)) = some (v t i) ∧ |v t i| ≤ 2 ^ 17) :
    ∃ mem', hlpConvertAny m inp (.f harFloat) (.q harInput) mem = some (.ok, mem') ∧ mem'.size = harEnd ∧ (∀ a, InRange 16 (mem'.get a)) ∧
      ∀ t : Nat, t < 128 → ∀ i, 0 ≤ i → i < 9 → |(mem'.get (harX + 9 * t + i) : ℚ) - limitQ (-32768) 32767 (v t i * 2 ^ 13)| ≤ 13 / 25 := by
  have vf : harFloat.Valid inp := ⟨of_decide_eq_true rfl, of_decide_eq_true rfl, of_decide_eq_true rfl, by
    unfold Tensor.Fits; rw [hi]; exact of_decide_eq_true rfl⟩
  have vd : harInput.t.Valid mem := ⟨of_decide_eq_true rfl, of_decide_eq_true rfl, of_decide_eq_true rfl, by
    unfold Tensor.Fits; rw [hs]; exact of_decide_eq_true rfl⟩
  have hst : ∀ is, harInput.stepOf is = 1 / 2 ^ 13 := fun is => by
    show scaleVal 1 13 = _
    unfold scaleVal
    norm_num
  have hat : ∀ is, InShape harFloat.shape is → ∃ (t : Nat) (i : Int), is = [(t : Int), i] ∧ t < 128 ∧ 0 ≤ i ∧ i < 9 := by
    intro is his
    match is, his with
    | [a, i], ⟨⟨a0, a1⟩, ⟨i0, i1⟩, _⟩ =>
      have a1 : a < 128 := a1
      exact ⟨a.toNat, i, by rw [Int.toNat_of_nonneg a0], by omega, i0, i1⟩
  have hfa : ∀ t i : Int, harFloat.addr [t, i] = 9 * t + i := fun t i => by
    simp [Tensor.addr, harFloat, Tensor.strides, offset]
    omega
  have hda : ∀ t i : Int, harInput.t.addr [t, i] = harX + 9 * t + i := fun t i => harMat_addr _ _ _ _ _ _
  obtain ⟨mem', val, k1, k2, k3⟩ := c92_accuracy_partial m inp mem harFloat harInput vf vd ⟨⟨by decide, by decide⟩, by decide⟩ (of_decide_eq_true rfl)
    (fun is => v (is.getD 0 0).toNat (is.getD 1 0))
    (fun is his => by
      obtain ⟨t, i, rfl, h0, h1, h2⟩ := hat is his
      rw [hfa]
      exact (hv t h0 i h1 h2).1)
    (fun is his => by
      obtain ⟨t, i, rfl, h0, h1, h2⟩ := hat is his
      have := (hv t h0 i h1 h2).2
      rw [hst]
      show |v (Int.toNat (t : Int)) i / (1 / 2 ^ 13)| ≤ _
      rw [Int.toNat_natCast, div_div_eq_mul_div, div_one, abs_mul, abs_of_pos (show (0 : ℚ) < 2 ^ 13 by norm_num)]
      nlinarith)
  have key : ∀ t : Nat, t < 128 → ∀ i, 0 ≤ i → i < 9 →
      |(mem'.get (harX + 9 * t + i) : ℚ) - limitQ (-32768) 32767 (v t i * 2 ^ 13)| ≤ 13 / 25 ∧ InRange 16 (mem'.get (harX + 9 * t + i)) := by
    intro t h0 i h1 h2
    have hin : InShape harInput.t.shape [(t : Int), i] := ⟨⟨by omega, by show (t : Int) < 128; omega⟩, ⟨h1, h2⟩, trivial⟩
    have := k3 _ hin
    rw [← hda, k2.elem _ hin]
    simp only [hst] at this
    have e1 : (harInput.zpOf [(t : Int), i] : ℚ) = 0 := by
      show ((0 : Int) : ℚ) = 0
      norm_num
    have e2 : ((lo harInput.ty.width : Int) : ℚ) = -32768 := by
      show ((-32768 : Int) : ℚ) = _
      norm_num
    have e3 : ((Mli.Spec.hi harInput.ty.width : Int) : ℚ) = 32767 := by
      show ((32767 : Int) : ℚ) = _
      norm_num
    have e4 : v (([(t : Int), i] : List Int).getD 0 0).toNat (([(t : Int), i] : List Int).getD 1 0) / (1 / 2 ^ 13) = v t i * 2 ^ 13 := by
      rw [div_div_eq_mul_div, div_one]
      rfl
    rw [e1, e2, e3, e4, zero_add, sub_zero] at this
    have l1 : -32768 ≤ limitQ (-32768) 32767 (v t i * 2 ^ 13) := le_max_left _ _
    have l2 : limitQ (-32768) 32767 (v t i * 2 ^ 13) ≤ 32767 := max_le (by norm_num) (min_le_left _ _)
    generalize limitQ (-32768) 32767 (v t i * 2 ^ 13) = L at *
    have l3 : |L| ≤ 32768 := abs_le.2 ⟨l1, by linarith⟩
    have l4 : |(val [(t : Int), i] : ℚ) - L| ≤ 13 / 25 := this.trans (by norm_num; linarith)
    obtain ⟨l5, l6⟩ := abs_le.1 l4
    have l7 : (val [(t : Int), i] : ℚ) < 32768 := by linarith
    have l8 : (-32769 : ℚ) < (val [(t : Int), i] : ℚ) := by linarith
    have l7 : val [(t : Int), i] < 32768 := by exact_mod_cast l7
    have l8 : -32769 < val [(t : Int), i] := by exact_mod_cast l8
    refine ⟨l4, ?_⟩
    unfold InRange lo Mli.Spec.hi
    omega
  refine ⟨mem', k1, k2.size.trans hs, fun a => ?_, fun t h0 i h1 h2 => (key t h0 i h1 h2).1⟩
  have kX : harX = 0 := rfl
  by_cases h : 0 ≤ a ∧ a < 1152
  · have := (key (a / 9).toNat (by omega) (a % 9) (by omega) (by omega)).2
    rwa [show harX + 9 * ((a / 9).toNat : Int) + a % 9 = a by omega] at this
  · rw [k2.frame a fun is his => ?_]
    · exact hr a
    · obtain ⟨t, i, rfl, h0, h1, h2⟩ := hat is his
      rw [hda]
      omega

/-- C105, the example as it is configured by default, with any weights, any contents of its arrays and any input of 128 samples of 9 floating-point numbers
of at most `2^17`: every call succeeds.  `X t` is sample `t` with 13 fractional bits, limited to 16 bits, with an error of at most 0.52 units; the rest is
as in `c105_har_user_partial`.  Partial: this configuration of the example only, and inputs that are not too large (`c92_overflow_violated`). -/
theorem c105_har_float_partial (m : Rnd) (W : HarWts) (hW : W.Ok) (inp mem : Buf) (hi : inp.size = 2048) (hs : mem.size = harEnd)
    (hr : ∀ a, InRange 16 (mem.get a)) (v : Nat → Int → ℚ)
    (hv : ∀ t : Nat, t < 128 → ∀ i, 0 ≤ i → i < 9 → f32val (inp.get (9 * t + i)) = some (v t i) ∧ |v t i| ≤ 2 ^ 17) :
    ∃ (mem' : Buf) (X Y H2 C2 H3 C3 : Nat → Int → Int), harApp m W inp mem = some (List.replicate 9 .ok, mem') ∧
      (∀ t : Nat, t < 128 → ∀ i, 0 ≤ i → i < 9 → |(X t i : ℚ) - limitQ (-32768) 32767 (v t i * 2 ^ 13)| ≤ 13 / 25) ∧
      (∀ t : Nat, t < 128 → ∀ o, 0 ≤ o → o < 32 → DenseFx m 9 (X t) (fun i => W.w1.get (32 * i + o)) (W.b1.get o) 13 15 true (Y t o)) ∧
      LstmRun m { fi := 12, fh := 15, fwi := 15, fwo := 15, fb := 14, fc := 11, fo := 15 } 10
        (harCellW W.wi2 W.wo2 W.b2) Y H2 C2 ∧
      LstmRun m { fi := 15, fh := 15, fwi := 15, fwo := 15, fb := 14, fc := 12, fo := 15 } 12
        (harCellW W.wi3 W.wo3 W.b3) (fun t => H2 (t + 1)) H3 C3 ∧
      ∀ o, 0 ≤ o → o < 6 → DenseFx m 32 (H3 128) (fun i => W.w4.get (6 * i + o)) (W.b4.get o) 13 18 false (mem'.get (harX + o)) := by
  obtain ⟨m1, a1, a2, a3, a4⟩ := har_convert m hi hs hr hv
  obtain ⟨m2, Y, H2, C2, H3, C3, b1, b2, b3, b4, b5⟩ := c105_har_user_partial m W hW m1 a2 a3
  refine ⟨m2, fun t i => m1.get (harX + 9 * t + i), Y, H2, C2, H3, C3, ?_, a4, b2, b3, b4, b5⟩
  unfold harApp
  rw [a1, Option.bind_some, b1]
  rfl

/-- Floating-point inputs the theorem applies to: one and a half everywhere. -/
example : ∃ (inp : Buf) (v : Nat → Int → ℚ), inp.size = 2048 ∧ (∀ t : Nat, t < 128 → ∀ i, 0 ≤ i → i < 9 → f32val (inp.get (9 * t + i)) = some (v t i) ∧
    |v t i| ≤ 2 ^ 17) ∧ v 3 4 = 3 / 2 :=
  ⟨⟨2048, fun _ => 0x3fc00000⟩, fun _ _ => 3 / 2, rfl, fun _ _ _ _ _ => ⟨by show f32val 0x3fc00000 = some (3 / 2); decide +kernel, by norm_num [abs_of_pos]⟩, rfl⟩

/-- A step of layer 3 the theorems about it apply to. -/
example : ∃ mem : Buf, mem.size = harEnd ∧ (∀ a, InRange 16 (mem.get a)) ∧ mem.get (32 * 5 + 1) ≠ mem.get (32 * 5 + 2) ∧ mem.get harCell ≠ 0 :=
  ⟨⟨harEnd, fun a => a % 101 - 50⟩, rfl, fun a => by unfold InRange lo Mli.Spec.hi; constructor <;> dsimp only <;> omega, by decide, by decide⟩

end Mli
