import Verif.Lemmas.Leaky
import Verif.Props.Eltwise
import Verif.Props.ConvMore

/-! # C58: leaky and parametric ReLU -/

namespace Mli

open Spec

/-- The operand is a scalar (rank 0), or a tensor of one element, with value `a`. -/
def Operand.IsScalar (o : Operand) (smem : Buf) (a : Int) : Prop :=
  (o.t.dims = [] ∧ o.imm = a) ∨ (o.t.dims ≠ [] ∧ o.t.Valid smem ∧ (∀ n ∈ o.t.shape, n = 1) ∧ smem.get (o.t.addr (List.replicate o.t.dims.length 0)) = a)

theorem offset_zeros : ∀ (n : Nat) (ss : List Int), offset ss (List.replicate n 0) = 0 := by
  intro n
  induction n with
  | zero => intro ss; cases ss <;> simp [offset]
  | succ n ih =>
    intro ss
    cases ss with
    | nil => simp [offset, List.replicate_succ]
    | cons s ss => simp [offset, List.replicate_succ, ih]

theorem inShape_zeros : ∀ {ns : List Int}, (∀ n ∈ ns, 1 ≤ n) → InShape ns (List.replicate ns.length 0) := by
  intro ns
  induction ns with
  | nil => intro _; simp [InShape]
  | cons n ns ih =>
    intro h
    simp only [List.length_cons, List.replicate_succ, InShape]
    exact ⟨⟨le_refl _, by have := h n (by simp); omega⟩, ih fun m hm => h m (by simp [hm])⟩

theorem prod_ones : ∀ {ns : List Int}, (∀ n ∈ ns, n = 1) → prod ns = 1 := by
  intro ns
  induction ns with
  | nil => intro _; rfl
  | cons n ns ih => intro h; unfold prod; rw [ih fun m hm => h m (by simp [hm]), h n (by simp)]; rfl

theorem Operand.IsScalar.ok {o : Operand} {smem : Buf} {a : Int} (h : o.IsScalar smem a) :
    chkScalarTensor o.t = some .ok ∧ o.val smem = some a := by
  rcases h with ⟨hd, rfl⟩ | ⟨hd, hv, h1, rfl⟩
  · exact ⟨by simp [chkScalarTensor, hd], by simp [Operand.val, hd]⟩
  · have hc := countElemNum_accepted hv.accepted
    rw [prod_ones h1] at hc
    have hi : InShape o.t.shape (List.replicate o.t.dims.length 0) := by
      have := inShape_zeros (ns := o.t.shape) (fun n hn => by rw [h1 n hn])
      simpa [Tensor.shape] using this
    have hr := hv.rd (b' := smem) hi rfl
    have ea : o.t.addr (List.replicate o.t.dims.length 0) = o.t.base := by unfold Tensor.addr; rw [offset_zeros]; omega
    rw [ea] at hr ⊢
    refine ⟨?_, ?_⟩
    · simp [chkScalarTensor, hd, hv.accepted, hc]
    · simp [Operand.val, hd, hr]

theorem leaky_run {tin tout : Tensor} {mem : Buf} (hi : tin.Valid mem) (ho : tout.Valid mem) (hsh : tin.shape = tout.shape)
    (i1 : tin.strides.getLast? = some 1) (o1 : tout.strides.getLast? = some 1) (hsep : tin.Separate tout) (g : Int → Int) :
    ∃ mem', leakyLoops tin tout g mem = some mem' ∧ tout.Writes (fun is => g (mem.get (tin.addr is))) mem mem' := by
  obtain ⟨mem', h1, h2⟩ := map_unary tin tout mem hi ho hsh hsep (fun v => some (g v)) (fun is => g (mem.get (tin.addr is))) (fun _ _ => rfl)
  refine ⟨mem', ?_, h2⟩
  simp only [Option.bind_some] at h1
  unfold leakyLoops
  rw [c33_traverse_invisible tin tout hsh hi.accepted ho.accepted i1 o1]
  unfold pair
  simp only [Fin.isValue, ↓reduceIte, show ((1 : Fin 2) = 0) = False by simp]
  exact h1

theorem chkLeaky_of {tin tout : Tensor} {mem : Buf} (hi : tin.Valid mem) (ho : tout.Valid mem) (hsh : tin.shape = tout.shape)
    (i1 : tin.strides.getLast? = some 1) (o1 : tout.strides.getLast? = some 1) {o : Operand} {smem : Buf} {a : Int} (hs : o.IsScalar smem a) :
    chkLeaky tin o.t tout = some .ok := by
  simp [chkLeaky, chkTensors, hi.accepted, ho.accepted, sameShape, hsh, innerOne, i1, o1, hs.ok.1]

/-- C58, leaky ReLU of fixed-point elements: for every shape, strides, slope and position of the binary point the kernel succeeds, keeps the
elements that are not negative, replaces the others by the rounded and limited product with the slope, and writes nothing else.
Missing: the one product that the rounding mode UP rounds down (see `c58_tie_violated`), and rank 0. -/
theorem c58_leaky_fx_partial (m : Rnd) (w : Nat) (hw : w = 8 ∨ w = 16) (fi fs : Int) (smem mem : Buf) (tin tout : Tensor) (slope : Operand) (a : Int)
    (hi : tin.Valid mem) (ho : tout.Valid mem) (hsh : tin.shape = tout.shape) (i1 : tin.strides.getLast? = some 1)
    (o1 : tout.strides.getLast? = some 1) (hsep : tin.Separate tout) (hx : tin.Holds mem w) (hs : slope.IsScalar smem a) (ha : InRange w a) :
    ∃ mem' val, krnLeakyFx m w fi fs fi smem tin slope tout mem = some (.ok, mem') ∧ tout.Writes val mem mem' ∧
      ∀ is, InShape tin.shape is → ¬ LeakyTie m w a fs (mem.get (tin.addr is)) → LeakyFx m w a fs (mem.get (tin.addr is)) (val is) := by
  have e : fi + fs - fi = fs := by omega
  obtain ⟨mem', h1, h2⟩ := leaky_run hi ho hsh i1 o1 hsep (leakyFx m w (leakySlope m w a fs).1 (leakySlope m w a fs).2)
  refine ⟨mem', _, ?_, h2, fun is his ht => leakyFx_spec m hw (hx is his) ha ht⟩
  simp [krnLeakyFx, chkLeaky_of hi ho hsh i1 o1 hs, hs.ok.2, e, h1]

theorem chkLeakyQuant_ok {tin ts tout : Tensor} {qi qs qo : SaQ} (h : chkLeakyQuant tin ts tout qi qs qo = .ok) :
    (qi.dim < 0 ∧ qo.dim < 0 ∧ qs.dim < 0) ∧ (0 < qi.scaleAt 0 ∧ InRange 8 (qi.zpAt 0)) ∧ (0 < qo.scaleAt 0 ∧ InRange 8 (qo.zpAt 0)) ∧
    (0 < qs.scaleAt 0 ∧ -(2 ^ 14) ≤ qs.zpAt 0 ∧ qs.zpAt 0 ≤ 2 ^ 14 - 1) := by
  unfold chkLeakyQuant at h
  by_cases h1 : chkQuant tin qi 7 = .ok
  swap
  · rw [if_pos h1] at h; exact absurd h h1
  by_cases h2 : chkQuant tout qo 7 = .ok
  swap
  · rw [if_neg (not_not.2 h1), if_pos h2] at h; exact absurd h h2
  by_cases h3 : chkQuant ts qs 14 = .ok
  swap
  · rw [if_neg (not_not.2 h1), if_neg (not_not.2 h2), if_pos h3] at h; exact absurd h h3
  rw [if_neg (not_not.2 h1), if_neg (not_not.2 h2), if_neg (not_not.2 h3)] at h
  by_cases h4 : qi.dim < 0 ∧ qo.dim < 0 ∧ qs.dim < 0
  swap
  · rw [if_pos h4] at h; cases h
  have c1 := chkQuant_ok h1 (k := 0) (Or.inl h4.1)
  have c2 := chkQuant_ok h2 (k := 0) (Or.inl h4.2.1)
  have c3 := chkQuant_ok h3 (k := 0) (Or.inl h4.2.2)
  simp only [show ¬ 7 = 0 by decide, show ¬ 14 = 0 by decide, if_false] at c1 c2 c3
  exact ⟨h4, ⟨c1.1, c1.2.1, c1.2.2⟩, ⟨c2.1, c2.2.1, c2.2.2⟩, c3.1, c3.2.1, c3.2.2⟩

/-- C58, leaky ReLU of SA8 elements: the result is within 5/8 of a step of the leaky ReLU of the real number the input element stands for, limited to
8 bits. Missing: negative inputs when the input scale is more than 2^14 times the output scale (see `c58_sa8_violated`), and rank 0. -/
theorem c58_leaky_sa8_partial (m : Rnd) (qi qs qo : SaQ) (smem mem : Buf) (tin tout : Tensor) (slope : Operand) (a : Int)
    (hi : tin.Valid mem) (ho : tout.Valid mem) (hsh : tin.shape = tout.shape) (i1 : tin.strides.getLast? = some 1)
    (o1 : tout.strides.getLast? = some 1) (hsep : tin.Separate tout) (hx : tin.Holds mem 8) (hs : slope.IsScalar smem a) (ha : InRange 8 a)
    (hti : qi.Typed) (hts : qs.Typed) (hto : qo.Typed) (hq : chkLeakyQuant tin slope.t tout qi qs qo = .ok) :
    ∃ mem' val, krnLeakySa m qi qs qo smem tin slope tout mem = some (.ok, mem') ∧ tout.Writes val mem mem' ∧
      ∀ is, InShape tin.shape is →
        (qi.zpAt 0 ≤ mem.get (tin.addr is) ∨ scaleVal (qi.scaleAt 0) (qi.fracAt 0) / scaleVal (qo.scaleAt 0) (qo.fracAt 0) ≤ 2 ^ 14) →
        |((val is : Int) : ℚ) - limitQ (-128) 127 (qo.zpAt 0 +
          leakyQ ((a - qs.zpAt 0 : Int) * scaleVal (qs.scaleAt 0) (qs.fracAt 0))
            ((mem.get (tin.addr is) - qi.zpAt 0 : Int) * scaleVal (qi.scaleAt 0) (qi.fracAt 0)) / scaleVal (qo.scaleAt 0) (qo.fracAt 0))| ≤ 5 / 8 := by
  obtain ⟨-, ⟨p1, p2⟩, ⟨p3, p4⟩, p5, p6⟩ := chkLeakyQuant_ok hq
  obtain ⟨ident, he, hspec⟩ := leakySa_spec m (fI := qi.fracAt 0) (fO := qo.fracAt 0) (fa := qs.fracAt 0) p1 (hti.scaleAt 0) p3 (hto.scaleAt 0) p2 p4 p6 p5 (hts.scaleAt 0)
  obtain ⟨mem', h1, h2⟩ := leaky_run hi ho hsh i1 o1 hsep
    (leakySa m (qi.zpAt 0) (qo.zpAt 0) ident (leakyAlpha m ident (qs.zpAt 0) (qs.scaleAt 0) (qs.fracAt 0) a))
  refine ⟨mem', _, ?_, h2, fun is his hc => hspec _ _ (hx is his) ha hc⟩
  simp [krnLeakySa, chkLeaky_of hi ho hsh i1 o1 hs, hs.ok.2, hq, he, h1]

/-! ## Parametric ReLU -/

theorem offset_unit : ∀ (n axis : Nat) (ss : List Int) (k : Int), axis < n → offset ss ((List.replicate n 0).set axis k) = k * ss.getD axis 0 := by
  intro n
  induction n with
  | zero => intro axis ss k h; omega
  | succ n ih =>
    intro axis ss k h
    cases ss with
    | nil => simp [offset]
    | cons s ss =>
      cases axis with
      | zero => simp [offset, List.replicate_succ, offset_zeros]
      | succ axis => simp [offset, List.replicate_succ, ih axis ss k (by omega)]

theorem inShape_unit : ∀ (n axis : Nat) (k c : Int), axis < n → 0 ≤ k → k < c →
    InShape ((List.replicate n 1).set axis c) ((List.replicate n 0).set axis k) := by
  intro n
  induction n with
  | zero => intro axis k c h; omega
  | succ n ih =>
    intro axis k c h h0 hc
    cases axis with
    | zero =>
      simp only [List.replicate_succ, List.set_cons_zero, InShape]
      refine ⟨⟨h0, hc⟩, ?_⟩
      have := inShape_zeros (ns := List.replicate n 1) (fun m hm => by rw [List.eq_of_mem_replicate hm])
      simpa using this
    | succ axis =>
      simp only [List.replicate_succ, List.set_cons_succ, InShape]
      exact ⟨by omega, ih axis k c (by omega) h0 hc⟩

/-- The slope for position `is` of the input: the slope tensor has the size of the input along `axis` and size 1 otherwise. -/
def slopeAt (slope : Tensor) (smem : Buf) (axis : Nat) (is : List Int) : Int :=
  smem.get (slope.addr ((List.replicate slope.dims.length 0).set axis (is.getD axis 0)))

/-- The slopes of a call with `axis`: the shape is that of the input along `axis` and 1 otherwise, and neighbours along `axis` are adjacent in memory. -/
structure SlopeOk (slope tin : Tensor) (smem : Buf) (axis : Nat) : Prop where
  valid : slope.Valid smem
  shape : slope.shape = (List.replicate tin.dims.length 1).set axis (tin.shape.getD axis 0)
  inner : slope.strides.getLast? = some 1
  step : slope.strides.getD axis 0 = 1

theorem SlopeOk.rank {slope tin : Tensor} {smem : Buf} {axis : Nat} (h : SlopeOk slope tin smem axis) : slope.dims.length = tin.dims.length := by
  have := congrArg List.length h.shape
  simpa [Tensor.shape] using this

theorem SlopeOk.raw {slope tin : Tensor} {smem : Buf} {axis : Nat} (h : SlopeOk slope tin smem axis) (stale : Nat → Int) (i : Nat)
    (hi : i < tin.dims.length) : rawShape slope stale i = if (i : Int) = axis then tin.shape.getD i 0 else 1 := by
  unfold rawShape
  rw [h.shape, List.getElem?_set]
  by_cases e : axis = i
  · subst e
    simp [hi]
  · rw [if_neg e, if_neg (by omega)]
    simp [hi]

theorem SlopeOk.rd {slope tin : Tensor} {smem : Buf} {axis : Nat} (h : SlopeOk slope tin smem axis) (ha : axis < tin.dims.length) {k : Int}
    (h0 : 0 ≤ k) (hk : k < tin.shape.getD axis 0) :
    smem.rd (slope.base + k) = some (smem.get (slope.addr ((List.replicate slope.dims.length 0).set axis k))) := by
  have hi : InShape slope.shape ((List.replicate slope.dims.length 0).set axis k) := by
    rw [h.shape, h.rank]; exact inShape_unit _ _ _ _ ha h0 hk
  have := h.valid.rd (b' := smem) hi rfl
  rw [← this]
  unfold Tensor.addr
  rw [offset_unit _ _ _ _ (by rw [h.rank]; exact ha), h.step, mul_one]

theorem chkPrelu_of {tin tout slope : Tensor} {mem smem : Buf} (hi : tin.Valid mem) (ho : tout.Valid mem) (hsh : tin.shape = tout.shape)
    (i1 : tin.strides.getLast? = some 1) (o1 : tout.strides.getLast? = some 1) {axis : Nat} (ha : axis < tin.dims.length)
    (hs : SlopeOk slope tin smem axis) (stale : Nat → Int) : chkPrelu axis tin slope tout stale = some .ok := by
  have hraw := fun i (h : i < tin.dims.length) => hs.raw stale i h
  simp only [chkPrelu, chkTensors, hi.accepted, ho.accepted, hs.valid.accepted, Option.bind_some, ne_eq, not_true_eq_false, if_false, sameShape, hsh,
    innerOne, i1, o1, hs.inner]
  rw [hsh] at hraw
  simp only [Bool.and_self, beq_self_eq_true, decide_true, Bool.not_true, Bool.false_eq_true, if_false]
  rw [if_neg (by omega), if_neg (not_not.2 hraw)]

theorem prelu_run {tin tout slope : Tensor} {mem smem : Buf} (hi : tin.Valid mem) (ho : tout.Valid mem) (hsh : tin.shape = tout.shape)
    (i1 : tin.strides.getLast? = some 1) (o1 : tout.strides.getLast? = some 1) (hsep : tin.Separate tout) {axis : Nat} (ha : axis < tin.dims.length)
    (hs : SlopeOk slope tin smem axis) (stale : Nat → Int) (g : Int → Int → Int) :
    ∃ mem', preluLoops axis tin slope tout stale (fun idx => (smem.rd (slope.base + idx)).map fun a => g a) mem = some mem' ∧
      tout.Writes (fun is => g (slopeAt slope smem axis is) (mem.get (tin.addr is))) mem mem' := by
  have hl : tin.dims.length = tout.dims.length := length_congr hsh
  have hax : (axis : Int) < tout.dims.length := by omega
  have hpc : paramCount axis tout.shape = tin.shape.getD axis 0 := by
    unfold paramCount; rw [if_neg (by omega), hsh, Int.toNat_natCast]
  obtain ⟨d', h1, h2⟩ := slices_write tin tout mem ho hsh axis hax (fun is => g (slopeAt slope smem axis is) (mem.get (tin.addr is)))
    (fun sl a b c e d => (d.rd (tin.base + tin.rPos a b c e)).bind fun x =>
      d.wr (tout.base + tout.rPos a b c e) (g (smem.get (slope.addr ((List.replicate slope.dims.length 0).set axis sl))) x))
    (fun sl p hsl hp d' hd hfr => by
      obtain ⟨a1, a2, a3⟩ := slice_param ho.rank hax hsl hp
      have b2 : tin.base + tin.rPos p.1 p.2.1 p.2.2.1 p.2.2.2 = tin.addr (ptIdx tout p) := by
        have hp' : p ∈ slicePts tin (axisDim tin axis) sl := by
          rw [slicePts_congr hsh, axisDim_congr hsh]; exact hp
        have := (slice_param hi.rank (by omega) (by rw [hsh]; exact hsl) hp').2.1
        rw [this]
        unfold ptIdx
        rw [hl]
      have his : InShape tin.shape (ptIdx tout p) := by rw [hsh]; exact a1
      have e : d'.get (tin.addr (ptIdx tout p)) = mem.get (tin.addr (ptIdx tout p)) := by
        apply hfr
        intro js hj hne e
        exact hne (hsep _ js his hj e.symm).symm
      have a4 : (ptIdx tout p).getD axis 0 = sl := by
        unfold paramIdx at a3
        rw [if_neg (by omega)] at a3
        simpa using a3
      rw [b2, hi.rd his hd, Option.bind_some, a2, e]
      simp only [slopeAt, a4])
  refine ⟨d', ?_, h2⟩
  rw [← h1]
  unfold preluLoops
  rw [if_neg (by omega)]
  simp only [Int.toNat_natCast, hs.raw stale axis ha, if_true, hpc]
  refine forRange_congr (fun sl hsl => funext fun d => ?_) _
  rw [hs.rd ha (Int.natCast_nonneg sl) (by omega), Option.map_some, Option.bind_some]
  exact prelu_slice tin tout hi.rank hsh axis ha i1 o1 sl _ d

/-- C58, parametric ReLU of fixed-point elements along `axis`: each element is treated with the slope of its index along `axis`.
Missing: the product of `c58_tie_violated`, slopes that are not adjacent in memory (`c58_stride_violated`), `axis < -1` (`c58_axis_violated`), rank 0. -/
theorem c58_prelu_fx_partial (m : Rnd) (w : Nat) (hw : w = 8 ∨ w = 16) (fi fs : Int) (smem mem : Buf) (tin tout : Tensor) (slope : Operand)
    (axis : Nat) (stale : Nat → Int) (ha : axis < tin.dims.length)
    (hi : tin.Valid mem) (ho : tout.Valid mem) (hsh : tin.shape = tout.shape) (i1 : tin.strides.getLast? = some 1)
    (o1 : tout.strides.getLast? = some 1) (hsep : tin.Separate tout) (hx : tin.Holds mem w) (hs : SlopeOk slope.t tin smem axis)
    (hsx : slope.t.Holds smem w) :
    ∃ mem' val, krnPreluFx m w fi fs fi smem axis tin slope tout stale mem = some (.ok, mem') ∧ tout.Writes val mem mem' ∧
      ∀ is, InShape tin.shape is → ¬ LeakyTie m w (slopeAt slope.t smem axis is) fs (mem.get (tin.addr is)) →
        LeakyFx m w (slopeAt slope.t smem axis is) fs (mem.get (tin.addr is)) (val is) := by
  have e : fi + fs - fi = fs := by omega
  obtain ⟨mem', h1, h2⟩ := prelu_run hi ho hsh i1 o1 hsep ha hs stale (fun a => leakyFx m w a fs)
  refine ⟨mem', _, ?_, h2, fun is his ht => preluFx_spec m hw (hx is his) ?_ ht⟩
  · unfold krnPreluFx
    rw [if_neg (by omega), chkPrelu_of hi ho hsh i1 o1 ha hs stale]
    simp only [Option.bind_some, ne_eq, not_true_eq_false, if_false, e]
    rw [h1]
    rfl
  · have hb := inShape_getD (k := axis) his (by simpa [Tensor.shape] using ha)
    exact hsx _ (by rw [hs.shape, hs.rank]; exact inShape_unit _ _ _ _ ha hb.1 hb.2)

/-- C58, parametric ReLU of SA8 elements along `axis`. Missing: see `c58_leaky_sa8_partial` and `c58_prelu_fx_partial`. -/
theorem c58_prelu_sa8_partial (m : Rnd) (qi qs qo : SaQ) (smem mem : Buf) (tin tout : Tensor) (slope : Operand)
    (axis : Nat) (stale : Nat → Int) (ha : axis < tin.dims.length)
    (hi : tin.Valid mem) (ho : tout.Valid mem) (hsh : tin.shape = tout.shape) (i1 : tin.strides.getLast? = some 1)
    (o1 : tout.strides.getLast? = some 1) (hsep : tin.Separate tout) (hx : tin.Holds mem 8) (hs : SlopeOk slope.t tin smem axis)
    (hsx : slope.t.Holds smem 8)
    (hti : qi.Typed) (hts : qs.Typed) (hto : qo.Typed) (hq : chkLeakyQuant tin slope.t tout qi qs qo = .ok) :
    ∃ mem' val, krnPreluSa m qi qs qo smem axis tin slope tout stale mem = some (.ok, mem') ∧ tout.Writes val mem mem' ∧
      ∀ is, InShape tin.shape is →
        (qi.zpAt 0 ≤ mem.get (tin.addr is) ∨ scaleVal (qi.scaleAt 0) (qi.fracAt 0) / scaleVal (qo.scaleAt 0) (qo.fracAt 0) ≤ 2 ^ 14) →
        |((val is : Int) : ℚ) - limitQ (-128) 127 (qo.zpAt 0 +
          leakyQ ((slopeAt slope.t smem axis is - qs.zpAt 0 : Int) * scaleVal (qs.scaleAt 0) (qs.fracAt 0))
            ((mem.get (tin.addr is) - qi.zpAt 0 : Int) * scaleVal (qi.scaleAt 0) (qi.fracAt 0)) / scaleVal (qo.scaleAt 0) (qo.fracAt 0))| ≤ 5 / 8 := by
  obtain ⟨-, ⟨p1, p2⟩, ⟨p3, p4⟩, p5, p6⟩ := chkLeakyQuant_ok hq
  obtain ⟨ident, he, hspec⟩ := leakySa_spec m (fI := qi.fracAt 0) (fO := qo.fracAt 0) (fa := qs.fracAt 0) p1 (hti.scaleAt 0) p3 (hto.scaleAt 0) p2 p4 p6 p5 (hts.scaleAt 0)
  obtain ⟨mem', h1, h2⟩ := prelu_run hi ho hsh i1 o1 hsep ha hs stale
    (fun a => leakySa m (qi.zpAt 0) (qo.zpAt 0) ident (leakyAlpha m ident (qs.zpAt 0) (qs.scaleAt 0) (qs.fracAt 0) a))
  refine ⟨mem', _, ?_, h2, fun is his hc => hspec _ _ (hx is his) ?_ hc⟩
  · unfold krnPreluSa
    rw [if_neg (by omega), chkPrelu_of hi ho hsh i1 o1 ha hs stale]
    simp only [Option.bind_some, ne_eq, not_true_eq_false, if_false, hq, he]
    rw [h1]
    rfl
  · have hb := inShape_getD (k := axis) his (by simpa [Tensor.shape] using ha)
    exact hsx _ (by rw [hs.shape, hs.rank]; exact inShape_unit _ _ _ _ ha hb.1 hb.2)

/-- With `axis = -1` the parametric ReLU is the leaky ReLU with the one slope. -/
theorem c58_prelu_scalar_fx (m : Rnd) (w : Nat) (fi fs : Int) (smem mem : Buf) (tin tout : Tensor) (slope : Operand) (stale : Nat → Int) (a : Int)
    (hi : tin.Valid mem) (ho : tout.Valid mem) (hsh : tin.shape = tout.shape) (i1 : tin.strides.getLast? = some 1)
    (o1 : tout.strides.getLast? = some 1) (hs : slope.IsScalar smem a) :
    krnPreluFx m w fi fs fi smem (-1) tin slope tout stale mem = krnLeakyFx m w fi fs fi smem tin slope tout mem := by
  unfold krnPreluFx
  rw [if_pos rfl]
  simp [chkPreluScalar, hi.accepted, ho.accepted, hs.ok.1, sameShape, hsh, innerOne, i1, o1]

theorem c58_prelu_scalar_sa8 (m : Rnd) (qi qs qo : SaQ) (smem mem : Buf) (tin tout : Tensor) (slope : Operand) (stale : Nat → Int) (a : Int)
    (hi : tin.Valid mem) (ho : tout.Valid mem) (hsh : tin.shape = tout.shape) (i1 : tin.strides.getLast? = some 1)
    (o1 : tout.strides.getLast? = some 1) (hs : slope.IsScalar smem a) (hq : chkLeakyQuant tin slope.t tout qi qs qo = .ok) :
    krnPreluSa m qi qs qo smem (-1) tin slope tout stale mem = krnLeakySa m qi qs qo smem tin slope tout mem := by
  unfold krnPreluSa
  rw [if_pos rfl]
  simp [chkPreluScalar, hi.accepted, ho.accepted, hs.ok.1, sameShape, hsh, innerOne, i1, o1, hq]

/-! ## Refused calls -/

theorem chkScalarTensor_ok {t : Tensor} (h : chkScalarTensor t = some .ok) : isScalar t = true := by
  unfold chkScalarTensor at h
  unfold isScalar
  by_cases hd : t.dims.length = 0
  · simp [hd]
  · simp only [hd, if_false, Option.bind_eq_bind, Option.pure_def, Option.bind_eq_some_iff] at h
    obtain ⟨s, -, h⟩ := h
    by_cases hs : s = .ok
    · rw [if_neg (not_not.2 hs)] at h
      by_cases hc : countElemNum t = 1
      · simp [hc]
      · rw [if_neg hc] at h; cases h
    · rw [if_pos hs] at h
      exact absurd (Option.some.inj h) hs

theorem chkTensors_ok : ∀ {ts : List Tensor}, chkTensors ts = some .ok → ∀ t ∈ ts, checkTensorPrivate t = some .ok := by
  intro ts
  induction ts with
  | nil => simp
  | cons t ts ih =>
    intro h
    unfold chkTensors at h
    rw [Option.bind_eq_some_iff] at h
    obtain ⟨s, hs, h⟩ := h
    by_cases e : s = .ok
    · subst e
      rw [if_neg (by simp)] at h
      intro u hu
      rcases List.mem_cons.1 hu with rfl | hu
      · exact hs
      · exact ih h u hu
    · rw [if_pos e] at h
      exact absurd (Option.some.inj h) e

theorem innerOne_getD {t : Tensor} (h : innerOne t = true) : t.strides.getLast?.getD 1 = 1 := by
  unfold innerOne at h
  cases he : t.strides.getLast? with
  | none => rfl
  | some s => rw [he] at h; simpa using h

/-- What the check of a leaky ReLU call guarantees. -/
theorem chkLeaky_ok {tin ts tout : Tensor} (h : chkLeaky tin ts tout = some .ok) :
    tin.shape = tout.shape ∧ tin.strides.getLast?.getD 1 = 1 ∧ tout.strides.getLast?.getD 1 = 1 ∧ isScalar ts = true := by
  unfold chkLeaky at h
  rw [Option.bind_eq_some_iff] at h
  obtain ⟨s, hs, h⟩ := h
  by_cases e : s = .ok
  swap
  · rw [if_pos e] at h; exact absurd (Option.some.inj h) e
  rw [if_neg (not_not.2 e)] at h
  by_cases h1 : sameShape tin tout = true
  swap
  · simp [h1] at h
  by_cases h2 : (innerOne tin && innerOne tout) = true
  swap
  · simp [h1, h2] at h
  simp only [h1, h2, Bool.not_true, Bool.false_eq_true, if_false] at h
  rw [Bool.and_eq_true] at h2
  exact ⟨by simpa [sameShape] using h1, innerOne_getD h2.1, innerOne_getD h2.2, chkScalarTensor_ok h⟩

theorem chkPrelu_ok {axis : Int} {tin ts tout : Tensor} {stale : Nat → Int} (h : chkPrelu axis tin ts tout stale = some .ok) :
    tin.shape = tout.shape ∧ axis < tin.dims.length ∧
    (∀ i < tin.dims.length, rawShape ts stale i = if (i : Int) = axis then tin.shape.getD i 0 else 1) := by
  unfold chkPrelu at h
  rw [Option.bind_eq_some_iff] at h
  obtain ⟨s, hs, h⟩ := h
  by_cases e : s = .ok
  swap
  · rw [if_pos e] at h; exact absurd (Option.some.inj h) e
  rw [if_neg (not_not.2 e)] at h
  by_cases h1 : sameShape tin tout = true
  swap
  · simp [h1] at h
  simp only [h1, Bool.not_true, Bool.false_eq_true, if_false] at h
  by_cases h3 : axis < tin.dims.length
  swap
  · rw [if_pos h3] at h; cases h
  rw [if_neg (not_not.2 h3)] at h
  by_cases h2 : (innerOne tin && innerOne ts && innerOne tout) = true
  swap
  · simp [h2] at h
  simp only [h2, Bool.not_true, Bool.false_eq_true, if_false] at h
  by_cases h4 : ∀ i < tin.dims.length, rawShape ts stale i = if (i : Int) = axis then tin.shape.getD i 0 else 1
  swap
  · rw [if_pos h4] at h; cases h
  exact ⟨by simpa [sameShape] using h1, h3, h4⟩

/-- A leaky ReLU call that reports an error has not written; success is reported only for one shape, innermost strides of one, a slope of one element
and equal positions of the binary point. -/
theorem c58_status_leaky_fx (m : Rnd) (w : Nat) (fi fs fo : Int) (smem mem mem' : Buf) (tin tout : Tensor) (slope : Operand) (st : Status)
    (h : krnLeakyFx m w fi fs fo smem tin slope tout mem = some (st, mem')) :
    (st ≠ .ok → mem' = mem) ∧
    (st = .ok → fo = fi ∧ tin.shape = tout.shape ∧ tin.strides.getLast?.getD 1 = 1 ∧ tout.strides.getLast?.getD 1 = 1 ∧ isScalar slope.t = true) := by
  unfold krnLeakyFx at h
  rw [Option.bind_eq_some_iff] at h
  obtain ⟨s1, hs1, h⟩ := h
  by_cases e : s1 = .ok
  swap
  · rw [if_pos e] at h
    simp only [Option.some.injEq, Prod.mk.injEq] at h
    obtain ⟨rfl, rfl⟩ := h
    exact ⟨fun _ => rfl, fun e' => absurd e' e⟩
  rw [if_neg (not_not.2 e)] at h
  by_cases e2 : fo = fi
  swap
  · rw [if_pos e2] at h
    simp only [Option.some.injEq, Prod.mk.injEq] at h
    obtain ⟨rfl, rfl⟩ := h
    exact ⟨fun _ => rfl, fun e' => by cases e'⟩
  rw [if_neg (not_not.2 e2), Option.bind_eq_some_iff] at h
  obtain ⟨a, -, h⟩ := h
  simp only [Option.map_eq_some_iff, Prod.mk.injEq] at h
  obtain ⟨_, -, rfl, -⟩ := h
  exact ⟨fun e => absurd rfl e, fun _ => ⟨e2, chkLeaky_ok (by rw [hs1, e])⟩⟩

theorem c58_status_leaky_sa8 (m : Rnd) (qi qs qo : SaQ) (smem mem mem' : Buf) (tin tout : Tensor) (slope : Operand) (st : Status)
    (h : krnLeakySa m qi qs qo smem tin slope tout mem = some (st, mem')) :
    (st ≠ .ok → mem' = mem) ∧
    (st = .ok → chkLeakyQuant tin slope.t tout qi qs qo = .ok ∧
      tin.shape = tout.shape ∧ tin.strides.getLast?.getD 1 = 1 ∧ tout.strides.getLast?.getD 1 = 1 ∧ isScalar slope.t = true) := by
  unfold krnLeakySa at h
  rw [Option.bind_eq_some_iff] at h
  obtain ⟨s1, hs1, h⟩ := h
  by_cases e : s1 = .ok
  swap
  · rw [if_pos e] at h
    simp only [Option.some.injEq, Prod.mk.injEq] at h
    obtain ⟨rfl, rfl⟩ := h
    exact ⟨fun _ => rfl, fun e' => absurd e' e⟩
  rw [if_neg (not_not.2 e)] at h
  by_cases e2 : chkLeakyQuant tin slope.t tout qi qs qo = .ok
  swap
  · rw [if_pos e2] at h
    simp only [Option.some.injEq, Prod.mk.injEq] at h
    obtain ⟨rfl, rfl⟩ := h
    exact ⟨fun _ => rfl, fun e' => absurd e' e2⟩
  rw [if_neg (not_not.2 e2), Option.bind_eq_some_iff] at h
  obtain ⟨a, -, h⟩ := h
  rw [Option.bind_eq_some_iff] at h
  obtain ⟨i, -, h⟩ := h
  simp only [Option.map_eq_some_iff, Prod.mk.injEq] at h
  obtain ⟨_, -, rfl, -⟩ := h
  exact ⟨fun e => absurd rfl e, fun _ => ⟨e2, chkLeaky_ok (by rw [hs1, e])⟩⟩

/-- A parametric ReLU call that reports an error has not written; with an axis, success is reported only for one shape, a proper axis, and a slope
tensor of the input's size along the axis and 1 otherwise. -/
theorem c58_status_prelu_fx (m : Rnd) (w : Nat) (fi fs fo axis : Int) (smem mem mem' : Buf) (tin tout : Tensor) (slope : Operand) (stale : Nat → Int)
    (st : Status) (h : krnPreluFx m w fi fs fo smem axis tin slope tout stale mem = some (st, mem')) :
    (st ≠ .ok → mem' = mem) ∧
    (st = .ok → fo = fi ∧ tin.shape = tout.shape ∧ (axis = -1 ∧ isScalar slope.t = true ∨ axis ≠ -1 ∧ 0 ≤ axis ∧ axis < tin.dims.length ∧
      ∀ i < tin.dims.length, rawShape slope.t stale i = if (i : Int) = axis then tin.shape.getD i 0 else 1)) := by
  unfold krnPreluFx at h
  by_cases ha : axis = -1
  · rw [if_pos ha, Option.bind_eq_some_iff] at h
    obtain ⟨s1, hs1, h⟩ := h
    by_cases e : s1 = .ok
    swap
    · rw [if_pos e] at h
      simp only [Option.some.injEq, Prod.mk.injEq] at h
      obtain ⟨rfl, rfl⟩ := h
      exact ⟨fun _ => rfl, fun e' => absurd e' e⟩
    rw [if_neg (not_not.2 e)] at h
    by_cases e2 : fo = fi
    swap
    · rw [if_pos e2] at h
      simp only [Option.some.injEq, Prod.mk.injEq] at h
      obtain ⟨rfl, rfl⟩ := h
      exact ⟨fun _ => rfl, fun e' => by cases e'⟩
    rw [if_neg (not_not.2 e2)] at h
    obtain ⟨r1, r2⟩ := c58_status_leaky_fx m w fi fs fo smem mem mem' tin tout slope st h
    exact ⟨r1, fun e => ⟨(r2 e).1, (r2 e).2.1, Or.inl ⟨ha, (r2 e).2.2.2.2⟩⟩⟩
  · rw [if_neg ha, Option.bind_eq_some_iff] at h
    obtain ⟨s1, hs1, h⟩ := h
    by_cases e : s1 = .ok
    swap
    · rw [if_pos e] at h
      simp only [Option.some.injEq, Prod.mk.injEq] at h
      obtain ⟨rfl, rfl⟩ := h
      exact ⟨fun _ => rfl, fun e' => absurd e' e⟩
    rw [if_neg (not_not.2 e)] at h
    by_cases e2 : fo = fi
    swap
    · rw [if_pos e2] at h
      simp only [Option.some.injEq, Prod.mk.injEq] at h
      obtain ⟨rfl, rfl⟩ := h
      exact ⟨fun _ => rfl, fun e' => by cases e'⟩
    rw [if_neg (not_not.2 e2)] at h
    simp only [Option.map_eq_some_iff, Prod.mk.injEq] at h
    obtain ⟨_, hl, rfl, -⟩ := h
    have h0 : 0 ≤ axis := by
      by_contra hc
      unfold preluLoops at hl
      rw [if_pos (by omega)] at hl
      cases hl
    obtain ⟨c1, c2, c3⟩ := chkPrelu_ok (by rw [hs1, e])
    exact ⟨fun e => absurd rfl e, fun _ => ⟨e2, c1, Or.inr ⟨ha, h0, c2, c3⟩⟩⟩

theorem c58_status_prelu_sa8 (m : Rnd) (qi qs qo : SaQ) (axis : Int) (smem mem mem' : Buf) (tin tout : Tensor) (slope : Operand) (stale : Nat → Int)
    (st : Status) (h : krnPreluSa m qi qs qo smem axis tin slope tout stale mem = some (st, mem')) :
    (st ≠ .ok → mem' = mem) ∧
    (st = .ok → chkLeakyQuant tin slope.t tout qi qs qo = .ok ∧ tin.shape = tout.shape ∧
      (axis = -1 ∧ isScalar slope.t = true ∨ axis ≠ -1 ∧ 0 ≤ axis ∧ axis < tin.dims.length ∧
      ∀ i < tin.dims.length, rawShape slope.t stale i = if (i : Int) = axis then tin.shape.getD i 0 else 1)) := by
  unfold krnPreluSa at h
  by_cases ha : axis = -1
  · rw [if_pos ha, Option.bind_eq_some_iff] at h
    obtain ⟨s1, hs1, h⟩ := h
    by_cases e : s1 = .ok
    swap
    · rw [if_pos e] at h
      simp only [Option.some.injEq, Prod.mk.injEq] at h
      obtain ⟨rfl, rfl⟩ := h
      exact ⟨fun _ => rfl, fun e' => absurd e' e⟩
    rw [if_neg (not_not.2 e)] at h
    by_cases e2 : chkLeakyQuant tin slope.t tout qi qs qo = .ok
    swap
    · rw [if_pos e2] at h
      simp only [Option.some.injEq, Prod.mk.injEq] at h
      obtain ⟨rfl, rfl⟩ := h
      exact ⟨fun _ => rfl, fun e' => absurd e' e2⟩
    rw [if_neg (not_not.2 e2)] at h
    obtain ⟨r1, r2⟩ := c58_status_leaky_sa8 m qi qs qo smem mem mem' tin tout slope st h
    exact ⟨r1, fun e => ⟨(r2 e).1, (r2 e).2.1, Or.inl ⟨ha, (r2 e).2.2.2.2⟩⟩⟩
  · rw [if_neg ha, Option.bind_eq_some_iff] at h
    obtain ⟨s1, hs1, h⟩ := h
    by_cases e : s1 = .ok
    swap
    · rw [if_pos e] at h
      simp only [Option.some.injEq, Prod.mk.injEq] at h
      obtain ⟨rfl, rfl⟩ := h
      exact ⟨fun _ => rfl, fun e' => absurd e' e⟩
    rw [if_neg (not_not.2 e)] at h
    by_cases e2 : chkLeakyQuant tin slope.t tout qi qs qo = .ok
    swap
    · rw [if_pos e2] at h
      simp only [Option.some.injEq, Prod.mk.injEq] at h
      obtain ⟨rfl, rfl⟩ := h
      exact ⟨fun _ => rfl, fun e' => absurd e' e2⟩
    rw [if_neg (not_not.2 e2), Option.bind_eq_some_iff] at h
    obtain ⟨_, -, h⟩ := h
    simp only [Option.map_eq_some_iff, Prod.mk.injEq] at h
    obtain ⟨_, hl, rfl, -⟩ := h
    have h0 : 0 ≤ axis := by
      by_contra hc
      unfold preluLoops at hl
      rw [if_pos (by omega)] at hl
      cases hl
    obtain ⟨c1, c2, c3⟩ := chkPrelu_ok (by rw [hs1, e])
    exact ⟨fun e => absurd rfl e, fun _ => ⟨e2, c1, Or.inr ⟨ha, h0, c2, c3⟩⟩⟩

/-! ## Examples -/

/-- Input and output in place: 2x2x2 with a gap behind each row. -/
def exLk : Tensor := { dims := [⟨2, 6⟩, ⟨2, 3⟩, ⟨2, 1⟩], cap := 12, es := 1, base := 1 }
def exLkMem : Buf := Buf.ofList [99, 10, -10, 99, -20, 20, 99, 30, -30, 99, -100, 100, 99, 99]
/-- One slope. -/
def exLkSlope : Operand := { t := { dims := [⟨1, 1⟩], cap := 1, es := 1, base := 1 } }
/-- Two slopes along the second dimension. -/
def exPrSlope : Operand := { t := { dims := [⟨1, 2⟩, ⟨2, 1⟩, ⟨1, 1⟩], cap := 2, es := 1, base := 1 } }
def exLkSmem : Buf := Buf.ofList [99, 32, 64]
def exLkQi : SaQ := { dim := -1, zp := [-10], scale := [3], frac := [4] }
def exLkQo : SaQ := { dim := -1, zp := [5], scale := [5], frac := [4] }
def exLkQs : SaQ := { dim := -1, zp := [0], scale := [1], frac := [7] }

theorem exLk_valid : exLk.Valid exLkMem := ⟨by decide, by decide, by decide, by decide⟩

theorem exLkSlope_ok : exLkSlope.IsScalar exLkSmem 32 := Or.inr ⟨by decide, ⟨by decide, by decide, by decide, by decide⟩, by decide, by decide⟩

theorem exPrSlope_ok : SlopeOk exPrSlope.t exLk exLkSmem 1 := ⟨⟨by decide, by decide, by decide, by decide⟩, by decide, by decide, by decide⟩

/-- The hypotheses of the theorems are met, and what the kernels compute. -/
example : exLk.Separate exLk ∧ exLk.strides.getLast? = some 1 ∧ exLk.Holds exLkMem 8 ∧ exPrSlope.t.Holds exLkSmem 8 ∧
    exLkQi.Typed ∧ exLkQs.Typed ∧ exLkQo.Typed ∧ chkLeakyQuant exLk exLkSlope.t exLk exLkQi exLkQs exLkQo = .ok ∧
    chkLeakyQuant exLk exPrSlope.t exLk exLkQi exLkQs exLkQo = .ok ∧
    scaleVal (exLkQi.scaleAt 0) (exLkQi.fracAt 0) / scaleVal (exLkQo.scaleAt 0) (exLkQo.fracAt 0) ≤ 2 ^ 14 :=
  ⟨Tensor.Separate.refl _ _ exLk_valid, by decide, holds_ofList (by decide) _, holds_ofList (by decide) _, by decide, by decide, by decide,
    by decide, by decide, by norm_num [scaleVal, exLkQi, exLkQo, SaQ.scaleAt, SaQ.fracAt, SaQ.idx]⟩

example : (krnLeakyFx .up 8 3 7 3 exLkSmem exLk exLkSlope exLk exLkMem).map (fun p => (p.1, p.2.toList)) =
    some (.ok, [99, 10, -2, 99, -5, 20, 99, 30, -7, 99, -25, 100, 99, 99]) := by decide +kernel

example : (krnPreluFx .up 8 3 7 3 exLkSmem 1 exLk exPrSlope exLk (fun _ => 0) exLkMem).map (fun p => (p.1, p.2.toList)) =
    some (.ok, [99, 10, -2, 99, -10, 20, 99, 30, -7, 99, -50, 100, 99, 99]) := by decide +kernel

example : (krnLeakySa .up exLkQi exLkQs exLkQo exLkSmem exLk exLkSlope exLk exLkMem).map (fun p => (p.1, p.2.toList)) =
    some (.ok, [99, 17, 5, 99, 3, 23, 99, 29, 2, 99, -9, 71, 99, 99]) := by decide +kernel

example : (krnPreluSa .up exLkQi exLkQs exLkQo exLkSmem 1 exLk exPrSlope exLk (fun _ => 0) exLkMem).map (fun p => (p.1, p.2.toList)) =
    some (.ok, [99, 17, 5, 99, 2, 23, 99, 29, 2, 99, -22, 71, 99, 99]) := by decide +kernel

/-- A refused call: two slopes for the leaky ReLU. -/
example : (krnLeakyFx .up 8 3 7 3 exLkSmem exLk exPrSlope exLk exLkMem).map (fun p => (p.1, p.2.toList)) =
    some (.shapeMismatch, [99, 10, -10, 99, -20, 20, 99, 30, -30, 99, -100, 100, 99, 99]) := by decide +kernel

/-! ## Where the property fails -/

/-- Rounding mode UP: -32768 times -1/65536 is one half, which is to be rounded up to 1; the kernel gives 0. -/
theorem c58_tie_violated :
    ∃ (t : Tensor) (mem smem mem' : Buf), t.Valid mem ∧ t.Valid smem ∧ mem.get 0 = -32768 ∧ smem.get 0 = -1 ∧
      krnLeakyFx .up 16 0 16 0 smem t { t := t } t mem = some (.ok, mem') ∧ mem'.get 0 = 0 ∧ ¬ LeakyFx .up 16 (-1) 16 (-32768) 0 := by
  refine ⟨{ dims := [⟨1, 1⟩], cap := 2, es := 2 }, Buf.ofList [-32768, 0], Buf.ofList [-1, 0], _, ⟨by decide, by decide, by decide, by decide⟩,
    ⟨by decide, by decide, by decide, by decide⟩, by decide, by decide, rfl, by decide +kernel, ?_⟩
  unfold LeakyFx
  rw [if_neg (by decide)]
  rintro ⟨v, h1, h2⟩
  unfold Scaled at h1
  rw [if_pos (by decide)] at h1
  have h3 : Scaled .up (-32768 * -1) 16 1 := by
    unfold Scaled
    rw [if_pos (by decide)]
    unfold RoundHalfUp
    decide
  have h4 : Scaled .up (-32768 * -1) 16 v := by
    unfold Scaled; rw [if_pos (by decide)]; exact h1
  have := scaled_unique h3 h4
  subst this
  exact absurd h2 (by decide)

/-- SA8 with an input scale of 1, a slope of 1/1024 and an output scale of 1/131072: element -1 should become -128 and becomes -32. -/
theorem c58_sa8_violated :
    ∃ (qi qs qo : SaQ) (t : Tensor) (mem smem mem' : Buf), t.Valid mem ∧ t.Valid smem ∧ mem.get 0 = -1 ∧ smem.get 0 = 1 ∧
      qi = { dim := -1, zp := [0], scale := [1], frac := [0] } ∧ qs = { dim := -1, zp := [0], scale := [1], frac := [10] } ∧
      qo = { dim := -1, zp := [0], scale := [1], frac := [17] } ∧
      krnLeakySa .up qi qs qo smem t { t := t } t mem = some (.ok, mem') ∧ mem'.get 0 = -32 :=
  ⟨_, _, _, { dims := [⟨1, 1⟩], cap := 1, es := 1 }, Buf.ofList [-1], Buf.ofList [1], _, ⟨by decide, by decide, by decide, by decide⟩,
    ⟨by decide, by decide, by decide, by decide⟩, by decide, by decide, rfl, rfl, rfl, rfl, by decide +kernel⟩

/-- The slopes 32/128 and 64/128 lie at addresses 0 and 2; the kernel takes what lies at address 1 for the second slope: -10 becomes -8 and not -5. -/
theorem c58_stride_violated :
    ∃ (t s : Tensor) (mem smem mem' : Buf), t.Valid mem ∧ s.Valid smem ∧ s.shape = [2, 1] ∧ s.strides = [2, 1] ∧ mem.get (t.addr [1, 0]) = -10 ∧
      smem.get (s.addr [1, 0]) = 64 ∧
      krnPreluFx .up 8 3 7 3 smem 0 t { t := s } t (fun _ => 0) mem = some (.ok, mem') ∧ mem'.get (t.addr [1, 0]) = -8 :=
  ⟨{ dims := [⟨2, 1⟩, ⟨1, 1⟩], cap := 2, es := 1 }, { dims := [⟨2, 2⟩, ⟨1, 1⟩], cap := 3, es := 1 }, Buf.ofList [-10, -10], Buf.ofList [32, 99, 64], _,
    ⟨by decide, by decide, by decide, by decide⟩, ⟨by decide, by decide, by decide, by decide⟩, by decide, by decide, by decide, by decide, rfl,
    by decide +kernel⟩

/-- `axis = -2` with a slope tensor of ones passes the check; the kernel then reads `shape[-2]`. -/
theorem c58_axis_violated :
    ∃ (t : Tensor) (mem : Buf), t.Valid mem ∧ chkPrelu (-2) t t t (fun _ => 0) = some .ok ∧
      krnPreluFx .up 8 3 7 3 mem (-2) t { t := t } t (fun _ => 0) mem = none :=
  ⟨{ dims := [⟨1, 1⟩], cap := 1, es := 1 }, Buf.ofList [5], ⟨by decide, by decide, by decide, by decide⟩, by decide, by decide⟩

end Mli
