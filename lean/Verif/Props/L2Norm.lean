import Verif.Lemmas.L2Num
import Verif.Lemmas.ConvRun
import Verif.Spec.L2Norm
import Verif.Props.Softmax

/-!
# C64: L2 normalisation
-/

namespace Mli

open Spec

variable {axis : Int} {tin tout : Tensor} {S : List ((Fin 2 → Int) × List (List Int))}

/-- The loops over one slice are those of the squashed axis tensor. -/
theorem l2Inner_eq {σ : Type} (hs : tin.shape = tout.shape) (hi : checkTensorPrivate tin = some .ok)
    (ho : checkTensorPrivate tout = some .ok) (i1 : tin.strides.getLast? = some 1) (o1 : tout.strides.getLast? = some 1)
    (hax : axis < tin.dims.length) (hax1 : -1 ≤ axis) (f : (Fin 2 → Int) → σ → Option σ) (s : σ) :
    l2Inner axis (joint2 tin.dims tout.dims) f s = nest4J (axisSq axis tin tout) f s := by
  obtain ⟨h1, h2, h3, h4⟩ := joint2_tensors hs
  obtain ⟨hn, hl⟩ := jnested_of_accepted (by omega) _ _ h1 (by intro j; split <;> assumption)
  have hp := hn.pos
  rw [show (∀ d ∈ (joint2 tin.dims tout.dims).reverse, 0 < d.n) = ∀ d ∈ joint2 tin.dims tout.dims, 0 < d.n from by simp] at hp
  unfold axisSq
  have hu : ∀ d ∈ (joint2 tin.dims tout.dims).getLast?, ∀ j, d.s j = 1 := by
    apply getLast_unit
    intro j
    have e : (if j = 0 then tin else tout : Tensor).strides = (joint2 tin.dims tout.dims).map (·.s j) := by
      rw [Tensor.strides, h1 j]; simp [jproj]
    rw [← e]
    split <;> assumption
  have hne : joint2 tin.dims tout.dims ≠ [] := by
    intro h
    rw [h] at h4
    have h5 : tin.dims = [] := List.length_eq_zero_iff.1 (by simpa using h4.symm)
    rw [Tensor.strides, h5] at i1
    simp at i1
  generalize joint2 tin.dims tout.dims = ds at *
  unfold l2Inner
  by_cases hneg : axis = -1
  · have hx : axisDims axis ds = ds := by rw [axisDims, if_neg (by omega)]
    obtain ⟨w1, w2⟩ := walk_squashGeneric ds hn hl
    rw [if_pos hneg, hx]
    unfold squashOneDim
    obtain ⟨d, rest, hd⟩ : ∃ d rest, ds.reverse = d :: rest := by
      cases h : ds.reverse with
      | nil => exact absurd (List.reverse_eq_nil_iff.mp h) hne
      | cons d rest => exact ⟨d, rest, rfl⟩
    have hlast : ds.getLast? = some d := by rw [List.getLast?_eq_head?_reverse, hd]; rfl
    have hu' : ∀ j, d.s j = 1 := hu d hlast
    have hds : ds = (d :: rest).reverse := by rw [← hd, List.reverse_reverse]
    simp only [hd, Option.bind_some]
    by_cases h0 : oneDimLoop d.n rest = 0
    · rw [if_neg (not_not.2 h0)]
    · rw [if_pos h0, flatJ_eq_walk, nest4J_eq_walk _ w2, w1]
      rw [hd] at hn
      conv_rhs => rw [hds]
      rw [(oneDimLoop_spec rest d hn hu' h0).2]
  · obtain ⟨a, rfl⟩ : ∃ a : Nat, axis = a := ⟨axis.toNat, by omega⟩
    have hal : a < ds.length := by rw [h4]; omega
    have hfa := axisAt_forall a ds hp
    obtain ⟨w1, w2⟩ := walk_squashGeneric (axisAt a ds) (JNested.shrink (List.rel_reverse hfa) hn) (by rw [← hfa.length_eq]; exact hl)
    rw [if_neg hneg, if_neg (by omega), axisDims_eq, nest4J_eq_walk _ w2, w1, walk_axisAt a ds hal, List.foldlM_map]
    simp only [Int.toNat_natCast, List.getElem?_eq_getElem hal, Option.bind_some]
    by_cases hla : (a : Int) = ds.length - 1
    · rw [if_pos hla]
      have hlast : ds.getLast? = some ds[a] := by
        rw [List.getLast?_eq_getElem?, List.getElem?_eq_getElem (by omega)]
        congr 2; omega
      have hu' := hu _ hlast
      simp only [flatJ, forRange_eq_foldlM, hu', mul_one, zero_add]
    · rw [if_neg hla, forRange_eq_foldlM]

theorem foldlM_sq {α : Type} (u : α → Int) : ∀ (L : List α) (s : Int), (∀ a ∈ L, InRange 16 (u a)) → 0 ≤ s →
    s + L.length * 2 ^ 30 ≤ 2 ^ 62 →
    L.foldlM (fun s a => macFx 64 s (u a) (u a)) s = some (s + (L.map fun a => u a ^ 2).sum) ∧ 0 ≤ (L.map fun a => u a ^ 2).sum ∧
      (L.map fun a => u a ^ 2).sum ≤ L.length * 2 ^ 30 := by
  have e1 : lo 16 = -32768 := by decide
  have e2 : hi 16 = 32767 := by decide
  have e3 : lo 64 = -2 ^ 63 := by decide
  have e4 : hi 64 = 2 ^ 63 - 1 := by decide
  intro L
  induction L with
  | nil => intro s _ _ _; simp
  | cons a L ih =>
    intro s hu h0 hB
    obtain ⟨u1, u2⟩ := hu a (by simp)
    have hsq : 0 ≤ u a * u a ∧ u a * u a ≤ 2 ^ 30 := by
      rw [e1] at u1; rw [e2] at u2
      constructor <;> nlinarith
    rw [List.length_cons] at hB
    push_cast at hB
    have hB' : s + (L.length * 2 ^ 30 + 2 ^ 30) ≤ 2 ^ 62 := by linarith
    have hm : macFx 64 s (u a) (u a) = some (s + u a * u a) := ckd_some ⟨by omega, by omega⟩
    obtain ⟨j1, j2, j3⟩ := ih (s + u a * u a) (fun b hb => hu b (by simp [hb])) (by omega) (by omega)
    rw [List.foldlM_cons, hm]
    simp only [Option.bind_eq_bind, Option.bind_some, List.map_cons, List.sum_cons, List.length_cons]
    rw [j1, sq]
    push_cast
    refine ⟨by rw [add_assoc], by omega, by linarith⟩

/-- One theorem for both kernels: `u` is the element without its zero point. -/
theorem l2_loops (m : Rnd) (w : Nat) (hw : w = 8 ∨ w = 16) (zp : Option Int) (o axis : Int) (tin tout : Tensor) (mem : Buf)
    (hi : tin.Valid mem) (ho : tout.Valid mem) (hsh : tin.shape = tout.shape) (i1 : tin.strides.getLast? = some 1)
    (o1 : tout.strides.getLast? = some 1) (hsep : tin.Separate tout)
    (hel : ∀ is, InShape tin.shape is → InRange 16 (l2Elem zp (mem.get (tin.addr is)))) (hax : axis < tin.dims.length) (hax1 : -1 ≤ axis) :
    ∃ mem' val, axisLoops axis tin tout
        (fun p => l2Slice m invsqrtLut w zp o axis (joint2 tin.dims tout.dims) (tin.base + p 0) (tout.base + p 1)) mem = some mem' ∧
      tout.Writes val mem mem' ∧
      ∀ is, InShape tin.shape is →
        let T := ((slice axis tin.shape is).map fun js => l2Elem zp (mem.get (tin.addr js)) ^ 2).sum
        |(val is : ℝ) - limitReal w ((2 : ℝ) ^ o * (l2Elem zp (mem.get (tin.addr is)) / Real.sqrt T))| ≤
          1 / 2 + 0.00018 * 2 ^ o * |l2Elem zp (mem.get (tin.addr is)) / Real.sqrt T| := by
  obtain ⟨S, hS⟩ := axis_slices axis tin tout hsh hi.accepted ho.accepted hax
  let u := fun is => l2Elem zp (mem.get (tin.addr is))
  let T := fun is => ((slice axis tin.shape is).map fun js => u js ^ 2).sum
  have hlen : ∀ is, ((slice axis tin.shape is).length : Int) < 2 ^ 31 := by
    intro is
    have h1 := hi.count_le
    rw [← length_rowMajor] at h1
    have : (slice axis tin.shape is).length ≤ (rowMajor tin.shape).length := List.length_filter_le _ _
    omega
  have hT : ∀ is, InShape tin.shape is → 0 ≤ T is ∧ T is ≤ 2 ^ 62 := by
    intro is his
    have h1 := hlen is
    obtain ⟨-, h2, h3⟩ := foldlM_sq u (slice axis tin.shape is) 0 (fun js hjs => hel js (slice_inShape hjs)) (le_refl _) (by omega)
    exact ⟨h2, by simp only [T]; omega⟩
  have hTz : ∀ is, InShape tin.shape is → T is = 0 → u is = 0 := by
    intro is his h0
    have := sum_ge_of_mem (fun js => u js ^ 2) (slice axis tin.shape is) (fun a _ => sq_nonneg _) is (mem_slice_self his)
    have h2 : u is ^ 2 ≤ 0 := by simp only [T] at h0; rw [h0] at this; exact this
    exact pow_eq_zero_iff (two_ne_zero) |>.1 (le_antisymm h2 (sq_nonneg _))
  have hTeq : ∀ is, ∀ js ∈ slice axis tin.shape is, T js = T is := by
    intro is js hjs
    simp only [T]
    rw [slice_congr hjs]
  have hscale : ∀ is : List Int, ∃ L : Int, InShape tin.shape is →
      (lutInterp m invsqrtLut 8 (l2NormalizeSum m (T is)).1).bind (lutOutput m invsqrtLut (.fx 16)) = some L := by
    intro is
    by_cases his : InShape tin.shape is
    · obtain ⟨L, h, -⟩ := l2_elem m w hw o (T is) (u is) (hT is his).1 (hT is his).2 (hel is his) (hTz is his)
      exact ⟨L, fun _ => h⟩
    · exact ⟨0, fun h => absurd h his⟩
  choose L hL using hscale
  have hLeq : ∀ is, InShape tin.shape is → ∀ js ∈ slice axis tin.shape is, L js = L is := by
    intro is his js hjs
    have h1 := hL is his
    have h2 := hL js (slice_inShape hjs)
    rw [hTeq is js hjs, h1] at h2
    exact (Option.some.inj h2).symm
  obtain ⟨mem', hrun, hwr⟩ := hS.run mem ho hsh hsep
    (fun p => l2Slice m invsqrtLut w zp o axis (joint2 tin.dims tout.dims) (tin.base + p 0) (tout.base + p 1))
    (fun is => l2Out m w zp (L is) (17 + ((l2NormalizeSum m (T is)).2 + 8) / 2 - o) (mem.get (tin.addr is))) (by
      intro s hs d hd hin
      obtain ⟨i0, hi0, -⟩ := hS.first s hs
      have hsin := hS.mem s hs
      have hin0 := hsin i0 hi0
      have hpm := hS.perm s hs i0 hi0
      have hmem : ∀ is ∈ s.2, is ∈ slice axis tin.shape i0 := fun is his => hpm.mem_iff.1 his
      have tIn : SliceIn tin s.2 d := sliceIn_of_valid hi hd hsin
      have tOut : SliceIn tout s.2 d := sliceIn_of_valid ho hd (by rw [← hsh]; exact hsin)
      have hsum : l2Inner axis (joint2 tin.dims tout.dims)
          (fun a x => (d.rd (tin.base + s.1 0 + a 0)).bind fun v => macFx 64 x (l2Elem zp v) (l2Elem zp v)) 0 = some (T i0) := by
        rw [l2Inner_eq hsh hi.accepted ho.accepted i1 o1 hax hax1]
        refine (hS.inner' hs (fun i _ x => (d.rd i).bind fun v => macFx 64 x (l2Elem zp v) (l2Elem zp v)) 0).trans ?_
        have hl := hlen i0
        rw [← hpm.length_eq] at hl
        obtain ⟨h2, -, -⟩ := foldlM_sq u s.2 0 (fun js hjs => hel js (hsin js hjs)) (le_refl _) (by omega)
        rw [zero_add, (hpm.map _).sum_eq] at h2
        simp only [T]
        rw [← h2]
        apply foldlM_congr_mem
        intro x js hjs
        rw [Buf.rd_some (tIn js hjs), Option.bind_some, hin js hjs]
      obtain ⟨d1, e1, e2⟩ := hS.map hs mem d ho hd hsh hsep tIn tOut
        (fun v => some (l2Out m w zp (L i0) (17 + ((l2NormalizeSum m (T i0)).2 + 8) / 2 - o) v))
        (fun is => l2Out m w zp (L is) (17 + ((l2NormalizeSum m (T is)).2 + 8) / 2 - o) (mem.get (tin.addr is))) (by
          intro is his
          rw [hin is his, hLeq i0 hin0 is (hmem is his), hTeq i0 is (hmem is his)])
      refine ⟨d1, ?_, e2⟩
      unfold l2Slice
      rw [hsum, Option.bind_some]
      simp only
      rw [hL i0 hin0, Option.bind_some, l2Inner_eq hsh hi.accepted ho.accepted i1 o1 hax hax1, ← e1]
      rfl)
  refine ⟨mem', _, hrun, hwr, ?_⟩
  intro is his
  obtain ⟨L', h1, r, h2, h3⟩ := l2_elem m w hw o (T is) (u is) (hT is his).1 (hT is his).2 (hel is his) (hTz is his)
  rw [hL is his] at h1
  have h1 := Option.some.inj h1
  subst h1
  subst h2
  exact h3

/-- The scale of the input does not matter. -/
theorem l2norm_scale (shape : List Int) (u : List Int → Int) (c : ℝ) (hc : 0 < c) (is : List Int) (his : InShape shape is) :
    l2norm axis shape (fun js => (u js : ℝ) * c) is = u is / Real.sqrt (((slice axis shape is).map fun js => u js ^ 2).sum : Int) := by
  unfold l2norm
  have hsum : ((slice axis shape is).map fun js => ((u js : ℝ) * c) ^ 2).sum = c ^ 2 * (((slice axis shape is).map fun js => u js ^ 2).sum : Int) := by
    rw [Int.cast_list_sum, List.map_map, ← List.sum_map_mul_left]
    congr 1
    apply List.map_congr_left
    intro js _
    simp only [Function.comp_apply]
    push_cast
    ring
  split
  · rename_i h
    have h2 := h is (mem_slice_self his)
    have h3 : (u is : ℝ) = 0 := by
      rcases mul_eq_zero.1 h2 with h4 | h4
      · exact h4
      · exact absurd h4 hc.ne'
    rw [h3, zero_div]
  · rw [hsum, Real.sqrt_mul (sq_nonneg c), Real.sqrt_sq hc.le, mul_comm c, mul_div_mul_right _ _ hc.ne']

/-- C64, 16-bit fixed point.  Along any axis, or over the whole tensor for axis -1, every element of the output is the input element divided by
the Euclidean length of its slice, in units of `2^-15` and limited to the range of the output, up to half a unit and a relative error of 0.00018.
Slices of any length, any number of fractional bits, in place or not; a slice of zeros gives zeros. -/
theorem c64_l2norm_fx16_partial (m : Rnd) (f axis : Int) (tin tout : Tensor) (mem : Buf) (hi : tin.Valid mem) (ho : tout.Valid mem)
    (hsh : tin.shape = tout.shape) (i1 : tin.strides.getLast? = some 1) (o1 : tout.strides.getLast? = some 1) (hsep : tin.Separate tout)
    (hel : ∀ is, InShape tin.shape is → InRange 16 (mem.get (tin.addr is))) (hax : axis < tin.dims.length) (hax1 : -1 ≤ axis) :
    ∃ mem' val, krnL2NormFx16 m invsqrtLut axis tin tout mem = some (.ok, mem') ∧ tout.Writes val mem mem' ∧
      ∀ is, InShape tin.shape is →
        let P := l2norm axis tin.shape (fun js => fxReal (mem.get (tin.addr js)) f) is
        |(val is : ℝ) - limitReal 16 (2 ^ 15 * P)| ≤ 1 / 2 + 5.9 * |P| := by
  obtain ⟨mem', val, h1, h2, h3⟩ := l2_loops m 16 (Or.inr rfl) none 15 axis tin tout mem hi ho hsh i1 o1 hsep hel hax hax1
  refine ⟨mem', val, ?_, h2, ?_⟩
  · unfold krnL2NormFx16
    rw [chkSoftmax_pass hi.accepted ho.accepted hsh i1 o1 hax, Option.bind_some, if_neg (by simp)]
    simp only
    rw [h1]; rfl
  · intro is his
    have h := h3 is his
    rw [show (2 : ℝ) ^ (15 : Int) = 2 ^ 15 by norm_num] at h
    simp only [fxReal, div_eq_mul_inv _ ((2 : ℝ) ^ f)]
    rw [l2norm_scale tin.shape (fun js => mem.get (tin.addr js)) _ (by positivity) is his]
    simp only [l2Elem] at h
    refine h.trans ?_
    generalize ((mem.get (tin.addr is) : Int) : ℝ) / Real.sqrt (((slice axis tin.shape is).map fun js => mem.get (tin.addr js) ^ 2).sum : Int) = P
    have := abs_nonneg P
    linarith

/-- C64, SA8 input (zero point `zp`, scale `sc / 2^sh`); the output has zero point 0 and scale `2^-7`. -/
theorem c64_l2norm_sa8_partial (m : Rnd) (q : SaQ) (axis : Int) (tin tout : Tensor) (mem : Buf) (hi : tin.Valid mem) (ho : tout.Valid mem)
    (hsh : tin.shape = tout.shape) (i1 : tin.strides.getLast? = some 1) (o1 : tout.strides.getLast? = some 1) (hsep : tin.Separate tout)
    (hel : ∀ is, InShape tin.shape is → InRange 8 (mem.get (tin.addr is))) (hax : axis < tin.dims.length) (hax1 : -1 ≤ axis)
    (hq : chkQuant tin q 7 = .ok) (hdim : q.dim < 0) :
    ∃ mem' val, krnL2NormSa8 m invsqrtLut q axis tin tout mem = some (.ok, mem') ∧ tout.Writes val mem mem' ∧
      ∀ is, InShape tin.shape is →
        let P := l2norm axis tin.shape (fun js => fxReal ((mem.get (tin.addr js) - q.zpAt 0) * q.scaleAt 0) (q.fracAt 0)) is
        |(val is : ℝ) - limitReal 8 (2 ^ 7 * P)| ≤ 1 / 2 + 0.024 * |P| := by
  obtain ⟨k1, k2, k3⟩ := chkQuant_ok hq (Or.inl hdim) (k := 0)
  have e1 : lo 8 = -128 := by decide
  have e2 : Spec.hi 8 = 127 := by decide
  have e3 : lo 16 = -32768 := by decide
  have e4 : Spec.hi 16 = 32767 := by decide
  norm_num at k2 k3
  have hu : ∀ is, InShape tin.shape is → l2Elem (some (q.zpAt 0)) (mem.get (tin.addr is)) = mem.get (tin.addr is) - q.zpAt 0 := by
    intro is his
    obtain ⟨a1, a2⟩ := hel is his
    simp only [l2Elem]
    rw [subFx_eq ⟨by omega, by omega⟩ ⟨by omega, by omega⟩, clamp_of_inRange ⟨by omega, by omega⟩]
  obtain ⟨mem', val, h1, h2, h3⟩ := l2_loops m 8 (Or.inl rfl) (some (q.zpAt 0)) 7 axis tin tout mem hi ho hsh i1 o1 hsep
    (by
      intro is his
      rw [hu is his]
      obtain ⟨a1, a2⟩ := hel is his
      exact ⟨by omega, by omega⟩) hax hax1
  refine ⟨mem', val, ?_, h2, ?_⟩
  · unfold krnL2NormSa8
    rw [chkSoftmax_pass hi.accepted ho.accepted hsh i1 o1 hax, Option.bind_some, if_neg (by simp), if_neg (by simp [hq]), if_neg (by simpa using hdim)]
    simp only
    rw [h1]; rfl
  · intro is his
    have h := h3 is his
    rw [show (2 : ℝ) ^ (7 : Int) = 2 ^ 7 by norm_num, hu is his,
      show ((slice axis tin.shape is).map fun js => l2Elem (some (q.zpAt 0)) (mem.get (tin.addr js)) ^ 2) =
        (slice axis tin.shape is).map fun js => (mem.get (tin.addr js) - q.zpAt 0) ^ 2 from
        List.map_congr_left fun js hjs => by rw [hu js (slice_inShape hjs)]] at h
    have hc : (0 : ℝ) < q.scaleAt 0 / 2 ^ (q.fracAt 0) := by
      have : (0 : ℝ) < q.scaleAt 0 := by exact_mod_cast k1
      positivity
    simp only [fxReal, Int.cast_mul, mul_div_assoc]
    rw [l2norm_scale tin.shape (fun js => mem.get (tin.addr js) - q.zpAt 0) _ hc is his]
    refine h.trans ?_
    generalize ((mem.get (tin.addr is) - q.zpAt 0 : Int) : ℝ) /
      Real.sqrt (((slice axis tin.shape is).map fun js => (mem.get (tin.addr js) - q.zpAt 0) ^ 2).sum : Int) = P
    have := abs_nonneg P
    linarith

/-- C64, the axis: an axis of -2 or less passes the checks, but the kernel then reads outside of the array of sizes. -/
theorem c64_axis_violated (m : Rnd) (l : Lut) (axis : Int) (tin tout : Tensor) (mem : Buf) (hi : tin.Valid mem) (ho : tout.Valid mem)
    (hsh : tin.shape = tout.shape) (i1 : tin.strides.getLast? = some 1) (o1 : tout.strides.getLast? = some 1) (hax : axis < -1) :
    chkSoftmax axis tin tout = some .ok ∧ krnL2NormFx16 m l axis tin tout mem = none := by
  have h := chkSoftmax_pass hi.accepted ho.accepted hsh i1 o1 (axis := axis) (by omega)
  refine ⟨h, ?_⟩
  unfold krnL2NormFx16
  rw [h, Option.bind_some, if_neg (by simp)]
  unfold axisLoops nonAxisDims
  rw [if_neg (by omega)]
  simp only [List.replicate, Int.toNat_one, forRange_eq_foldlM, List.range_one, List.foldlM_cons, List.foldlM_nil]
  unfold l2Slice l2Inner
  rw [if_neg (by omega), if_pos hax]
  rfl

/-- C64, status codes: a call which does not return `MLI_STATUS_OK` writes nothing; one which does has tensors of the same shape with adjacent
innermost elements, an axis below the rank and (SA8) valid quantization parameters for the whole tensor. -/
theorem c64_status (m : Rnd) (l : Lut) (q : SaQ) (axis : Int) (tin tout : Tensor) (mem mem' : Buf) (s : Status) :
    (krnL2NormFx16 m l axis tin tout mem = some (s, mem') →
      (s = .ok → tin.shape = tout.shape ∧ tin.strides.getLast?.getD 1 = 1 ∧ tout.strides.getLast?.getD 1 = 1 ∧ axis < tin.dims.length) ∧
      (s ≠ .ok → mem' = mem)) ∧
    (krnL2NormSa8 m l q axis tin tout mem = some (s, mem') →
      (s = .ok → tin.shape = tout.shape ∧ tin.strides.getLast?.getD 1 = 1 ∧ tout.strides.getLast?.getD 1 = 1 ∧ axis < tin.dims.length ∧
        q.dim < 0 ∧ 0 < q.scaleAt 0 ∧ -128 ≤ q.zpAt 0 ∧ q.zpAt 0 ≤ 127) ∧
      (s ≠ .ok → mem' = mem)) := by
  constructor
  · intro h
    unfold krnL2NormFx16 at h
    obtain ⟨c, hc, h⟩ := Option.bind_eq_some_iff.1 h
    by_cases h1 : c = .ok
    swap
    · rw [if_pos h1] at h; simp only [Option.some.injEq, Prod.mk.injEq] at h
      exact ⟨fun e => absurd (h.1.trans e) h1, fun _ => h.2.symm⟩
    rw [if_neg (not_not.2 h1)] at h
    simp only [Option.map_eq_some_iff, Prod.mk.injEq] at h
    obtain ⟨_, -, e, -⟩ := h
    obtain ⟨c1, c2⟩ := chkSoftmax_ok (h1 ▸ hc)
    obtain ⟨c3, c4, c5⟩ := chkBasicActivation_ok c1
    exact ⟨fun _ => ⟨c3, c4, c5, c2⟩, fun hn => absurd e.symm hn⟩
  · intro h
    unfold krnL2NormSa8 at h
    obtain ⟨c, hc, h⟩ := Option.bind_eq_some_iff.1 h
    by_cases h1 : c = .ok
    swap
    · rw [if_pos h1] at h; simp only [Option.some.injEq, Prod.mk.injEq] at h
      exact ⟨fun e => absurd (h.1.trans e) h1, fun _ => h.2.symm⟩
    rw [if_neg (not_not.2 h1)] at h
    by_cases h2 : chkQuant tin q 7 = .ok
    swap
    · rw [if_pos h2] at h; simp only [Option.some.injEq, Prod.mk.injEq] at h
      exact ⟨fun e => absurd (h.1.trans e) h2, fun _ => h.2.symm⟩
    rw [if_neg (not_not.2 h2)] at h
    by_cases h3 : q.dim < 0
    swap
    · rw [if_pos h3] at h; simp only [Option.some.injEq, Prod.mk.injEq] at h
      refine ⟨fun e => ?_, fun _ => h.2.symm⟩
      rw [← h.1] at e; cases e
    rw [if_neg (not_not.2 h3)] at h
    simp only [Option.map_eq_some_iff, Prod.mk.injEq] at h
    obtain ⟨_, -, e, -⟩ := h
    obtain ⟨c1, c2⟩ := chkSoftmax_ok (h1 ▸ hc)
    obtain ⟨c3, c4, c5⟩ := chkBasicActivation_ok c1
    obtain ⟨k1, k2, k3⟩ := chkQuant_ok h2 (Or.inl h3) (k := 0)
    exact ⟨fun _ => ⟨c3, c4, c5, c2, h3, k1, by simpa using k2, by simpa using k3⟩, fun hn => absurd e.symm hn⟩

/-! ### Non-vacuity -/

/-- Rows of 3 with a gap, in place: the hypotheses hold, and these are the results along both axes and over the whole tensor. -/
example :
    let t : Tensor := { dims := [⟨2, 4⟩, ⟨3, 1⟩], base := 1, cap := 14, es := 2 }
    let b := Buf.ofList [9, 4096, -8192, 0, 9, 2048, -32765, 1000, 9]
    t.Valid b ∧ (∀ is ∈ rowMajor t.shape, InRange 16 (b.get (t.addr is))) ∧
    ((krnL2NormFx16 .convergent invsqrtLut (-2) t t b).map fun p => (p.1, p.2.toList)) = none ∧
    ((krnL2NormFx16 .convergent invsqrtLut (-1) t t b).map fun p => (p.1, p.2.toList)) =
      some (.ok, [9, 3936, -7872, 0, 9, 1968, -31487, 961, 9]) ∧
    ((krnL2NormFx16 .convergent invsqrtLut 0 t t b).map fun p => (p.1, p.2.toList)) =
      some (.ok, [9, 29308, -7948, 0, 9, 14654, -31789, 32767, 9]) ∧
    ((krnL2NormFx16 .convergent invsqrtLut 1 t t b).map fun p => (p.1, p.2.toList)) =
      some (.ok, [9, 14654, -29308, 0, 9, 2043, -32689, 998, 9]) ∧
    ((krnL2NormFx16 .convergent invsqrtLut 2 t t b).map fun p => p.1) = some .badFuncCfg := by
  refine ⟨⟨by decide, by decide, by decide, by decide⟩, by decide, by decide +kernel, by decide +kernel, by decide +kernel, by decide +kernel,
    by decide +kernel⟩

example :
    let t : Tensor := { dims := [⟨2, 4⟩, ⟨3, 1⟩], base := 1, cap := 7, es := 1 }
    let b := Buf.ofList [9, 40, -81, 3, 9, 20, -127, 3, 9]
    let q : SaQ := { dim := -1, zp := [3], scale := [5], frac := [8] }
    t.Valid b ∧ chkQuant t q 7 = .ok ∧ (∀ is ∈ rowMajor t.shape, InRange 8 (b.get (t.addr is))) ∧
    ((krnL2NormSa8 .convergent invsqrtLut q (-1) t t b).map fun p => (p.1, p.2.toList)) =
      some (.ok, [9, 30, -67, 0, 9, 14, -104, 0, 9]) ∧
    ((krnL2NormSa8 .convergent invsqrtLut q 0 t t b).map fun p => (p.1, p.2.toList)) =
      some (.ok, [9, 116, -69, 0, 9, 53, -108, 0, 9]) ∧
    ((krnL2NormSa8 .convergent invsqrtLut q 1 t t b).map fun p => (p.1, p.2.toList)) =
      some (.ok, [9, 52, -117, 0, 9, 17, -127, 0, 9]) := by
  refine ⟨⟨by decide, by decide, by decide, by decide⟩, by decide, by decide, by decide +kernel, by decide +kernel, by decide +kernel⟩

end Mli
