import Verif.Lemmas.AxisRun
import Verif.Lemmas.SoftmaxNum
import Verif.Props.ConvSa8
import Verif.Lemmas.ConvRun

/-!
# C63: softmax
-/

namespace Mli

open Spec

variable {axis : Int} {tin tout : Tensor} {S : List ((Fin 2 → Int) × List (List Int))}

theorem mem_slice_self {shape is : List Int} (h : InShape shape is) : is ∈ slice axis shape is :=
  List.mem_filter.2 ⟨mem_rowMajor.2 h, by simp [sameSlice]⟩

theorem slice_inShape {shape is js : List Int} (h : js ∈ slice axis shape is) : InShape shape js :=
  mem_rowMajor.1 (List.mem_filter.1 h).1

theorem slice_congr {shape is js : List Int} (h : js ∈ slice axis shape is) : slice axis shape js = slice axis shape is := by
  have := (List.mem_filter.1 h).2
  unfold slice
  congr 1
  funext ks
  unfold sameSlice at *
  by_cases ha : axis < 0
  · simp [ha]
  · simp only [ha, decide_false, Bool.false_or, decide_eq_true_eq] at *
    rw [this]

theorem sum_ge_of_mem {α : Type} (E : α → Int) (L : List α) (h : ∀ a ∈ L, 0 ≤ E a) (i : α) (hi : i ∈ L) : E i ≤ (L.map E).sum :=
  List.single_le_sum (by
    intro y hy
    obtain ⟨b, hb, rfl⟩ := List.mem_map.1 hy
    exact h b hb) _ (List.mem_map.2 ⟨i, hi, rfl⟩)

theorem sum_le_of_bound {α : Type} (E : α → Int) (B : Int) : ∀ (L : List α), (∀ a ∈ L, E a ≤ B) → (L.map E).sum ≤ L.length * B := by
  intro L
  induction L with
  | nil => intro _; simp
  | cons a L ih =>
    intro h
    have h1 := ih fun b hb => h b (by simp [hb])
    have h2 := h a (by simp)
    rw [List.map_cons, List.sum_cons, List.length_cons]
    push_cast
    have : ((L.length : Int) + 1) * B = L.length * B + B := by ring
    omega

/-- The checks pass. -/
theorem chkSoftmax_pass (hi : checkTensorPrivate tin = some .ok) (ho : checkTensorPrivate tout = some .ok) (hsh : tin.shape = tout.shape)
    (i1 : tin.strides.getLast? = some 1) (o1 : tout.strides.getLast? = some 1) (hax : axis < tin.dims.length) :
    chkSoftmax axis tin tout = some .ok := by
  have hchk : chkBasicActivation tin tout = some .ok := by
    simp [chkBasicActivation, hi, ho, sameShape, hsh, innerOne, i1, o1]
  unfold chkSoftmax
  rw [hchk, Option.bind_some, if_neg (by simp), if_neg (by simpa using hax)]

/-- C63, 16-bit fixed point.  Along any axis (or over the whole tensor), for tensors of any shape and strides, in place or not, with any number of
fractional bits, slices of at most 65535 elements: the output is the softmax of the input in units of `2^-15`, limited to the range of the output,
up to `9.2 + 5.7 * n * P` units where `n` is the number of elements of the slice and `P` the exact value.  No result is negative, and the order of
the elements of a slice is kept. -/
theorem c63_softmax_fx16 (m : Rnd) (f axis : Int) (tin tout : Tensor) (mem : Buf) (hi : tin.Valid mem) (ho : tout.Valid mem)
    (hsh : tin.shape = tout.shape) (i1 : tin.strides.getLast? = some 1) (o1 : tout.strides.getLast? = some 1) (hsep : tin.Separate tout)
    (hel : ∀ is, InShape tin.shape is → InRange 16 (mem.get (tin.addr is))) (hax : axis < tin.dims.length)
    (hlen : ∀ is, InShape tin.shape is → (slice axis tin.shape is).length ≤ 65535) :
    ∃ mem' val, krnSoftmaxFx m expnegLut 16 f axis tin tout mem = some (.ok, mem') ∧ tout.Writes val mem mem' ∧
      ∀ is, InShape tin.shape is →
        (let P := softmax axis tin.shape (fun js => fxReal (mem.get (tin.addr js)) f) is
         |(val is : ℝ) - limitReal 16 (2 ^ 15 * P)| ≤ 9.2 + 5.7 * (slice axis tin.shape is).length * P) ∧
        0 ≤ val is ∧
        ∀ js ∈ slice axis tin.shape is, mem.get (tin.addr is) ≤ mem.get (tin.addr js) → val is ≤ val js := by
  obtain ⟨S, hS⟩ := axis_slices axis tin tout hsh hi.accepted ho.accepted hax
  -- the maximum of the slice of each position
  have htop : ∀ is : List Int, ∃ M : Int, InShape tin.shape is → (∀ js ∈ slice axis tin.shape is, mem.get (tin.addr js) ≤ M) ∧
      ∃ js ∈ slice axis tin.shape is, mem.get (tin.addr js) = M := by
    intro is
    by_cases his : InShape tin.shape is
    · obtain ⟨M, h⟩ := slice_top axis tin.shape (fun js => mem.get (tin.addr js)) is his
      exact ⟨M, fun _ => h⟩
    · exact ⟨0, fun h => absurd h his⟩
  choose M hM using htop
  have hMin : ∀ is, InShape tin.shape is → InRange 16 (M is) := by
    intro is his
    obtain ⟨js, h1, h2⟩ := (hM is his).2
    rw [← h2]; exact hel js (slice_inShape h1)
  have hMeq : ∀ is, InShape tin.shape is → ∀ js ∈ slice axis tin.shape is, M js = M is := by
    intro is his js hjs
    have h1 := hM is his
    have h2 := hM js (slice_inShape hjs)
    rw [slice_congr hjs] at h2
    obtain ⟨a, a1, a2⟩ := h1.2
    obtain ⟨b, b1, b2⟩ := h2.2
    have := h1.1 b b1
    have := h2.1 a a1
    omega
  -- the exponentials
  have hexp : ∀ is : List Int, ∃ e : Int, InShape tin.shape is →
      lutElem m expnegLut (.fxOff (M is)) (.fx 16) f (mem.get (tin.addr is)) = some e ∧ 0 ≤ e ∧ e ≤ 32767 ∧
        (mem.get (tin.addr is) = M is → e = 32767) ∧
        |(e : ℝ) - 2 ^ 15 * Real.exp (fxReal (mem.get (tin.addr is) - M is) f)| ≤ 45 / 8 := by
    intro is
    by_cases his : InShape tin.shape is
    · obtain ⟨e, h⟩ := exp_elem_fx m f _ _ (hel is his) (hMin is his) ((hM is his).1 is (mem_slice_self his))
      exact ⟨e, fun _ => h⟩
    · exact ⟨0, fun h => absurd h his⟩
  choose E hE using hexp
  -- their sum
  have hsum : ∀ is, InShape tin.shape is → 32767 ≤ ((slice axis tin.shape is).map E).sum ∧ ((slice axis tin.shape is).map E).sum ≤ 2147385345 := by
    intro is his
    constructor
    · obtain ⟨js, h1, h2⟩ := (hM is his).2
      have h3 := (hE js (slice_inShape h1)).2.2.2.1 (by rw [hMeq is his js h1]; exact h2)
      have := sum_ge_of_mem E _ (fun a ha => (hE a (slice_inShape ha)).2.1) js h1
      omega
    · have := sum_le_of_bound E 32767 (slice axis tin.shape is) (fun a ha => (hE a (slice_inShape ha)).2.2.1)
      have := hlen is his
      omega
  have hrec : ∀ is : List Int, ∃ (R : Int) (k : Nat), InShape tin.shape is →
      softmaxRecip m 16 ((slice axis tin.shape is).map E).sum = some (R, 16 - (k : Int)) ∧ k ≤ 16 ∧
      2 ^ (14 + k) ≤ ((slice axis tin.shape is).map E).sum ∧ 0 ≤ R ∧ R ≤ 32767 ∧
      2 ^ (29 + k) - 49152 * 2 ^ k ≤ R * ((slice axis tin.shape is).map E).sum ∧
      R * ((slice axis tin.shape is).map E).sum ≤ 2 ^ (29 + k) + 49152 * 2 ^ k := by
    intro is
    by_cases his : InShape tin.shape is
    · obtain ⟨R, k, h⟩ := softmaxRecip_spec m (hsum is his).1 (hsum is his).2
      exact ⟨R, k, fun _ => h⟩
    · exact ⟨0, 0, fun h => absurd h his⟩
  choose R k hR using hrec
  have hRk : ∀ is, InShape tin.shape is → ∀ js ∈ slice axis tin.shape is, R js = R is ∧ k js = k is := by
    intro is his js hjs
    have h1 := (hR is his).1
    have h2 := (hR js (slice_inShape hjs)).1
    rw [slice_congr hjs, h1] at h2
    have h3 := Option.some.inj h2
    have h4 := congrArg Prod.fst h3
    have h5 := congrArg Prod.snd h3
    simp only at h4 h5
    omega
  obtain ⟨mem', hrun, hw⟩ := hS.run mem ho hsh hsep
    (fun o => softmaxFxSlice m expnegLut 16 f (((16 : Nat) : Int) - 1) (axisSq axis tin tout) (tin.base + o 0) (tout.base + o 1))
    (fun is => clamp 16 (rnd m (R is * E is) (14 + k is))) (by
      intro s hs d hd hin
      obtain ⟨i0, hi0, -⟩ := hS.first s hs
      have hsin := hS.mem s hs
      have hin0 := hsin i0 hi0
      have hpm := hS.perm s hs i0 hi0
      have hmem : ∀ is ∈ s.2, is ∈ slice axis tin.shape i0 := fun is his => hpm.mem_iff.1 his
      have tIn : SliceIn tin s.2 d := sliceIn_of_valid hi hd hsin
      have tOut : ∀ d : Buf, d.size = mem.size → SliceIn tout s.2 d := fun d hd =>
        sliceIn_of_valid ho hd (by rw [← hsh]; exact hsin)
      obtain ⟨M', a1, a2, a3⟩ := hS.max hs d tIn
      have hM' : M' = M i0 := by
        obtain ⟨js, b1, b2⟩ := a3
        obtain ⟨ks, c1, c2⟩ := (hM i0 hin0).2
        have d1 := (hM i0 hin0).1 js (hmem js b1)
        have d2 := a2 ks (hpm.mem_iff.2 c1)
        rw [hin js b1] at b2
        rw [hin ks (hpm.mem_iff.2 c1)] at d2
        omega
      subst hM'
      obtain ⟨d1, e1, e2⟩ := hS.map hs mem d ho hd hsh hsep tIn (tOut d hd) (lutElem m expnegLut (.fxOff (M i0)) (.fx 16) f) E (by
        intro is his
        rw [hin is his, ← hMeq i0 hin0 is (hmem is his)]
        exact (hE is (hsin is his)).1)
      have hd1 : d1.size = mem.size := e2.size.trans hd
      have f1 := hS.sumOut hs d1 (tOut d1 hd1) E 32767 (fun is his => ⟨e2.hit is his, (hE is (hsin is his)).2.1, (hE is (hsin is his)).2.2.1⟩)
        (by have := hlen i0 hin0; rw [← hpm.length_eq] at this; omega)
      have hse : (s.2.map E).sum = ((slice axis tin.shape i0).map E).sum := (hpm.map E).sum_eq
      obtain ⟨r1, r2, r3, r4, r5, r6, r7⟩ := hR i0 hin0
      obtain ⟨d2, g1, g2⟩ := hS.update hs mem d1 ho hd1 hsh (tOut d1 hd1)
        (fun e => accCast16 m (R i0 * e) (minFx (15 * 2 + (15 - (16 - (k i0 : Int))) - 15) 31))
      refine ⟨d2, ?_, (e2.over g2).val_congr ?_⟩
      · unfold softmaxFxSlice
        rw [a1, Option.bind_some, e1, Option.bind_some, f1, Option.bind_some, hse, r1, Option.bind_some]
        exact g1
      · intro is his
        have hq := hRk i0 hin0 is (hmem is his)
        rw [e2.hit is his, hq.1, hq.2]
        have hEi := hE is (hsin is his)
        exact (softmax_out_fx m r2 r3 hEi.2.1 hEi.2.2.1 r4 r5 r6 r7).1)
  refine ⟨mem', _, ?_, hw, ?_⟩
  · unfold krnSoftmaxFx
    rw [chkSoftmax_pass hi.accepted ho.accepted hsh i1 o1 hax, Option.bind_some, if_neg (by simp)]
    simp only
    rw [hrun]; rfl
  intro is his
  obtain ⟨r1, r2, r3, r4, r5, r6, r7⟩ := hR is his
  have hEi := hE is his
  have hnum := (softmax_out_fx m r2 r3 hEi.2.1 hEi.2.2.1 r4 r5 r6 r7).2
  refine ⟨?_, ?_, ?_⟩
  · simp only
    have hq := quotient_real (slice axis tin.shape is) E (fun js => Real.exp (fxReal (mem.get (tin.addr js) - M is) f)) (45 / 8) (by norm_num)
      (fun a _ => Real.exp_pos _)
      (fun a ha => by rw [← hMeq is his a ha]; exact (hE a (slice_inShape ha)).2.2.2.2) (hsum is his).1 is (mem_slice_self his)
    have hsm : Real.exp (fxReal (mem.get (tin.addr is) - M is) f) /
        ((slice axis tin.shape is).map fun js => Real.exp (fxReal (mem.get (tin.addr js) - M is) f)).sum =
        softmax axis tin.shape (fun js => fxReal (mem.get (tin.addr js)) f) is := by
      unfold softmax
      have h := softmax_shift (slice axis tin.shape is) (fun js => fxReal (mem.get (tin.addr js)) f) (fxReal (M is) f) is
      simp only [fxReal, Int.cast_sub, sub_div] at h ⊢
      exact h
    rw [hsm] at hq
    generalize softmax axis tin.shape (fun js => fxReal (mem.get (tin.addr js)) f) is = P at *
    rw [clamp_limitReal]
    refine (limitReal_lip 16 _ _).trans ?_
    have hle : (E is : ℝ) / ((slice axis tin.shape is).map E).sum ≤ 1 := by
      have h1 := sum_ge_of_mem E (slice axis tin.shape is) (fun a ha => (hE a (slice_inShape ha)).2.1) is (mem_slice_self his)
      have h2 : (0 : ℝ) < (((slice axis tin.shape is).map E).sum : Int) := by have := (hsum is his).1; exact_mod_cast (by omega)
      rw [div_le_one h2]
      exact_mod_cast h1
    generalize (((slice axis tin.shape is).map E).sum) = T at *
    have hn : (0:ℝ) ≤ ((slice axis tin.shape is).length : ℝ) * P := by
      have hP : 0 ≤ P := by
        rw [← hsm]
        apply div_nonneg (Real.exp_pos _).le
        apply List.sum_nonneg
        intro y hy
        obtain ⟨b, -, rfl⟩ := List.mem_map.1 hy
        exact (Real.exp_pos _).le
      positivity
    rw [mul_assoc]
    generalize ((slice axis tin.shape is).length : ℝ) * P = nP at *
    have h3 : 3 * (E is : ℝ) / T = 3 * ((E is : ℝ) / T) := by ring
    have := abs_add_le (((rnd m (R is * E is) (14 + k is) : Int) : ℝ) - 2 ^ 15 * (E is : ℝ) / T) (2 ^ 15 * (E is : ℝ) / T - 2 ^ 15 * P)
    rw [sub_add_sub_cancel] at this
    refine this.trans ((add_le_add hnum hq).trans ?_)
    rw [h3]
    norm_num
    linarith
  · have h0 : 0 ≤ rnd m (R is * E is) (14 + k is) := by
      have := rnd_mono m (Int.mul_nonneg r4 hEi.2.1) (14 + k is)
      rwa [rnd_zero] at this
    have := clamp_mono (w := 16) h0
    rwa [show clamp 16 0 = 0 by decide] at this
  · intro js hjs hle
    have hq := hRk is his js hjs
    simp only [hq.1, hq.2]
    apply clamp_mono
    apply rnd_mono
    apply Int.mul_le_mul_of_nonneg_left _ r4
    refine exp_elem_fx_mono m f _ _ (M is) _ _ (hel is his) (hel js (slice_inShape hjs)) (hMin is his) hle (hE is his).1 ?_
    rw [← hMeq is his js hjs]
    exact (hE js (slice_inShape hjs)).1

/-- C63, SA8 input (zero point `zp`, scale `sc / 2^sh`); the output has zero point -128 and scale `2^-8`. -/
theorem c63_softmax_sa8 (m : Rnd) (q : SaQ) (axis : Int) (tin tout : Tensor) (mem : Buf) (hi : tin.Valid mem) (ho : tout.Valid mem)
    (hsh : tin.shape = tout.shape) (i1 : tin.strides.getLast? = some 1) (o1 : tout.strides.getLast? = some 1) (hsep : tin.Separate tout)
    (hel : ∀ is, InShape tin.shape is → InRange 8 (mem.get (tin.addr is))) (hax : axis < tin.dims.length)
    (hq : chkQuant tin q 7 = .ok) (hdim : q.dim < 0) (hsc : InRange 16 (q.scaleAt 0))
    (hlen : ∀ is, InShape tin.shape is → (slice axis tin.shape is).length ≤ 65535) :
    ∃ mem' val, krnSoftmaxSa m expnegLut q axis tin tout mem = some (.ok, mem') ∧ tout.Writes val mem mem' ∧
      ∀ is, InShape tin.shape is →
        (let P := softmax axis tin.shape (fun js => fxReal ((mem.get (tin.addr js) - q.zpAt 0) * q.scaleAt 0) (q.fracAt 0)) is
         |(val is : ℝ) - limitReal 8 (2 ^ 8 * P - 128)| ≤ 0.6 + 0.06 * (slice axis tin.shape is).length * P) ∧
        ∀ js ∈ slice axis tin.shape is, mem.get (tin.addr is) ≤ mem.get (tin.addr js) → val is ≤ val js := by
  obtain ⟨S, hS⟩ := axis_slices axis tin tout hsh hi.accepted ho.accepted hax
  have hsc0 : 0 < q.scaleAt 0 := (chkQuant_ok hq (Or.inl hdim) (k := 0)).1
  generalize hgs : q.scaleAt 0 = sc at *
  generalize hgf : q.fracAt 0 = sh at *
  generalize q.zpAt 0 = zp at *
  have htop : ∀ is : List Int, ∃ M : Int, InShape tin.shape is → (∀ js ∈ slice axis tin.shape is, mem.get (tin.addr js) ≤ M) ∧
      ∃ js ∈ slice axis tin.shape is, mem.get (tin.addr js) = M := by
    intro is
    by_cases his : InShape tin.shape is
    · obtain ⟨M, h⟩ := slice_top axis tin.shape (fun js => mem.get (tin.addr js)) is his
      exact ⟨M, fun _ => h⟩
    · exact ⟨0, fun h => absurd h his⟩
  choose M hM using htop
  have hMin : ∀ is, InShape tin.shape is → InRange 8 (M is) := by
    intro is his
    obtain ⟨js, h1, h2⟩ := (hM is his).2
    rw [← h2]; exact hel js (slice_inShape h1)
  have hMeq : ∀ is, InShape tin.shape is → ∀ js ∈ slice axis tin.shape is, M js = M is := by
    intro is his js hjs
    have h1 := hM is his
    have h2 := hM js (slice_inShape hjs)
    rw [slice_congr hjs] at h2
    obtain ⟨a, a1, a2⟩ := h1.2
    obtain ⟨b, b1, b2⟩ := h2.2
    have := h1.1 b b1
    have := h2.1 a a1
    omega
  have hexp : ∀ is : List Int, ∃ e : Int, InShape tin.shape is →
      softmaxExpSa m expnegLut sc sh (M is) (mem.get (tin.addr is)) = some e ∧ 0 ≤ e ∧ e ≤ 32767 ∧
        (mem.get (tin.addr is) = M is → e = 32767) ∧
        |(e : ℝ) - 2 ^ 15 * Real.exp (fxReal ((mem.get (tin.addr is) - M is) * sc) sh)| ≤ 15 / 2 := by
    intro is
    by_cases his : InShape tin.shape is
    · obtain ⟨e, h⟩ := exp_elem_sa m sc sh _ _ (hel is his) (hMin is his) hsc hsc0.le ((hM is his).1 is (mem_slice_self his))
      exact ⟨e, fun _ => h⟩
    · exact ⟨0, fun h => absurd h his⟩
  choose E hE using hexp
  have hsum : ∀ is, InShape tin.shape is → 32767 ≤ ((slice axis tin.shape is).map E).sum ∧ ((slice axis tin.shape is).map E).sum ≤ 2147385345 := by
    intro is his
    constructor
    · obtain ⟨js, h1, h2⟩ := (hM is his).2
      have h3 := (hE js (slice_inShape h1)).2.2.2.1 (by rw [hMeq is his js h1]; exact h2)
      have := sum_ge_of_mem E _ (fun a ha => (hE a (slice_inShape ha)).2.1) js h1
      omega
    · have := sum_le_of_bound E 32767 (slice axis tin.shape is) (fun a ha => (hE a (slice_inShape ha)).2.2.1)
      have := hlen is his
      omega
  have hrec : ∀ is : List Int, ∃ (R : Int) (k : Nat), InShape tin.shape is →
      softmaxRecip m 16 ((slice axis tin.shape is).map E).sum = some (R, 16 - (k : Int)) ∧ k ≤ 16 ∧
      2 ^ (14 + k) ≤ ((slice axis tin.shape is).map E).sum ∧ 0 ≤ R ∧ R ≤ 32767 ∧
      2 ^ (29 + k) - 49152 * 2 ^ k ≤ R * ((slice axis tin.shape is).map E).sum ∧
      R * ((slice axis tin.shape is).map E).sum ≤ 2 ^ (29 + k) + 49152 * 2 ^ k := by
    intro is
    by_cases his : InShape tin.shape is
    · obtain ⟨R, k, h⟩ := softmaxRecip_spec m (hsum is his).1 (hsum is his).2
      exact ⟨R, k, fun _ => h⟩
    · exact ⟨0, 0, fun h => absurd h his⟩
  choose R k hR using hrec
  have hRk : ∀ is, InShape tin.shape is → ∀ js ∈ slice axis tin.shape is, R js = R is ∧ k js = k is := by
    intro is his js hjs
    have h1 := (hR is his).1
    have h2 := (hR js (slice_inShape hjs)).1
    rw [slice_congr hjs, h1] at h2
    have h3 := Option.some.inj h2
    have h4 := congrArg Prod.fst h3
    have h5 := congrArg Prod.snd h3
    simp only at h4 h5
    omega
  have e3 : lo 32 = -2147483648 := by decide
  have e4 : Spec.hi 32 = 2147483647 := by decide
  have hout : ∀ is, InShape tin.shape is → ∀ i0, InShape tin.shape i0 → is ∈ slice axis tin.shape i0 →
      (ckd 32 (asrRndFx m 32 (R i0 * E is) (minFx (15 * 2 + (15 - (16 - (k i0 : Int))) - 8) 31) + -128)).map (fun t => accCast8 m t 0) =
        some (clamp 8 (rnd m (R is * E is) (min (21 + k is) 31) + -128)) := by
    intro is his i0 h0 hmem
    obtain ⟨r1, r2, r3, r4, r5, r6, r7⟩ := hR i0 h0
    have hEi := hE is his
    obtain ⟨n, n1, n2, n3, n4, -⟩ := softmax_out_sa m r2 r3 hEi.2.1 hEi.2.2.1 r4 r5 r6 r7
    obtain ⟨q1, q2⟩ := hRk i0 h0 is hmem
    rw [n1, q1, q2, ← n4]
    have hr : InRange 32 (rnd m (R i0 * E is) n + -128) := ⟨by omega, by omega⟩
    rw [ckd_some hr, Option.map_some, accCast8_eq m hr,
      show (0 : Int) = ((0 : Nat) : Int) from rfl, asrRnd_eq_rnd m (by omega) hr 0 (Or.inl rfl)]
    have := scaled_unique (rnd_scaled m (rnd m (R i0 * E is) n + -128) 0)
      (s := rnd m (R i0 * E is) n + -128) (by unfold Scaled; cases m <;> simp [RoundHalfUp, RoundHalfEven])
    rw [this]
  obtain ⟨mem', hrun, hw⟩ := hS.run mem ho hsh hsep
    (fun o => softmaxSaSlice m expnegLut sc sh (axisSq axis tin tout) (tin.base + o 0) (tout.base + o 1))
    (fun is => clamp 8 (rnd m (R is * E is) (min (21 + k is) 31) + -128)) (by
      intro s hs d hd hin
      obtain ⟨i0, hi0, -⟩ := hS.first s hs
      have hsin := hS.mem s hs
      have hin0 := hsin i0 hi0
      have hpm := hS.perm s hs i0 hi0
      have hmem : ∀ is ∈ s.2, is ∈ slice axis tin.shape i0 := fun is his => hpm.mem_iff.1 his
      have tIn : SliceIn tin s.2 d := sliceIn_of_valid hi hd hsin
      have tOut : SliceIn tout s.2 d := sliceIn_of_valid ho hd (by rw [← hsh]; exact hsin)
      obtain ⟨M', a1, a2, a3⟩ := hS.max hs d tIn
      have hM' : M' = M i0 := by
        obtain ⟨js, b1, b2⟩ := a3
        obtain ⟨ks, c1, c2⟩ := (hM i0 hin0).2
        have d1 := (hM i0 hin0).1 js (hmem js b1)
        have d2 := a2 ks (hpm.mem_iff.2 c1)
        rw [hin js b1] at b2
        rw [hin ks (hpm.mem_iff.2 c1)] at d2
        omega
      subst hM'
      have hg : ∀ is ∈ s.2, softmaxExpSa m expnegLut sc sh (M i0) (d.get (tin.addr is)) = some (E is) := by
        intro is his
        rw [hin is his, ← hMeq i0 hin0 is (hmem is his)]
        exact (hE is (hsin is his)).1
      have f1 := hS.sumIn hs d tIn (softmaxExpSa m expnegLut sc sh (M i0)) E 32767
        (fun is his => ⟨hg is his, (hE is (hsin is his)).2.1, (hE is (hsin is his)).2.2.1⟩)
        (by have := hlen i0 hin0; rw [← hpm.length_eq] at this; omega)
      have hse : (s.2.map E).sum = ((slice axis tin.shape i0).map E).sum := (hpm.map E).sum_eq
      have r1 := (hR i0 hin0).1
      obtain ⟨d1, e1, e2⟩ := hS.map hs mem d ho hd hsh hsep tIn tOut
        (fun v => (softmaxExpSa m expnegLut sc sh (M i0) v).bind fun e =>
          (ckd 32 (asrRndFx m 32 (R i0 * e) (minFx (15 * 2 + (15 - (16 - (k i0 : Int))) - 8) 31) + -128)).map (fun t => accCast8 m t 0))
        (fun is => clamp 8 (rnd m (R is * E is) (min (21 + k is) 31) + -128)) (by
          intro is his
          rw [hg is his, Option.bind_some]
          exact hout is (hsin is his) i0 hin0 (hmem is his))
      refine ⟨d1, ?_, e2⟩
      unfold softmaxSaSlice
      rw [a1, Option.bind_some, f1, Option.bind_some, hse, r1, Option.bind_some, ← e1]
      simp only
      congr 1
      funext a d
      cases d.rd (tin.base + s.1 0 + a 0) with
      | none => rfl
      | some v =>
        simp only [Option.bind_some]
        cases softmaxExpSa m expnegLut sc sh (M i0) v with
        | none => rfl
        | some e =>
          simp only [Option.bind_some]
          rw [show expnegLut.outFrac = 15 from rfl]
          cases ckd 32 (asrRndFx m 32 (R i0 * e) (minFx (15 * 2 + (15 - (16 - (k i0 : Int))) - 8) 31) + -128) <;> rfl)
  refine ⟨mem', _, ?_, hw, ?_⟩
  · unfold krnSoftmaxSa
    rw [chkSoftmax_pass hi.accepted ho.accepted hsh i1 o1 hax, Option.bind_some, if_neg (by simp), if_neg (by simp [hq]), if_neg (by simpa using hdim)]
    simp only [hgs, hgf]
    rw [hrun]; rfl
  intro is his
  obtain ⟨r1, r2, r3, r4, r5, r6, r7⟩ := hR is his
  have hEi := hE is his
  obtain ⟨n, n1, n2, n3, n4, hnum⟩ := softmax_out_sa m r2 r3 hEi.2.1 hEi.2.2.1 r4 r5 r6 r7
  refine ⟨?_, ?_⟩
  · simp only
    have hq := quotient_real (slice axis tin.shape is) E (fun js => Real.exp (fxReal ((mem.get (tin.addr js) - M is) * sc) sh)) (15 / 2) (by norm_num)
      (fun a _ => Real.exp_pos _)
      (fun a ha => by rw [← hMeq is his a ha]; exact (hE a (slice_inShape ha)).2.2.2.2) (hsum is his).1 is (mem_slice_self his)
    have hsm : Real.exp (fxReal ((mem.get (tin.addr is) - M is) * sc) sh) /
        ((slice axis tin.shape is).map fun js => Real.exp (fxReal ((mem.get (tin.addr js) - M is) * sc) sh)).sum =
        softmax axis tin.shape (fun js => fxReal ((mem.get (tin.addr js) - zp) * sc) sh) is := by
      unfold softmax
      have h := softmax_shift (slice axis tin.shape is) (fun js => fxReal ((mem.get (tin.addr js) - zp) * sc) sh) (fxReal ((M is - zp) * sc) sh) is
      simp only [fxReal, Int.cast_sub, Int.cast_mul, ← sub_div, ← sub_mul, sub_sub_sub_cancel_right] at h ⊢
      exact h
    rw [hsm] at hq
    generalize softmax axis tin.shape (fun js => fxReal ((mem.get (tin.addr js) - zp) * sc) sh) is = P at *
    rw [clamp_limitReal]
    refine (limitReal_lip 8 _ _).trans ?_
    have hle : (E is : ℝ) / ((slice axis tin.shape is).map E).sum ≤ 1 := by
      have h1 := sum_ge_of_mem E (slice axis tin.shape is) (fun a ha => (hE a (slice_inShape ha)).2.1) is (mem_slice_self his)
      have h2 : (0 : ℝ) < (((slice axis tin.shape is).map E).sum : Int) := by have := (hsum is his).1; exact_mod_cast (by omega)
      rw [div_le_one h2]
      exact_mod_cast h1
    generalize (((slice axis tin.shape is).map E).sum) = T at *
    have hn : (0:ℝ) ≤ ((slice axis tin.shape is).length : ℝ) * P := by
      have hP : 0 ≤ P := by
        rw [← hsm]
        apply div_nonneg (Real.exp_pos _).le
        apply List.sum_nonneg
        intro y hy
        obtain ⟨b, -, rfl⟩ := List.mem_map.1 hy
        exact (Real.exp_pos _).le
      positivity
    rw [mul_assoc, ← n4]
    generalize ((slice axis tin.shape is).length : ℝ) * P = nP at *
    have h3 : 3 / 2 ^ 7 * (E is : ℝ) / T = 3 / 2 ^ 7 * ((E is : ℝ) / T) := by ring
    have h4 : |2 ^ 8 * (E is : ℝ) / T - 2 ^ 8 * P| ≤ 1.0001 * (15 / 2) * (1 + nP) / 2 ^ 7 := by
      have e : 2 ^ 8 * (E is : ℝ) / T - 2 ^ 8 * P = (2 ^ 15 * (E is : ℝ) / T - 2 ^ 15 * P) / 2 ^ 7 := by ring
      rw [e, abs_div, abs_of_pos (by positivity : (0:ℝ) < 2 ^ 7)]
      gcongr
    have := abs_add_le (((rnd m (R is * E is) n : Int) : ℝ) - 2 ^ 8 * (E is : ℝ) / T) (2 ^ 8 * (E is : ℝ) / T - 2 ^ 8 * P)
    rw [sub_add_sub_cancel] at this
    rw [show ((rnd m (R is * E is) n + -128 : Int) : ℝ) - (2 ^ 8 * P - 128) = (rnd m (R is * E is) n : Int) - 2 ^ 8 * P by push_cast; ring]
    refine this.trans ((add_le_add hnum h4).trans ?_)
    rw [h3]
    norm_num
    linarith
  · intro js hjs hle
    have hq := hRk is his js hjs
    simp only [hq.1, hq.2]
    apply clamp_mono
    apply Int.add_le_add_right
    apply rnd_mono
    apply Int.mul_le_mul_of_nonneg_left _ r4
    refine exp_elem_sa_mono m sc sh _ _ (M is) _ _ (hel is his) (hel js (slice_inShape hjs)) (hMin is his) hsc hsc0.le hle (hE is his).1 ?_
    rw [← hMeq is his js hjs]
    exact (hE js (slice_inShape hjs)).1

/-- The reciprocal, for 8-bit elements: the mantissa saturates at 127, the quotient exceeds 32767, and 32767 as an 8-bit number is -1. -/
theorem softmaxRecip8 (m : Rnd) {T : Int} (h0 : 127 ≤ T) (h1 : T ≤ 2147483647) : ∃ n : Nat, n ≤ 24 ∧ softmaxRecip m 8 T = some (-1, (n : Int)) := by
  have e3 : lo 32 = -2147483648 := by decide
  have e4 : hi 32 = 2147483647 := by decide
  have e2 : hi 8 = 127 := by decide
  have hS : InRange 32 T := ⟨by omega, by omega⟩
  obtain ⟨n, hn, h31, g1, g2⟩ := normFx_pos (by omega) hS
  have hn24 : n ≤ 24 := by
    by_contra hc
    have : (2 ^ 25 : Int) ≤ 2 ^ n := pow_le_pow_right₀ (by decide) (by omega)
    have : 127 * 2 ^ 25 ≤ T * 2 ^ n := Int.mul_le_mul h0 this (by norm_num) (by omega)
    omega
  have hmnt : accCast8 m T (16 - (n : Int)) = 127 := by
    rw [accCast8_eq m hS, ← e2]
    apply clamp_of_gt
    rcases Nat.lt_or_ge 16 n with hc | hc
    · obtain ⟨j, rfl⟩ : ∃ j, n = 16 + j := ⟨n - 16, by omega⟩
      rw [show (16 : Int) - ((16 + j : Nat) : Int) = -(j : Int) by omega, asrRnd_neg (by omega) hS j]
      have hj : (2 : Int) ≤ 2 ^ j := by
        have : (2 ^ 1 : Int) ≤ 2 ^ j := pow_le_pow_right₀ (by decide) (by omega)
        omega
      have h2 : 127 * 2 ≤ T * 2 ^ j := Int.mul_le_mul h0 hj (by norm_num) (by omega)
      have := clamp_mono (w := 32) h2
      rw [show clamp 32 (127 * 2) = 254 by decide] at this
      omega
    · obtain ⟨k, hk⟩ : ∃ k : Nat, n + k = 16 := ⟨16 - n, by omega⟩
      rw [show (16 : Int) - (n : Int) = (k : Int) by omega]
      have hP := two_pow_pos k
      have hN := two_pow_pos n
      have e : (2:Int) ^ 14 * 2 ^ k * 2 ^ n = 2 ^ 30 := by rw [mul_assoc, ← pow_add, show k + n = 16 by omega]; norm_num
      have h3 : (2:Int) ^ 14 * 2 ^ k ≤ T := by
        have : (2:Int) ^ 14 * 2 ^ k * 2 ^ n ≤ T * 2 ^ n := by rw [e]; exact g1
        exact le_of_mul_le_mul_right this hN
      have hk1 : (2 ^ (k - 1) : Int) ≤ 2 ^ 15 := pow_le_pow_right₀ (by decide) (by omega)
      have hk2 : (2 ^ k : Int) ≤ 2 ^ 16 := pow_le_pow_right₀ (by decide) (by omega)
      have hr : InRange 32 (2 ^ 14 * 2 ^ k) := ⟨by omega, by omega⟩
      have h4 := asrRnd_mono m (by omega) hr hS (k : Int) h3
      rw [asrRnd_eq_rnd m (by omega) hr k (Or.inr (Or.inr (by omega)))] at h4
      obtain ⟨r1, r2⟩ := rnd_nearest m (2 ^ 14 * 2 ^ k) k
      by_contra hcon
      have : rnd m (2 ^ 14 * 2 ^ k) k * 2 ^ k ≤ 127 * 2 ^ k := Int.mul_le_mul_of_nonneg_right (by omega) hP.le
      omega
  refine ⟨n, hn24, ?_⟩
  unfold softmaxRecip
  rw [hn]
  simp only [if_true, hmnt]
  rfl

/-- What the 8-bit kernel stores for an exponential `e`. -/
theorem softmax_out_fx8 (m : Rnd) {n : Nat} (hn : n ≤ 24) {e : Int} (h0 : 0 ≤ e) (h1 : e ≤ 127) :
    accCast8 m (-1 * e) (minFx (15 * 2 + (15 - (n : Int)) - 7) 15) = 0 := by
  have e3 : lo 32 = -2147483648 := by decide
  have e4 : hi 32 = 2147483647 := by decide
  have hr : InRange 32 (-1 * e) := ⟨by omega, by omega⟩
  obtain ⟨s, hs1, hs2, hs⟩ : ∃ s : Nat, 14 ≤ s ∧ s ≤ 15 ∧ minFx (15 * 2 + (15 - (n : Int)) - 7) 15 = (s : Int) := by
    unfold minFx
    split
    · exact ⟨38 - n, by omega, by omega, by omega⟩
    · exact ⟨15, by omega, by omega, rfl⟩
  have hp1 : (2 ^ 14 : Int) ≤ 2 ^ s := pow_le_pow_right₀ (by decide) hs1
  have hp2 : (2 ^ (s - 1) : Int) ≤ 2 ^ 14 := pow_le_pow_right₀ (by decide) (by omega)
  rw [hs, accCast8_eq m hr, asrRnd_eq_rnd m (by omega) hr s (Or.inr (Or.inr (by omega)))]
  obtain ⟨r1, r2⟩ := rnd_nearest m (-1 * e) s
  have hq : rnd m (-1 * e) s = 0 := by
    generalize rnd m (-1 * e) s = q at *
    rcases Int.lt_trichotomy q 0 with h | h | h
    · have : q * 2 ^ s ≤ -1 * 2 ^ s := Int.mul_le_mul_of_nonneg_right (by omega) (by omega)
      omega
    · exact h
    · have : 1 * 2 ^ s ≤ q * 2 ^ s := Int.mul_le_mul_of_nonneg_right (by omega) (by omega)
      omega
  rw [hq]; decide

/-- C63 fails for 8-bit fixed point: whatever the input, every element of the output is 0 (all slices of at most 16909320 elements). -/
theorem c63_fx8_violated (m : Rnd) (f axis : Int) (tin tout : Tensor) (mem : Buf) (hi : tin.Valid mem) (ho : tout.Valid mem)
    (hsh : tin.shape = tout.shape) (i1 : tin.strides.getLast? = some 1) (o1 : tout.strides.getLast? = some 1) (hsep : tin.Separate tout)
    (hel : ∀ is, InShape tin.shape is → InRange 8 (mem.get (tin.addr is))) (hax : axis < tin.dims.length)
    (hlen : ∀ is, InShape tin.shape is → (slice axis tin.shape is).length ≤ 16909320) :
    ∃ mem', krnSoftmaxFx m expnegLut 8 f axis tin tout mem = some (.ok, mem') ∧ tout.Writes (fun _ => 0) mem mem' := by
  obtain ⟨S, hS⟩ := axis_slices axis tin tout hsh hi.accepted ho.accepted hax
  obtain ⟨mem', hrun, hw⟩ := hS.run mem ho hsh hsep
    (fun o => softmaxFxSlice m expnegLut 8 f (((8 : Nat) : Int) - 1) (axisSq axis tin tout) (tin.base + o 0) (tout.base + o 1))
    (fun _ => 0) (by
      intro s hs d hd hin
      obtain ⟨i0, hi0, -⟩ := hS.first s hs
      have hsin := hS.mem s hs
      have hpm := hS.perm s hs i0 hi0
      have tIn : SliceIn tin s.2 d := sliceIn_of_valid hi hd hsin
      have tOut : ∀ d : Buf, d.size = mem.size → SliceIn tout s.2 d := fun d hd =>
        sliceIn_of_valid ho hd (by rw [← hsh]; exact hsin)
      obtain ⟨M, a1, a2, a3⟩ := hS.max hs d tIn
      have hd8 : ∀ is ∈ s.2, InRange 8 (d.get (tin.addr is)) := fun is his => by rw [hin is his]; exact hel is (hsin is his)
      have hM8 : InRange 8 M := by
        obtain ⟨js, b1, b2⟩ := a3
        rw [← b2]; exact hd8 js b1
      have hexp : ∀ is : List Int, ∃ e : Int, is ∈ s.2 →
          lutElem m expnegLut (.fxOff M) (.fx 8) f (d.get (tin.addr is)) = some e ∧ 0 ≤ e ∧ e ≤ 127 ∧ (d.get (tin.addr is) = M → e = 127) := by
        intro is
        by_cases his : is ∈ s.2
        · obtain ⟨e, h⟩ := exp_elem_fx8 m f _ _ (hd8 is his) hM8 (a2 is his)
          exact ⟨e, fun _ => h⟩
        · exact ⟨0, fun h => absurd h his⟩
      choose E hE using hexp
      obtain ⟨d1, e1, e2⟩ := hS.map hs mem d ho hd hsh hsep tIn (tOut d hd) (lutElem m expnegLut (.fxOff M) (.fx 8) f) E
        (fun is his => (hE is his).1)
      have hd1 : d1.size = mem.size := e2.size.trans hd
      have hl : s.2.length ≤ 16909320 := by have := hlen i0 (hsin i0 hi0); rwa [← hpm.length_eq] at this
      have f1 := hS.sumOut hs d1 (tOut d1 hd1) E 127 (fun is his => ⟨e2.hit is his, (hE is his).2.1, (hE is his).2.2.1⟩) (by omega)
      have hlow : 127 ≤ (s.2.map E).sum := by
        obtain ⟨js, b1, b2⟩ := a3
        have := sum_ge_of_mem E s.2 (fun a ha => (hE a ha).2.1) js b1
        have := (hE js b1).2.2.2 b2
        omega
      have hup := sum_le_of_bound E 127 s.2 (fun a ha => (hE a ha).2.2.1)
      obtain ⟨n, hn, r1⟩ := softmaxRecip8 m hlow (by omega)
      obtain ⟨d2, g1, g2⟩ := hS.update hs mem d1 ho hd1 hsh (tOut d1 hd1)
        (fun e => accCast8 m (-1 * e) (minFx (15 * 2 + (15 - (n : Int)) - 7) 15))
      refine ⟨d2, ?_, (e2.over g2).val_congr ?_⟩
      · unfold softmaxFxSlice
        rw [a1, Option.bind_some, e1, Option.bind_some, f1, Option.bind_some, r1, Option.bind_some]
        exact g1
      · intro is his
        rw [e2.hit is his]
        exact softmax_out_fx8 m hn (hE is his).2.1 (hE is his).2.2.1)
  refine ⟨mem', ?_, hw⟩
  unfold krnSoftmaxFx
  rw [chkSoftmax_pass hi.accepted ho.accepted hsh i1 o1 hax, Option.bind_some, if_neg (by simp)]
  simp only
  rw [hrun]; rfl

theorem foldlM_sum_overflow : ∀ (n : Nat) (L : List (List Int)) (s : Int), L.length = n → 0 ≤ s → s ≤ 2147483647 → 2147483647 < s + n * 32767 →
    L.foldlM (fun s _ => macFx 32 s 32767 1) s = none := by
  intro n
  induction n with
  | zero => intro L s _ _ h1 h2; omega
  | succ n ih =>
    intro L s hL h0 h1 h2
    match L with
    | [] => simp at hL
    | a :: L =>
      rw [List.foldlM_cons]
      have e3 : lo 32 = -2147483648 := by decide
      have e4 : hi 32 = 2147483647 := by decide
      by_cases hc : s + 32767 ≤ 2147483647
      · have hm : macFx 32 s 32767 1 = some (s + 32767) := by
          unfold macFx
          rw [Int.mul_one]
          exact ckd_some ⟨by omega, by omega⟩
        rw [hm]
        exact ih L (s + 32767) (by simpa using hL) (by omega) hc (by push_cast at h2; omega)
      · have hm : macFx 32 s 32767 1 = none := by
          unfold macFx ckd
          rw [if_neg (fun h => by have := h.2; omega)]
        rw [hm]; rfl

/-- C63 fails for more than 65538 elements: the softmax of a tensor of 65539 or more equal 16-bit elements overflows its 32-bit sum (undefined
behaviour), for any shape. -/
theorem c63_overflow_violated (m : Rnd) (f axis : Int) (tin tout : Tensor) (mem : Buf) (hi : tin.Valid mem) (ho : tout.Valid mem)
    (hsh : tin.shape = tout.shape) (i1 : tin.strides.getLast? = some 1) (o1 : tout.strides.getLast? = some 1) (hsep : tin.Separate tout)
    (x : Int) (hx : InRange 16 x) (hel : ∀ is, InShape tin.shape is → mem.get (tin.addr is) = x) (hax : axis < 0)
    (hlen : 65539 ≤ (rowMajor tin.shape).length) :
    krnSoftmaxFx m expnegLut 16 f axis tin tout mem = none := by
  have hax' : axis < tin.dims.length := by omega
  obtain ⟨S, hS⟩ := axis_slices axis tin tout hsh hi.accepted ho.accepted hax'
  have hsl : ∀ is, slice axis tin.shape is = rowMajor tin.shape := by
    intro is
    unfold slice
    apply List.filter_eq_self.2
    intro a _
    simp [sameSlice, hax]
  have hne : ∃ is, InShape tin.shape is := by
    match h : rowMajor tin.shape with
    | [] => rw [h] at hlen; simp at hlen
    | is :: _ => exact ⟨is, mem_rowMajor.1 (by rw [h]; simp)⟩
  obtain ⟨is, his⟩ := hne
  obtain ⟨s0, hs0, -⟩ := hS.cover is his
  unfold krnSoftmaxFx
  rw [chkSoftmax_pass hi.accepted ho.accepted hsh i1 o1 hax', Option.bind_some, if_neg (by simp)]
  simp only
  rw [hS.loops]
  match S, hS, hs0 with
  | s :: S', hS, _ =>
    have hs : s ∈ s :: S' := by simp
    obtain ⟨i0, hi0, -⟩ := hS.first s hs
    have hsin := hS.mem s hs
    have hpm := hS.perm s hs i0 hi0
    rw [hsl] at hpm
    have tIn : SliceIn tin s.2 mem := sliceIn_of_valid hi rfl hsin
    have tOut : ∀ d : Buf, d.size = mem.size → SliceIn tout s.2 d := fun d hd =>
      sliceIn_of_valid ho hd (by rw [← hsh]; exact hsin)
    obtain ⟨M, a1, a2, js, b1, b2⟩ := hS.max hs mem tIn
    have hM : M = x := by rw [← b2, hel js (hsin js b1)]
    subst hM
    obtain ⟨e, h1, h2, h3, h4, -⟩ := exp_elem_fx m f M M hx hx (le_refl _)
    have he := h4 rfl
    subst he
    obtain ⟨d1, e1, e2⟩ := hS.map hs mem mem ho rfl hsh hsep tIn (tOut mem rfl) (lutElem m expnegLut (.fxOff M) (.fx 16) f) (fun _ => 32767)
      (fun is his => by rw [hel is (hsin is his)]; exact h1)
    have hd1 : d1.size = mem.size := e2.size
    have f1 : nest4J (axisSq axis tin tout) (fun a x => (d1.rd (tout.base + s.1 1 + a 1)).bind fun e => macFx 32 x e 1) 0 = none := by
      refine (hS.inner' hs (fun _ o x => (d1.rd o).bind fun e => macFx 32 x e 1) 0).trans ?_
      rw [← foldlM_sum_overflow s.2.length s.2 0 rfl (le_refl _) (by norm_num) (by have := hpm.length_eq; omega)]
      apply foldlM_congr_mem
      intro x js hjs
      rw [Buf.rd_some (tOut d1 hd1 js hjs), Option.bind_some, e2.hit js hjs]
    have hbody : softmaxFxSlice m expnegLut 16 f (((16 : Nat) : Int) - 1) (axisSq axis tin tout) (tin.base + s.1 0) (tout.base + s.1 1) mem = none := by
      unfold softmaxFxSlice
      rw [a1, Option.bind_some, e1, Option.bind_some, f1]; rfl
    rw [List.foldlM_cons]
    rw [show softmaxFxSlice m expnegLut 16 f (((16 : Nat) : Int) - 1) (squashGeneric (axisDims axis (joint2 tin.dims tout.dims)))
      (tin.base + s.1 0) (tout.base + s.1 1) mem = none from hbody]
    rfl

theorem chkSoftmax_ok (h : chkSoftmax axis tin tout = some .ok) : chkBasicActivation tin tout = some .ok ∧ axis < tin.dims.length := by
  unfold chkSoftmax at h
  obtain ⟨c, hc, h⟩ := Option.bind_eq_some_iff.1 h
  by_cases h1 : c = .ok
  swap
  · rw [if_pos h1] at h; exact absurd (Option.some.inj h) h1
  rw [if_neg (not_not.2 h1)] at h
  by_cases h2 : axis < tin.dims.length
  · exact ⟨by rw [hc, h1], h2⟩
  · rw [if_pos h2] at h; cases h

/-- C63, status codes: a call which does not return `MLI_STATUS_OK` writes nothing; one which does has tensors of the same shape with adjacent
innermost elements, an axis of the tensor and (SA8) valid quantization parameters for the whole tensor. -/
theorem c63_status (m : Rnd) (l : Lut) (w : Nat) (f : Int) (q : SaQ) (axis : Int) (tin tout : Tensor) (mem mem' : Buf) (s : Status) :
    (krnSoftmaxFx m l w f axis tin tout mem = some (s, mem') →
      (s = .ok → tin.shape = tout.shape ∧ tin.strides.getLast?.getD 1 = 1 ∧ tout.strides.getLast?.getD 1 = 1 ∧ axis < tin.dims.length) ∧
      (s ≠ .ok → mem' = mem)) ∧
    (krnSoftmaxSa m l q axis tin tout mem = some (s, mem') →
      (s = .ok → tin.shape = tout.shape ∧ tin.strides.getLast?.getD 1 = 1 ∧ tout.strides.getLast?.getD 1 = 1 ∧ axis < tin.dims.length ∧
        q.dim < 0 ∧ 0 < q.scaleAt 0 ∧ -128 ≤ q.zpAt 0 ∧ q.zpAt 0 ≤ 127) ∧
      (s ≠ .ok → mem' = mem)) := by
  constructor
  · intro h
    unfold krnSoftmaxFx at h
    obtain ⟨c, hc, h⟩ := Option.bind_eq_some_iff.1 h
    by_cases h1 : c = .ok
    swap
    · rw [if_pos h1] at h; simp only [Option.some.injEq, Prod.mk.injEq] at h
      exact ⟨fun e => absurd (h.1.trans e) h1, fun _ => h.2.symm⟩
    rw [if_neg (not_not.2 h1)] at h
    simp only [Option.map_eq_some_iff, Prod.mk.injEq] at h
    obtain ⟨_, -, e, -⟩ := h
    obtain ⟨c1, c2⟩ := chkSoftmax_ok (h1 ▸ hc)
    obtain ⟨c3, c4, c5⟩ := chkBasicActivation_ok c1
    exact ⟨fun _ => ⟨c3, c4, c5, c2⟩, fun hn => absurd e.symm hn⟩
  · intro h
    unfold krnSoftmaxSa at h
    obtain ⟨c, hc, h⟩ := Option.bind_eq_some_iff.1 h
    by_cases h1 : c = .ok
    swap
    · rw [if_pos h1] at h; simp only [Option.some.injEq, Prod.mk.injEq] at h
      exact ⟨fun e => absurd (h.1.trans e) h1, fun _ => h.2.symm⟩
    rw [if_neg (not_not.2 h1)] at h
    by_cases h2 : chkQuant tin q 7 = .ok
    swap
    · rw [if_pos h2] at h; simp only [Option.some.injEq, Prod.mk.injEq] at h
      exact ⟨fun e => absurd (h.1.trans e) h2, fun _ => h.2.symm⟩
    rw [if_neg (not_not.2 h2)] at h
    by_cases h3 : q.dim < 0
    swap
    · rw [if_pos h3] at h; simp only [Option.some.injEq, Prod.mk.injEq] at h
      refine ⟨fun e => ?_, fun _ => h.2.symm⟩
      rw [← h.1] at e; cases e
    rw [if_neg (not_not.2 h3)] at h
    simp only [Option.map_eq_some_iff, Prod.mk.injEq] at h
    obtain ⟨_, -, e, -⟩ := h
    obtain ⟨c1, c2⟩ := chkSoftmax_ok (h1 ▸ hc)
    obtain ⟨c3, c4, c5⟩ := chkBasicActivation_ok c1
    obtain ⟨k1, k2, k3⟩ := chkQuant_ok h2 (Or.inl h3) (k := 0)
    exact ⟨fun _ => ⟨c3, c4, c5, c2, h3, k1, by simpa using k2, by simpa using k3⟩, fun hn => absurd e.symm hn⟩

/-! ### Non-vacuity -/

/-- Rows of 3 with a gap, in place: the hypotheses hold, and these are the results along both axes and over the whole tensor. -/
example :
    let t : Tensor := { dims := [⟨2, 4⟩, ⟨3, 1⟩], base := 1, cap := 14, es := 2 }
    let b := Buf.ofList [9, 4096, -8192, 0, 9, 2048, -32765, 1000, 9]
    t.Valid b ∧ (∀ is ∈ rowMajor t.shape, InRange 16 (b.get (t.addr is))) ∧
    ((krnSoftmaxFx .convergent expnegLut 16 12 (-1) t t b).map fun p => (p.1, p.2.toList)) =
      some (.ok, [9, 13139, 654, 4834, 9, 7969, 2, 6171, 9]) ∧
    ((krnSoftmaxFx .convergent expnegLut 16 12 0 t t b).map fun p => (p.1, p.2.toList)) =
      some (.ok, [9, 20396, 32687, 14394, 9, 12372, 81, 18372, 9]) ∧
    ((krnSoftmaxFx .convergent expnegLut 16 12 1 t t b).map fun p => (p.1, p.2.toList)) =
      some (.ok, [9, 23114, 1151, 8504, 9, 18464, 4, 14298, 9]) ∧
    ((krnSoftmaxFx .convergent expnegLut 16 12 2 t t b).map fun p => p.1) = some .badFuncCfg := by
  refine ⟨⟨by decide, by decide, by decide, by decide⟩, by decide, by decide +kernel, by decide +kernel, by decide +kernel, by decide +kernel⟩

example :
    let t : Tensor := { dims := [⟨2, 4⟩, ⟨3, 1⟩], base := 1, cap := 7, es := 1 }
    let b := Buf.ofList [9, 40, -81, 0, 9, 20, -127, 10, 9]
    let q : SaQ := { dim := -1, zp := [3], scale := [5], frac := [8] }
    t.Valid b ∧ chkQuant t q 7 = .ok ∧ (∀ is ∈ rowMajor t.shape, InRange 8 (b.get (t.addr is))) ∧
    ((krnSoftmaxSa .convergent expnegLut q (-1) t t b).map fun p => (p.1, p.2.toList)) =
      some (.ok, [9, -37, -119, -86, 9, -67, -125, -78, 9]) ∧
    ((krnSoftmaxSa .convergent expnegLut q 0 t t b).map fun p => (p.1, p.2.toList)) =
      some (.ok, [9, 25, 54, -12, 9, -25, -54, 12, 9]) ∧
    ((krnSoftmaxSa .convergent expnegLut q 1 t t b).map fun p => (p.1, p.2.toList)) =
      some (.ok, [9, 37, -112, -52, 9, 8, -120, -16, 9]) ∧
    ((krnSoftmaxFx .convergent expnegLut 8 4 1 t t b).map fun p => (p.1, p.2.toList)) =
      some (.ok, [9, 0, 0, 0, 9, 0, 0, 0, 9]) := by
  refine ⟨⟨by decide, by decide, by decide, by decide⟩, by decide, by decide, by decide +kernel, by decide +kernel, by decide +kernel,
    by decide +kernel⟩

/-- A tensor of 65539 equal elements meets the hypotheses of `c63_overflow_violated`. -/
example :
    let t : Tensor := { dims := [⟨65539, 1⟩], cap := 131078, es := 2 }
    t.Valid ⟨65539, fun _ => 7⟩ ∧ t.Separate t ∧ (rowMajor t.shape).length = 65539 ∧
      ∀ m f, krnSoftmaxFx m expnegLut 16 f (-1) t t ⟨65539, fun _ => 7⟩ = none := by
  intro t
  have hv : t.Valid ⟨65539, fun _ => 7⟩ := ⟨by decide, by decide, by decide, by decide⟩
  have hsep := Tensor.Separate.refl t _ hv
  have hl : (rowMajor t.shape).length = 65539 := by
    rw [length_rowMajor]; decide
  refine ⟨hv, hsep, hl, fun m f => ?_⟩
  exact c63_overflow_violated m f (-1) t t _ hv hv rfl rfl rfl hsep 7 (by decide) (fun _ _ => rfl) (by omega) (by omega)

end Mli
