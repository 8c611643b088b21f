import Verif.Model.Eltwise
import Verif.Lemmas.Map
import Verif.Lemmas.Round
import Verif.Props.Relu

/-! # C31, C32: element-wise kernels -/

namespace Mli

open Spec

/-! ## C32: traversal and scalar broadcast -/

/-- Value of an operand at a position of the result: an operand of one element (or a scalar) gives
its value for every position. -/
def Operand.at (o : Operand) (mem : Buf) (is : List Int) : Int :=
  if o.t.dims = [] then o.imm
  else if prod o.t.shape = 1 then mem.get o.t.base
  else mem.get (o.t.addr is)

/-- An operand: a scalar, or a valid tensor whose elements are either the elements of the output at
the same positions (in place) or elsewhere. -/
structure Operand.Valid (o : Operand) (out : Tensor) (mem : Buf) : Prop where
  tensor : o.t.dims ≠ [] → o.t.Valid mem
  separate : ¬ isScalar o.t → o.t.Separate out

theorem countElemNum_accepted {t : Tensor} (h : checkTensorPrivate t = some .ok) :
    countElemNum t = prod t.shape := by
  have := c11_accepted_count t 0 h (by
    cases hd : t.dims with
    | nil => right; exact ⟨rfl, rfl⟩
    | cons d ds => left; simp)
  rw [List.drop_zero] at this
  rw [← this]
  obtain ⟨hr, _⟩ := checkTensorPrivate_ok h
  unfold hlpCountElemNum countElemNum
  have : maxRank = 4 := rfl
  rw [if_neg (by omega), if_neg (by omega)]

theorem isScalar_iff {o : Operand} {out : Tensor} {mem : Buf} (h : o.Valid out mem) :
    isScalar o.t = true ↔ (o.t.dims = [] ∨ prod o.t.shape = 1) := by
  unfold isScalar
  by_cases hd : o.t.dims = []
  · simp [hd]
  · have := (h.tensor hd).accepted
    simp [countElemNum_accepted this]

theorem count_iff {o : Operand} {out : Tensor} {mem : Buf} (h : o.Valid out mem) :
    countElemNum o.t = 1 ↔ isScalar o.t = true := by
  by_cases hd : o.t.dims = []
  · simp [isScalar, hd, countElemNum, countElemNumPart]
  · simp [isScalar, hd]

theorem prod_one_shape : ∀ {ns : List Int}, (∀ n ∈ ns, 1 ≤ n) → prod ns = 1 → ∀ n ∈ ns, n = 1 := by
  intro ns
  induction ns with
  | nil => simp
  | cons n ns ih =>
    intro h hp m hm
    have h1 := h n (by simp)
    have h2 := prod_pos (fun m hm => h m (by simp [hm]) : ∀ m ∈ ns, 1 ≤ m)
    unfold prod at hp
    have hn : n = 1 := by nlinarith
    rw [hn, one_mul] at hp
    rcases List.mem_cons.mp hm with rfl | hm
    · exact hn
    · exact ih (fun m hm => h m (by simp [hm])) hp m hm

theorem offset_ones : ∀ {ns is : List Int}, (∀ n ∈ ns, n = 1) → InShape ns is → ∀ ss, offset ss is = 0 := by
  intro ns
  induction ns with
  | nil => intro is _ h ss; cases is <;> simp_all [InShape, offset]
  | cons n ns ih =>
    intro is hn h ss
    cases is with
    | nil => simp [InShape] at h
    | cons i is =>
      cases ss with
      | nil => simp [offset]
      | cons s ss =>
        have h1 := hn n (by simp)
        have : i = 0 := by have := h.1; omega
        rw [offset, this, ih (fun m hm => hn m (by simp [hm])) h.2 ss]; simp

theorem chkEltwise_ok {t1 t2 out : Tensor} (h : chkEltwise t1 t2 out = some .ok) :
    checkTensorPrivate out = some .ok ∧ innerOne out = true ∧
    (isScalar t1 = false → innerOne t1 = true ∧ t1.shape = out.shape) ∧
    (isScalar t2 = false → innerOne t2 = true ∧ t2.shape = out.shape) ∧
    (isScalar t1 = true → t2.shape = out.shape) := by
  unfold chkEltwise at h
  simp only [Option.bind_eq_bind, Option.bind_eq_some_iff, Option.pure_def] at h
  obtain ⟨s1, h1, h⟩ := h
  split at h
  · simp_all
  rw [Option.bind_eq_some_iff] at h
  obtain ⟨s2, h2, h⟩ := h
  split at h
  · simp_all
  rw [Option.bind_eq_some_iff] at h
  obtain ⟨s3, h3, h⟩ := h
  split at h
  · simp_all
  rename_i hs3
  split at h
  · simp at h
  split at h
  · simp at h
  rename_i hin
  have hs3' : s3 = .ok := by simpa using hs3
  subst hs3'
  cases hb1 : isScalar t1 <;> cases hb2 : isScalar t2 <;>
    simp_all [sameShape]
  exact h.1.symm.trans h.2

theorem getLast_of_innerOne {t : Tensor} (h : innerOne t = true) (hd : t.dims ≠ []) :
    t.strides.getLast? = some 1 := by
  unfold innerOne at h
  have : t.strides ≠ [] := by unfold Tensor.strides; simpa using hd
  cases he : t.strides.getLast? with
  | none => rw [List.getLast?_eq_none_iff] at he; exact absurd he this
  | some s => rw [he] at h; simp at h; rw [h]

theorem dims_ne_of_shape {a b : Tensor} (h : a.shape = b.shape) (ha : a.dims ≠ []) : b.dims ≠ [] := by
  intro hb
  unfold Tensor.shape at h
  rw [hb, List.map_nil, List.map_eq_nil_iff] at h
  exact ha h

/-- C32: for any operation `g` on elements, and operands of any shape and strides that pass the check
(one of them may be a scalar or have a single element), every element of the output is `g` of the
operand values at its position, read before any of them is overwritten; nothing else changes. -/
theorem c32_traversal (g : Int → Int → Int) (o1 o2 : Operand) (out : Tensor) (mem : Buf)
    (hc : chkEltwise o1.t o2.t out = some .ok) (ho : out.Valid mem)
    (h1 : o1.Valid out mem) (h2 : o2.Valid out mem) :
    ∃ mem', eltwiseRun g o1 o2 out mem = some mem' ∧
      out.Writes (fun is => g (o1.at mem is) (o2.at mem is)) mem mem' := by
  obtain ⟨-, hio, n1, n2, sc⟩ := chkEltwise_ok hc
  have hval : ∀ o : Operand, o.Valid out mem →
      o.val mem = some (if o.t.dims = [] then o.imm else mem.get o.t.base) := by
    intro o hv
    unfold Operand.val
    by_cases hd : o.t.dims = []
    · simp [hd]
    · rw [if_neg (by simpa using hd), if_neg hd]
      have hval := hv.tensor hd
      obtain ⟨is, his⟩ : ∃ is, InShape o.t.shape is ∧ offset o.t.strides is = 0 := by
        have hp := hval.shape_pos
        refine ⟨o.t.dims.map (fun _ => 0), ?_⟩
        unfold Tensor.shape Tensor.strides
        clear hd hval
        generalize o.t.dims = ds at hp ⊢
        induction ds with
        | nil => simp [InShape, offset]
        | cons d ds ih =>
          have hd := hp d (by simp)
          have := ih (fun e he => hp e (by simp [he]))
          simp only [List.map_cons, InShape, offset, zero_mul, zero_add]
          exact ⟨⟨⟨le_refl 0, by omega⟩, this.1⟩, this.2⟩
      have hb := hval.inBounds his.1
      rw [his.2, add_zero] at hb
      exact Buf.rd_some hb
  have hsat : ∀ o : Operand, o.Valid out mem → isScalar o.t = true → ∀ is,
      o.at mem is = (if o.t.dims = [] then o.imm else mem.get o.t.base) := by
    intro o hv hs is
    have := (isScalar_iff hv).mp hs
    unfold Operand.at
    by_cases hd : o.t.dims = []
    · simp [hd]
    · have h' : prod o.t.shape = 1 := by tauto
      simp [hd, h']
  have hnat : ∀ o : Operand, o.Valid out mem → isScalar o.t = false → o.t.dims ≠ [] ∧ ∀ is,
      o.at mem is = mem.get (o.t.addr is) := by
    intro o hv hs
    have := (isScalar_iff hv)
    rw [hs] at this
    have h' : ¬ (o.t.dims = [] ∨ prod o.t.shape = 1) := by
      intro h; exact absurd (this.mpr h) (by simp)
    push Not at h'
    refine ⟨h'.1, fun is => ?_⟩
    unfold Operand.at
    rw [if_neg h'.1, if_neg h'.2]
  unfold eltwiseRun
  simp only [hval o1 h1, hval o2 h2, Option.bind_eq_bind, Option.bind_some, count_iff h1, count_iff h2]
  cases b1 : isScalar o1.t <;> cases b2 : isScalar o2.t
  · -- two tensors
    obtain ⟨i1, s1⟩ := n1 b1
    obtain ⟨i2, s2⟩ := n2 b2
    obtain ⟨d1, a1⟩ := hnat o1 h1 b1
    obtain ⟨d2, a2⟩ := hnat o2 h2 b2
    have v1 := h1.tensor d1
    have v2 := h2.tensor d2
    have do' : out.dims ≠ [] := dims_ne_of_shape s1 d1
    simp only [Bool.false_eq_true, decide_false, Bool.not_false, Bool.and_true, Bool.and_self, if_false, if_true]
    rw [c33_traverse_invisible3 o1.t o2.t out s1 s2 v1.accepted v2.accepted ho.accepted
      (getLast_of_innerOne i1 d1) (getLast_of_innerOne i2 d2) (getLast_of_innerOne hio do')]
    apply rowMajor_inplace out mem ho
    intro is his d' hd hfr
    have hi1 : InShape o1.t.shape is := by rw [s1]; exact his
    have hi2 : InShape o2.t.shape is := by rw [s2]; exact his
    have e1 : d'.get (o1.t.addr is) = mem.get (o1.t.addr is) := hfr _ (fun js hj hne e =>
      hne (h1.separate (by simp [b1]) is js hi1 hj e.symm).symm)
    have e2 : d'.get (o2.t.addr is) = mem.get (o2.t.addr is) := hfr _ (fun js hj hne e =>
      hne (h2.separate (by simp [b2]) is js hi2 hj e.symm).symm)
    have r1 := v1.rd hi1 hd
    have r2 := v2.rd hi2 hd
    rw [e1] at r1
    rw [e2] at r2
    show (d'.rd (o1.t.addr is)).bind (fun x => (d'.rd (o2.t.addr is)).bind fun y => d'.wr (out.addr is) (g x y)) = _
    rw [r1, Option.bind_some, r2, Option.bind_some, a1, a2]
  · -- second is scalar
    obtain ⟨i1, s1⟩ := n1 b1
    obtain ⟨d1, a1⟩ := hnat o1 h1 b1
    have a2 := hsat o2 h2 b2
    have v1 := h1.tensor d1
    have do' : out.dims ≠ [] := dims_ne_of_shape s1 d1
    simp only [Bool.false_eq_true, decide_false, decide_true, Bool.not_false, Bool.not_true, Bool.and_true,
      Bool.and_self, Bool.and_false, if_false, if_true]
    rw [c33_traverse_invisible o1.t out s1 v1.accepted ho.accepted
      (getLast_of_innerOne i1 d1) (getLast_of_innerOne hio do'), s1]
    apply rowMajor_inplace out mem ho
    intro is his d' hd hfr
    have hi1 : InShape o1.t.shape is := by rw [s1]; exact his
    have e1 : d'.get (o1.t.addr is) = mem.get (o1.t.addr is) := hfr _ (fun js hj hne e =>
      hne (h1.separate (by simp [b1]) is js hi1 hj e.symm).symm)
    have r1 := v1.rd hi1 hd
    rw [e1] at r1
    show (d'.rd (o1.t.addr is)).bind (fun x => d'.wr (out.addr is) (g x _)) = _
    rw [r1, Option.bind_some, a1, a2]
  · -- first is scalar
    obtain ⟨i2, s2⟩ := n2 b2
    obtain ⟨d2, a2⟩ := hnat o2 h2 b2
    have a1 := hsat o1 h1 b1
    have v2 := h2.tensor d2
    have do' : out.dims ≠ [] := dims_ne_of_shape s2 d2
    simp only [Bool.false_eq_true, decide_false, decide_true, Bool.not_false, Bool.not_true, Bool.and_true,
      Bool.and_self, Bool.and_false, if_false, if_true]
    rw [c33_traverse_invisible o2.t out s2 v2.accepted ho.accepted
      (getLast_of_innerOne i2 d2) (getLast_of_innerOne hio do'), s2]
    apply rowMajor_inplace out mem ho
    intro is his d' hd hfr
    have hi2 : InShape o2.t.shape is := by rw [s2]; exact his
    have e2 : d'.get (o2.t.addr is) = mem.get (o2.t.addr is) := hfr _ (fun js hj hne e =>
      hne (h2.separate (by simp [b2]) is js hi2 hj e.symm).symm)
    have r2 := v2.rd hi2 hd
    rw [e2] at r2
    show (d'.rd (o2.t.addr is)).bind (fun y => d'.wr (out.addr is) (g _ y)) = _
    rw [r2, Option.bind_some, a1, a2]
  · -- both are single elements
    have a1 := hsat o1 h1 b1
    have a2 := hsat o2 h2 b2
    have s2 := sc b1
    simp only [decide_true, Bool.not_true, Bool.and_true, Bool.and_false, Bool.and_self, if_false,
      Bool.false_eq_true]
    have hones : ∀ n ∈ out.shape, n = 1 := by
      rw [← s2]
      rcases (isScalar_iff h2).mp b2 with h | h
      · unfold Tensor.shape; rw [h]; simp
      · by_cases hd : o2.t.dims = []
        · unfold Tensor.shape; rw [hd]; simp
        · apply prod_one_shape _ h
          intro n hn
          unfold Tensor.shape at hn
          obtain ⟨d, hd', rfl⟩ := List.mem_map.mp hn
          exact (h2.tensor hd).shape_pos d hd'
    have haddr : ∀ is, InShape out.shape is → out.addr is = out.base := by
      intro is his
      unfold Tensor.addr
      rw [offset_ones hones his]; omega
    obtain ⟨is0, his0⟩ : ∃ is, InShape out.shape is := by
      clear haddr s2
      refine ⟨out.shape.map (fun _ => 0), ?_⟩
      generalize out.shape = ns at hones
      induction ns with
      | nil => simp [InShape]
      | cons n ns ih =>
        have := hones n (by simp)
        exact ⟨⟨le_refl 0, by rw [this]; exact zero_lt_one⟩, ih (fun m hm => hones m (by simp [hm]))⟩
    have hb := ho.inBounds his0
    have hb' := haddr is0 his0
    unfold Tensor.addr at hb'
    rw [hb'] at hb
    unfold Buf.wr
    rw [if_pos hb]
    refine ⟨_, rfl, rfl, fun is his => ?_, fun a ha => ?_⟩
    · simp only [haddr is his, if_true]; rw [a1, a2]
    · have := ha is0 his0
      rw [haddr is0 his0] at this
      simp only [if_neg (Ne.symm this)]

/-- A tensor with one element and a scalar of rank 0 are rejected when the scalar is the second
operand, although the same call with the operands exchanged is accepted. -/
theorem c32_scalar_order_violated :
    ∃ (t : Tensor) (s : Operand), t.dims = [⟨1, 1⟩] ∧ s.t.dims = [] ∧
      chkEltwise s.t t t = some .ok ∧ chkEltwise t s.t t = some .shapeMismatch := by
  exact ⟨{ dims := [⟨1, 1⟩], cap := 1, es := 1 }, ⟨{ dims := [], cap := 0, es := 1 }, 5⟩, rfl, rfl, by decide, by decide⟩

/-- Hypotheses met: a tensor with a row pitch, a dense tensor, and the output in place of the first. -/
example :
    let a : Tensor := { dims := [⟨2, 3⟩, ⟨2, 1⟩], cap := 6, es := 1, base := 0 }
    let b : Tensor := { dims := [⟨2, 2⟩, ⟨2, 1⟩], cap := 4, es := 1, base := 5 }
    let mem := Buf.ofList [1, 2, 99, 3, 4, 10, 20, 30, 40]
    chkEltwise a b a = some .ok ∧ a.Valid mem ∧ b.Valid mem ∧ a.Separate a ∧
    (eltwiseRun (· + ·) ⟨a, 0⟩ ⟨b, 0⟩ a mem).map Buf.toList = some [11, 22, 99, 33, 44, 10, 20, 30, 40] ∧
    (eltwiseRun (· + ·) ⟨a, 0⟩ ⟨{ dims := [], cap := 0, es := 1 }, 7⟩ a mem).map Buf.toList =
      some [8, 9, 99, 10, 11, 10, 20, 30, 40] := by
  have hv : Tensor.Valid { dims := [⟨2, 3⟩, ⟨2, 1⟩], cap := 6, es := 1, base := 0 }
      (Buf.ofList [1, 2, 99, 3, 4, 10, 20, 30, 40]) := ⟨by decide, by decide, by decide, by decide⟩
  exact ⟨by decide, hv, ⟨by decide, by decide, by decide, by decide⟩, Tensor.Separate.refl _ _ hv,
    by decide +kernel, by decide +kernel⟩

/-! ## C31: fixed-point arithmetic -/

/-- The exact result of an operation on fixed-point numbers `a / 2^f1` and `b / 2^f2`, rounded to `fo`
fractional bits by the rule of the mode and clamped to `w` bits, is `r`. -/
def EltExact (m : Rnd) (w : Nat) (op : EltOp) (f1 f2 fo a b r : Int) : Prop :=
  let f := max f1 f2
  ∃ q, r = clamp w q ∧
    match op with
    | .add => Scaled m (a * 2 ^ (f - f1).toNat + b * 2 ^ (f - f2).toNat) (f - fo) q
    | .sub => Scaled m (a * 2 ^ (f - f1).toNat - b * 2 ^ (f - f2).toNat) (f - fo) q
    | .mul => Scaled m (a * b) (f1 + f2 - fo) q
    | .max => Scaled m (max (a * 2 ^ (f - f1).toNat) (b * 2 ^ (f - f2).toNat)) (f - fo) q
    | .min => Scaled m (min (a * 2 ^ (f - f1).toNat) (b * 2 ^ (f - f2).toNat)) (f - fo) q

/-- 64-bit to `w`-bit conversion of a value with headroom is exact in both rounding modes. -/
theorem cast64_exact (m : Rnd) {w : Nat} (hw : w = 8 ∨ w = 16 ∨ w = 32) {x : Int} (hx : -2 ^ 62 ≤ x ∧ x ≤ 2 ^ 62 - 1)
    (s : Int) : ∃ q, Scaled m x s q ∧ castFx m 64 w x s = clamp w q := by
  have e1 : lo 64 = -9223372036854775808 := by decide
  have e2 : hi 64 = 9223372036854775807 := by decide
  norm_num at hx
  have hr : InRange 64 x := ⟨by omega, by omega⟩
  cases m
  · apply c05_cast_up_partial 64 w (by omega) (by omega) x hr
    by_cases h : (64 : Int) ≤ s
    · right; left; push_cast; exact h
    · right; right
      have : (2 ^ (s.toNat - 1) : Int) ≤ 2 ^ 62 := pow_le_pow_right₀ (by decide) (by omega)
      norm_num at this; omega
  · exact c05_cast_convergent 64 w (by omega) (by omega) x hr s

theorem asr_left_exact (m : Rnd) {w : Nat} (hw : w = 8 ∨ w = 16) {a : Int} (ha : InRange w a) (k : Nat)
    (hk : k + w ≤ 31) : asrRndFx m 32 a (-(k : Int)) = a * 2 ^ k ∧
      -2 ^ 30 ≤ a * 2 ^ k ∧ a * 2 ^ k ≤ 2 ^ 30 - 1 := by
  have hb : -2 ^ 30 ≤ a * 2 ^ k ∧ a * 2 ^ k ≤ 2 ^ 30 - 1 := by
    obtain ⟨h1, h2⟩ := ha
    have hp := two_pow_pos k
    rw [lo_eq] at h1; rw [hi_eq] at h2
    have hle : (2 : Int) ^ (w - 1) * 2 ^ k ≤ 2 ^ 30 := by
      rw [← pow_add]; exact pow_le_pow_right₀ (by decide) (by omega)
    generalize (2 : Int) ^ (w - 1) = M at *
    generalize (2 : Int) ^ k = P at *
    have g1 : (-M) * P ≤ a * P := Int.mul_le_mul_of_nonneg_right (by omega) (by omega)
    have g2 : a * P ≤ (M - 1) * P := Int.mul_le_mul_of_nonneg_right (by omega) (by omega)
    have g3 : (-M) * P = -(M * P) := by ring
    have g4 : (M - 1) * P = M * P - P := by ring
    omega
  refine ⟨?_, hb⟩
  rw [asrRnd_neg (by omega) (inRange_mono (by omega) ha), clamp_of_inRange]
  have e3 : lo 32 = -2147483648 := by decide
  have e4 : hi 32 = 2147483647 := by decide
  norm_num at hb
  exact ⟨by omega, by omega⟩

/-- The two operands of an addition or subtraction, brought to the larger number of fraction bits. -/
theorem elt_aligned (m : Rnd) {w : Nat} (hw : w = 8 ∨ w = 16) {a b : Int} (ha : InRange w a) (hb : InRange w b)
    (f1 f2 : Int) (h12 : |f1 - f2| ≤ 31 - w) :
    (asrRndFx m 32 a (min (f1 - f2) 0) = a * 2 ^ (max f1 f2 - f1).toNat ∧
      -2 ^ 30 ≤ a * 2 ^ (max f1 f2 - f1).toNat ∧ a * 2 ^ (max f1 f2 - f1).toNat ≤ 2 ^ 30 - 1) ∧
    (asrRndFx m 32 b (min (f2 - f1) 0) = b * 2 ^ (max f1 f2 - f2).toNat ∧
      -2 ^ 30 ≤ b * 2 ^ (max f1 f2 - f2).toNat ∧ b * 2 ^ (max f1 f2 - f2).toNat ≤ 2 ^ 30 - 1) := by
  rw [abs_le] at h12
  constructor
  · have := asr_left_exact m hw ha (max f1 f2 - f1).toNat (by omega)
    rw [show min (f1 - f2) 0 = -((max f1 f2 - f1).toNat : Int) by omega]
    exact this
  · have := asr_left_exact m hw hb (max f1 f2 - f2).toNat (by omega)
    rw [show min (f2 - f1) 0 = -((max f1 f2 - f2).toNat : Int) by omega]
    exact this

theorem elt_product {w : Nat} {a b : Int} (ha : InRange w a) (hb : InRange w b) :
    -2 ^ (w - 1) * 2 ^ (w - 1) ≤ a * b ∧ a * b ≤ 2 ^ (w - 1) * 2 ^ (w - 1) := by
  obtain ⟨a1, a2⟩ := ha
  obtain ⟨b1, b2⟩ := hb
  rw [lo_eq] at a1 b1; rw [hi_eq] at a2 b2
  have hp := two_pow_pos (w - 1)
  generalize (2 : Int) ^ (w - 1) = P at *
  constructor <;> nlinarith

/-- C31: the fixed-point kernels compute the exact result, rounded and clamped.
Missing (where the code violates the property, see below): addition and subtraction of operands
whose fraction bits differ by more than `31 - w`; results that drop more than `2w-1` bits
(`w-1` bits for MAX and MIN); and, in round-up mode, MAX and MIN results within half a unit of the
largest element and products of the two smallest elements that drop more than `2w-1` bits. -/
theorem c31_fx_exact_partial (m : Rnd) (w : Nat) (hw : w = 8 ∨ w = 16) (op : EltOp) (f1 f2 fo a b : Int)
    (ha : InRange w a) (hb : InRange w b)
    (hadd : op = .add ∨ op = .sub → |f1 - f2| ≤ 31 - w ∧ max f1 f2 - fo ≤ 2 * w - 1)
    (hmul : op = .mul → m = .convergent ∨ f1 + f2 - fo ≤ 2 * w - 1)
    (hmax : op = .max ∨ op = .min → f1 = f2 ∧ f1 - fo ≤ w - 1 ∧
      (m = .convergent ∨ f1 ≤ fo ∨ (a + 2 ^ (f1 - fo).toNat / 2 ≤ hi w ∧ b + 2 ^ (f1 - fo).toNat / 2 ≤ hi w))) :
    EltExact m w op f1 f2 fo a b (eltFx m w op (eltParamsFx w op f1 f2 fo) a b) := by
  have e3 : lo 32 = -2147483648 := by decide
  have e4 : hi 32 = 2147483647 := by decide
  have hsame : ∀ x : Int, InRange w x → f1 - fo ≤ w - 1 →
      (m = .convergent ∨ f1 ≤ fo ∨ x + 2 ^ (f1 - fo).toNat / 2 ≤ hi w) →
      ∃ q, castFxSame m w x (min (f1 - fo) (w - 1)) = clamp w q ∧ Scaled m x (f1 - fo) q := by
    intro x hx hs hc
    rw [show min (f1 - fo) ((w : Int) - 1) = f1 - fo by omega]
    unfold castFxSame
    rcases Int.lt_or_le (f1 - fo) 0 with h | h
    · obtain ⟨k, hk⟩ : ∃ k : Nat, f1 - fo = -(k : Int) := ⟨(-(f1 - fo)).toNat, by omega⟩
      refine ⟨x * 2 ^ k, ?_, ?_⟩
      · rw [hk, asrRnd_neg (by omega) hx]
      · unfold Scaled; rw [if_neg (by omega), hk]; simp
    · obtain ⟨k, hk⟩ : ∃ k : Nat, f1 - fo = (k : Int) := ⟨(f1 - fo).toNat, by omega⟩
      rw [hk] at hc ⊢
      rw [Int.toNat_natCast] at hc
      refine ⟨asrRndFx m w x k, ?_, ?_⟩
      · rw [clamp_of_inRange (asrRnd_inRange m (by omega) hx _)]
      · unfold Scaled
        rw [if_pos (by omega), Int.toNat_natCast]
        cases m
        · refine c04_round_half_up_partial w (by omega) x hx k ?_
          rcases hc with h | h | h
          · exact absurd h (by simp)
          · left; omega
          · by_cases hk0 : k = 0
            · left; exact hk0
            · right; right
              obtain ⟨j, rfl⟩ : ∃ j, k = j + 1 := ⟨k - 1, by omega⟩
              rw [pow_succ, Int.mul_ediv_cancel _ (by decide)] at h
              simpa using h
        · exact c03_convergent_round_half_even w (by omega) x hx k
  cases op with
  | add =>
    obtain ⟨h12, hpost⟩ := hadd (Or.inl rfl)
    obtain ⟨⟨r1, x1, x2⟩, ⟨r2, y1, y2⟩⟩ := elt_aligned m hw ha hb f1 f2 h12
    unfold eltFx eltParamsFx EltExact
    simp only []
    rw [r1, r2]
    generalize a * 2 ^ (max f1 f2 - f1).toNat = x at *
    generalize b * 2 ^ (max f1 f2 - f2).toNat = y at *
    norm_num at x1 x2 y1 y2
    rw [addFx_eq ⟨by omega, by omega⟩ ⟨by omega, by omega⟩, clamp_of_inRange ⟨by omega, by omega⟩,
      show min (max f1 f2 - fo) (2 * (w : Int) - 1) = max f1 f2 - fo by omega]
    obtain ⟨q, h1, h2⟩ := cast64_exact m (w := w) (by omega) (x := x + y) (by norm_num; omega) (max f1 f2 - fo)
    exact ⟨q, h2, h1⟩
  | sub =>
    obtain ⟨h12, hpost⟩ := hadd (Or.inr rfl)
    obtain ⟨⟨r1, x1, x2⟩, ⟨r2, y1, y2⟩⟩ := elt_aligned m hw ha hb f1 f2 h12
    unfold eltFx eltParamsFx EltExact
    simp only []
    rw [r1, r2]
    generalize a * 2 ^ (max f1 f2 - f1).toNat = x at *
    generalize b * 2 ^ (max f1 f2 - f2).toNat = y at *
    norm_num at x1 x2 y1 y2
    rw [subFx_eq ⟨by omega, by omega⟩ ⟨by omega, by omega⟩, clamp_of_inRange ⟨by omega, by omega⟩,
      show min (max f1 f2 - fo) (2 * (w : Int) - 1) = max f1 f2 - fo by omega]
    obtain ⟨q, h1, h2⟩ := cast64_exact m (w := w) (by omega) (x := x - y) (by norm_num; omega) (max f1 f2 - fo)
    exact ⟨q, h2, h1⟩
  | mul =>
    have hp := elt_product ha hb
    have hpb : -2 ^ 62 ≤ a * b ∧ a * b ≤ 2 ^ 62 - 1 := by
      rcases hw with rfl | rfl <;> norm_num at hp ⊢ <;> omega
    have r0 : ∀ x : Int, asrRndFx m 32 x 0 = x := fun x => by simp [asrRndFx]
    unfold eltFx eltParamsFx EltExact
    simp only [r0]
    by_cases hs : f1 + f2 - fo ≤ 2 * w - 1
    · rw [show min (f1 + f2 - fo) (2 * (w : Int) - 1) = f1 + f2 - fo by omega]
      obtain ⟨q, h1, h2⟩ := cast64_exact m (w := w) (by omega) hpb (f1 + f2 - fo)
      exact ⟨q, h2, h1⟩
    · have hm : m = .convergent := by
        rcases hmul rfl with h | h
        · exact h
        · exact absurd h hs
      subst hm
      rw [show min (f1 + f2 - fo) (2 * (w : Int) - 1) = 2 * w - 1 by omega]
      obtain ⟨q, h1, h2⟩ := cast64_exact .convergent (w := w) (by omega) hpb (2 * w - 1)
      obtain ⟨j, hj⟩ : ∃ j : Nat, f1 + f2 - fo = (j : Int) := ⟨(f1 + f2 - fo).toNat, by omega⟩
      have hsq : (2 : Int) ^ (w - 1) * 2 ^ (w - 1) * 2 = 2 ^ (2 * w - 1) := by
        rcases hw with rfl | rfl <;> norm_num
      have hz : ∀ n : Nat, 2 * w - 1 ≤ n → Scaled .convergent (a * b) n 0 := by
        intro n hn
        have hle : (2 : Int) ^ (2 * w - 1) ≤ 2 ^ n := pow_le_pow_right₀ (by decide) hn
        unfold Scaled RoundHalfEven
        rw [if_pos (by omega)]
        simp only [Int.toNat_natCast, zero_mul, sub_zero]
        have hneg : -(2 : Int) ^ (w - 1) * 2 ^ (w - 1) = -(2 ^ (w - 1) * 2 ^ (w - 1)) := by ring
        rw [hneg] at hp
        refine ⟨by omega, by omega, fun _ => by norm_num⟩
      have hq : q = 0 := by
        have := hz (2 * w - 1) (le_refl _)
        rw [show ((2 * w - 1 : Nat) : Int) = 2 * (w : Int) - 1 by omega] at this
        exact scaled_unique h1 this
      refine ⟨0, ?_, ?_⟩
      · rw [h2, hq]
      · rw [hj]; exact hz j (by omega)
  | max =>
    obtain ⟨rfl, hs, hc⟩ := hmax (Or.inl rfl)
    have r0 : ∀ x : Int, asrRndFx m 32 x 0 = x := fun x => by simp [asrRndFx]
    have hM : maxFx a b = max a b := by unfold maxFx; split <;> omega
    have hr : InRange w (max a b) := by
      obtain ⟨_, _⟩ := ha; obtain ⟨_, _⟩ := hb
      exact ⟨by omega, by omega⟩
    unfold eltFx eltParamsFx EltExact
    simp only [r0, max_self, sub_self, Int.toNat_zero, pow_zero, mul_one]
    rw [hM, wrap_of_inRange (by omega) hr]
    exact hsame _ hr hs (by
      rcases hc with h | h | h
      · exact Or.inl h
      · exact Or.inr (Or.inl h)
      · exact Or.inr (Or.inr (by omega)))
  | min =>
    obtain ⟨rfl, hs, hc⟩ := hmax (Or.inr rfl)
    have r0 : ∀ x : Int, asrRndFx m 32 x 0 = x := fun x => by simp [asrRndFx]
    have hM : minFx a b = min a b := by unfold minFx; split <;> omega
    have hr : InRange w (min a b) := by
      obtain ⟨_, _⟩ := ha; obtain ⟨_, _⟩ := hb
      exact ⟨by omega, by omega⟩
    unfold eltFx eltParamsFx EltExact
    simp only [r0, max_self, sub_self, Int.toNat_zero, pow_zero, mul_one]
    rw [hM, wrap_of_inRange (by omega) hr]
    exact hsame _ hr hs (by
      rcases hc with h | h | h
      · exact Or.inl h
      · exact Or.inr (Or.inl h)
      · exact Or.inr (Or.inr (by omega)))

/-- Hypotheses met: fx8 operands with 5 and 3 fraction bits, result with 4. -/
example : |(5 : Int) - 3| ≤ 31 - (8 : Nat) ∧ max (5 : Int) 3 - 4 ≤ 2 * (8 : Nat) - 1 ∧ InRange 8 100 ∧ InRange 8 (-20) ∧
    eltFx .convergent 8 .add (eltParamsFx 8 .add 5 3 4) 100 (-20) = 10 ∧
    eltFx .up 8 .mul (eltParamsFx 8 .mul 5 3 4) 100 (-20) = -125 ∧
    eltFx .up 8 .max (eltParamsFx 8 .max 5 5 4) 101 (-20) = 51 := by decide

theorem scaled_ne {m : Rnd} {x n r s : Int} (h : Scaled m x n r) (hne : r ≠ s) : ¬ Scaled m x n s :=
  fun h' => hne (scaled_unique h h')

/-- Adding 1 (no fraction bits) and 0 (20 fraction bits) gives 32 in fx8 instead of 1: the result
shift is limited to 15 bits although the operand was shifted left by 20. -/
theorem c31_add_shift_violated :
    eltFx .convergent 8 .add (eltParamsFx 8 .add 0 20 0) 1 0 = 32 ∧
    EltExact .convergent 8 .add 0 20 0 1 0 1 := by
  refine ⟨by decide, 1, by decide, ?_⟩
  simp [Scaled, RoundHalfEven]

/-- MAX of -128 and -128 with 8 fraction bits is -1 instead of 0 when the result has none. -/
theorem c31_max_shift_violated :
    eltFx .convergent 8 .max (eltParamsFx 8 .max 8 8 0) (-128) (-128) = -1 ∧
    EltExact .convergent 8 .max 8 8 0 (-128) (-128) 0 := by
  refine ⟨by decide, 0, by decide, ?_⟩
  simp [Scaled, RoundHalfEven]

/-- In round-up mode, MAX of two elements 127 with 7 fraction bits is 63 instead of 64 when the result
has 6. -/
theorem c31_max_up_violated :
    eltFx .up 8 .max (eltParamsFx 8 .max 7 7 6) 127 127 = 63 ∧
    EltExact .up 8 .max 7 7 6 127 127 64 := by
  refine ⟨by decide, 64, by decide, ?_⟩
  simp [Scaled, RoundHalfUp]

/-- In round-up mode, the product of two elements -128 with 8 fraction bits each is 1 instead of 0
when the result has no fraction bits. -/
theorem c31_mul_up_violated :
    eltFx .up 8 .mul (eltParamsFx 8 .mul 8 8 0) (-128) (-128) = 1 ∧
    EltExact .up 8 .mul 8 8 0 (-128) (-128) 0 := by
  refine ⟨by decide, 0, by decide, ?_⟩
  simp [Scaled, RoundHalfUp]

/-- The specification determines the result. -/
theorem c31_exact_unique {m : Rnd} {w : Nat} {op : EltOp} {f1 f2 fo a b r s : Int}
    (h : EltExact m w op f1 f2 fo a b r) (h' : EltExact m w op f1 f2 fo a b s) : r = s := by
  obtain ⟨q, rfl, h⟩ := h
  obtain ⟨q', rfl, h'⟩ := h'
  cases op <;> rw [scaled_unique h h']

/-- C31 and C32 together for the fx8 and fx16 kernels. -/
theorem c31_kernel_partial (m : Rnd) (w : Nat) (hw : w = 8 ∨ w = 16) (op : EltOp) (f1 f2 fo : Int)
    (o1 o2 : Operand) (out : Tensor) (mem : Buf)
    (hc : chkEltwise o1.t o2.t out = some .ok) (ho : out.Valid mem)
    (h1 : o1.Valid out mem) (h2 : o2.Valid out mem)
    (hel1 : ∀ is, InShape out.shape is → InRange w (o1.at mem is))
    (hel2 : ∀ is, InShape out.shape is → InRange w (o2.at mem is))
    (hadd : op = .add ∨ op = .sub → |f1 - f2| ≤ 31 - w ∧ max f1 f2 - fo ≤ 2 * w - 1)
    (hmul : op = .mul → m = .convergent ∨ f1 + f2 - fo ≤ 2 * w - 1)
    (hmax : op = .max ∨ op = .min → f1 = f2 ∧ f1 - fo ≤ w - 1 ∧ (m = .convergent ∨ f1 ≤ fo)) :
    ∃ mem' val, krnEltwiseFx m w op f1 f2 fo o1 o2 out mem = some (.ok, mem') ∧ out.Writes val mem mem' ∧
      ∀ is, InShape out.shape is → EltExact m w op f1 f2 fo (o1.at mem is) (o2.at mem is) (val is) := by
  obtain ⟨mem', r1, r2⟩ := c32_traversal (eltFx m w op (eltParamsFx w op f1 f2 fo)) o1 o2 out mem hc ho h1 h2
  refine ⟨mem', _, ?_, r2, fun is his => ?_⟩
  · unfold krnEltwiseFx
    have hne : ¬ ((op = .max ∨ op = .min) ∧ f1 ≠ f2) := by
      rintro ⟨h, h'⟩; exact h' (hmax h).1
    simp only [hc, r1, Option.bind_eq_bind, Option.bind_some, if_neg hne]
    rfl
  · refine c31_fx_exact_partial m w hw op f1 f2 fo _ _ (hel1 is his) (hel2 is his) hadd hmul ?_
    intro h
    obtain ⟨x, y, z⟩ := hmax h
    exact ⟨x, y, by tauto⟩

end Mli
