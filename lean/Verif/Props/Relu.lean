import Verif.Model.Relu
import Verif.Spec.Relu
import Verif.Lemmas.Map
import Verif.Props.Lut

/-! # C30: ReLU -/

namespace Mli

open Spec

/-- The admissible output elements of each kind of ReLU. -/
def ReluType.Admissible (w : Nat) (ty : ReluType) (z s b x : Int) : Prop :=
  InRange w x ∧
  match ty with
  | .none => True
  | .gen => RealGe z s b x 0
  | .six => RealGe z s b x 0 ∧ RealLe z s b x 6
  | .one => RealGe z s b x (-1) ∧ RealLe z s b x 1

theorem realGe_zero {z s b x : Int} (hs : 0 < s) : RealGe z s b x 0 ↔ z ≤ x := by
  unfold RealGe
  have hp := two_pow_pos (-b).toNat
  rw [zero_mul]
  constructor
  · intro h
    by_contra hc
    have h1 : (x - z) * s ≤ -1 := by nlinarith
    nlinarith
  · intro h
    exact Int.mul_nonneg (Int.mul_nonneg (by omega) (by omega)) (by omega)

theorem realLe_iff {z s b x c : Int} (hs : 0 < s) :
    RealLe z s b x c ↔ x - z ≤ c * 2 ^ b.toNat / 2 ^ (-b).toNat / s := by
  unfold RealLe
  rw [Int.le_ediv_iff_mul_le hs, Int.le_ediv_iff_mul_le (two_pow_pos _)]

theorem realGe_neg_iff {z s b x c : Int} (hs : 0 < s) :
    RealGe z s b x (-c) ↔ z - x ≤ c * 2 ^ b.toNat / 2 ^ (-b).toNat / s := by
  unfold RealGe
  rw [Int.le_ediv_iff_mul_le hs, Int.le_ediv_iff_mul_le (two_pow_pos _)]
  have e1 : -c * 2 ^ b.toNat = -(c * 2 ^ b.toNat) := by ring
  have e2 : (x - z) * s * 2 ^ (-b).toNat = -((z - x) * s * 2 ^ (-b).toNat) := by ring
  rw [e1, e2]; omega

theorem tdiv_pos {a s : Int} (ha : 0 ≤ a) : a.tdiv s = a / s := Int.tdiv_eq_ediv_of_nonneg ha

theorem small_div (c : Int) (h0 : 0 ≤ c) (k : Nat) (h : c < 2 ^ k) : c / 2 ^ k = 0 := Int.ediv_eq_zero_of_lt h0 h

/-- The limits delimit exactly the admissible elements. -/
theorem reluLimits_iff (w : Nat) (hw : w = 8 ∨ w = 16) (ty : ReluType) (z s b : Int) (hz : InRange w z) (hs : 0 < s)
    (hs2 : InRange 16 s)
    (h6 : ty = .six → z = 0 ∨ b < 28) (h1 : ty = .one → b < 30) :
    ∃ mn mx, reluLimits w ty z s b = (mn, mx) ∧ InRange w mn ∧ InRange w mx ∧ mn ≤ z ∧ z ≤ mx ∧
      ∀ x, ty.Admissible w z s b x ↔ mn ≤ x ∧ x ≤ mx := by
  have h16 : ∀ x, InRange w x → wrap 16 x = x := by
    intro x hx
    exact wrap_of_inRange (by omega) (inRange_mono (by omega) hx)
  obtain ⟨z1, z2⟩ := hz
  have l0 := lo_neg w
  have l1 := hi_nonneg w
  have hhi : hi w ≤ 32767 ∧ -32768 ≤ lo w := by rcases hw with rfl | rfl <;> decide
  have hs3 : s ≤ 32767 := by
    have e : hi 16 = 32767 := by decide
    obtain ⟨_, h⟩ := hs2; omega
  have hlo : InRange w (lo w) := ⟨le_refl _, by omega⟩
  have hhi' : InRange w (hi w) := ⟨by omega, le_refl _⟩
  cases ty with
  | none =>
    refine ⟨_, _, rfl, ?_⟩
    rw [h16 _ hlo, h16 _ hhi']
    exact ⟨hlo, hhi', z1, z2, fun x => by simp [ReluType.Admissible, InRange]⟩
  | gen =>
    refine ⟨_, _, rfl, ?_⟩
    have hm : max z (lo w) = z := by omega
    rw [hm, h16 _ ⟨z1, z2⟩, h16 _ hhi']
    refine ⟨⟨z1, z2⟩, hhi', le_refl _, z2, fun x => ?_⟩
    simp only [ReluType.Admissible, realGe_zero hs, InRange]
    omega
  | six =>
    refine ⟨_, _, rfl, ?_⟩
    have hm : max z (lo w) = z := by omega
    rw [hm]
    have key : ∀ six0, 0 ≤ six0 →
        (∀ x, InRange w x → (RealLe z s b x 6 ↔ x - z ≤ six0 ∨ x ≤ hi w ∧ hi w ≤ six0 + z)) →
        InRange w (wrap 16 z) ∧ InRange w (wrap 16 (min (six0 + z) (hi w))) ∧ wrap 16 z ≤ z ∧
        z ≤ wrap 16 (min (six0 + z) (hi w)) ∧ ∀ x, ReluType.six.Admissible w z s b x ↔
          wrap 16 z ≤ x ∧ x ≤ wrap 16 (min (six0 + z) (hi w)) := by
      intro six0 h0 h
      have hr : InRange w (min (six0 + z) (hi w)) := ⟨by omega, by omega⟩
      rw [h16 _ ⟨z1, z2⟩, h16 _ hr]
      refine ⟨⟨z1, z2⟩, hr, le_refl _, by omega, fun x => ?_⟩
      simp only [ReluType.Admissible, realGe_zero hs]
      constructor
      · rintro ⟨hx, hx2, hx3⟩
        rw [h x hx] at hx3
        obtain ⟨a, b⟩ := hx
        omega
      · rintro ⟨hx1, hx2⟩
        have hx : InRange w x := ⟨by omega, by omega⟩
        exact ⟨hx, hx1, (h x hx).mpr (by omega)⟩
    by_cases hb : b ≥ 0
    · rw [if_pos hb]
      have e0 : (-b).toNat = 0 := by omega
      by_cases hb2 : b < 28
      · rw [if_pos hb2]
        have hp := two_pow_pos b.toNat
        have h6 : (0:Int) ≤ 6 * 2 ^ b.toNat := by omega
        rw [tdiv_pos h6]
        apply key _ (Int.ediv_nonneg h6 (by omega))
        intro x hx
        rw [realLe_iff hs, e0, pow_zero, Int.ediv_one]
        obtain ⟨_, _⟩ := hx
        omega
      · rw [if_neg hb2]
        obtain rfl : z = 0 := by
          rcases h6 rfl with h | h
          · exact h
          · exact absurd h hb2
        apply key _ (by omega)
        intro x hx
        obtain ⟨x1, x2⟩ := hx
        have hbig2 : (2 ^ 28 : Int) ≤ 2 ^ b.toNat := pow_le_pow_right₀ (by decide) (by omega)
        have : RealLe 0 s b x 6 := by
          unfold RealLe
          rw [e0]
          have : (x - 0) * s ≤ 32767 * 32767 := by nlinarith
          norm_num at hbig2 this ⊢; omega
        constructor
        · intro _; left; omega
        · intro _; exact this
    · rw [if_neg hb]
      have e0 : b.toNat = 0 := by omega
      obtain ⟨k, hk⟩ : ∃ k : Nat, (-b).toNat = k := ⟨_, rfl⟩
      have e6 : (if b > -3 then ((6 : Int) >>> (-b).toNat).tdiv s else 0) = 6 / 2 ^ k / s := by
        by_cases h3 : b > -3
        · rw [if_pos h3, hk, shr_eq, tdiv_pos (Int.ediv_nonneg (by omega) (by have := two_pow_pos k; omega))]
        · rw [if_neg h3]
          have : (2 ^ 3 : Int) ≤ 2 ^ k := pow_le_pow_right₀ (by decide) (by omega)
          rw [small_div 6 (by omega) k (by omega)]; simp
      rw [e6]
      apply key _ (Int.ediv_nonneg (Int.ediv_nonneg (by omega) (by have := two_pow_pos k; omega)) (by omega))
      intro x hx
      rw [realLe_iff hs, e0, hk, pow_zero, mul_one]
      obtain ⟨_, _⟩ := hx
      omega
  | one =>
    refine ⟨_, _, rfl, ?_⟩
    have key : ∀ one0, 0 ≤ one0 →
        (∀ x, InRange w x → (RealLe z s b x 1 ↔ x - z ≤ one0 ∨ x ≤ hi w ∧ hi w ≤ one0 + z)) →
        (∀ x, InRange w x → (RealGe z s b x (-1) ↔ z - x ≤ one0 ∨ lo w ≤ x ∧ -one0 + z ≤ lo w)) →
        InRange w (wrap 16 (max (-one0 + z) (lo w))) ∧ InRange w (wrap 16 (min (one0 + z) (hi w))) ∧
        wrap 16 (max (-one0 + z) (lo w)) ≤ z ∧
        z ≤ wrap 16 (min (one0 + z) (hi w)) ∧ ∀ x, ReluType.one.Admissible w z s b x ↔
          wrap 16 (max (-one0 + z) (lo w)) ≤ x ∧ x ≤ wrap 16 (min (one0 + z) (hi w)) := by
      intro one0 h0 h h'
      have hr : InRange w (min (one0 + z) (hi w)) := ⟨by omega, by omega⟩
      have hr' : InRange w (max (-one0 + z) (lo w)) := ⟨by omega, by omega⟩
      rw [h16 _ hr', h16 _ hr]
      refine ⟨hr', hr, by omega, by omega, fun x => ?_⟩
      simp only [ReluType.Admissible]
      constructor
      · rintro ⟨hx, hx2, hx3⟩
        rw [h x hx] at hx3
        rw [h' x hx] at hx2
        obtain ⟨a, b⟩ := hx
        omega
      · rintro ⟨hx1, hx2⟩
        have hx : InRange w x := ⟨by omega, by omega⟩
        exact ⟨hx, (h' x hx).mpr (by omega), (h x hx).mpr (by omega)⟩
    by_cases hb : b ≥ 0
    · rw [if_pos hb]
      have e0 : (-b).toNat = 0 := by omega
      rw [if_pos (h1 rfl)]
      have hp := two_pow_pos b.toNat
      rw [tdiv_pos (by omega)]
      apply key _ (Int.ediv_nonneg (by omega) (by omega))
      · intro x hx
        rw [realLe_iff hs, e0, pow_zero, Int.ediv_one, one_mul]
        obtain ⟨_, _⟩ := hx
        omega
      · intro x hx
        rw [realGe_neg_iff hs, e0, pow_zero, Int.ediv_one, one_mul]
        obtain ⟨_, _⟩ := hx
        omega
    · rw [if_neg hb]
      have e0 : b.toNat = 0 := by omega
      obtain ⟨k, hk⟩ : ∃ k : Nat, (-b).toNat = k := ⟨_, rfl⟩
      have e1 : (1 : Int) / 2 ^ k / s = 0 := by
        have : (2 ^ 1 : Int) ≤ 2 ^ k := pow_le_pow_right₀ (by decide) (by omega)
        rw [small_div 1 (by omega) k (by omega)]; simp
      apply key _ (by omega)
      · intro x hx
        rw [realLe_iff hs, e0, hk, pow_zero, mul_one, e1]
        obtain ⟨_, _⟩ := hx
        omega
      · intro x hx
        rw [realGe_neg_iff hs, e0, hk, pow_zero, mul_one, e1]
        obtain ⟨_, _⟩ := hx
        omega

theorem nearestIn_interval {S : Int → Prop} {mn mx x : Int} (h : mn ≤ mx) (hS : ∀ y, S y ↔ mn ≤ y ∧ y ≤ mx) :
    NearestIn S x (minFx (maxFx x mn) mx) := by
  have : mn ≤ minFx (maxFx x mn) mx ∧ minFx (maxFx x mn) mx ≤ mx := by
    unfold minFx maxFx; split <;> split <;> omega
  refine ⟨(hS _).mpr this, fun y hy => ?_⟩
  have hy := (hS y).mp hy
  have h1 := abs_nonneg (x - y)
  unfold minFx maxFx
  rcases abs_cases (x - y) with ⟨e, _⟩ | ⟨e, _⟩ <;>
    (split <;> split <;> first
      | (rw [abs_le]; omega))

/-- C30 for every kind of ReLU, element type, shape and strides: the kernel succeeds and each output
element is the admissible element nearest to the input element; nothing else is written.
Missing: more than 27 fractional bits with a non-zero zero point for ReLU6 and more than 29
fractional bits for ReLU1 (see below), and rank 0 (where the code reads `shape[-1]`). -/
theorem c30_relu_partial (w : Nat) (hw : w = 8 ∨ w = 16) (ty : ReluType) (z s b : Int) (hz : InRange w z) (hs : 0 < s)
    (hs2 : InRange 16 s) (h6 : ty = .six → z = 0 ∨ b < 28) (h1 : ty = .one → b < 30)
    (tin tout : Tensor) (mem : Buf) (hi : tin.Valid mem) (ho : tout.Valid mem) (hsh : tin.shape = tout.shape)
    (i1 : tin.strides.getLast? = some 1) (o1 : tout.strides.getLast? = some 1) (hsep : tin.Separate tout) :
    ∃ mem' val, krnRelu w ty z s b tin tout mem = some (.ok, mem') ∧ tout.Writes val mem mem' ∧
      ∀ is, InShape tin.shape is → NearestIn (ty.Admissible w z s b) (mem.get (tin.addr is)) (val is) := by
  obtain ⟨mn, mx, hlim, r1, r2, b1, b2, hiff⟩ := reluLimits_iff w hw ty z s b hz hs hs2 h6 h1
  obtain ⟨mem', h1, h2⟩ := map_unary tin tout mem hi ho hsh hsep (fun v => some (minFx (maxFx v mn) mx))
    (fun is => minFx (maxFx (mem.get (tin.addr is)) mn) mx) (fun _ _ => rfl)
  refine ⟨mem', _, ?_, h2, fun is his => nearestIn_interval (by omega) hiff⟩
  have hchk : chkRelu tin tout = some .ok := by
    simp [chkRelu, hi.accepted, ho.accepted, sameShape, hsh, innerOne, i1, o1]
  simp only [Option.bind_some] at h1
  unfold krnRelu
  simp only [hlim, hchk]
  rw [wrap_of_inRange (by omega) r1, wrap_of_inRange (by omega) r2,
    c33_traverse_invisible tin tout hsh hi.accepted ho.accepted i1 o1]
  unfold pair
  simp only [ne_eq, not_true_eq_false, if_false, Option.bind_eq_bind, Option.bind_some]
  simp only [Fin.isValue, ↓reduceIte, show ((1 : Fin 2) = 0) = False by simp]
  rw [h1]
  rfl

/-- The ReLU kernel does not touch memory when it reports an error, and reports success only for
tensors of one shape with an innermost stride of one. -/
theorem c30_relu_status (w : Nat) (ty : ReluType) (z s b : Int) (tin tout : Tensor) (mem mem' : Buf) (st : Status)
    (h : krnRelu w ty z s b tin tout mem = some (st, mem')) :
    (st ≠ .ok → mem' = mem) ∧
    (st = .ok → tin.shape = tout.shape ∧ tin.strides.getLast?.getD 1 = 1 ∧ tout.strides.getLast?.getD 1 = 1) := by
  have e : chkRelu tin tout = chkBasicActivation tin tout := rfl
  unfold krnRelu at h
  simp only [Option.pure_def, Option.bind_eq_bind] at h
  rw [Option.bind_eq_some_iff] at h
  obtain ⟨s1, hs1, h⟩ := h
  split at h
  · rename_i hne
    simp only [Option.some.injEq, Prod.mk.injEq] at h
    obtain ⟨rfl, rfl⟩ := h
    exact ⟨fun _ => rfl, fun e => absurd e hne⟩
  · rename_i hne
    rw [Option.bind_eq_some_iff] at h
    obtain ⟨m', hm', h⟩ := h
    simp only [Option.some.injEq, Prod.mk.injEq] at h
    obtain ⟨rfl, rfl⟩ := h
    have : s1 = .ok := by simpa using hne
    exact ⟨fun e => absurd rfl e, fun _ => chkBasicActivation_ok (by rw [← e, hs1, this])⟩

/-- Hypotheses met by an accepted and by a rejected call. -/
example :
    let t : Tensor := { dims := [⟨1, 2⟩, ⟨2, 1⟩], cap := 2, es := 1 }
    let u : Tensor := { dims := [⟨2, 1⟩, ⟨1, 1⟩], cap := 2, es := 1 }
    ((krnRelu 8 .six (-3) 5 6 t t (Buf.ofList [3, 9])).map (·.1) = some .ok) ∧
    ((krnRelu 8 .six (-3) 5 6 t u (Buf.ofList [3, 9])).map (·.1) = some .shapeMismatch) := by
  decide +kernel

/-- An input element that is admissible is returned unchanged. -/
theorem c30_nearest_self {S : Int → Prop} {x y : Int} (h : NearestIn S x y) (hx : S x) : y = x := by
  have := h.2 x hx
  rw [sub_self, abs_zero] at this
  have h0 := abs_nonneg (x - y)
  have : |x - y| = 0 := by omega
  rw [abs_eq_zero] at this; omega

/-- Hypotheses met: SA8 ReLU6 in place, zero point -3, scale 5/64. -/
example :
    let t : Tensor := { dims := [⟨2, 3⟩, ⟨2, 1⟩], cap := 6, es := 1, base := 1 }
    let mem := Buf.ofList [99, 100, -100, 99, 30, -3, 99]
    t.Valid mem ∧ t.Separate t ∧ t.strides.getLast? = some 1 ∧ InRange 8 (-3) ∧ InRange 16 5 ∧
    (krnRelu 8 .six (-3) 5 6 t t mem).map (fun p => (p.1, p.2.toList)) =
      some (.ok, [99, 73, -3, 99, 30, -3, 99]) := by
  have hv : Tensor.Valid { dims := [⟨2, 3⟩, ⟨2, 1⟩], cap := 6, es := 1, base := 1 }
      (Buf.ofList [99, 100, -100, 99, 30, -3, 99]) := ⟨by decide, by decide, by decide, by decide⟩
  exact ⟨hv, Tensor.Separate.refl _ _ hv, by decide, by decide, by decide, by decide +kernel⟩

/-- With 28 fractional bits of the scale and zero point -100, ReLU6 cuts an admissible element
(120 stands for about 0.0000008) down to 27. -/
theorem c30_relu6_violated :
    ∃ (t : Tensor) (mem : Buf) (mem' : Buf), t.Valid mem ∧ mem.get 0 = 120 ∧
      ReluType.six.Admissible 8 (-100) 1 28 120 ∧
      krnRelu 8 .six (-100) 1 28 t t mem = some (.ok, mem') ∧ mem'.get 0 = 27 := by
  refine ⟨{ dims := [⟨1, 1⟩], cap := 1, es := 1 }, Buf.ofList [120], _,
    ⟨by decide, by decide, by decide, by decide⟩, by decide, ?_, rfl, by decide⟩
  exact ⟨by decide, by unfold RealGe; decide, by unfold RealLe; decide⟩

/-- With 30 fractional bits ReLU1 changes the admissible element -128 of a fixed-point tensor. -/
theorem c30_relu1_violated :
    ∃ (t : Tensor) (mem : Buf) (mem' : Buf), t.Valid mem ∧ mem.get 0 = -128 ∧
      ReluType.one.Admissible 8 0 1 30 (-128) ∧
      krnRelu 8 .one 0 1 30 t t mem = some (.ok, mem') ∧ mem'.get 0 = -127 := by
  refine ⟨{ dims := [⟨1, 1⟩], cap := 1, es := 1 }, Buf.ofList [-128], _,
    ⟨by decide, by decide, by decide, by decide⟩, by decide, ?_, rfl, by decide⟩
  exact ⟨by decide, by unfold RealGe; decide, by unfold RealLe; decide⟩

/-- A tensor of rank 0 passes the parameter check, and the kernel then reads outside of its shape. -/
theorem c30_rank0_violated :
    ∃ (t : Tensor) (mem : Buf), chkRelu t t = some .ok ∧ krnRelu 8 .gen 0 1 7 t t mem = none := by
  exact ⟨{ dims := [], cap := 1, es := 1 }, Buf.ofList [5], by decide, by decide⟩

end Mli
