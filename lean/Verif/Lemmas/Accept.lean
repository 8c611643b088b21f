import Verif.Spec.Accept
import Verif.Props.Fc
import Verif.Props.ConvSa8

/-! Lemmas on the checks of arguments (C96). -/

namespace Mli

open Spec

theorem ok_bind {x f : Option Status} : (x.bind fun s => if s ≠ .ok then some s else f) = some .ok ↔ x = some .ok ∧ f = some .ok := by
  cases x with
  | none => simp
  | some s => cases s <;> simp

theorem ok_if {c : Prop} [Decidable c] {e : Status} (he : e ≠ .ok) {f : Option Status} :
    (if c then some e else f) = some .ok ↔ ¬ c ∧ f = some .ok := by
  by_cases h : c <;> simp [h, he]

theorem ok_if' {c : Prop} [Decidable c] {e : Status} (he : e ≠ .ok) {f : Status} : (if c then e else f) = .ok ↔ ¬ c ∧ f = .ok := by
  by_cases h : c <;> simp [h, he]

theorem ok_st {q f : Status} : (if q ≠ .ok then q else f) = .ok ↔ q = .ok ∧ f = .ok := by
  cases q <;> simp

theorem ok_sts {q : Status} {f : Option Status} : (if q ≠ .ok then some q else f) = some .ok ↔ q = .ok ∧ f = some .ok := by
  cases q <;> simp

theorem ok_some {s : Status} : some s = some Status.ok ↔ s = .ok := by simp

/-! ## Kernels -/

theorem Spec.Decides.bind {β : Type} {c1 c2 : Prop} {d : β} {chk : Option Status} {rest : Option (Status × β)} (h : chk = some .ok ↔ c1)
    (hr : Decides c2 d rest) : Decides (c1 ∧ c2) d (chk.bind fun s => if s ≠ .ok then some (s, d) else rest) := by
  intro s d' e
  cases chk with
  | none => simp at e
  | some t =>
    by_cases ht : t = .ok
    · subst ht
      simp only [Option.bind_some, ne_eq, not_true_eq_false, if_false] at e
      have := hr s d' e
      rw [← h]; simpa using this
    · simp only [Option.bind_some, ne_eq, ht, not_false_eq_true, if_true, Option.some.injEq, Prod.mk.injEq] at e
      obtain ⟨rfl, rfl⟩ := e
      have : ¬ c1 := by rw [← h]; simpa using ht
      simp [ht, this]

theorem Spec.Decides.guard {β : Type} {c1 c2 c : Prop} [Decidable c] {d : β} {e : Status} {rest : Option (Status × β)} (he : e ≠ .ok) (h : ¬ c ↔ c1)
    (hr : Decides c2 d rest) : Decides (c1 ∧ c2) d (if c then some (e, d) else rest) := by
  intro s d' e'
  by_cases hc : c
  · rw [if_pos hc] at e'
    simp only [Option.some.injEq, Prod.mk.injEq] at e'
    obtain ⟨rfl, rfl⟩ := e'
    have : ¬ c1 := by rw [← h]; simpa using hc
    simp [he, this]
  · rw [if_neg hc] at e'
    have := hr s d' e'
    simp only [h.1 hc, true_and]; exact this

theorem Spec.Decides.status {β : Type} {c1 c2 : Prop} {d : β} {q : Status} {rest : Option (Status × β)} (h : q = .ok ↔ c1)
    (hr : Decides c2 d rest) : Decides (c1 ∧ c2) d (if q ≠ .ok then some (q, d) else rest) := by
  intro s d' e'
  by_cases hc : q = .ok
  · rw [if_neg (by simpa using hc)] at e'
    have := hr s d' e'
    simp only [h.1 hc, true_and]; exact this
  · rw [if_pos hc] at e'
    simp only [Option.some.injEq, Prod.mk.injEq] at e'
    obtain ⟨rfl, rfl⟩ := e'
    have : ¬ c1 := by rw [← h]; exact hc
    simp [hc, this]

theorem Spec.Decides.skip {α β : Type} {c : Prop} {d : β} {x : Option α} {f : α → Option (Status × β)} (h : ∀ a, Decides c d (f a)) :
    Decides c d (x.bind f) := by
  intro s d' e
  cases x with
  | none => simp at e
  | some a => exact h a s d' e

theorem Spec.Decides.done {β : Type} {d d' : β} : Decides True d (some (.ok, d')) := by
  intro s a e
  simp only [Option.some.injEq, Prod.mk.injEq] at e
  obtain ⟨rfl, rfl⟩ := e
  simp

theorem Spec.Decides.map {α β : Type} {d : β} {x : Option α} {f : α → β} : Decides True d (x.map fun a => (Status.ok, f a)) := by
  intro s a e
  cases x with
  | none => simp at e
  | some x => exact Spec.Decides.done s a (by simpa using e)

theorem Spec.Decides.undef {β : Type} {p c : Prop} [Decidable p] {d : β} {rest : Option (Status × β)} (h : Decides c d rest) :
    Decides c d (if p then none else rest) := by
  split
  · intro s a e; cases e
  · exact h

theorem Spec.Decides.none {β : Type} {c : Prop} {d : β} : Decides c d (none : Option (Status × β)) := by
  intro s a e; cases e

theorem Spec.Decides.conv {β : Type} {c1 c2 : Prop} {d : β} {r : Option (Status × β)} (hr : Decides c1 d r) (h : c1 ↔ c2) : Decides c2 d r := by
  intro s a e; rw [← h]; exact hr s a e

/-! ## Layouts -/

theorem innerOne_iff (t : Tensor) : innerOne t = true ↔ InnerOne t := by
  unfold innerOne InnerOne
  cases h : t.strides.getLast? with
  | none => simp
  | some s => simp

theorem sameShape_iff (a b : Tensor) : sameShape a b = true ↔ a.shape = b.shape := by unfold sameShape; simp

theorem contigScan_iff : ∀ ds : List Dim, ((contigScan ds).1 = true ↔ ds.map (·.stride) = denseStrides (ds.map (·.shape)))
  | [] => by simp [contigScan, denseStrides]
  | d :: ds => by
    simp only [contigScan, Bool.and_eq_true, beq_iff_eq, List.map_cons, denseStrides, List.cons.injEq]
    rw [contigScan_iff ds]
    constructor
    · rintro ⟨h1, h2⟩
      rw [(contigScan_cstr ds ((contigScan_iff ds).2 h1)).2] at h2
      exact ⟨h2, h1⟩
    · rintro ⟨h2, h1⟩
      rw [(contigScan_cstr ds ((contigScan_iff ds).2 h1)).2]
      exact ⟨h1, h2⟩

theorem isContig_iff (t : Tensor) : isContig t = true ↔ Dense t := contigScan_iff t.dims

theorem chkTensors_iff : ∀ ts : List Tensor, chkTensors ts = some .ok ↔ ∀ t ∈ ts, TensorOk t
  | [] => by simp [chkTensors]
  | t :: ts => by
    unfold chkTensors
    rw [ok_bind, chkTensors_iff ts]
    simp [TensorOk]

theorem prod_nonneg' : ∀ {ns : List Int}, (∀ n ∈ ns, 0 ≤ n) → 0 ≤ prod ns
  | [], _ => by simp [prod]
  | n :: ns, h => by
    unfold prod
    exact Int.mul_nonneg (h n (by simp)) (prod_nonneg' fun m hm => h m (by simp [hm]))

theorem Spec.Moderate.count {t : Tensor} (h : Moderate t) : countElemNum t = prod t.shape := by
  have hn : 0 ≤ prod t.shape := prod_nonneg' fun n hn => (h.1 n hn).1
  have f1 := foldl_mod t.shape 1 (2 ^ 32)
  have f2 := foldl_mod_range t.shape 1 (2 ^ 32) (by decide) (by decide)
  unfold countElemNum countElemNumPart
  simp only [List.drop_zero]
  rw [show t.dims.map (fun x => x.shape) = t.shape from rfl]
  have := h.2
  rw [Int.emod_eq_of_lt f2.1 f2.2, Int.one_mul, Int.emod_eq_of_lt (by omega) (by omega)] at f1
  exact f1

/-! ## Quantization -/

theorem chkQuantLoop_iff {q : SaQ} {bits : Nat} : ∀ n k : Nat, chkQuantLoop q bits n k = .ok ↔
    ∀ i, k ≤ i → i < k + n → 0 < q.scale.getD i 0 ∧ (if bits = 0 then 0 else -(2 ^ bits : Int)) ≤ q.zp.getD i 0 ∧
      q.zp.getD i 0 ≤ (if bits = 0 then 0 else (2 ^ bits : Int) - 1)
  | 0, k => by simp only [chkQuantLoop, Nat.add_zero, true_iff]; intro i h1 h2; omega
  | n + 1, k => by
    unfold chkQuantLoop
    rw [ok_if' (by decide), ok_if' (by decide), chkQuantLoop_iff n (k + 1), not_not, not_not]
    constructor
    · rintro ⟨h1, h2, h3⟩ i hi1 hi2
      rcases Nat.eq_or_lt_of_le hi1 with e | e
      · subst e; exact ⟨h1, h2⟩
      · exact h3 i e (by omega)
    · intro h
      exact ⟨(h k (by omega) (by omega)).1, (h k (by omega) (by omega)).2, fun i h1 h2 => h i (by omega) (by omega)⟩

theorem chkQuant_iff' {t : Tensor} {q : SaQ} {bits : Nat} {a b : Int} (ht : ∀ n ∈ t.shape, 0 ≤ n) (ha : a = if bits = 0 then 0 else -(2 ^ bits : Int))
    (hb : b = if bits = 0 then 0 else (2 ^ bits : Int) - 1) : chkQuant t q bits = .ok ↔ QuantOk t q a b := by
  subst ha hb
  unfold chkQuant
  rw [ok_if' (by decide)]
  simp only []
  rw [ok_if' (by decide), ok_if' (by decide), chkQuantLoop_iff]
  unfold QuantOk entries
  by_cases hd : q.dim < 0
  · have h0 : ¬ 0 ≤ q.dim := by omega
    simp only [hd, h0, if_true, if_false, false_and, true_and, not_not, not_false_eq_true, forall_const, false_implies, Nat.zero_add, Nat.zero_le]
    constructor
    · rintro ⟨h1, h2, h3⟩
      exact ⟨h2, fun k hk => h3 k (by omega)⟩
    · rintro ⟨h2, h3⟩
      exact ⟨by omega, h2, fun k hk => h3 k (by omega)⟩
  · have h0 : 0 ≤ q.dim := by omega
    simp only [hd, h0, if_true, if_false, false_and, true_and, not_not, not_false_eq_true, forall_const, false_implies, Nat.zero_add, Nat.zero_le]
    have hs : 0 ≤ t.shape.getD q.dim.toNat 0 := by
      rw [List.getD_eq_getElem?_getD]
      cases e : t.shape[q.dim.toNat]? with
      | none => simp
      | some n =>
        have := ht n (List.mem_of_getElem? e)
        simp only [Option.getD_some]; omega
    generalize t.shape.getD q.dim.toNat 0 = n at hs ⊢
    constructor
    · rintro ⟨h1, h2, h3⟩
      exact ⟨⟨h1, by omega, by omega, by omega⟩, fun k hk => h3 k (by omega)⟩
    · rintro ⟨⟨h1, h2⟩, h3⟩
      exact ⟨h1, by omega, fun k hk => h3 k (by omega)⟩

theorem Spec.TensorOk.nonneg {t : Tensor} (ht : TensorOk t) : ∀ n ∈ t.shape, 0 ≤ n := by
  intro n hm
  unfold Tensor.shape at hm
  rw [List.mem_map] at hm
  obtain ⟨d, hd, rfl⟩ := hm
  have := ((checkTensorPrivate_ok ht).2.2.1 d hd).2.1
  omega

theorem chkQuant_iff {t : Tensor} {q : SaQ} {bits : Nat} {a b : Int} (ht : TensorOk t) (ha : a = if bits = 0 then 0 else -(2 ^ bits : Int))
    (hb : b = if bits = 0 then 0 else (2 ^ bits : Int) - 1) : chkQuant t q bits = .ok ↔ QuantOk t q a b :=
  chkQuant_iff' ht.nonneg ha hb

/-- The scales are positive 16-bit numbers, and where the product is shifted to the left it stays below `2^31`. -/
def BiasRange (sIn fIn sW fW sB fB : Int) : Prop :=
  (0 < sIn ∧ sIn < 2 ^ 15) ∧ (0 < sW ∧ sW < 2 ^ 15) ∧ (0 < sB ∧ sB < 2 ^ 15) ∧
  (fIn + fW - fB ≤ 0 → fB - fIn - fW < 32 ∧ sIn * sW * 2 ^ (fB - fIn - fW).toNat < 2 ^ 31)

theorem asrRnd32_scaled {m : Rnd} {x n : Int} (hx : 0 ≤ x ∧ x < 2 ^ 30) (hn : 0 < n) : Scaled m x n (asrRndFx m 32 x n) := by
  have hr : InRange 32 x := by constructor <;> simp only [lo, hi] <;> omega
  obtain ⟨k, rfl⟩ : ∃ k : Nat, n = k := ⟨n.toNat, by omega⟩
  unfold Scaled
  rw [if_pos (by omega), Int.toNat_natCast]
  cases m with
  | convergent => exact c03_convergent_round_half_even 32 (by decide) x hr k
  | up =>
    refine c04_round_half_up_partial 32 (by decide) x hr k ?_
    by_cases h : 32 ≤ k
    · exact Or.inr (Or.inl h)
    · refine Or.inr (Or.inr ?_)
      have : (2 : Int) ^ (k - 1) ≤ 2 ^ 30 := pow_le_pow_right₀ (by norm_num) (by omega)
      simp only [hi]
      omega

theorem asrRnd32_range {m : Rnd} {x n : Int} (hx : 0 ≤ x ∧ x < 2 ^ 30) (hn : 0 < n) : -1 ≤ asrRndFx m 32 x n ∧ asrRndFx m 32 x n ≤ 2 ^ 30 := by
  have h := asrRnd32_scaled (m := m) hx hn
  unfold Scaled at h
  rw [if_pos (by omega)] at h
  generalize asrRndFx m 32 x n = r at h
  have hd : (1 : Int) ≤ 2 ^ n.toNat := one_le_pow₀ (by norm_num)
  generalize (2 : Int) ^ n.toNat = d at h hd
  have key : -d ≤ 2 * (x - r * d) ∧ 2 * (x - r * d) ≤ d := by
    cases m with
    | up => exact ⟨h.1, by have := h.2; omega⟩
    | convergent => exact ⟨h.1, h.2.1⟩
  constructor
  · by_contra hc
    have : r * d ≤ -2 * d := by nlinarith
    omega
  · by_contra hc
    have h2 : (2 ^ 30 + 1) * d ≤ r * d := by nlinarith
    nlinarith

theorem chkBiasScale_iff {m : Rnd} {sIn fIn sW fW sB fB : Int} (h : BiasRange sIn fIn sW fW sB fB) :
    chkBiasScale m sIn fIn sW fW sB fB = some true ↔ BiasScaleOk m sIn fIn sW fW sB fB := by
  obtain ⟨h1, h2, h3, h4⟩ := h
  have hx : 0 ≤ sIn * sW ∧ sIn * sW < 2 ^ 30 := by constructor <;> nlinarith
  have main : ∃ e, Scaled m (sIn * sW) (fIn + fW - fB) e ∧ (-1 ≤ e ∧ e < 2 ^ 31) ∧
      (if fIn + fW - fB > 0 then some (asrRndFx m 32 (sIn * sW) (fIn + fW - fB)) else if -(fIn + fW - fB) ≥ 32 then none
        else some (wrap 32 (sIn * sW * 2 ^ (-(fIn + fW - fB)).toNat))) = some e := by
    by_cases hp : fIn + fW - fB > 0
    · have := asrRnd32_range (m := m) hx hp
      exact ⟨_, asrRnd32_scaled hx hp, by omega, if_pos hp⟩
    · obtain ⟨g1, g2⟩ := h4 (by omega)
      rw [if_neg hp, if_neg (by omega)]
      rw [show fB - fIn - fW = -(fIn + fW - fB) by omega] at g2
      have hpow : (0 : Int) < 2 ^ (-(fIn + fW - fB)).toNat := by positivity
      have hnn : 0 ≤ sIn * sW * 2 ^ (-(fIn + fW - fB)).toNat := Int.mul_nonneg hx.1 hpow.le
      rw [wrap_of_inRange (by decide) (show InRange 32 _ by constructor <;> simp only [lo, hi] <;> omega)]
      refine ⟨_, ?_, ⟨by omega, by omega⟩, rfl⟩
      unfold Scaled
      by_cases hz : 0 ≤ fIn + fW - fB
      · have hz' : fIn + fW - fB = 0 := by omega
        rw [if_pos hz, hz']
        cases m <;> simp [RoundHalfUp, RoundHalfEven]
      · rw [if_neg hz]
  obtain ⟨e, s1, s2, s3⟩ := main
  have hw : chkBiasScale m sIn fIn sW fW sB fB = Option.bind (if fIn + fW - fB > 0 then some (asrRndFx m 32 (sIn * sW) (fIn + fW - fB))
      else if -(fIn + fW - fB) ≥ 32 then none else some (wrap 32 (sIn * sW * 2 ^ (-(fIn + fW - fB)).toNat)))
      fun e => (ckd 32 (e - sB)).bind fun d => some (decide (d ≤ 1) && decide (-1 ≤ d)) := by
    unfold chkBiasScale
    simp only [Option.bind_eq_bind, Option.pure_def]
    split_ifs <;> rfl
  rw [hw, s3, Option.bind_some]
  have hc : ckd 32 (e - sB) = some (e - sB) := by
    unfold ckd
    rw [if_pos (show InRange 32 _ by constructor <;> simp only [lo, hi] <;> omega)]
  rw [hc, Option.bind_some]
  simp only [Option.some.injEq, Bool.and_eq_true, decide_eq_true_eq]
  constructor
  · rintro ⟨a, b⟩
    exact ⟨e, s1, b, a⟩
  · rintro ⟨e', t1, b, a⟩
    rw [scaled_unique s1 t1]
    exact ⟨a, b⟩

theorem chkBiasLoop_iff {m : Rnd} {qi qw qb : SaQ} : ∀ n k : Nat,
    (∀ i : Nat, k ≤ i → i < k + n → BiasRange (qi.scaleAt 0) (qi.fracAt 0) (qw.scaleAt i) (qw.fracAt i) (qb.scaleAt i) (qb.fracAt i)) →
    (chkBiasLoop m qi qw qb n k = some .ok ↔
      ∀ i : Nat, k ≤ i → i < k + n → BiasScaleOk m (qi.scaleAt 0) (qi.fracAt 0) (qw.scaleAt i) (qw.fracAt i) (qb.scaleAt i) (qb.fracAt i))
  | 0, k, _ => by simp only [chkBiasLoop, Nat.add_zero, true_iff]; intro i h1 h2; omega
  | n + 1, k, h => by
    unfold chkBiasLoop
    simp only [Option.bind_eq_bind, Option.pure_def]
    have hk := chkBiasScale_iff (m := m) (h k (by omega) (by omega))
    have ih := chkBiasLoop_iff (m := m) n (k + 1) fun i h1 h2 => h i (by omega) (by omega)
    have split : (∀ i : Nat, k ≤ i → i < k + (n + 1) → BiasScaleOk m (qi.scaleAt 0) (qi.fracAt 0) (qw.scaleAt i) (qw.fracAt i) (qb.scaleAt i) (qb.fracAt i)) ↔
        BiasScaleOk m (qi.scaleAt 0) (qi.fracAt 0) (qw.scaleAt k) (qw.fracAt k) (qb.scaleAt k) (qb.fracAt k) ∧
        ∀ i : Nat, k + 1 ≤ i → i < k + 1 + n → BiasScaleOk m (qi.scaleAt 0) (qi.fracAt 0) (qw.scaleAt i) (qw.fracAt i) (qb.scaleAt i) (qb.fracAt i) := by
      constructor
      · intro g; exact ⟨g k (by omega) (by omega), fun i h1 h2 => g i (by omega) (by omega)⟩
      · rintro ⟨g1, g2⟩ i h1 h2
        rcases Nat.eq_or_lt_of_le h1 with e | e
        · subst e; exact g1
        · exact g2 i e (by omega)
    rw [split, ← hk, ← ih]
    cases chkBiasScale m (qi.scaleAt 0) (qi.fracAt 0) (qw.scaleAt k) (qw.fracAt k) (qb.scaleAt k) (qb.fracAt k) with
    | none => simp
    | some b => cases b <;> simp

/-- The range condition for `n` channels. -/
def BiasRanges (qi qw qb : SaQ) (n : Nat) : Prop :=
  ∀ i < n, BiasRange (qi.scaleAt 0) (qi.fracAt 0) (qw.scaleAt (i : Nat)) (qw.fracAt (i : Nat)) (qb.scaleAt (i : Nat)) (qb.fracAt (i : Nat))

theorem chkBiasLoop_ok_iff {m : Rnd} {qi qw qb : SaQ} {n : Nat} (h : BiasRanges qi qw qb n) :
    chkBiasLoop m qi qw qb n 0 = some .ok ↔ BiasOk m qi qw qb n := by
  rw [chkBiasLoop_iff n 0 fun i _ h2 => h i (by omega)]
  unfold BiasOk
  constructor
  · intro g k hk; exact g k (by omega) (by omega)
  · intro g k _ hk; exact g k (by omega)

end Mli
