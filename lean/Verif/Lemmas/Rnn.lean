import Verif.Model.Rnn
import Verif.Props.Fc

/-! # The loops of `rnn_dense_op` -/

namespace Mli

open Spec

/-- The weights additive on top of a dot product that started from `a`. -/
theorem wAdd_line_from {q : ConvQ} {wts : Buf} {p n ws : Int} (hz : wrap 16 (-q.zx) = -q.zx) (X Y : Nat → Int) (B a0 : Int)
    (hy : ∀ k : Nat, k < n.toNat → wts.rd (p + ws * k) = some (Y k))
    (hb1 : ∀ k : Nat, k < n.toNat → |X k * Y k| ≤ B) (hb2 : ∀ k : Nat, k < n.toNat → |(X k - q.zx) * Y k| ≤ B)
    (hfit : |a0| + n.toNat * B ≤ hi q.aw) :
    wAdd3D q wts p (a0 + ∑ k ∈ Finset.range n.toNat, X k * Y k) n 1 1 ws 1 1 =
      some (a0 + ∑ k ∈ Finset.range n.toNat, (X k - q.zx) * Y k) := by
  unfold wAdd3D
  by_cases h : q.zx = 0
  · simp only [h, ne_eq, not_true_eq_false, if_false, Int.sub_zero]
  · simp only [ne_eq, h, not_false_eq_true, if_true, hz, winAcc]
    rw [show (1 : Int).toNat = 1 from rfl]
    simp only [Mli.forRange, Option.bind_some, Nat.cast_zero, Int.mul_zero, Int.add_zero, Int.zero_add]
    obtain ⟨a, h1, h2⟩ := forRange_inv (n := n.toNat)
      (f := fun (c : Nat) acc => (wts.rd (p + ws * c)).bind fun x => macFx q.aw acc (-q.zx) x)
      (s := a0 + ∑ k ∈ Finset.range n.toNat, X k * Y k)
      (fun k a => a = a0 + ∑ i ∈ Finset.range n.toNat, (if i < k then (X i - q.zx) * Y i else X i * Y i)) (by simp) (by
        intro k a hk ha
        rw [hy k hk, Option.bind_some]
        have e : a + -q.zx * Y k = a0 + ∑ i ∈ Finset.range n.toNat, (if i < k + 1 then (X i - q.zx) * Y i else X i * Y i) := by
          have e1 : -q.zx * Y k = ∑ i ∈ Finset.range n.toNat, (if i = k then -q.zx * Y i else 0) := by
            rw [Finset.sum_ite_eq', if_pos (Finset.mem_range.2 hk)]
          rw [ha, e1, Int.add_assoc, ← Finset.sum_add_distrib]
          congr 1
          apply Finset.sum_congr rfl; intro i _
          rcases lt_trichotomy i k with hlt | rfl | hgt
          · rw [if_pos hlt, if_neg (by omega), if_pos (by omega)]; ring
          · rw [if_neg (by omega), if_pos rfl, if_pos (by omega)]; ring
          · rw [if_neg (by omega), if_neg (by omega), if_neg (by omega)]; ring
        refine ⟨a + -q.zx * Y k, ?_, e⟩
        have hab : |a + -q.zx * Y k| ≤ |a0| + n.toNat * B := by
          rw [e]
          refine (abs_add_le _ _).trans (Int.add_le_add_left ?_ _)
          refine (Finset.abs_sum_le_sum_abs _ _).trans ?_
          have := Finset.sum_le_card_nsmul (Finset.range n.toNat)
            (fun i => |if i < k + 1 then (X i - q.zx) * Y i else X i * Y i|) B (by
              intro i hi
              have hi := Finset.mem_range.1 hi
              split
              · exact hb2 i hi
              · exact hb1 i hi)
          simpa using this
        have hab := abs_le.1 (hab.trans hfit)
        have := lo_eq q.aw
        have := hi_eq q.aw
        show ckd _ _ = _
        unfold ckd
        rw [if_pos ⟨by omega, hab.2⟩])
    rw [h1, h2]
    congr 2
    apply Finset.sum_congr rfl; intro i hi
    rw [if_pos (Finset.mem_range.1 hi)]

/-- An input of `rnn_dense_op` with readable elements `X` and weights `W`, whose products are at most `B`. -/
structure RnnIn.Ok (i : RnnIn) (mo : Int) (X : Int → Int) (W : Int → Int → Int) (B : Int) : Prop where
  zw : i.zw = 0
  zx : wrap 16 (-i.zx) = -i.zx
  rx : ∀ k : Nat, k < i.n.toNat → i.src.rd (i.p + k) = some (X k)
  rw : ∀ o k : Nat, (o : Int) < mo → k < i.n.toNat → i.wts.rd (i.wp + o + i.ws * k) = some (W k o)
  b1 : ∀ o k : Nat, (o : Int) < mo → k < i.n.toNat → |X k * W k o| ≤ B
  b2 : ∀ o k : Nat, (o : Int) < mo → k < i.n.toNat → |(X k - i.zx) * W k o| ≤ B

/-- The sum an input contributes to output `o`. -/
def RnnIn.dot (i : RnnIn) (X : Int → Int) (W : Int → Int → Int) (o : Int) : Int := dotSum i.n (fun k => X k - i.zx) (fun k => W k o)

theorem RnnIn.Ok.dot_le {i : RnnIn} {mo : Int} {X : Int → Int} {W : Int → Int → Int} {B : Int} (h : i.Ok mo X W B) {o : Nat} (ho : (o : Int) < mo) :
    |i.dot X W o| ≤ i.n.toNat * B := by
  unfold RnnIn.dot dotSum
  refine (Finset.abs_sum_le_sum_abs _ _).trans ?_
  have := Finset.sum_le_card_nsmul (Finset.range i.n.toNat) (fun k : Nat => |(X k - i.zx) * W k o|) B
    (fun k hk => h.b2 o k ho (Finset.mem_range.1 hk))
  simpa using this

theorem rnnAdditive_eq {i : RnnIn} (aw : Nat) (h : i.zw = 0) : rnnAdditive aw i = some 0 := by
  unfold rnnAdditive
  have hq : (i.q aw).zw = 0 := h
  have := (zpAdd_adds (q := i.q aw) i.n).2 0 (by rw [hq]; simpa using (lo_neg (i.q aw).aw).le) (by rw [hq]; simpa using hi_nonneg (i.q aw).aw)
  simp only [inAdd2D, hq, ne_eq, not_true_eq_false, if_false, Option.bind_some]
  simp only [hq, Int.mul_zero, Int.add_zero] at this
  exact this

theorem rnnTerm_eq {i : RnnIn} {mo : Int} {X : Int → Int} {W : Int → Int → Int} {B : Int} (aw : Nat) (h : i.Ok mo X W B) {o : Nat} (ho : (o : Int) < mo)
    {a : Int} (hfit : |a| + i.n.toNat * B ≤ hi aw) : rnnTerm aw o a 0 i = some (i.req (a + i.dot X W o)) := by
  have a1 := dotprod1D_adds (aw := aw) (src := i.src) (wts := i.wts) (p := i.p) (q := i.wp + o) (n := i.n) (is := 1)
    (ks := i.ws) (fun k => X k) (fun k => W k o) B (fun k hk => by rw [Int.one_mul]; exact h.rx k hk) (fun k hk => h.rw o k ho hk)
    (fun k hk => h.b1 o k ho hk)
  have hl := lo_eq aw
  have hh := hi_eq aw
  have ha := abs_le.1 (show |a| ≤ hi aw - i.n.toNat * B by omega)
  have h0 := a1.2 a (by omega) (by omega)
  simp only [] at h0
  unfold rnnTerm
  rw [h0, Option.bind_some, wAdd_line_from (q := i.q aw) h.zx (fun k => X k) (fun k => W k o) B a (fun k hk => h.rw o k ho hk)
    (fun k hk => h.b1 o k ho hk) (fun k hk => h.b2 o k ho hk) hfit]
  have hd := h.dot_le ho
  have hs : |a + i.dot X W o| ≤ hi aw := (abs_add_le _ _).trans (by omega)
  have hs := abs_le.1 hs
  have hr : InRange aw (a + i.dot X W o) := ⟨by omega, hs.2⟩
  show some (i.req (addFx aw (a + i.dot X W o) 0)) = _
  rw [addFx_eq hr ⟨(lo_neg aw).le, hi_nonneg aw⟩, Int.add_zero, clamp_of_inRange hr]

theorem rnnSum_eq (aw : Nat) (o : Int) : ∀ (ins : List RnnIn) (accu res : Int) (t : Nat → Int),
    (∀ k (hk : k < ins.length), rnnTerm aw o (if k = 0 then accu else 0) 0 ins[k] = some (t k)) →
    rnnSum aw o (ins.zip (List.replicate ins.length 0)) accu res =
      some ((List.range ins.length).foldl (fun s k => addFx aw s (t k)) res)
  | [], _, _, _, _ => rfl
  | i :: ins, accu, res, t, h => by
    have h0 := h 0 (by simp)
    simp only [if_true, List.getElem_cons_zero] at h0
    simp only [List.length_cons, List.replicate_succ, List.zip_cons_cons, rnnSum, h0, Option.bind_some]
    rw [rnnSum_eq aw o ins 0 _ (fun k => t (k + 1)) (fun k hk => by
      have := h (k + 1) (by simpa using hk)
      simp only [Nat.add_eq_zero_iff, one_ne_zero, and_false, if_false, List.getElem_cons_succ] at this
      simpa using this)]
    rw [List.range_succ_eq_map, List.foldl_cons, List.foldl_map]

/-- Saturating additions are exact when the absolute values fit together. -/
theorem foldl_addFx (aw : Nat) (t T : Nat → Int) : ∀ n : Nat, (∀ k, k < n → |t k| ≤ T k) → ∑ k ∈ Finset.range n, T k ≤ hi aw →
    (List.range n).foldl (fun s k => addFx aw s (t k)) 0 = ∑ k ∈ Finset.range n, t k ∧
      |∑ k ∈ Finset.range n, t k| ≤ ∑ k ∈ Finset.range n, T k
  | 0, _, _ => by simp
  | n + 1, h, hn => by
    have hk := h n (by omega)
    have hT : 0 ≤ T n := (abs_nonneg _).trans hk
    rw [Finset.sum_range_succ] at hn
    obtain ⟨a, b⟩ := foldl_addFx aw t T n (fun k hk => h k (by omega)) (by omega)
    have hl := lo_eq aw
    have hh := hi_eq aw
    rw [List.range_succ, List.foldl_append, a, Finset.sum_range_succ, Finset.sum_range_succ, List.foldl_cons, List.foldl_nil]
    have n0 : 0 ≤ ∑ k ∈ Finset.range n, T k := (abs_nonneg _).trans b
    generalize ∑ k ∈ Finset.range n, T k = U at *
    generalize ∑ k ∈ Finset.range n, t k = u at *
    have h1 : |u + t n| ≤ U + T n := (abs_add_le _ _).trans (by omega)
    refine ⟨?_, h1⟩
    have b' := abs_le.1 b
    have k' := abs_le.1 hk
    have s' := abs_le.1 h1
    rw [addFx_eq ⟨by omega, by omega⟩ ⟨by omega, by omega⟩, clamp_of_inRange ⟨by omega, by omega⟩]

theorem mapM_const {α β : Type} (f : α → Option β) (b : β) : ∀ l : List α, (∀ a ∈ l, f a = some b) → l.mapM f = some (List.replicate l.length b)
  | [], _ => rfl
  | a :: l, h => by
    rw [List.mapM_cons, h a (by simp), mapM_const f b l fun x hx => h x (by simp [hx])]
    rfl

/-- What `rnn_dense_op` stores, for one-dimensional bias and output: output `o` is the conversion of the saturating sum of the requantized
accumulators `t o k`. -/
theorem rnnDenseOp_writes {tb tout : Tensor} {bias dst : Buf} (vb : tb.Valid bias) (vo : tout.Valid dst) {bn on : Dim} (eb : tb.dims = [bn])
    (eo : tout.dims = [on]) (hs : on.shape = bn.shape) (hb1 : bn.stride = 1) (ho1 : on.stride = 1)
    (aw : Nat) (ins : List RnnIn) (biasAdd store : Int → Int) (t : Int → Nat → Int) (hz : ∀ i ∈ ins, i.zw = 0)
    (ht : ∀ o : Nat, (o : Int) < bn.shape → ∀ k (hk : k < ins.length),
      rnnTerm aw o (if k = 0 then biasAdd (bias.get (tb.addr [(o : Int)])) else 0) 0 ins[k] = some (t o k)) :
    ∃ dst' val, rnnDenseOp aw ins biasAdd store bias tb.base tout.base (countElemNum tb) dst = some dst' ∧ tout.Writes val dst dst' ∧
      ∀ o, InShape tout.shape [o] → InShape tb.shape [o] ∧
        val [o] = store ((List.range ins.length).foldl (fun s k => addFx aw s (t o k)) 0) := by
  have hc : countElemNum tb = bn.shape := by
    rw [(countElemNum_eq vb).1]
    simp [Tensor.shape, eb, prod]
  have inB : ∀ o : Int, 0 ≤ o → o < bn.shape → InShape tb.shape [o] := by
    intro o h0 h1
    simp only [Tensor.shape, eb, List.map_cons, List.map_nil, InShape]
    exact ⟨⟨h0, h1⟩, trivial⟩
  obtain ⟨dst', h1, h2⟩ := loop1_writes tout dst vo eo
    (fun is => match is with
      | [o] => store ((List.range ins.length).foldl (fun s k => addFx aw s (t o k)) 0)
      | _ => 0)
    (fun (o : Nat) d => (bias.rd (tb.base + o)).bind fun b =>
      (rnnSum aw o (ins.zip (List.replicate ins.length 0)) (biasAdd b) 0).bind fun r => d.wr (tout.base + o) (store r)) (by
      intro o ho d' _
      have hbr : bias.rd (tb.base + o) = some (bias.get (tb.addr [(o : Int)])) := by
        rw [← vb.rd (inB o (by omega) (by omega)) rfl]
        congr 1
        simp only [Tensor.addr, Tensor.strides, eb, List.map_cons, List.map_nil, offset, hb1]
        ring
      have ea : tout.addr [(o : Int)] = tout.base + o := by
        simp only [Tensor.addr, Tensor.strides, eo, List.map_cons, List.map_nil, offset, ho1]
        ring
      rw [hbr, Option.bind_some, rnnSum_eq aw o ins _ 0 (t o) (ht o (by omega)), Option.bind_some, ea])
  refine ⟨dst', _, ?_, h2, ?_⟩
  · unfold rnnDenseOp
    rw [mapM_const _ 0 ins fun i hi => rnnAdditive_eq aw (hz i hi), Option.bind_some, hc, ← hs]
    exact h1
  · intro o ho
    simp only [Tensor.shape, eo, List.map_cons, List.map_nil, InShape] at ho
    exact ⟨inB o ho.1.1 (by omega), rfl⟩

/-! ## Requantization -/

/-- Rounding after a division does not increase the absolute value. -/
theorem rnd_abs (m : Rnd) (x : Int) (n : Nat) : |rnd m x n| ≤ |x| := by
  obtain ⟨a, b⟩ := rnd_nearest m x n
  have hp := two_pow_pos n
  have z : rnd m 0 n = 0 := by
    obtain ⟨a, b⟩ := rnd_nearest m 0 n
    generalize rnd m 0 n = r at *
    generalize (2 ^ n : Int) = P at *
    rcases lt_trichotomy r 0 with h | h | h
    · have : 0 ≤ (-1 - r) * P := mul_nonneg (by omega) (by omega)
      nlinarith
    · exact h
    · have : 0 ≤ (r - 1) * P := mul_nonneg (by omega) (by omega)
      nlinarith
  have m1 : 0 ≤ x → 0 ≤ rnd m x n := fun h => by rw [← z]; exact rnd_mono m h n
  have m2 : x ≤ 0 → rnd m x n ≤ 0 := fun h => by rw [← z]; exact rnd_mono m h n
  generalize rnd m x n = r at *
  generalize (2 ^ n : Int) = P at *
  rcases Int.le_total 0 x with h | h
  · rw [abs_of_nonneg h, abs_of_nonneg (m1 h)]
    by_contra hc
    have : 0 ≤ (r - (x + 1)) * P := mul_nonneg (by omega) (by omega)
    have : 0 ≤ x * (P - 1) := mul_nonneg h (by omega)
    nlinarith
  · rw [abs_of_nonpos h, abs_of_nonpos (m2 h)]
    by_contra hc
    have : 0 ≤ (x - 1 - r) * P := mul_nonneg (by omega) (by omega)
    have : 0 ≤ -x * (P - 1) := mul_nonneg (by omega) (by omega)
    nlinarith

/-- Fixed point, 64-bit accumulator: a shift by at most 39 bits of an accumulator of less than 62 bits is exact rounding. -/
theorem rnnReqFx64 (m : Rnd) {s acc : Int} (h0 : 0 ≤ s) (h1 : s ≤ 39) (ha : |acc| ≤ 2 ^ 61) :
    Scaled m acc s (rnnReqFx m 64 s acc) ∧ |rnnReqFx m 64 s acc| ≤ |acc| := by
  obtain ⟨n, rfl⟩ : ∃ n : Nat, s = n := ⟨s.toNat, by omega⟩
  have ha := abs_le.1 ha
  have hp : (2 : Int) ^ (n - 1) ≤ 2 ^ 38 := pow_le_pow_right₀ (by decide) (by omega)
  have hr : InRange 64 acc := ⟨by simp only [lo]; omega, by simp only [hi]; omega⟩
  unfold rnnReqFx
  rw [if_pos rfl, show minFx (n : Int) 39 = n by unfold minFx; split <;> omega,
    asrRnd_eq_rnd m (by omega) hr n (Or.inr (Or.inr (by simp only [hi]; omega)))]
  exact ⟨rnd_scaled m acc n, rnd_abs m acc n⟩

/-- Fixed point, 32-bit accumulator. -/
theorem rnnReqFx32 (m : Rnd) {s acc : Int} (h0 : 0 ≤ s) (hr : InRange 32 acc) (hup : m = .up → acc < 2 ^ 30) :
    Scaled m acc s (rnnReqFx m 32 s acc) ∧ |rnnReqFx m 32 s acc| ≤ |acc| := by
  obtain ⟨n, rfl⟩ : ∃ n : Nat, s = n := ⟨s.toNat, by omega⟩
  have e : asrRndFx m 32 acc n = rnd m acc n := by
    cases m
    · by_cases h32 : 32 ≤ n
      · exact asrRnd_eq_rnd .up (by omega) hr n (Or.inr (Or.inl h32))
      · have hp : (2 : Int) ^ (n - 1) ≤ 2 ^ 30 := pow_le_pow_right₀ (by decide) (by omega)
        have := hup rfl
        exact asrRnd_eq_rnd .up (by omega) hr n (Or.inr (Or.inr (by simp only [hi]; omega)))
    · exact asrRnd_convergent_nonneg (by omega) hr n
  unfold rnnReqFx
  rw [if_neg (by decide), e]
  exact ⟨rnd_scaled m acc n, rnd_abs m acc n⟩

/-- A scaled value of less than 62 bits, rounded to 32 bits with a shift of at most 63. -/
theorem cast64_32 (m : Rnd) {x t : Int} (hx : |x| < 2 ^ 62) :
    ∃ v : Int, |(v : ℚ) - x * (2 : ℚ) ^ (-t)| ≤ 1 / 2 ∧ castFx m 64 32 x (min t 63) = clamp 32 v := by
  have hx' := abs_lt.1 hx
  have hxr : InRange 64 x := by constructor <;> simp only [lo, hi] <;> omega
  obtain ⟨r, hr, hc⟩ : ∃ r, Scaled m x (min t 63) r ∧ castFx m 64 32 x (min t 63) = clamp 32 r := by
    cases m
    · refine c05_cast_up_partial 64 32 (by omega) (by omega) x hxr _ (Or.inr (Or.inr ?_))
      have : (2 : Int) ^ ((min t 63).toNat - 1) ≤ 2 ^ 62 := pow_le_pow_right₀ (by decide) (by omega)
      simp only [hi]; omega
    · exact c05_cast_convergent 64 32 (by omega) (by omega) x hxr _
  have he := scaled_err hr
  refine ⟨r, ?_, hc⟩
  by_cases h : t ≤ 63
  · rwa [min_eq_left h] at he
  · rw [min_eq_right (by omega)] at he
    have hxq : |(x : ℚ)| < 2 ^ 62 := by exact_mod_cast hx
    have h63 : |(x : ℚ) * 2 ^ (-63 : Int)| < 1 / 2 := by
      rw [abs_mul, abs_of_pos (show (0 : ℚ) < 2 ^ (-63 : Int) by positivity)]
      calc |(x : ℚ)| * 2 ^ (-63 : Int) < 2 ^ 62 * 2 ^ (-63 : Int) := by gcongr
        _ = 1 / 2 := by norm_num
    have hr0 : r = 0 := by
      have a1 := abs_le.1 he
      have a2 := abs_lt.1 h63
      have b1 : (r : ℚ) < 1 := by linarith
      have b2 : (-1 : ℚ) < r := by linarith
      have c1 : r < 1 := by exact_mod_cast b1
      have c2 : -1 < r := by exact_mod_cast b2
      omega
    rw [hr0, Int.cast_zero, zero_sub, abs_neg, abs_mul, abs_of_pos (show (0 : ℚ) < 2 ^ (-t) by positivity)]
    have hle : (2 : ℚ) ^ (-t) ≤ 2 ^ (-63 : Int) := zpow_le_zpow_right₀ (by norm_num) (by omega)
    calc |(x : ℚ)| * 2 ^ (-t) ≤ 2 ^ 62 * 2 ^ (-63 : Int) := by gcongr
      _ ≤ 1 / 2 := by norm_num

/-- The multiplier of `adjust_quant_params` and its shift stand for the exact product of ratio and weights scale. -/
theorem adjustQuant_exact (full : Bool) (ratio shift sW fW : Int) (h1 : 2 ^ 14 ≤ ratio) (h2 : ratio ≤ 2 ^ 15 - 1) (hW : 0 < sW ∧ InRange 16 sW) :
    0 < (adjustQuant full ratio shift sW fW).1 ∧ (adjustQuant full ratio shift sW fW).1 < 2 ^ 31 ∧
      scaleVal (adjustQuant full ratio shift sW fW).1 (adjustQuant full ratio shift sW fW).2 = scaleVal ratio shift * scaleVal sW fW := by
  have w2 := hW.2.2
  simp only [hi] at w2
  have m0 : 0 < ratio * sW := Int.mul_pos (by omega) hW.1
  have m1 : ratio * sW ≤ (2 ^ 15 - 1) * (2 ^ 15 - 1) := mul_le_mul h2 (by omega) (by omega) (by decide)
  cases full
  · have mr : InRange 32 (ratio * sW) := by constructor <;> simp only [lo, hi] <;> omega
    obtain ⟨n, e, b, l, u⟩ := normFx_pos m0 mr
    have nr : InRange 32 (ratio * sW * 2 ^ n) := by constructor <;> simp only [lo, hi] <;> omega
    simp only [adjustQuant, e, Int.toNat_natCast, Bool.false_eq_true, if_false]
    rw [wrap_of_inRange (by omega) nr]
    refine ⟨by omega, by omega, ?_⟩
    unfold scaleVal
    push_cast
    rw [show -(shift + fW + n) = -shift + -fW + -(n : Int) by ring, zpow_add₀ (by norm_num), zpow_add₀ (by norm_num), zpow_neg 2 (n : Int),
      zpow_natCast]
    field_simp
  · simp only [adjustQuant, if_true]
    refine ⟨by omega, by omega, ?_⟩
    unfold scaleVal
    push_cast
    rw [show -(shift + fW) = -shift + -fW by ring, zpow_add₀ (by norm_num)]
    ring

/-- 8-bit asymmetric: half a unit and a relative error of `2^-13`, then 32-bit saturation. -/
theorem rnnReqSa_spec (m : Rnd) (full : Bool) (sI fI sW fW sO fO : Int) (hI : 0 < sI ∧ InRange 16 sI) (hW : 0 < sW ∧ InRange 16 sW)
    (hO : 0 < sO ∧ InRange 16 sO) {acc : Int} (hacc : InRange 32 acc) {rt : Int × Int} (hrt : inToOut m sI fI sO fO = some rt) :
    ∃ v : Int, rnnReqSa m full rt sW fW acc = clamp 32 v ∧
      |(v : ℚ) - acc * (scaleVal sI fI * scaleVal sW fW / scaleVal sO fO)| ≤
        1 / 2 + |(acc : ℚ) * (scaleVal sI fI * scaleVal sW fW / scaleVal sO fO)| / 2 ^ 13 := by
  obtain ⟨ratio, shift, g1, g2, g3, g4⟩ := c46_in_to_out m sI fI sO fO hI.1 hI.2 hO.1 hO.2
  rw [hrt] at g1
  obtain rfl := Option.some.inj g1
  obtain ⟨p0, p1, p2⟩ := adjustQuant_exact full ratio shift sW fW g2 g3 hW
  unfold rnnReqSa
  simp only []
  generalize (adjustQuant full ratio shift sW fW).1 = M at *
  generalize (adjustQuant full ratio shift sW fW).2 = t at *
  obtain ⟨a1, a2⟩ := hacc
  simp only [lo, hi] at a1 a2
  have hx : |acc * M| < 2 ^ 62 := by
    rw [abs_mul, abs_of_pos p0]
    have : |acc| ≤ 2 ^ 31 := by rw [abs_le]; omega
    calc |acc| * M ≤ 2 ^ 31 * (2 ^ 31 - 1) := mul_le_mul this (by omega) (by omega) (by decide)
      _ < 2 ^ 62 := by decide
  obtain ⟨v, v1, v2⟩ := cast64_32 m (t := t) hx
  refine ⟨v, ?_, ?_⟩
  · rw [← v2]; congr 1; unfold minFx; split <;> omega
  · have e1 : ((acc * M : Int) : ℚ) * 2 ^ (-t) = acc * scaleVal sW fW * scaleVal ratio shift := by
      have : ((acc * M : Int) : ℚ) * 2 ^ (-t) = acc * scaleVal M t := by unfold scaleVal; push_cast; ring
      rw [this, p2]; ring
    have e2 : (acc : ℚ) * (scaleVal sI fI * scaleVal sW fW / scaleVal sO fO) =
        acc * scaleVal sW fW * (scaleVal sI fI / scaleVal sO fO) := by ring
    rw [e1] at v1
    rw [e2, abs_mul _ (scaleVal sI fI / scaleVal sO fO)]
    have h := mul_le_mul_of_nonneg_left g4 (abs_nonneg ((acc : ℚ) * scaleVal sW fW))
    rw [← abs_mul, mul_sub] at h
    have := abs_sub_le (v : ℚ) (acc * scaleVal sW fW * scaleVal ratio shift) (acc * scaleVal sW fW * (scaleVal sI fI / scaleVal sO fO))
    generalize |(acc : ℚ) * scaleVal sW fW| = u at h ⊢
    generalize |scaleVal sI fI / scaleVal sO fO| = y at h ⊢
    rw [show u * (1 / 2 ^ 13 * y) = u * y / 2 ^ 13 by ring] at h
    linarith

/-! ## Conversion to the output -/

theorem castFx0_eq {wi wo : Nat} (ho : 2 ≤ wo) (hio : wo ≤ wi) {x : Int} (h : InRange wi x) : castFx0 wi wo x = clamp wo x := by
  unfold castFx0
  rw [satFx_eq (by omega) hio h]
  exact wrap_of_inRange (by omega) (clamp_inRange _ _)

theorem rnnStoreFx_eq {aw : Nat} (ha : 16 ≤ aw) (fo : Int) {x : Int} (h : InRange aw x) : rnnStoreFx aw fo x = clamp 16 x := by
  unfold rnnStoreFx
  rw [castFx0_eq (by omega) ha h]
  have := clamp_inRange 16 x
  obtain ⟨a, b⟩ := this
  simp only [lo, hi] at a b
  simp only [reluLimits, applyLimits, show wrap 16 (lo 16) = -2 ^ 15 by decide, show wrap 16 (hi 16) = 2 ^ 15 - 1 by decide]
  split <;> split <;> omega

theorem rnnStoreSa_eq (m : Rnd) {q : SaQ} (hz : InRange 8 (q.zpAt 0)) {x : Int} (h : InRange 32 x) : rnnStoreSa m q x = clamp 8 (x + q.zpAt 0) := by
  unfold rnnStoreSa
  generalize q.zpAt 0 = zo at *
  rw [castFx0_eq (by omega) (by omega) h, addFx_eq (clamp_inRange _ _) (inRange_mono (by omega) hz),
    castFx_eq m (by omega) (by omega) (clamp_inRange _ _)]
  have e0 : asrRndFx m 16 (clamp 16 (clamp 16 x + zo)) 0 = clamp 16 (clamp 16 x + zo) := by
    unfold asrRndFx; rfl
  rw [e0]
  obtain ⟨z1, z2⟩ := hz
  have a1 : lo 8 = -128 := by decide
  have a2 : hi 8 = 127 := by decide
  have a3 : lo 16 = -32768 := by decide
  have a4 : hi 16 = 32767 := by decide
  simp only [reluLimits, applyLimits, show wrap 16 (lo 8) = -128 by decide, show wrap 16 (hi 8) = 127 by decide]
  have key : clamp 8 (clamp 16 (clamp 16 x + zo)) = clamp 8 (x + zo) := by
    unfold clamp
    rw [a1] at z1 ⊢; rw [a2] at z2 ⊢; rw [a3, a4]
    by_cases g1 : x < -32768
    · simp only [g1, if_true]; split <;> split <;> split <;> (try split) <;> omega
    · by_cases g2 : 32767 < x
      · simp only [g1, g2, if_true, if_false]; split <;> split <;> split <;> (try split) <;> omega
      · simp only [g1, g2, if_false]; repeat' split
        all_goals omega
  rw [key]
  have := clamp_inRange 8 (x + zo)
  obtain ⟨a, b⟩ := this
  rw [a1] at a; rw [a2] at b
  split <;> split <;> omega

end Mli
