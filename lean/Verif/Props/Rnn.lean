import Verif.Lemmas.Rnn

/-!
# Properties of the RNN dense kernels (C65)
-/

namespace Mli

open Spec

/-- An input tensor of `wi` bits and weights of `ww` bits over the buffers that hold their elements. -/
structure RnnArg.Valid (a : RnnArg) (wi ww : Nat) : Prop where
  vi : a.tin.Valid a.src
  vw : a.tw.Valid a.wts
  hi : a.tin.Holds a.src wi
  hw : a.tw.Holds a.wts ww

/-- `∑ (X[i] - z) * W[i, o]` over the elements of the input. -/
def RnnArg.dot (a : RnnArg) (X : Int → Int) (z o : Int) : Int :=
  dotSum (prod a.tin.shape) (fun i => X i - z) (fun i => a.wts.get (a.tw.addr [i, o]))

/-! ## The checks -/

theorem chkRnnIns_ok {m0 : Int} : ∀ {as : List RnnArg}, chkRnnIns m0 as = some .ok → ∀ a ∈ as, chkRnnIn m0 a = some .ok
  | [], _, _, h => by cases h
  | a :: as, h, b, hb => by
    rw [chkRnnIns, Option.bind_eq_some_iff] at h
    obtain ⟨s, hs, h⟩ := h
    by_cases e : s = .ok
    · rw [if_neg (not_not.2 e)] at h
      rcases List.mem_cons.1 hb with rfl | hb
      · rw [hs, e]
      · exact chkRnnIns_ok h b hb
    · rw [if_pos e] at h
      exact absurd (Option.some.inj h) e

theorem chkRnnIn_ok {m0 : Int} {a : RnnArg} (h : chkRnnIn m0 a = some .ok) :
    ∃ wi wo, a.tw.dims = [wi, wo] ∧ countElemNum a.tin = wi.shape ∧ wo.shape = m0 ∧ isContig a.tin = true ∧ wo.stride = 1 ∧ a.apart = true := by
  unfold chkRnnIn at h
  rw [Option.bind_eq_some_iff] at h
  obtain ⟨s, -, h⟩ := h
  by_cases e : s = .ok
  swap
  · rw [if_pos e] at h
    exact absurd (Option.some.inj h) e
  rw [if_neg (not_not.2 e)] at h
  split at h
  swap
  · cases h
  rename_i wi wo e1
  by_cases c1 : countElemNum a.tin = wi.shape ∧ wo.shape = m0
  swap
  · rw [if_pos c1] at h; cases h
  rw [if_neg (not_not.2 c1)] at h
  cases c2 : isContig a.tin && innerOne a.tw
  · rw [c2] at h; cases h
  cases c3 : a.apart
  · rw [c2, c3] at h; cases h
  rw [Bool.and_eq_true] at c2
  refine ⟨wi, wo, e1, c1.1, c1.2, c2.1, ?_, rfl⟩
  simpa [innerOne, Tensor.strides, e1] using c2.2

theorem chkRnnOut_ok {m0 : Int} {tb tout : Tensor} (h : chkRnnOut m0 tb tout = some .ok) :
    ∃ bn on, tb.dims = [bn] ∧ tout.dims = [on] ∧ bn.shape = m0 ∧ on.shape = m0 ∧ bn.stride = 1 ∧ on.stride = 1 := by
  unfold chkRnnOut at h
  rw [Option.bind_eq_some_iff] at h
  obtain ⟨s, -, h⟩ := h
  by_cases e : s = .ok
  swap
  · rw [if_pos e] at h
    exact absurd (Option.some.inj h) e
  rw [if_neg (not_not.2 e)] at h
  split at h
  swap
  · cases h
  rename_i bn e1
  by_cases c1 : m0 = bn.shape
  swap
  · rw [if_pos c1] at h; cases h
  rw [if_neg (not_not.2 c1), Option.bind_eq_some_iff] at h
  obtain ⟨s, -, h⟩ := h
  by_cases e : s = .ok
  swap
  · rw [if_pos e] at h
    exact absurd (Option.some.inj h) e
  rw [if_neg (not_not.2 e)] at h
  split at h
  swap
  · cases h
  rename_i on e2
  by_cases c2 : on.shape = bn.shape
  swap
  · rw [if_pos c2] at h; cases h
  rw [if_neg (not_not.2 c2)] at h
  cases c3 : innerOne tb && isContig tout
  · rw [c3] at h; cases h
  rw [Bool.and_eq_true] at c3
  refine ⟨bn, on, e1, e2, c1.symm, c2.trans c1.symm, ?_, ?_⟩
  · simpa [innerOne, Tensor.strides, e1] using c3.1
  · simpa [isContig, contigScan, e2] using c3.2

theorem chkRnn_ok {as : List RnnArg} {tb tout : Tensor} (h : chkRnn as tb tout = some .ok) :
    (0 < as.length ∧ as.length ≤ 4) ∧ (∀ a ∈ as, chkRnnIn (rnnOuts as) a = some .ok) ∧ chkRnnOut (rnnOuts as) tb tout = some .ok := by
  unfold chkRnn at h
  by_cases c : 0 < as.length ∧ as.length ≤ 4
  swap
  · rw [if_pos c] at h; cases h
  rw [if_neg (not_not.2 c), Option.bind_eq_some_iff] at h
  obtain ⟨s, hs, h⟩ := h
  by_cases e : s = .ok
  swap
  · rw [if_pos e] at h
    exact absurd (Option.some.inj h) e
  rw [if_neg (not_not.2 e)] at h
  rw [e] at hs
  exact ⟨c, chkRnnIns_ok hs, h⟩

/-- An accepted input, as `rnn_dense_op` gets it. -/
theorem rnnArg_ok {a : RnnArg} {wi ww : Nat} (A : a.Valid wi ww) {m0 : Int} (h : chkRnnIn m0 a = some .ok) (zx : Int) (req : Int → Int)
    (hz : wrap 16 (-zx) = -zx) (B : Int)
    (hB1 : ∀ is js, InShape a.tin.shape is → InShape a.tw.shape js → |a.src.get (a.tin.addr is) * a.wts.get (a.tw.addr js)| ≤ B)
    (hB2 : ∀ is js, InShape a.tin.shape is → InShape a.tw.shape js → |(a.src.get (a.tin.addr is) - zx) * a.wts.get (a.tw.addr js)| ≤ B) :
    (a.toIn zx 0 req).Ok m0 (fun i => a.src.get (a.tin.base + i)) (fun i o => a.wts.get (a.tw.addr [i, o])) B ∧
      (a.toIn zx 0 req).n = prod a.tin.shape ∧ 1 ≤ prod a.tin.shape ∧
      a.tin.Flat a.src (fun i => a.src.get (a.tin.base + i)) := by
  obtain ⟨wi', wo, e1, hn, hm, hct, s1, -⟩ := chkRnnIn_ok h
  obtain ⟨c1, c2, c3⟩ := countElemNum_eq A.vi
  have hstr : a.tin.strides = cstr a.tin.shape := (contigScan_cstr a.tin.dims hct).1
  have hpos : ∀ k ∈ a.tin.shape, 1 ≤ k := by
    intro k hk
    obtain ⟨d, hd, rfl⟩ := List.mem_map.1 hk
    exact A.vi.shape_pos d hd
  have hX : ∀ k : Nat, (k : Int) < prod a.tin.shape → ∃ is, InShape a.tin.shape is ∧ a.tin.addr is = a.tin.base + k := by
    intro k hk
    obtain ⟨is, h1, h2⟩ := contig_offset_onto a.tin.shape hpos k (by omega) (by omega)
    exact ⟨is, h1, by unfold Tensor.addr; rw [hstr, h2]⟩
  have hs0 : wi'.stride ≠ 0 := by
    obtain ⟨-, -, hd, -⟩ := checkTensorPrivate_ok A.vw.accepted
    have := (hd wi' (by simp [e1])).1
    omega
  have hW : ∀ k o : Nat, (k : Int) < prod a.tin.shape → (o : Int) < m0 → InShape a.tw.shape [(k : Int), (o : Int)] ∧
      a.tw.addr [(k : Int), (o : Int)] = a.tw.base + o + (a.toIn zx 0 req).ws * k := by
    intro k o hk ho
    refine ⟨?_, ?_⟩
    · simp only [Tensor.shape, e1, List.map_cons, List.map_nil, InShape]
      exact ⟨⟨by omega, by omega⟩, ⟨by omega, by omega⟩, trivial⟩
    · simp only [RnnArg.toIn, Tensor.addr, Tensor.strides, e1, List.map_cons, List.map_nil, List.getD_cons_zero, offset, s1, ne_eq, hs0,
        not_false_eq_true, if_true]
      ring
  have hnn : (a.toIn zx 0 req).n = prod a.tin.shape := c1
  refine ⟨⟨rfl, hz, ?_, ?_, ?_, ?_⟩, hnn, c2, contig_flat hct a.src⟩
  · intro k hk
    rw [hnn] at hk
    obtain ⟨is, h1, h2⟩ := hX k (by omega)
    have := A.vi.rd h1 rfl
    rw [h2] at this
    exact this
  · intro o k ho hk
    rw [hnn] at hk
    obtain ⟨h1, h2⟩ := hW k o (by omega) ho
    rw [show (a.toIn zx 0 req).wp = a.tw.base from rfl, ← h2]
    exact A.vw.rd h1 rfl
  · intro o k ho hk
    rw [hnn] at hk
    obtain ⟨is, h1, h2⟩ := hX k (by omega)
    have := hB1 is _ h1 (hW k o (by omega) ho).1
    rw [h2] at this
    exact this
  · intro o k ho hk
    rw [hnn] at hk
    obtain ⟨is, h1, h2⟩ := hX k (by omega)
    have := hB2 is _ h1 (hW k o (by omega) ho).1
    rw [h2] at this
    exact this

/-- What `rnn_dense_op` stores for accepted tensors. -/
theorem rnn_all {as : List RnnArg} {tb tout : Tensor} {bias dst : Buf} {wi ww : Nat} (A : ∀ a ∈ as, a.Valid wi ww) (vb : tb.Valid bias)
    (vo : tout.Valid dst) (hchk : chkRnn as tb tout = some .ok) (aw : Nat) (zx zw : Nat → Int) (req : Nat → Int → Int) (biasAdd store : Int → Int) (B : Int)
    (hzw : ∀ k, k < as.length → zw k = 0) (hzx : ∀ k, k < as.length → wrap 16 (-zx k) = -zx k)
    (hB1 : ∀ a ∈ as, ∀ is js, InShape a.tin.shape is → InShape a.tw.shape js → |a.src.get (a.tin.addr is) * a.wts.get (a.tw.addr js)| ≤ B)
    (hB2 : ∀ k (hk : k < as.length), ∀ is js, InShape as[k].tin.shape is → InShape as[k].tw.shape js →
      |(as[k].src.get (as[k].tin.addr is) - zx k) * as[k].wts.get (as[k].tw.addr js)| ≤ B)
    (hfit : ∀ o, InShape tb.shape [o] → ∀ k (hk : k < as.length),
      |if k = 0 then biasAdd (bias.get (tb.addr [o])) else 0| + prod as[k].tin.shape * B ≤ hi aw) :
    ∃ dst' val, ∃ X : Nat → Int → Int, (∀ k (hk : k < as.length), as[k].tin.Flat as[k].src (X k)) ∧
      rnnDenseOp aw (as.mapIdx fun k a => a.toIn (zx k) (zw k) (req k)) biasAdd store bias tb.base tout.base (countElemNum tb) dst = some dst' ∧
      tout.Writes val dst dst' ∧ ∀ o, InShape tout.shape [o] → InShape tb.shape [o] ∧
        ∃ t : Nat → Int, val [o] = store ((List.range as.length).foldl (fun s k => addFx aw s (t k)) 0) ∧
          ∀ k (hk : k < as.length),
            |as[k].dot (X k) (zx k) o| ≤ prod as[k].tin.shape * B ∧
            t k = req k ((if k = 0 then biasAdd (bias.get (tb.addr [o])) else 0) + as[k].dot (X k) (zx k) o) := by
  obtain ⟨hlen, hin, hout⟩ := chkRnn_ok hchk
  obtain ⟨bn, on, eb, eo, hbn, hon, hb1, ho1⟩ := chkRnnOut_ok hout
  have ok := fun k (hk : k < as.length) => rnnArg_ok (A as[k] (List.getElem_mem hk)) (hin as[k] (List.getElem_mem hk)) (zx k) (req k) (hzx k hk) B
    (hB1 as[k] (List.getElem_mem hk)) (hB2 k hk)
  have inB : ∀ o : Int, 0 ≤ o → o < bn.shape → InShape tb.shape [o] := by
    intro o h0 h1
    simp only [Tensor.shape, eb, List.map_cons, List.map_nil, InShape]
    exact ⟨⟨h0, h1⟩, trivial⟩
  have hl : (as.mapIdx fun k a => a.toIn (zx k) (zw k) (req k)).length = as.length := List.length_mapIdx
  let X : Nat → Int → Int := fun k i => if h : k < as.length then as[k].src.get (as[k].tin.base + i) else 0
  have eX : ∀ k (hk : k < as.length), X k = fun i => as[k].src.get (as[k].tin.base + i) := by
    intro k hk; funext i; simp only [X, hk, dif_pos]
  let t : Int → Nat → Int := fun o k => if h : k < as.length then
    req k ((if k = 0 then biasAdd (bias.get (tb.addr [o])) else 0) + as[k].dot (X k) (zx k) o) else 0
  have dotEq : ∀ k (hk : k < as.length) (o : Int), (as[k].toIn (zx k) 0 (req k)).dot (fun i => as[k].src.get (as[k].tin.base + i))
      (fun i o => as[k].wts.get (as[k].tw.addr [i, o])) o = as[k].dot (X k) (zx k) o := by
    intro k hk o
    unfold RnnIn.dot RnnArg.dot
    rw [(ok k hk).2.1, eX k hk]
    rfl
  have dotLe : ∀ k (hk : k < as.length) (o : Nat), (o : Int) < bn.shape → |as[k].dot (X k) (zx k) o| ≤ prod as[k].tin.shape * B := by
    intro k hk o ho
    have h := (ok k hk).1.dot_le (o := o) (by omega)
    rw [dotEq, (ok k hk).2.1, Int.toNat_of_nonneg (by have := (ok k hk).2.2.1; omega)] at h
    exact h
  obtain ⟨dst', val, h1, h2, h3⟩ := rnnDenseOp_writes vb vo eb eo (by omega) hb1 ho1 aw
    (as.mapIdx fun k a => a.toIn (zx k) (zw k) (req k)) biasAdd store t (by
      intro i hi
      obtain ⟨k, hk, rfl⟩ := List.mem_iff_getElem.1 hi
      rw [List.getElem_mapIdx]
      exact hzw k (by rw [hl] at hk; exact hk)) (by
      intro o ho k hk
      rw [hl] at hk
      have hn := (ok k hk).2.1
      have h := rnnTerm_eq (i := as[k].toIn (zx k) 0 (req k)) aw (ok k hk).1 (o := o) (by omega)
        (a := if k = 0 then biasAdd (bias.get (tb.addr [(o : Int)])) else 0) (by
          rw [hn, Int.toNat_of_nonneg (by have := (ok k hk).2.2.1; omega)]
          exact hfit o (inB o (by omega) ho) k hk)
      rw [List.getElem_mapIdx, hzw k hk, h, dotEq]
      simp only [t, hk, dif_pos]
      rfl)
  refine ⟨dst', val, X, fun k hk => by rw [eX k hk]; exact (ok k hk).2.2.2, h1, h2, fun o ho => ?_⟩
  obtain ⟨g1, g2⟩ := h3 o ho
  refine ⟨g1, t o, by rw [g2, hl], fun k hk => ⟨?_, by simp only [t, hk, dif_pos]⟩⟩
  simp only [Tensor.shape, eo, List.map_cons, List.map_nil, InShape] at ho
  obtain ⟨⟨o0, o1⟩, -⟩ := ho
  obtain ⟨o, rfl⟩ := Int.eq_ofNat_of_zero_le o0
  exact dotLe k hk o (by omega)

/-! ## C65, fixed point -/

theorem chkRnnFx_ok {f : RnnFxQ} {as : List RnnArg} {tb tout : Tensor} (h : chkRnnFx f as tb tout = some .ok) :
    chkRnn as tb tout = some .ok ∧ (∀ k < as.length, f.fo ≤ f.fi.getD k 0 + f.fw.getD k 0) ∧ f.fb ≤ f.fi.getD 0 0 + f.fw.getD 0 0 := by
  unfold chkRnnFx at h
  rw [Option.bind_eq_some_iff] at h
  obtain ⟨s, hs, h⟩ := h
  by_cases e : s = .ok
  swap
  · rw [if_pos e] at h
    exact absurd (Option.some.inj h) e
  rw [if_neg (not_not.2 e)] at h
  by_cases c1 : ∀ k < as.length, f.fo ≤ f.fi.getD k 0 + f.fw.getD k 0
  swap
  · rw [if_pos c1] at h; cases h
  rw [if_neg (not_not.2 c1)] at h
  by_cases c2 : f.fb ≤ f.fi.getD 0 0 + f.fw.getD 0 0
  swap
  · rw [if_pos c2] at h; cases h
  exact ⟨by rw [hs, e], c1, c2⟩

/-- C65, 16-bit fixed point: for every accepted call, output `o` is the saturated sum of one term per input; the term of an input is its dot product
with column `o` of its weights (for the first input plus the bias), rounded to the fractional bits of the output.  No accumulation overflows and nothing
saturates in between.  Partial: bias shifts up to 16 bits (`c39_bias_violated`), output shifts up to 39 bits (`c65_shift_violated`) and inputs of at
most `2^29` elements. -/
theorem c65_fx16_partial (m : Rnd) (f : RnnFxQ) (as : List RnnArg) (bias dst : Buf) (tb tout : Tensor) (A : ∀ a ∈ as, a.Valid 16 16) (vb : tb.Valid bias)
    (vo : tout.Valid dst) (hb : tb.Holds bias 16) (hchk : chkRnnFx f as tb tout = some .ok)
    (hbs : f.fi.getD 0 0 + f.fw.getD 0 0 - f.fb ≤ 16) (hos : ∀ k < as.length, f.fi.getD k 0 + f.fw.getD k 0 - f.fo ≤ 39)
    (hn : ∀ a ∈ as, prod a.tin.shape ≤ 2 ^ 29) :
    ∃ dst' val, ∃ X : Nat → Int → Int, (∀ k (hk : k < as.length), as[k].tin.Flat as[k].src (X k)) ∧
      krnRnnFx m 64 f as bias tb tout dst = some (.ok, dst') ∧ tout.Writes val dst dst' ∧ ∀ o, InShape tout.shape [o] →
        ∃ r : Nat → Int, val [o] = clamp 16 (∑ k ∈ Finset.range as.length, r k) ∧ ∀ k (hk : k < as.length),
          Scaled m (as[k].dot (X k) 0 o + if k = 0 then bias.get (tb.addr [o]) * 2 ^ (f.fi.getD 0 0 + f.fw.getD 0 0 - f.fb).toNat else 0)
            (f.fi.getD k 0 + f.fw.getD k 0 - f.fo) (r k) := by
  obtain ⟨c1, c2, c3⟩ := chkRnnFx_ok hchk
  obtain ⟨hlen, hin, -⟩ := chkRnn_ok c1
  have hbias : ∀ o, InShape tb.shape [o] → biasFx m 64 (f.fi.getD 0 0 + f.fw.getD 0 0 - f.fb) (bias.get (tb.addr [o])) 0 =
      bias.get (tb.addr [o]) * 2 ^ (f.fi.getD 0 0 + f.fw.getD 0 0 - f.fb).toNat ∧
      |bias.get (tb.addr [o]) * 2 ^ (f.fi.getD 0 0 + f.fw.getD 0 0 - f.fb).toNat| ≤ 2 ^ 31 := by
    intro o ho
    have hbo := hb [o] ho
    refine ⟨?_, ?_⟩
    · rw [(biasFx64 m _ (by omega) hbs hbo (by decide)).1, Int.zero_add]
    · have hp : (2 : Int) ^ (f.fi.getD 0 0 + f.fw.getD 0 0 - f.fb).toNat ≤ 2 ^ 16 := pow_le_pow_right₀ (by decide) (by omega)
      obtain ⟨l, u⟩ := hbo
      simp only [lo, hi] at l u
      rw [abs_mul, abs_of_pos (two_pow_pos _)]
      exact (mul_le_mul (show _ ≤ (2 ^ 15 : Int) by rw [abs_le]; omega) hp (two_pow_pos _).le (by decide)).trans (by decide)
  have hst : ∀ o, InShape tb.shape [o] → ∀ k : Nat, |if k = 0 then biasFx m 64 (f.fi.getD 0 0 + f.fw.getD 0 0 - f.fb) (bias.get (tb.addr [o])) 0 else 0| ≤ 2 ^ 31 := by
    intro o ho k
    split
    · rw [(hbias o ho).1]; exact (hbias o ho).2
    · decide
  obtain ⟨dst', val, X, hX, r1, r2, r3⟩ := rnn_all A vb vo c1 64 (fun _ => 0) (fun _ => 0)
    (fun k => rnnReqFx m 64 (f.fi.getD k 0 + f.fw.getD k 0 - f.fo)) (fun b => biasFx m 64 (f.fi.getD 0 0 + f.fw.getD 0 0 - f.fb) b 0)
    (rnnStoreFx 64 f.fo) (2 ^ 30) (fun _ _ => rfl) (fun _ _ => rfl)
    (fun a ha is js h1 h2 => (abs_mul_le (by omega) (by omega) ((A a ha).hi is h1) ((A a ha).hw js h2)).trans (by decide))
    (fun k hk is js h1 h2 => by
      rw [Int.sub_zero]
      exact (abs_mul_le (by omega) (by omega) ((A _ (List.getElem_mem hk)).hi is h1) ((A _ (List.getElem_mem hk)).hw js h2)).trans (by decide))
    (fun o ho k hk => by
      have := hst o ho k
      have := hn _ (List.getElem_mem hk)
      have e : hi 64 = 2 ^ 63 - 1 := by decide
      rw [e]; omega)
  refine ⟨dst', val, X, hX, ?_, r2, fun o ho => ?_⟩
  · unfold krnRnnFx
    rw [hchk, Option.bind_some, if_neg (not_not.2 rfl), r1]
    rfl
  · obtain ⟨hbo, t, e0, ht⟩ := r3 o ho
    have hacc : ∀ k (hk : k < as.length), |(if k = 0 then biasFx m 64 (f.fi.getD 0 0 + f.fw.getD 0 0 - f.fb) (bias.get (tb.addr [o])) 0 else 0) +
        as[k].dot (X k) 0 o| ≤ 2 ^ 60 := by
      intro k hk
      have h1 := hst o hbo k
      have h2 := (ht k hk).1
      have h3 := hn _ (List.getElem_mem hk)
      exact (abs_add_le _ _).trans (by omega)
    have hreq := fun k (hk : k < as.length) => rnnReqFx64 m (s := f.fi.getD k 0 + f.fw.getD k 0 - f.fo) (by have := c2 k hk; omega) (hos k hk)
      ((hacc k hk).trans (by decide))
    have htk : ∀ k, k < as.length → |t k| ≤ 2 ^ 60 := fun k hk => by
      rw [(ht k hk).2]
      exact (hreq k hk).2.trans (hacc k hk)
    have hsum : ∑ k ∈ Finset.range as.length, (fun _ => (2 : Int) ^ 60) k ≤ hi 64 := by
      rw [Finset.sum_const, Finset.card_range, nsmul_eq_mul]
      have e : hi 64 = 2 ^ 63 - 1 := by decide
      rw [e]; omega
    obtain ⟨g1, g2⟩ := foldl_addFx 64 t (fun _ => 2 ^ 60) as.length htk hsum
    have g2 := abs_le.1 (g2.trans hsum)
    have hl := lo_eq 64
    have hh := hi_eq 64
    refine ⟨t, ?_, fun k hk => ?_⟩
    · rw [e0, g1, rnnStoreFx_eq (by omega) _ ⟨by omega, g2.2⟩]
    · have := (hreq k hk).1
      rw [(ht k hk).2]
      convert this using 1
      split
      · rw [(hbias o hbo).1, Int.add_comm]
      · rw [Int.add_comm]

/-- C65, 16-bit inputs with 8-bit weights and bias, accumulated in 32 bits.  Partial: the bias and the products must fit 32 bits together — the
accumulator starts from the bias, so four products are enough to overflow (`c65_bias_overflow_violated`); 31 bits in builds that round half up. -/
theorem c65_fx16_fx8_partial (m : Rnd) (f : RnnFxQ) (as : List RnnArg) (bias dst : Buf) (tb tout : Tensor) (A : ∀ a ∈ as, a.Valid 16 8) (vb : tb.Valid bias)
    (vo : tout.Valid dst) (hb : tb.Holds bias 8) (hchk : chkRnnFx f as tb tout = some .ok)
    (hfit : ∀ o, InShape tb.shape [o] → |bias.get (tb.addr [o])| * 2 ^ (f.fi.getD 0 0 + f.fw.getD 0 0 - f.fb).toNat +
      (as.map fun a => prod a.tin.shape).sum * 2 ^ 22 < if m = .up then 2 ^ 30 else 2 ^ 31) :
    ∃ dst' val, ∃ X : Nat → Int → Int, (∀ k (hk : k < as.length), as[k].tin.Flat as[k].src (X k)) ∧
      krnRnnFx m 32 f as bias tb tout dst = some (.ok, dst') ∧ tout.Writes val dst dst' ∧ ∀ o, InShape tout.shape [o] →
        ∃ r : Nat → Int, val [o] = clamp 16 (∑ k ∈ Finset.range as.length, r k) ∧ ∀ k (hk : k < as.length),
          Scaled m (as[k].dot (X k) 0 o + if k = 0 then bias.get (tb.addr [o]) * 2 ^ (f.fi.getD 0 0 + f.fw.getD 0 0 - f.fb).toNat else 0)
            (f.fi.getD k 0 + f.fw.getD k 0 - f.fo) (r k) := by
  obtain ⟨c1, c2, c3⟩ := chkRnnFx_ok hchk
  obtain ⟨hlen, hin, -⟩ := chkRnn_ok c1
  have hpos : ∀ a ∈ as, 1 ≤ prod a.tin.shape := fun a ha => (countElemNum_eq (A a ha).vi).2.1
  have hnsum : ∀ l : List RnnArg, (l.map fun a => prod a.tin.shape).sum = ∑ k ∈ Finset.range l.length, (l.map fun a => prod a.tin.shape).getD k 0 := by
    intro l
    induction l with
    | nil => rfl
    | cons a l ih =>
      rw [List.map_cons, List.sum_cons, List.length_cons, Finset.sum_range_succ', ih]
      simp only [List.getD_cons_succ, List.getD_cons_zero]
      ring
  have hget : ∀ k (hk : k < as.length), (as.map fun a => prod a.tin.shape).getD k 0 = prod as[k].tin.shape := by
    intro k hk
    rw [List.getD_eq_getElem?_getD, List.getElem?_map, List.getElem?_eq_getElem hk]
    rfl
  have hle : ∀ k (hk : k < as.length), prod as[k].tin.shape ≤ (as.map fun a => prod a.tin.shape).sum := by
    intro k hk
    rw [hnsum, ← hget k hk]
    refine Finset.single_le_sum (f := fun k => (as.map fun a => prod a.tin.shape).getD k 0) (fun j hj => ?_) (Finset.mem_range.2 hk)
    have hj := Finset.mem_range.1 hj
    rw [hget j hj]
    have := hpos _ (List.getElem_mem hj)
    omega
  have hlt : ∀ o, InShape tb.shape [o] → |bias.get (tb.addr [o])| * 2 ^ (f.fi.getD 0 0 + f.fw.getD 0 0 - f.fb).toNat +
      (as.map fun a => prod a.tin.shape).sum * 2 ^ 22 < 2 ^ 31 := by
    intro o ho
    have := hfit o ho
    split at this <;> omega
  have hs0 : 0 ≤ (as.map fun a => prod a.tin.shape).sum := by
    have := hle 0 hlen.1
    have := hpos _ (List.getElem_mem hlen.1)
    omega
  have hbias : ∀ o, InShape tb.shape [o] → biasFx m 32 (f.fi.getD 0 0 + f.fw.getD 0 0 - f.fb) (bias.get (tb.addr [o])) 0 =
      bias.get (tb.addr [o]) * 2 ^ (f.fi.getD 0 0 + f.fw.getD 0 0 - f.fb).toNat := by
    intro o ho
    have h2 := hlt o ho
    have h3 : |bias.get (tb.addr [o]) * 2 ^ (f.fi.getD 0 0 + f.fw.getD 0 0 - f.fb).toNat| < 2 ^ 31 := by
      rw [abs_mul, abs_of_pos (two_pow_pos _)]; omega
    have h3 := abs_lt.1 h3
    have hr : InRange 32 (bias.get (tb.addr [o]) * 2 ^ (f.fi.getD 0 0 + f.fw.getD 0 0 - f.fb).toNat) := by
      constructor <;> simp only [lo, hi] <;> omega
    rw [biasFx32 m _ (by omega) (hb [o] ho) (by decide), Int.zero_add, clamp_of_inRange hr, clamp_of_inRange hr]
  have hbabs : ∀ o, InShape tb.shape [o] → ∀ k : Nat,
      |if k = 0 then biasFx m 32 (f.fi.getD 0 0 + f.fw.getD 0 0 - f.fb) (bias.get (tb.addr [o])) 0 else 0| =
        if k = 0 then |bias.get (tb.addr [o])| * 2 ^ (f.fi.getD 0 0 + f.fw.getD 0 0 - f.fb).toNat else 0 := by
    intro o ho k
    split
    · rw [hbias o ho, abs_mul, abs_of_pos (two_pow_pos _)]
    · rfl
  have hbnn : ∀ o, 0 ≤ |bias.get (tb.addr [o])| * 2 ^ (f.fi.getD 0 0 + f.fw.getD 0 0 - f.fb).toNat := fun o => by positivity
  obtain ⟨dst', val, X, hX, r1, r2, r3⟩ := rnn_all A vb vo c1 32 (fun _ => 0) (fun _ => 0)
    (fun k => rnnReqFx m 32 (f.fi.getD k 0 + f.fw.getD k 0 - f.fo)) (fun b => biasFx m 32 (f.fi.getD 0 0 + f.fw.getD 0 0 - f.fb) b 0)
    (rnnStoreFx 32 f.fo) (2 ^ 22) (fun _ _ => rfl) (fun _ _ => rfl)
    (fun a ha is js h1 h2 => (abs_mul_le (by omega) (by omega) ((A a ha).hi is h1) ((A a ha).hw js h2)).trans (by decide))
    (fun k hk is js h1 h2 => by
      rw [Int.sub_zero]
      exact (abs_mul_le (by omega) (by omega) ((A _ (List.getElem_mem hk)).hi is h1) ((A _ (List.getElem_mem hk)).hw js h2)).trans (by decide))
    (fun o ho k hk => by
      have h1 := hlt o ho
      have h2 := hle k hk
      have h3 := hbnn o
      have h4 := hbabs o ho k
      have e : hi 32 = 2 ^ 31 - 1 := by decide
      rw [h4, e]
      split <;> omega)
  refine ⟨dst', val, X, hX, ?_, r2, fun o ho => ?_⟩
  · unfold krnRnnFx
    rw [hchk, Option.bind_some, if_neg (not_not.2 rfl), r1]
    rfl
  · obtain ⟨hbo, t, e0, ht⟩ := r3 o ho
    have hacc : ∀ k (hk : k < as.length), |(if k = 0 then biasFx m 32 (f.fi.getD 0 0 + f.fw.getD 0 0 - f.fb) (bias.get (tb.addr [o])) 0 else 0) +
        as[k].dot (X k) 0 o| ≤ (if k = 0 then |bias.get (tb.addr [o])| * 2 ^ (f.fi.getD 0 0 + f.fw.getD 0 0 - f.fb).toNat else 0) +
          (as.map fun a => prod a.tin.shape).getD k 0 * 2 ^ 22 := by
      intro k hk
      rw [hget k hk, ← hbabs o hbo k]
      exact (abs_add_le _ _).trans (Int.add_le_add_left (ht k hk).1 _)
    have hsumT : ∑ k ∈ Finset.range as.length, ((if k = 0 then |bias.get (tb.addr [o])| * 2 ^ (f.fi.getD 0 0 + f.fw.getD 0 0 - f.fb).toNat else 0) +
          (as.map fun a => prod a.tin.shape).getD k 0 * 2 ^ 22) = |bias.get (tb.addr [o])| * 2 ^ (f.fi.getD 0 0 + f.fw.getD 0 0 - f.fb).toNat +
      (as.map fun a => prod a.tin.shape).sum * 2 ^ 22 := by
      rw [Finset.sum_add_distrib, ← Finset.sum_mul, ← hnsum, Finset.sum_ite_eq', if_pos (Finset.mem_range.2 hlen.1)]
    have hTk : ∀ k (hk : k < as.length), (if k = 0 then |bias.get (tb.addr [o])| * 2 ^ (f.fi.getD 0 0 + f.fw.getD 0 0 - f.fb).toNat else 0) +
          (as.map fun a => prod a.tin.shape).getD k 0 * 2 ^ 22 ≤ |bias.get (tb.addr [o])| * 2 ^ (f.fi.getD 0 0 + f.fw.getD 0 0 - f.fb).toNat +
      (as.map fun a => prod a.tin.shape).sum * 2 ^ 22 := by
      intro k hk
      rw [hget k hk]
      have := hle k hk
      have := hbnn o
      split <;> omega
    have h31 := hlt o hbo
    have hreq := fun k (hk : k < as.length) => rnnReqFx32 m (s := f.fi.getD k 0 + f.fw.getD k 0 - f.fo) (by have := c2 k hk; omega)
      (acc := (if k = 0 then biasFx m 32 (f.fi.getD 0 0 + f.fw.getD 0 0 - f.fb) (bias.get (tb.addr [o])) 0 else 0) + as[k].dot (X k) 0 o) (by
        have := abs_le.1 ((hacc k hk).trans (hTk k hk))
        constructor <;> simp only [lo, hi] <;> omega) (by
        intro hm
        have h30 := hfit o hbo
        rw [if_pos hm] at h30
        have := (abs_le.1 ((hacc k hk).trans (hTk k hk))).2
        omega)
    have htk : ∀ k, k < as.length → |t k| ≤ (if k = 0 then |bias.get (tb.addr [o])| * 2 ^ (f.fi.getD 0 0 + f.fw.getD 0 0 - f.fb).toNat else 0) +
          (as.map fun a => prod a.tin.shape).getD k 0 * 2 ^ 22 := fun k hk => by
      rw [(ht k hk).2]
      exact (hreq k hk).2.trans (hacc k hk)
    obtain ⟨g1, g2⟩ := foldl_addFx 32 t (fun k => (if k = 0 then |bias.get (tb.addr [o])| * 2 ^ (f.fi.getD 0 0 + f.fw.getD 0 0 - f.fb).toNat else 0) +
          (as.map fun a => prod a.tin.shape).getD k 0 * 2 ^ 22) as.length htk (by
      rw [hsumT]
      have e : hi 32 = 2 ^ 31 - 1 := by decide
      omega)
    rw [hsumT] at g2
    have g2 := abs_le.1 g2
    refine ⟨t, ?_, fun k hk => ?_⟩
    · rw [e0, g1, rnnStoreFx_eq (by omega) _ (by constructor <;> simp only [lo, hi] <;> omega)]
    · have := (hreq k hk).1
      rw [(ht k hk).2]
      convert this using 1
      split
      · rw [hbias o hbo, Int.add_comm]
      · rw [Int.add_comm]

/-! ## C65, 8-bit asymmetric -/

theorem chkRnnQuant_ok {q : RnnSaQ} : ∀ {as : List RnnArg} (k : Nat), chkRnnQuant q k as = .ok → ∀ j (hj : j < as.length),
    chkQuant as[j].tin (q.qiAt (k + j)) 7 = .ok ∧ chkQuant as[j].tw (q.qwAt (k + j)) 0 = .ok
  | [], _, _, j, hj => by simp at hj
  | a :: as, k, h, j, hj => by
    rw [chkRnnQuant] at h
    by_cases c1 : chkQuant a.tin (q.qiAt k) 7 = .ok
    swap
    · rw [if_pos c1] at h; exact absurd h c1
    rw [if_neg (not_not.2 c1)] at h
    by_cases c2 : chkQuant a.tw (q.qwAt k) 0 = .ok
    swap
    · rw [if_pos c2] at h; exact absurd h c2
    rw [if_neg (not_not.2 c2)] at h
    cases j with
    | zero => exact ⟨c1, c2⟩
    | succ j =>
      have := chkRnnQuant_ok (k + 1) h j (by simpa using hj)
      rw [show k + 1 + j = k + (j + 1) by omega] at this
      exact this

theorem chkRnnSa_ok {m : Rnd} {q : RnnSaQ} {as : List RnnArg} {tb tout : Tensor} (h : chkRnnSa m q as tb tout = some .ok) :
    chkRnn as tb tout = some .ok ∧ (0 < q.qo.scaleAt 0 ∧ InRange 8 (q.qo.zpAt 0)) ∧ ∀ k, k < as.length →
      0 < (q.qiAt k).scaleAt 0 ∧ InRange 8 ((q.qiAt k).zpAt 0) ∧ 0 < (q.qwAt k).scaleAt 0 ∧ (q.qwAt k).zpAt 0 = 0 := by
  unfold chkRnnSa at h
  rw [Option.bind_eq_some_iff] at h
  obtain ⟨s, hs, h⟩ := h
  by_cases e : s = .ok
  swap
  · rw [if_pos e] at h
    exact absurd (Option.some.inj h) e
  rw [if_neg (not_not.2 e)] at h
  by_cases c1 : chkRnnQuant q 0 as = .ok
  swap
  · rw [if_pos c1] at h; exact absurd (Option.some.inj h) c1
  rw [if_neg (not_not.2 c1)] at h
  by_cases c2 : chkQuant tout q.qo 7 = .ok
  swap
  · rw [if_pos c2] at h; exact absurd (Option.some.inj h) c2
  rw [if_neg (not_not.2 c2)] at h
  by_cases c3 : chkQuant tb q.qb 0 = .ok
  swap
  · rw [if_pos c3] at h; exact absurd (Option.some.inj h) c3
  rw [if_neg (not_not.2 c3)] at h
  by_cases c4 : (∀ k < as.length, (q.qiAt k).dim < 0 ∧ (q.qwAt k).dim < 0) ∧ q.qo.dim < 0 ∧ q.qb.dim < 0
  swap
  · rw [if_pos c4] at h; cases h
  obtain ⟨d1, d2, d3⟩ := c4
  obtain ⟨o1, o2, o3⟩ := chkQuant_ok c2 (k := 0) (Or.inl d2)
  refine ⟨by rw [hs, e], ⟨o1, by simpa [lo] using o2, by simpa [hi] using o3⟩, fun k hk => ?_⟩
  obtain ⟨g1, g2⟩ := chkRnnQuant_ok 0 c1 k hk
  rw [Nat.zero_add] at g1 g2
  obtain ⟨i1, i2, i3⟩ := chkQuant_ok g1 (k := 0) (Or.inl (d1 k hk).1)
  obtain ⟨w1, w2, w3⟩ := chkQuant_ok g2 (k := 0) (Or.inl (d1 k hk).2)
  simp only [if_true] at w2 w3
  exact ⟨i1, ⟨by simpa [lo] using i2, by simpa [hi] using i3⟩, w1, by omega⟩

/-- The real value, in output steps, of an accumulator of input `k`: scale of the input times scale of its weights over scale of the output. -/
def RnnSaQ.real (q : RnnSaQ) (k : Nat) (acc : Int) : ℚ :=
  acc * (scaleVal ((q.qiAt k).scaleAt 0) ((q.qiAt k).fracAt 0) * scaleVal ((q.qwAt k).scaleAt 0) ((q.qwAt k).fracAt 0) /
    scaleVal (q.qo.scaleAt 0) (q.qo.fracAt 0))

/-- The parameters are typed as in include/mli_types.h. -/
def RnnSaQ.Typed (q : RnnSaQ) : Prop := (∀ x ∈ q.qi, x.Typed) ∧ (∀ x ∈ q.qw, x.Typed) ∧ q.qo.Typed

theorem RnnSaQ.Typed.qiAt {q : RnnSaQ} (h : q.Typed) (k : Nat) : (q.qiAt k).Typed := by
  unfold RnnSaQ.qiAt
  rw [List.getD_eq_getElem?_getD]
  rcases hg : q.qi[k]? with _ | s
  · exact h.2.2
  · exact h.1 s (List.mem_of_getElem? hg)

theorem RnnSaQ.Typed.qwAt {q : RnnSaQ} (h : q.Typed) (k : Nat) : (q.qwAt k).Typed := by
  unfold RnnSaQ.qwAt
  rw [List.getD_eq_getElem?_getD]
  rcases hg : q.qw[k]? with _ | s
  · exact h.2.2
  · exact h.2.1 s (List.mem_of_getElem? hg)

theorem mapM_range_getD {β : Type} (f : Nat → Option β) (d : β) (n : Nat) (h : ∀ k, k < n → (f k).isSome) :
    ∃ l, (List.range n).mapM f = some l ∧ l.length = n ∧ ∀ k, k < n → f k = some (l.getD k d) := by
  induction n with
  | zero => exact ⟨[], rfl, rfl, fun k hk => by omega⟩
  | succ n ih =>
    obtain ⟨l, h1, hl, h2⟩ := ih fun k hk => h k (by omega)
    obtain ⟨b, hb⟩ := Option.isSome_iff_exists.1 (h n (by omega))
    refine ⟨l ++ [b], ?_, by simp [hl], fun k hk => ?_⟩
    · rw [List.range_succ, List.mapM_append, h1, List.mapM_cons, hb]
      rfl
    · by_cases e : k = n
      · rw [e, hb, List.getD_eq_getElem?_getD, List.getElem?_append_right (by omega), hl]
        simp
      · rw [h2 k (by omega), List.getD_eq_getElem?_getD, List.getD_eq_getElem?_getD, List.getElem?_append_left (by omega)]

/-- C65, 8-bit asymmetric: for every accepted call, output `o` is the output zero point plus one real contribution `e k` per input — the sum of
`(x - x_zp) * w`, for the first input plus the bias, times the scales — up to half an output step and a relative error of `2^-13` for each
contribution, limited to the 8-bit range; no accumulation overflows.  Partial: at most `2^15` elements per input and a bias below `2^30`
(`c65_sa8_overflow_violated`), and contributions of at most `2^28` output steps, because sums are saturated to 32 bits on the way. -/
theorem c65_sa8_partial (m : Rnd) (full : Bool) (q : RnnSaQ) (as : List RnnArg) (bias dst : Buf) (tb tout : Tensor) (A : ∀ a ∈ as, a.Valid 8 8)
    (vb : tb.Valid bias) (vo : tout.Valid dst) (hb : ∀ o, InShape tb.shape [o] → |bias.get (tb.addr [o])| < 2 ^ 30 - 2 ^ 17) (tq : q.Typed)
    (hchk : chkRnnSa m q as tb tout = some .ok) (hn : ∀ a ∈ as, prod a.tin.shape ≤ 2 ^ 15) :
    ∃ dst' val, ∃ X : Nat → Int → Int, (∀ k (hk : k < as.length), as[k].tin.Flat as[k].src (X k)) ∧
      krnRnnSa m full q as bias tb tout dst = some (.ok, dst') ∧ tout.Writes val dst dst' ∧ ∀ o, InShape tout.shape [o] →
        ∃ b', ∃ e : Nat → ℚ, BiasFor full (bias.get (tb.addr [o])) b' ∧
          (∀ k (hk : k < as.length), e k = q.real k (as[k].dot (X k) ((q.qiAt k).zpAt 0) o + if k = 0 then b' else 0)) ∧
          ((∀ k, k < as.length → |e k| ≤ 2 ^ 28) →
            |((val [o] : Int) : ℚ) - limitQ (-128) 127 (q.qo.zpAt 0 + ∑ k ∈ Finset.range as.length, e k)| ≤
              ∑ k ∈ Finset.range as.length, (1 / 2 + |e k| / 2 ^ 13)) := by
  obtain ⟨c1, ⟨O1, O2⟩, hq⟩ := chkRnnSa_ok hchk
  obtain ⟨hlen, hin, -⟩ := chkRnn_ok c1
  obtain ⟨rts, hrts, -, hrt⟩ := mapM_range_getD (rnnRatio m q) (0, 0) as.length (by
    intro k hk
    obtain ⟨ratio, shift, g, -⟩ := c46_in_to_out m ((q.qiAt k).scaleAt 0) ((q.qiAt k).fracAt 0) (q.qo.scaleAt 0) (q.qo.fracAt 0) (hq k hk).1
      ((tq.qiAt k).scaleAt 0) O1 (tq.2.2.scaleAt 0)
    unfold rnnRatio
    rw [g]; rfl)
  have hbias : ∀ o, InShape tb.shape [o] → ∃ b', biasS8 full (bias.get (tb.addr [o])) 0 = b' ∧ BiasFor full (bias.get (tb.addr [o])) b' ∧ |b'| < 2 ^ 30 - 2 ^ 16 := by
    intro o ho
    have h1 := abs_lt.1 (hb o ho)
    obtain ⟨b', e1, e2⟩ := biasFor full (b := bias.get (tb.addr [o])) (acc := 0) (by constructor <;> simp only [lo, hi] <;> omega) (by decide)
    have h2 := e2.2
    have h3 : |b' - bias.get (tb.addr [o])| ≤ 2 ^ 16 := by
      have := hb o ho
      omega
    have h3 := abs_le.1 h3
    have h4 : |b'| < 2 ^ 30 - 2 ^ 16 := by rw [abs_lt]; omega
    have h4' := abs_lt.1 h4
    refine ⟨b', ?_, e2, h4⟩
    rw [e1, Int.zero_add, clamp_of_inRange (by constructor <;> simp only [lo, hi] <;> omega)]
  have hst : ∀ o, InShape tb.shape [o] → ∀ k : Nat, |if k = 0 then biasS8 full (bias.get (tb.addr [o])) 0 else 0| < 2 ^ 30 - 2 ^ 16 := by
    intro o ho k
    obtain ⟨b', h1, -, h3⟩ := hbias o ho
    split
    · rw [h1]; exact h3
    · decide
  obtain ⟨dst', val, X, hX, r1, r2, r3⟩ := rnn_all A vb vo c1 32 (fun k => (q.qiAt k).zpAt 0) (fun k => (q.qwAt k).zpAt 0)
    (fun k => rnnReqSa m full (rts.getD k (0, 0)) ((q.qwAt k).scaleAt 0) ((q.qwAt k).fracAt 0)) (fun b => biasS8 full b 0)
    (rnnStoreSa m q.qo) (2 ^ 15) (fun k hk => (hq k hk).2.2.2)
    (fun k hk => by
      obtain ⟨a, b⟩ := (hq k hk).2.1
      apply wrap_of_inRange (by omega)
      simp only [lo, hi] at a b
      constructor <;> simp only [lo, hi] <;> omega)
    (fun a ha is js h1 h2 => (abs_mul_le (by omega) (by omega) ((A a ha).hi is h1) ((A a ha).hw js h2)).trans (by decide))
    (fun k hk is js h1 h2 => zp_mul_le ((A _ (List.getElem_mem hk)).hi is h1) (hq k hk).2.1 ((A _ (List.getElem_mem hk)).hw js h2))
    (fun o ho k hk => by
      have := hst o ho k
      have := hn _ (List.getElem_mem hk)
      have e : hi 32 = 2 ^ 31 - 1 := by decide
      rw [e]; omega)
  refine ⟨dst', val, X, hX, ?_, r2, fun o ho => ?_⟩
  · unfold krnRnnSa
    rw [hchk, Option.bind_some, if_neg (not_not.2 rfl), hrts, Option.bind_some, r1]
    rfl
  · obtain ⟨hbo, t, e0, ht⟩ := r3 o ho
    obtain ⟨b', hb1, hb2, hb3⟩ := hbias o hbo
    rw [hb1] at ht
    have hacc : ∀ k (hk : k < as.length), InRange 32 ((if k = 0 then b' else 0) + as[k].dot (X k) ((q.qiAt k).zpAt 0) o) := by
      intro k hk
      have h1 : |if k = 0 then b' else 0| < 2 ^ 30 - 2 ^ 16 := by
        split
        · exact hb3
        · decide
      have h2 := (ht k hk).1
      have h3 := hn _ (List.getElem_mem hk)
      have h4 := abs_lt.1 h1
      have h5 := abs_le.1 (h2.trans (show prod as[k].tin.shape * 2 ^ 15 ≤ 2 ^ 30 by omega))
      constructor <;> simp only [lo, hi] <;> omega
    let e : Nat → ℚ := fun k => if hk : k < as.length then q.real k (as[k].dot (X k) ((q.qiAt k).zpAt 0) o + if k = 0 then b' else 0) else 0
    have he : ∀ k (hk : k < as.length), e k = q.real k (as[k].dot (X k) ((q.qiAt k).zpAt 0) o + if k = 0 then b' else 0) := by
      intro k hk; simp only [e, hk, dif_pos]
    have hv : ∀ k (hk : k < as.length), ∃ v : Int, t k = clamp 32 v ∧ |(v : ℚ) - e k| ≤ 1 / 2 + |e k| / 2 ^ 13 := by
      intro k hk
      obtain ⟨v, v1, v2⟩ := rnnReqSa_spec m full ((q.qiAt k).scaleAt 0) ((q.qiAt k).fracAt 0) ((q.qwAt k).scaleAt 0) ((q.qwAt k).fracAt 0)
        (q.qo.scaleAt 0) (q.qo.fracAt 0) ⟨(hq k hk).1, (tq.qiAt k).scaleAt 0⟩ ⟨(hq k hk).2.2.1, (tq.qwAt k).scaleAt 0⟩ ⟨O1, tq.2.2.scaleAt 0⟩
        (hacc k hk) (hrt k hk)
      refine ⟨v, by rw [(ht k hk).2, v1], ?_⟩
      rw [he k hk, Int.add_comm]
      exact v2
    refine ⟨b', e, hb2, he, fun hsmall => ?_⟩
    have hvk : ∀ k, k < as.length → |t k| ≤ 2 ^ 28 + 2 ^ 16 ∧ |((t k : Int) : ℚ) - e k| ≤ 1 / 2 + |e k| / 2 ^ 13 := by
      intro k hk
      obtain ⟨v, v1, v2⟩ := hv k hk
      have h1 := hsmall k hk
      have h2 := abs_le.1 v2
      have h3 := abs_le.1 h1
      have h4 : (v : ℚ) ≤ 2 ^ 28 + 2 ^ 16 := by norm_num at *; linarith
      have h5 : -(2 ^ 28 + 2 ^ 16) ≤ (v : ℚ) := by norm_num at *; linarith
      have h4 : v ≤ 2 ^ 28 + 2 ^ 16 := by exact_mod_cast h4
      have h5 : -(2 ^ 28 + 2 ^ 16) ≤ v := by exact_mod_cast h5
      rw [v1, clamp_of_inRange (by constructor <;> simp only [lo, hi] <;> omega)]
      exact ⟨abs_le.2 ⟨h5, h4⟩, v2⟩
    have hsum : ∑ k ∈ Finset.range as.length, (fun _ => (2 : Int) ^ 28 + 2 ^ 16) k ≤ hi 32 := by
      rw [Finset.sum_const, Finset.card_range, nsmul_eq_mul]
      have e : hi 32 = 2 ^ 31 - 1 := by decide
      rw [e]; omega
    obtain ⟨g1, g2⟩ := foldl_addFx 32 t (fun _ => 2 ^ 28 + 2 ^ 16) as.length (fun k hk => (hvk k hk).1) hsum
    have g2 := abs_le.1 (g2.trans hsum)
    have hl := lo_eq 32
    have hh := hi_eq 32
    rw [e0, g1, rnnStoreSa_eq m O2 ⟨by omega, g2.2⟩, clamp8_cast]
    refine (limitQ_sub _ _ _ _).trans ?_
    rw [Int.cast_add, Int.cast_sum, show ((∑ k ∈ Finset.range as.length, ((t k : Int) : ℚ)) + (q.qo.zpAt 0 : ℚ)) -
      (q.qo.zpAt 0 + ∑ k ∈ Finset.range as.length, e k) = ∑ k ∈ Finset.range as.length, (((t k : Int) : ℚ) - e k) by
        rw [Finset.sum_sub_distrib]; ring]
    refine (Finset.abs_sum_le_sum_abs _ _).trans (Finset.sum_le_sum fun k hk => ?_)
    exact (hvk k (Finset.mem_range.1 hk)).2

/-! ## Status -/

/-- C65: a fixed-point call reports success exactly for the tensors it accepts, and leaves the output alone otherwise. -/
theorem c65_status_fx (m : Rnd) (aw : Nat) (f : RnnFxQ) (as : List RnnArg) (bias : Buf) (tb tout : Tensor) (dst dst' : Buf) (st : Status)
    (h : krnRnnFx m aw f as bias tb tout dst = some (st, dst')) :
    (st ≠ .ok → dst' = dst) ∧ (st = .ok → chkRnnFx f as tb tout = some .ok) := by
  unfold krnRnnFx at h
  rw [Option.bind_eq_some_iff] at h
  obtain ⟨s, hs, h⟩ := h
  by_cases e : s = .ok
  · rw [if_neg (not_not.2 e), Option.map_eq_some_iff] at h
    obtain ⟨d, -, h⟩ := h
    obtain ⟨rfl, -⟩ := Prod.mk.inj h
    exact ⟨fun h => absurd rfl h, fun _ => by rw [hs, e]⟩
  · rw [if_pos e] at h
    obtain ⟨rfl, rfl⟩ := Prod.mk.inj (Option.some.inj h)
    exact ⟨fun _ => rfl, fun h => absurd h e⟩

/-- C65: the same for the 8-bit kernel. -/
theorem c65_status_sa8 (m : Rnd) (full : Bool) (q : RnnSaQ) (as : List RnnArg) (bias : Buf) (tb tout : Tensor) (dst dst' : Buf) (st : Status)
    (h : krnRnnSa m full q as bias tb tout dst = some (st, dst')) :
    (st ≠ .ok → dst' = dst) ∧ (st = .ok → chkRnnSa m q as tb tout = some .ok) := by
  unfold krnRnnSa at h
  rw [Option.bind_eq_some_iff] at h
  obtain ⟨s, hs, h⟩ := h
  by_cases e : s = .ok
  · rw [if_neg (not_not.2 e), Option.bind_eq_some_iff] at h
    obtain ⟨rts, -, h⟩ := h
    rw [Option.map_eq_some_iff] at h
    obtain ⟨d, -, h⟩ := h
    obtain ⟨rfl, -⟩ := Prod.mk.inj h
    exact ⟨fun h => absurd rfl h, fun _ => by rw [hs, e]⟩
  · rw [if_pos e] at h
    obtain ⟨rfl, rfl⟩ := Prod.mk.inj (Option.some.inj h)
    exact ⟨fun _ => rfl, fun h => absurd h e⟩

/-- C65: what an accepted call requires of the shapes: one to four inputs, each with as many elements as its weights have rows, and weights, bias and
output with the same number of columns or elements; contiguous inputs and outputs, not overlapping. -/
theorem c65_check {as : List RnnArg} {tb tout : Tensor} (h : chkRnn as tb tout = some .ok) :
    (1 ≤ as.length ∧ as.length ≤ 4) ∧ ∃ n, tb.shape = [n] ∧ tout.shape = [n] ∧ ∀ a ∈ as, a.tw.shape = [countElemNum a.tin, n] ∧
      isContig a.tin = true ∧ a.apart = true := by
  obtain ⟨c1, c2, c3⟩ := chkRnn_ok h
  obtain ⟨bn, on, eb, eo, hbn, hon, -⟩ := chkRnnOut_ok c3
  refine ⟨⟨by omega, c1.2⟩, bn.shape, by simp [Tensor.shape, eb], by simp [Tensor.shape, eo, hon, hbn], fun a ha => ?_⟩
  obtain ⟨wi, wo, e1, h1, h2, h3, -, h5⟩ := chkRnnIn_ok (c2 a ha)
  exact ⟨by simp [Tensor.shape, e1, h1, h2, hbn], h3, h5⟩

/-! ## Violations and cases that meet the hypotheses -/

set_option maxRecDepth 8000 in
/-- C65 fails for 16-bit calls whose product has more than 39 fractional bits more than the output: the shift is limited to 39, and the sum of
1024 products of `2^30` gives 2 instead of 1. -/
theorem c65_shift_violated :
    let tin : Tensor := { dims := [⟨1024, 1⟩], cap := 2048, es := 2 }
    let tw : Tensor := { dims := [⟨1024, 1⟩, ⟨1, 1⟩], cap := 2048, es := 2 }
    let t1 : Tensor := { dims := [⟨1, 1⟩], cap := 2, es := 2 }
    let f : RnnFxQ := { fi := [20], fw := [20], fb := 30, fo := 0 }
    let as : List RnnArg := [⟨{ size := 1024, get := fun _ => -32768 }, tin, { size := 1024, get := fun _ => -32768 }, tw, true⟩]
    chkRnnFx f as t1 t1 = some .ok ∧ (krnRnnFx .convergent 64 f as (Buf.ofList [0]) t1 t1 (Buf.ofList [99])).map (fun p => p.2.get 0) = some 2 ∧
      Scaled .convergent (1024 * (-32768 * -32768)) 40 1 := by
  refine ⟨by decide +kernel, by decide +kernel, ?_⟩
  have h := rnd_scaled .convergent (1024 * (-32768 * -32768)) 40
  exact h

/-- C65 fails for 8-bit weights when the bias and the products exceed 32 bits together, here a bias of 127 with a shift of 24 bits and four
products: the accumulator overflows, although the fully connected kernel adds the same bias with saturation. -/
theorem c65_bias_overflow_violated :
    let tin : Tensor := { dims := [⟨4, 1⟩], cap := 8, es := 2 }
    let tw : Tensor := { dims := [⟨4, 1⟩, ⟨1, 1⟩], cap := 4, es := 1 }
    let tb : Tensor := { dims := [⟨1, 1⟩], cap := 1, es := 1 }
    let tout : Tensor := { dims := [⟨1, 1⟩], cap := 2, es := 2 }
    let f : RnnFxQ := { fi := [15], fw := [7], fb := -2, fo := 11 }
    let as : List RnnArg := [⟨Buf.ofList (List.replicate 4 (-32768)), tin, Buf.ofList (List.replicate 4 (-128)), tw, true⟩]
    chkRnnFx f as tb tout = some .ok ∧ krnRnnFx .convergent 32 f as (Buf.ofList [127]) tb tout (Buf.ofList [99]) = none := by
  decide +kernel

/-- C65 fails for 8-bit calls with a bias close to the limits of 32 bits: one product is enough for an overflow. -/
theorem c65_sa8_overflow_violated :
    let tin : Tensor := { dims := [⟨1, 1⟩], cap := 1, es := 1 }
    let tw : Tensor := { dims := [⟨1, 1⟩, ⟨1, 1⟩], cap := 1, es := 1 }
    let tb : Tensor := { dims := [⟨1, 1⟩], cap := 4, es := 4 }
    let tout : Tensor := { dims := [⟨1, 1⟩], cap := 1, es := 1 }
    let s : SaQ := { dim := -1, zp := [0], scale := [1], frac := [0] }
    let q : RnnSaQ := { qi := [s], qw := [s], qb := s, qo := s }
    let as : List RnnArg := [⟨Buf.ofList [127], tin, Buf.ofList [127], tw, true⟩]
    chkRnnSa .convergent q as tb tout = some .ok ∧
      krnRnnSa .convergent true q as (Buf.ofList [2147483647]) tb tout (Buf.ofList [99]) = none := by
  decide +kernel

/-- Two 16-bit inputs of two and one elements, two outputs: the first accepted case, `0.5 + 0.25 * 1 - 0.5 * 0.5 + …`. -/
example :
    let tin1 : Tensor := { dims := [⟨2, 1⟩], cap := 4, es := 2 }
    let tin2 : Tensor := { dims := [⟨1, 1⟩], cap := 2, es := 2 }
    let tw1 : Tensor := { dims := [⟨2, 2⟩, ⟨2, 1⟩], cap := 8, es := 2 }
    let tw2 : Tensor := { dims := [⟨1, 2⟩, ⟨2, 1⟩], cap := 4, es := 2 }
    let t : Tensor := { dims := [⟨2, 1⟩], cap := 4, es := 2 }
    let f : RnnFxQ := { fi := [15, 12], fw := [15, 14], fb := 15, fo := 12 }
    let as : List RnnArg := [⟨Buf.ofList [8192, -16384], tin1, Buf.ofList [32767, 5, 16384, -3], tw1, true⟩,
      ⟨Buf.ofList [4097], tin2, Buf.ofList [-16384, 8191], tw2, true⟩]
    let bias := Buf.ofList [16384, -7]
    let dst := Buf.ofList [99, 99]
    (∀ a ∈ as, a.Valid 16 16) ∧ t.Valid bias ∧ t.Valid dst ∧ t.Holds bias 16 ∧ chkRnnFx f as t t = some .ok ∧
    f.fi.getD 0 0 + f.fw.getD 0 0 - f.fb ≤ 16 ∧ (∀ k < as.length, f.fi.getD k 0 + f.fw.getD k 0 - f.fo ≤ 39) ∧
    (∀ a ∈ as, prod a.tin.shape ≤ 2 ^ 29) ∧
    (krnRnnFx .convergent 64 f as bias t t dst).map (fun p => (p.1, p.2.get 0, p.2.get 1)) = some (.ok, -2049, 2047) := by
  refine ⟨?_, ⟨by decide, by decide, by decide, by decide⟩, ⟨by decide, by decide, by decide, by decide⟩, holds_ofList (by decide) _, by decide +kernel,
    by decide, by decide, ?_, by decide +kernel⟩
  · intro a ha
    simp only [List.mem_cons, List.not_mem_nil, or_false] at ha
    rcases ha with rfl | rfl <;>
      exact ⟨⟨by decide, by decide, by decide, by decide⟩, ⟨by decide, by decide, by decide, by decide⟩, holds_ofList (by decide) _, holds_ofList (by decide) _⟩
  · intro a ha
    simp only [List.mem_cons, List.not_mem_nil, or_false] at ha
    rcases ha with rfl | rfl <;> decide

/-- 16-bit inputs with 8-bit weights. -/
example :
    let tin1 : Tensor := { dims := [⟨2, 1⟩], cap := 4, es := 2 }
    let tin2 : Tensor := { dims := [⟨1, 1⟩], cap := 2, es := 2 }
    let tw1 : Tensor := { dims := [⟨2, 2⟩, ⟨2, 1⟩], cap := 4, es := 1 }
    let tw2 : Tensor := { dims := [⟨1, 2⟩, ⟨2, 1⟩], cap := 2, es := 1 }
    let tb : Tensor := { dims := [⟨2, 1⟩], cap := 2, es := 1 }
    let t : Tensor := { dims := [⟨2, 1⟩], cap := 4, es := 2 }
    let f : RnnFxQ := { fi := [15, 12], fw := [7, 7], fb := 7, fo := 12 }
    let as : List RnnArg := [⟨Buf.ofList [8192, -16384], tin1, Buf.ofList [127, 5, 64, -3], tw1, true⟩,
      ⟨Buf.ofList [4097], tin2, Buf.ofList [-64, 31], tw2, true⟩]
    let bias := Buf.ofList [64, -7]
    let dst := Buf.ofList [99, 99]
    (∀ a ∈ as, a.Valid 16 8) ∧ tb.Valid bias ∧ t.Valid dst ∧ tb.Holds bias 8 ∧ chkRnnFx f as tb t = some .ok ∧
    (∀ o, InShape tb.shape [o] → |bias.get (tb.addr [o])| * 2 ^ (f.fi.getD 0 0 + f.fw.getD 0 0 - f.fb).toNat +
      (as.map fun a => prod a.tin.shape).sum * 2 ^ 22 < 2 ^ 30) ∧
    (krnRnnFx .up 32 f as bias tb t dst).map (fun p => (p.1, p.2.get 0, p.2.get 1)) = some (.ok, -8, 856) := by
  refine ⟨?_, ⟨by decide, by decide, by decide, by decide⟩, ⟨by decide, by decide, by decide, by decide⟩, holds_ofList (by decide) _, by decide +kernel,
    ?_, by decide +kernel⟩
  · intro a ha
    simp only [List.mem_cons, List.not_mem_nil, or_false] at ha
    rcases ha with rfl | rfl <;>
      exact ⟨⟨by decide, by decide, by decide, by decide⟩, ⟨by decide, by decide, by decide, by decide⟩, holds_ofList (by decide) _, holds_ofList (by decide) _⟩
  · intro o ho
    obtain ⟨⟨h1, h2⟩, -⟩ : (0 ≤ o ∧ o < 2) ∧ True := ho
    have : o < 2 := h2
    have : o = 0 ∨ o = 1 := by omega
    rcases this with rfl | rfl <;> decide

/-- 8-bit inputs with different scales and zero points. -/
example :
    let tin1 : Tensor := { dims := [⟨2, 1⟩], cap := 2, es := 1 }
    let tin2 : Tensor := { dims := [⟨1, 1⟩], cap := 1, es := 1 }
    let tw1 : Tensor := { dims := [⟨2, 2⟩, ⟨2, 1⟩], cap := 4, es := 1 }
    let tw2 : Tensor := { dims := [⟨1, 2⟩, ⟨2, 1⟩], cap := 2, es := 1 }
    let tb : Tensor := { dims := [⟨2, 1⟩], cap := 8, es := 4 }
    let t : Tensor := { dims := [⟨2, 1⟩], cap := 2, es := 1 }
    let q : RnnSaQ := ⟨[⟨-1, [3], [1], [4]⟩, ⟨-1, [-7], [3], [5]⟩], [⟨-1, [0], [1], [6]⟩, ⟨-1, [0], [5], [8]⟩], ⟨-1, [0], [1], [10]⟩, ⟨-1, [-10], [1], [4]⟩⟩
    let as : List RnnArg := [⟨Buf.ofList [100, -60], tin1, Buf.ofList [127, 5, 64, -3], tw1, true⟩,
      ⟨Buf.ofList [41], tin2, Buf.ofList [-64, 31], tw2, true⟩]
    let bias := Buf.ofList [640, -70]
    let dst := Buf.ofList [99, 99]
    (∀ a ∈ as, a.Valid 8 8) ∧ tb.Valid bias ∧ t.Valid dst ∧ (∀ o, InShape tb.shape [o] → |bias.get (tb.addr [o])| < 2 ^ 30 - 2 ^ 17) ∧
    ((∀ x ∈ q.qi, x.Typed) ∧ (∀ x ∈ q.qw, x.Typed) ∧ q.qo.Typed) ∧
    chkRnnSa .convergent q as tb t = some .ok ∧ (∀ a ∈ as, prod a.tin.shape ≤ 2 ^ 15) ∧
    (krnRnnSa .convergent true q as bias tb t dst).map (fun p => (p.1, p.2.get 0, p.2.get 1)) = some (.ok, 39, 43) := by
  refine ⟨?_, ⟨by decide, by decide, by decide, by decide⟩, ⟨by decide, by decide, by decide, by decide⟩, ?_, by decide, by decide +kernel,
    ?_, by decide +kernel⟩
  · intro a ha
    simp only [List.mem_cons, List.not_mem_nil, or_false] at ha
    rcases ha with rfl | rfl <;>
      exact ⟨⟨by decide, by decide, by decide, by decide⟩, ⟨by decide, by decide, by decide, by decide⟩, holds_ofList (by decide) _, holds_ofList (by decide) _⟩
  · intro o ho
    obtain ⟨⟨h1, h2⟩, -⟩ : (0 ≤ o ∧ o < 2) ∧ True := ho
    have : o < 2 := h2
    have : o = 0 ∨ o = 1 := by omega
    rcases this with rfl | rfl <;> decide
  · intro a ha
    simp only [List.mem_cons, List.not_mem_nil, or_false] at ha
    rcases ha with rfl | rfl <;> decide

end Mli
