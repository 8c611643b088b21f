import Verif.Model.PointSub
import Verif.Props.Fc
import Verif.Props.ConvSa8

/-!
# Accumulator guard bits (C84) and `mli_hlp_point_to_subtensor` (C85)
-/

namespace Mli

open Spec

/-! ## Guard bits -/

/-- A multiply-accumulate run over pairs of operands: each operand in its range, as many pairs as fit. -/
theorem macs_exact (w a b : Nat) (ha : 1 ≤ a) (hb : 1 ≤ b) (ps : List (Int × Int)) (acc : Int)
    (hp : ∀ p ∈ ps, InRange a p.1 ∧ InRange b p.2)
    (h : |acc| + ps.length * (2 ^ (a - 1) * 2 ^ (b - 1)) ≤ hi w) :
    ps.foldlM (fun acc p => macFx w acc p.1 p.2) acc = some (acc + (ps.map fun p => p.1 * p.2).sum) := by
  induction ps generalizing acc with
  | nil => simp
  | cons p ps ih =>
    have hm := abs_mul_le ha hb (hp p (by simp)).1 (hp p (by simp)).2
    have hc : (0 : Int) ≤ 2 ^ (a - 1) * 2 ^ (b - 1) := by positivity
    generalize hC : (2 : Int) ^ (a - 1) * 2 ^ (b - 1) = C at *
    have hl : 0 ≤ (ps.length : Int) * C := by positivity
    have ht := abs_add_le acc (p.1 * p.2)
    have e : ((p :: ps).length : Int) * C = ps.length * C + C := by
      rw [List.length_cons]; push_cast; ring
    rw [e] at h
    have hr : InRange w (acc + p.1 * p.2) := by
      have := abs_le.1 (show |acc + p.1 * p.2| ≤ hi w by omega)
      unfold InRange
      refine ⟨?_, this.2⟩
      have h1 := this.1
      unfold lo hi at *
      omega
    rw [List.foldlM_cons]
    unfold macFx
    rw [ckd_some hr, Option.bind_eq_bind, Option.bind_some]
    rw [show (fun acc (p : Int × Int) => ckd w (acc + p.1 * p.2)) = fun acc p => macFx w acc p.1 p.2 from rfl]
    rw [ih _ (fun q hq => hp q (by simp [hq])) (by omega)]
    simp only [List.map_cons, List.sum_cons]
    congr 1; ring

/-- C84, SA8 operands: accumulating up to `2^guard` products of 8-bit values never overflows and gives the exact sum,
also when the accumulator already holds a value (a bias) of at most 30 bits. -/
theorem c84_sa8_sa8 (ps : List (Int × Int)) (acc : Int) (hp : ∀ p ∈ ps, InRange 8 p.1 ∧ InRange 8 p.2)
    (hn : ps.length ≤ 2 ^ guardBitsSa8Sa8) (ha : |acc| < 2 ^ 30) :
    ps.foldlM (fun acc p => macFx 32 acc p.1 p.2) acc = some (acc + (ps.map fun p => p.1 * p.2).sum) := by
  apply macs_exact 32 8 8 (by decide) (by decide) ps acc hp
  simp only [show guardBitsSa8Sa8 = 16 by decide] at hn
  have : (ps.length : Int) ≤ 65536 := by exact_mod_cast hn
  simp only [hi]
  omega

/-- C84, 16-bit operands. -/
theorem c84_fx16_fx16 (ps : List (Int × Int)) (acc : Int) (hp : ∀ p ∈ ps, InRange 16 p.1 ∧ InRange 16 p.2)
    (hn : ps.length ≤ 2 ^ guardBitsFx16Fx16) (ha : |acc| < 2 ^ 62) :
    ps.foldlM (fun acc p => macFx 64 acc p.1 p.2) acc = some (acc + (ps.map fun p => p.1 * p.2).sum) := by
  apply macs_exact 64 16 16 (by decide) (by decide) ps acc hp
  simp only [show guardBitsFx16Fx16 = 32 by decide] at hn
  have : (ps.length : Int) ≤ 4294967296 := by exact_mod_cast hn
  simp only [hi]
  omega

/-- C84, 16-bit operand with 8-bit operand. -/
theorem c84_fx16_fx8 (ps : List (Int × Int)) (acc : Int) (hp : ∀ p ∈ ps, InRange 16 p.1 ∧ InRange 8 p.2)
    (hn : ps.length ≤ 2 ^ guardBitsFx16Fx8) (ha : |acc| < 2 ^ 30) :
    ps.foldlM (fun acc p => macFx 32 acc p.1 p.2) acc = some (acc + (ps.map fun p => p.1 * p.2).sum) := by
  apply macs_exact 32 16 8 (by decide) (by decide) ps acc hp
  simp only [show guardBitsFx16Fx8 = 8 by decide] at hn
  have : (ps.length : Int) ≤ 256 := by exact_mod_cast hn
  simp only [hi]
  omega

/-- The reported numbers are not conservative by more than one bit: twice as many products can overflow. -/
theorem c84_tight :
    (List.replicate (2 ^ (guardBitsFx16Fx8 + 1)) ((-32768 : Int), (-128 : Int))).foldlM (fun acc p => macFx 32 acc p.1 p.2) 0 = none := by
  decide +kernel

example : (∀ p ∈ [((-128 : Int), (-128 : Int)), (127, -128)], InRange 8 p.1 ∧ InRange 8 p.2) ∧
    [((-128 : Int), (-128 : Int)), (127, -128)].length ≤ 2 ^ guardBitsSa8Sa8 ∧
    [((-128 : Int), (-128 : Int)), (127, -128)].foldlM (fun acc p => macFx 32 acc p.1 p.2) 5 = some 133 ∧
    guardBitsSa8Sa8 = 16 ∧ guardBitsFx16Fx16 = 32 ∧ guardBitsFx16Fx8 = 8 := by decide

/-- C84, fully connected layers: an accepted call with at most `2^guard` inputs has a defined result, whatever the values;
the 16-bit kernel. -/
theorem c84_fc_fx16 (m : Rnd) (apart : Bool) (f : FxQ) (src wts bias dst : Buf) (tin tw tb tout : Tensor) (n k : Int)
    (A : FcArgs tin tw tb tout src wts bias dst 16 16 16) (hchk : chkFcFx apart f tin tw tb tout = some .ok) (sw : tw.shape = [n, k])
    (hn : n ≤ 2 ^ guardBitsFx16Fx16) :
    ∃ dst', krnFcFx m 16 64 apart f src wts bias tin tw tb tout dst = some (.ok, dst') := by
  simp only [show guardBitsFx16Fx16 = 32 by decide] at hn
  obtain ⟨dst', _, _, -, h, -⟩ := krnFcFx_exact m 16 64 apart f src wts bias dst tin tw tb tout n k 16 16 (by omega) (by omega) A hchk sw
    (by simp only [hi]; omega)
  exact ⟨dst', h⟩

/-- The 16-bit kernel with 8-bit weights. -/
theorem c84_fc_fx16_fx8 (m : Rnd) (apart : Bool) (f : FxQ) (src wts bias dst : Buf) (tin tw tb tout : Tensor) (n k : Int)
    (A : FcArgs tin tw tb tout src wts bias dst 16 8 8) (hchk : chkFcFx apart f tin tw tb tout = some .ok) (sw : tw.shape = [n, k])
    (hn : n ≤ 2 ^ guardBitsFx16Fx8) :
    ∃ dst', krnFcFx m 16 32 apart f src wts bias tin tw tb tout dst = some (.ok, dst') := by
  simp only [show guardBitsFx16Fx8 = 8 by decide] at hn
  obtain ⟨dst', _, _, -, h, -⟩ := krnFcFx_exact m 16 32 apart f src wts bias dst tin tw tb tout n k 8 8 (by omega) (by omega) A hchk sw
    (by simp only [hi]; omega)
  exact ⟨dst', h⟩

/-- The 8-bit asymmetric kernel, with its subtraction of the input zero point. -/
theorem c84_fc_sa8 (m : Rnd) (full ext apart : Bool) (q : Sa8Q) (src wts bias dst : Buf) (tin tw tb tout : Tensor) (n k : Int)
    (A : FcArgs tin tw tb tout src wts bias dst 8 8 32) (tq : q.qi.Typed ∧ q.qw.Typed ∧ q.qo.Typed)
    (hck : chkFc apart tin tw tb tout = some .ok) (hq : chkSa8At 1 m q tin tw tb tout = some .ok) (sw : tw.shape = [n, k])
    (hn : n ≤ 2 ^ guardBitsSa8Sa8) :
    ∃ dst', krnFcSa8 m full ext apart q src wts bias tin tw tb tout dst = some (.ok, dst') := by
  simp only [show guardBitsSa8Sa8 = 16 by decide] at hn
  obtain ⟨_, dst', _, _, -, h, -⟩ := krnFcSa8_exact m full ext apart q src wts bias dst tin tw tb tout n k A tq hck hq sw (by omega)
  exact ⟨dst', h⟩

/-- C84, convolution: an accepted call with at most `2^guard` taps has a defined result; 16-bit input, 8-bit weights. -/
theorem c84_conv_fx16_fx8 (m : Rnd) (ks : Int) (apart : Bool) (f : FxQ) (src wts bias dst : Buf)
    (tin tw tb tout : Tensor) (c : ConvCfg) (ih iw ic kh kw kn oh ow : Int)
    (A : ConvArgs tin tw tb tout c src wts bias dst 16 8 8)
    (hchk : chkConvFx false ks apart f tin tw tb c tout = some .ok)
    (si : tin.shape = [ih, iw, ic]) (sk : tw.shape = [kh, kw, ic, kn]) (so : tout.shape = [oh, ow, kn])
    (hmeet : RowsMeet ih kh oh c) (ht : ic * (kh * kw) ≤ 2 ^ guardBitsFx16Fx8) :
    ∃ dst', krnConvFx m 32 ks apart f src wts bias tin tw tb c tout dst = some (.ok, dst') := by
  simp only [show guardBitsFx16Fx8 = 8 by decide] at ht
  obtain ⟨dst', _, h, -⟩ := krnConvFx_exact m 32 ks apart f src wts bias dst tin tw tb tout c ih iw ic kh kw kn oh ow 8 8
    (by omega) A hchk si sk so hmeet (by simp only [hi]; omega)
  exact ⟨dst', h⟩

/-! ## Point to sub-tensor -/

/-- Spec: the multi-index with `j` added to its last coordinate. -/
def bump : List Int → Int → List Int
  | [], _ => []
  | [a], j => [a + j]
  | a :: b :: l, j => a :: bump (b :: l) j

theorem offset_bump : ∀ (ns cs : List Int) (j : Int), cs.length = ns.length → ns ≠ [] →
    offset (cstr ns) (bump cs j) = offset (cstr ns) cs + j
  | [], _, _, _, h => absurd rfl h
  | [n], [a], j, _, _ => by simp [cstr, offset, bump, prod]
  | [_], [], _, h, _ => by simp at h
  | [_], _ :: _ :: _, _, h, _ => by simp at h
  | _ :: _ :: _, [], _, h, _ => by simp at h
  | _ :: _ :: _, [_], _, h, _ => by simp at h
  | _ :: m :: ns, a :: b :: l, j, h, _ => by
    have ih := offset_bump (m :: ns) (b :: l) j (by simpa using h) (by simp)
    simp only [cstr, offset, bump] at ih ⊢
    rw [ih]; ring

theorem prod_ge_one {ns : List Int} (h : ∀ n ∈ ns, 1 ≤ n) : 1 ≤ prod ns := by
  induction ns with
  | nil => simp [prod]
  | cons n ns ih =>
    have a := h n (by simp)
    have b := ih fun m hm => h m (by simp [hm])
    rw [prod]; nlinarith

/-- The running products are the strides of the packed layout as long as the element count fits. -/
theorem dimSizes_eq : ∀ ns : List Int, (∀ n ∈ ns, 1 ≤ n) → prod ns < 2 ^ 32 → dimSizes ns = (cstr ns, prod ns)
  | [], _, _ => by simp [dimSizes, cstr, prod]
  | n :: ns, hp, hlt => by
    have hn := hp n (by simp)
    have h1 : 1 ≤ prod ns := prod_ge_one fun m hm => hp m (by simp [hm])
    rw [prod] at hlt
    have ih := dimSizes_eq ns (fun m hm => hp m (by simp [hm])) (by nlinarith)
    simp only [dimSizes, ih, cstr, prod]
    rw [Int.emod_eq_of_lt (by nlinarith) (by nlinarith)]
    rw [Int.mul_comm]

/-- The coordinates the call looks at. -/
def PointCfg.start (c : PointCfg) : List Int := c.coords.take c.num

theorem startOffset_mod (cs ss : List Int) : ∀ n, n ≤ cs.length → n ≤ ss.length →
    startOffset cs ss n = offset ss (cs.take n) % 2 ^ 32
  | 0, _, _ => by cases ss <;> simp [startOffset, offset]
  | n + 1, h1, h2 => by
    have ih := startOffset_mod cs ss n (by omega) (by omega)
    have key : ∀ (n : Nat) (ss cs : List Int), n < cs.length → n < ss.length →
        offset ss (cs.take (n + 1)) = offset ss (cs.take n) + cs.getD n 0 * ss.getD n 0 := by
      intro n
      induction n with
      | zero =>
        intro ss cs a b
        match ss, cs, a, b with
        | s :: ss, c :: cs, _, _ => cases ss <;> simp [offset]
      | succ n ihn =>
        intro ss cs a b
        match ss, cs, a, b with
        | s :: ss, c :: cs, a, b =>
          have := ihn ss cs (by simpa using a) (by simpa using b)
          simp only [List.take_succ_cons, offset, List.getD_cons_succ] at this ⊢
          rw [this]; ring
    rw [startOffset, ih, key n ss cs (by omega) (by omega), ← Int.add_emod]

theorem coordsOk_inShape : ∀ (shape coords : List Int) (n : Nat), coordsOk shape coords n = true →
    ∀ i, i < n → coords.getD i 0 < shape.getD i 0
  | _, _, 0, _, _, h => absurd h (by omega)
  | shape, coords, n + 1, h, i, hi => by
    simp only [coordsOk, Bool.and_eq_true, decide_eq_true_eq] at h
    by_cases e : i = n
    · subst e; exact h.2
    · exact coordsOk_inShape shape coords n h.1 i (by omega)

theorem coordsOk_iff (shape coords : List Int) (n : Nat) : coordsOk shape coords n = true ↔
    ∀ i, i < n → coords.getD i 0 < shape.getD i 0 := by
  refine ⟨coordsOk_inShape shape coords n, ?_⟩
  induction n with
  | zero => simp [coordsOk]
  | succ n ih =>
    intro h
    simp only [coordsOk, Bool.and_eq_true, decide_eq_true_eq]
    exact ⟨ih fun i hi => h i (by omega), h n (by omega)⟩

/-- The ranges of the fields of the configuration struct. -/
structure PointCfg.Typed (c : PointCfg) : Prop where
  len : c.coords.length = 4
  coord : ∀ x ∈ c.coords, 0 ≤ x ∧ x < 2 ^ 32
  first : 0 ≤ c.first ∧ c.first < 256

/-- C85: the decision.  For a tensor the library accepts, the call succeeds exactly when there is one coordinate for each
dimension, each coordinate is inside of the shape, the wanted elements are inside of the last dimension, the
tensor is packed and the stride the caller left in the output is 1. -/
theorem c85_status (k : ElKind) (t : Tensor) (b : Buf) (c : PointCfg) (ostr : List Int) (hv : t.Valid b) (hc : c.Typed) (h1 : 1 ≤ c.num) :
    ∃ st o, pointSub k t c ostr = some (st, o) ∧ (st ≠ .ok → o = none) ∧
      (st = .ok ↔ c.num = t.dims.length ∧ (∀ i, i < c.num → c.coords.getD i 0 < t.shape.getD i 0) ∧
        c.coords.getD (c.num - 1) 0 + c.first ≤ t.shape.getD (c.num - 1) 0 ∧ isContig t = true ∧ ostr.getD 0 0 = 1) := by
  have hr : t.dims.length ≤ 4 := hv.rank
  unfold pointSub chkPoint
  simp only [hv.accepted, Option.bind_eq_bind, Option.bind_some, ne_eq, not_true_eq_false, if_false, Option.pure_def]
  by_cases hn : c.num > t.dims.length
  · rw [if_pos hn]
    refine ⟨.badFuncCfg, none, by simp, by simp, ?_⟩
    simp only [reduceCtorEq, false_iff]
    intro h; omega
  rw [if_neg hn]
  by_cases hk : coordsOk t.shape c.coords c.num = true
  swap
  · rw [if_pos (by simpa using hk)]
    refine ⟨.badFuncCfg, none, by simp, by simp, ?_⟩
    simp only [reduceCtorEq, false_iff]
    intro h; exact hk ((coordsOk_iff _ _ _).2 h.2.1)
  have hk' := (coordsOk_iff _ _ _).1 hk
  rw [if_neg (by simp [hk]), if_neg (by omega)]
  have hlast := hk' (c.num - 1) (by omega)
  have hx : 0 ≤ c.coords.getD (c.num - 1) 0 := by
    have hl : c.num - 1 < c.coords.length := by rw [hc.len]; omega
    rw [List.getD_eq_getElem?_getD, List.getElem?_eq_getElem hl, Option.getD_some]
    exact (hc.coord _ (List.getElem_mem hl)).1
  have hs : t.shape.getD (c.num - 1) 0 < 2 ^ 31 := by
    have hl : c.num - 1 < t.dims.length := by omega
    unfold Tensor.shape
    rw [List.getD_eq_getElem?_getD, List.getElem?_map, List.getElem?_eq_getElem hl, Option.map_some, Option.getD_some]
    have := (checkTensorPrivate_ok hv.accepted).2.2.1 t.dims[c.num - 1] (List.getElem_mem hl)
    have := this.2.2
    unfold int32Max at this
    omega
  have hm : (c.coords.getD (c.num - 1) 0 + c.first) % 2 ^ 32 = c.coords.getD (c.num - 1) 0 + c.first :=
    Int.emod_eq_of_lt (by have := hc.first; omega) (by have := hc.first; omega)
  rw [hm]
  by_cases he : c.coords.getD (c.num - 1) 0 + c.first > t.shape.getD (c.num - 1) 0
  · rw [if_pos he]
    refine ⟨.badFuncCfg, none, by simp, by simp, ?_⟩
    simp only [reduceCtorEq, false_iff]
    intro h; omega
  rw [if_neg he]
  by_cases hco : (isContig t && strideContig (t.dims.length - (c.num - 1)) ostr) = true
  · rw [if_neg (by simp [hco])]
    refine ⟨.ok, _, rfl, by simp, ?_⟩
    simp only [true_iff]
    simp only [Bool.and_eq_true, strideContig, Bool.or_eq_true, beq_iff_eq] at hco
    refine ⟨by omega, hk', by omega, hco.1, ?_⟩
    rcases hco.2 with h | h
    · exact h.2
    · omega
  · rw [if_pos (by simp only [Bool.not_eq_true] at hco; simp only [hco, Bool.not_false])]
    refine ⟨.incompatibleTensors, none, by simp, by simp, ?_⟩
    simp only [reduceCtorEq, false_iff]
    rintro ⟨a, -, -, d, e⟩
    apply hco
    simp only [Bool.and_eq_true, strideContig, Bool.or_eq_true, beq_iff_eq]
    exact ⟨d, Or.inl ⟨by omega, e⟩⟩

theorem inShape_of_getD : ∀ (ns cs : List Int), cs.length = ns.length → (∀ x ∈ cs, 0 ≤ x) →
    (∀ i, i < ns.length → cs.getD i 0 < ns.getD i 0) → InShape ns cs
  | [], [], _, _, _ => trivial
  | [], _ :: _, h, _, _ => by simp at h
  | _ :: _, [], h, _, _ => by simp at h
  | n :: ns, c :: cs, h, hp, hl => by
    refine ⟨⟨hp c (by simp), by simpa using hl 0 (by simp)⟩, inShape_of_getD ns cs (by simpa using h) (fun x hx => hp x (by simp [hx])) ?_⟩
    intro i hi
    simpa using hl (i + 1) (by simpa using hi)

theorem inShape_bump : ∀ (ns cs : List Int) (j : Int), InShape ns cs → 0 ≤ j →
    cs.getD (cs.length - 1) 0 + j < ns.getD (cs.length - 1) 0 → InShape ns (bump cs j)
  | [], [], _, _, _, _ => trivial
  | [], _ :: _, _, h, _, _ => h.elim
  | _ :: _, [], _, h, _, _ => h.elim
  | [n], [a], j, h, h0, hl => by
    simp only [List.length_singleton, Nat.sub_self, List.getD_cons_zero] at hl
    exact ⟨⟨by have := h.1.1; omega, hl⟩, trivial⟩
  | [_], _ :: _ :: _, _, h, _, _ => h.2.elim
  | _ :: _ :: _, [_], _, h, _, _ => h.2.elim
  | n :: m :: ns, a :: b :: l, j, h, h0, hl => by
    refine ⟨h.1, inShape_bump (m :: ns) (b :: l) j h.2 h0 ?_⟩
    simpa using hl

/-- C85: what a successful call points to.  For a tensor of integers the library accepts, the result has one dimension of the
wanted size, element `j` of the result is the element of the input whose last coordinate is the given one plus `j`
(the other coordinates as given), it is inside of the input, and the capacity is the size in bytes.  Partial: the call
succeeds only if a coordinate is given for every dimension (`c85_rank_violated`), it misplaces the data of
floating-point tensors (`c85_float_violated`), and accepts an empty result (`c85_empty_violated`). -/
theorem c85_points_partial (k : ElKind) (hk : k ≠ .fp32) (t : Tensor) (b : Buf) (c : PointCfg) (ostr : List Int) (o : Option PointOut)
    (hv : t.Valid b) (hc : c.Typed) (ho : ostr.length = 4) (h : pointSub k t c ostr = some (.ok, o)) :
    ∃ out : Tensor, o = some ⟨out.dims, some out.base, out.cap, out.es⟩ ∧ out.shape = [c.first] ∧ out.es = t.es ∧
      out.cap = c.first * t.es ∧
      ∀ j, 0 ≤ j → j < c.first → InShape t.shape (bump c.start j) ∧ out.addr [j] = t.addr (bump c.start j) := by
  have hr : t.dims.length ≤ 4 := hv.rank
  have h1 : 1 ≤ c.num := by
    by_contra hn
    have e : c.num = 0 := by omega
    unfold pointSub chkPoint at h
    simp [hv.accepted, e, coordsOk] at h
  obtain ⟨st, o', e, -, hiff⟩ := c85_status k t b c ostr hv hc h1
  rw [e] at h
  simp only [Option.some.injEq, Prod.mk.injEq] at h
  obtain ⟨rfl, rfl⟩ := h
  obtain ⟨hn, hlt, hend, hco, hst⟩ := hiff.1 rfl
  have hpos : ∀ n ∈ t.shape, 1 ≤ n := by
    intro n hn
    obtain ⟨d, hd, rfl⟩ := List.mem_map.1 hn
    exact hv.shape_pos d hd
  have hlen : t.shape.length = t.dims.length := by simp [Tensor.shape]
  have hsl : c.start.length = t.shape.length := by
    unfold PointCfg.start
    rw [List.length_take, hc.len]; omega
  have hget : ∀ i, i < c.num → c.start.getD i 0 = c.coords.getD i 0 := by
    intro i hi
    unfold PointCfg.start
    simp only [List.getD_eq_getElem?_getD, List.getElem?_take, if_pos hi]
  have hin : InShape t.shape c.start := by
    apply inShape_of_getD _ _ hsl
    · intro x hx
      exact (hc.coord x (List.mem_of_mem_take hx)).1
    · intro i hi
      rw [hget i (by omega)]
      exact hlt i (by omega)
  have hstr : t.strides = cstr t.shape := (contigScan_cstr t.dims hco).1
  obtain ⟨c1, c2, c3⟩ := countElemNum_eq hv
  have hds : dimSizes t.shape = (cstr t.shape, prod t.shape) := dimSizes_eq _ hpos (by omega)
  have hoff := c08_accepted_in_bounds_partial t hv.typed hv.small hv.accepted _ hin
  have hes : t.es = 1 ∨ t.es = 2 ∨ t.es = 4 := hv.typed.2.2.2
  have hcap : t.cap < 2 ^ 32 := hv.typed.2.2.1
  have hso : startOffset c.coords (dimSizes t.shape).1 c.num = offset t.strides c.start := by
    rw [hds]
    simp only
    rw [startOffset_mod _ _ _ (by rw [hc.len]; omega) (by rw [cstr_length]; omega), ← hstr]
    apply Int.emod_eq_of_lt hoff.1
    rcases hes with h | h | h <;> rw [h] at hoff <;> omega
  have hdrop : t.shape.drop c.num = [] := List.drop_eq_nil_of_le (by omega)
  obtain ⟨s0, ostr', rfl⟩ : ∃ s0 l, ostr = s0 :: l := by
    cases ostr with
    | nil => simp at ho
    | cons a l => exact ⟨a, l, rfl⟩
  simp only [List.getD_cons_zero] at hst
  subst hst
  have hf := hc.first
  refine ⟨⟨[⟨c.first, 1⟩], t.base + offset t.strides c.start, c.first * t.es, t.es⟩, ?_, rfl, rfl, rfl, ?_⟩
  · unfold pointSub at e
    have hck : chkPoint t c (1 :: ostr') = some .ok := by
      simp only [Option.bind_eq_bind, Option.bind_eq_some_iff] at e
      obtain ⟨s, hs, e⟩ := e
      split at e
      · simp only [Option.pure_def, Option.some.injEq, Prod.mk.injEq] at e
        rename_i hne
        exact absurd e.1 hne
      · rename_i hne
        rw [hs, not_not.1 hne]
    simp only [hck, Option.bind_eq_bind, Option.bind_some, ne_eq, not_true_eq_false, if_false, Option.pure_def, hso, hdrop, if_neg hk,
      Option.some.injEq, Prod.mk.injEq, true_and] at e
    rw [← e]
    simp only [List.zipWith_cons_cons, List.zipWith_nil_left, List.foldl_cons, List.foldl_nil, Int.one_mul]
    have m1 : c.first % 2 ^ 32 = c.first := Int.emod_eq_of_lt (by omega) (by omega)
    have m2 : c.first * t.es % 2 ^ 32 = c.first * t.es := by
      apply Int.emod_eq_of_lt <;> rcases hes with h | h | h <;> rw [h] <;> omega
    rw [m1, m2]
  · intro j j0 j1
    refine ⟨inShape_bump _ _ j hin j0 ?_, ?_⟩
    · rw [hsl, hlen, ← hn, hget _ (by omega)]
      omega
    · unfold Tensor.addr
      simp only [Tensor.strides, List.map_cons, List.map_nil, offset]
      rw [show t.dims.map (fun x => x.stride) = t.strides from rfl, hstr, offset_bump _ _ _ hsl (by intro h; rw [h] at hlen; simp at hlen; omega)]
      ring

/-- C85 fails for results with more than one dimension: every call with fewer coordinates than dimensions is refused. -/
theorem c85_rank_violated (k : ElKind) (t : Tensor) (b : Buf) (c : PointCfg) (ostr : List Int) (hv : t.Valid b) (hc : c.Typed) (h1 : 1 ≤ c.num)
    (h : c.num < t.dims.length) : ∃ st, st ≠ .ok ∧ pointSub k t c ostr = some (st, none) := by
  obtain ⟨st, o, e, h2, h3⟩ := c85_status k t b c ostr hv hc h1
  have hne : st ≠ .ok := fun h' => by have := (h3.1 h').1; omega
  exact ⟨st, hne, by rw [e, h2 hne]⟩

/-- C85 fails for floating-point tensors: the call reports success, the data pointer is no address of the tensor. -/
theorem c85_float_violated :
    pointSub .fp32 { dims := [⟨2, 3⟩, ⟨3, 1⟩], base := 0, cap := 24, es := 4 } ⟨[1, 1, 0, 0], 2, 2⟩ [1, 0, 0, 0] =
      some (.ok, some ⟨[⟨2, 1⟩], none, 8, 4⟩) := by decide

/-- C85 fails for the size 0: the call reports success, the result is a tensor the library refuses. -/
theorem c85_empty_violated :
    let out : Tensor := { dims := [⟨0, 1⟩], base := 4, cap := 0, es := 1 }
    pointSub .sa8 { dims := [⟨2, 3⟩, ⟨3, 1⟩], base := 0, cap := 6, es := 1 } ⟨[1, 1, 0, 0], 2, 0⟩ [1, 0, 0, 0] =
      some (.ok, some ⟨out.dims, some out.base, out.cap, out.es⟩) ∧ checkTensorPrivate out = some .badTensor := by decide

def exPsT : Tensor := { dims := [⟨2, 12⟩, ⟨4, 3⟩, ⟨3, 1⟩], base := 5, cap := 48, es := 2 }
def exPsC : PointCfg := ⟨[1, 2, 1, 7], 3, 2⟩

example : exPsT.Valid { size := 40, get := fun _ => 0 } ∧ exPsC.Typed ∧
    pointSub .fx16 exPsT exPsC [1, 9, 9, 9] = some (.ok, some ⟨[⟨2, 1⟩], some 24, 4, 2⟩) ∧
    exPsT.addr (bump exPsC.start 1) = 25 :=
  ⟨⟨by decide, by decide, by decide, by decide⟩, ⟨by decide, by decide, by decide⟩, by decide, by decide⟩

end Mli
