import Verif.Model.Fc
import Verif.Spec.Fc
import Verif.Lemmas.Contig
import Verif.Props.ConvMore

/-!
# Properties of the fully connected kernels (C39)
-/

namespace Mli

open Spec

/-! ## Contiguous inputs -/

/-- `X` lists the elements of tensor `t` in row-major order. -/
def Tensor.Flat (t : Tensor) (b : Buf) (X : Int → Int) : Prop :=
  ∀ is, InShape t.shape is → X (flatIndex t.shape is) = b.get (t.addr is)

theorem contigScan_cstr : ∀ ds : List Dim, (contigScan ds).1 = true →
    ds.map (·.stride) = cstr (ds.map (·.shape)) ∧ (contigScan ds).2.1 * (contigScan ds).2.2 = prod (ds.map (·.shape))
  | [], _ => by simp [contigScan, cstr, prod]
  | d :: ds, h => by
    simp only [contigScan, Bool.and_eq_true, beq_iff_eq] at h
    obtain ⟨h1, h2⟩ := h
    obtain ⟨e1, e2⟩ := contigScan_cstr ds h1
    simp only [List.map_cons, cstr, e1, prod, contigScan, h2, e2]
    exact ⟨trivial, trivial⟩

theorem flatIndex_eq : ∀ ns is : List Int, flatIndex ns is = offset (cstr ns) is
  | [], _ => by simp [flatIndex, cstr, offset]
  | _ :: _, [] => by simp [flatIndex, cstr, offset]
  | _ :: ns, i :: is => by simp only [flatIndex, cstr, offset, flatIndex_eq ns is]

/-- The elements of a contiguous tensor in row-major order are consecutive. -/
theorem contig_flat {t : Tensor} (h : isContig t = true) (b : Buf) : t.Flat b fun i => b.get (t.base + i) := by
  intro is _
  simp only [Tensor.addr, flatIndex_eq]
  rw [show t.strides = cstr t.shape from (contigScan_cstr t.dims h).1]

theorem prod_toNat : ∀ {ns : List Int}, (∀ n ∈ ns, 0 ≤ n) → prod ns = ((ns.map Int.toNat).prod : Nat)
  | [], _ => by simp [prod]
  | n :: ns, h => by
    have := h n (by simp)
    rw [prod, prod_toNat fun m hm => h m (by simp [hm])]
    simp only [List.map_cons, List.prod_cons, Nat.cast_mul]
    rw [Int.toNat_of_nonneg this]

theorem foldl_mod (ns : List Int) (a : Int) (m : Int) :
    (ns.foldl (fun acc n => (acc * n) % m) a) % m = (a * prod ns) % m := by
  induction ns generalizing a with
  | nil => simp [prod]
  | cons n ns ih =>
    simp only [List.foldl_cons, prod]
    rw [ih, Int.mul_emod, Int.emod_emod_of_dvd _ (dvd_refl m), ← Int.mul_emod]
    congr 1; ring

theorem foldl_mod_range (ns : List Int) (a m : Int) (hm : 0 < m) (ha : 0 ≤ a ∧ a < m) :
    0 ≤ (ns.foldl (fun acc n => (acc * n) % m) a) ∧ (ns.foldl (fun acc n => (acc * n) % m) a) < m := by
  induction ns generalizing a with
  | nil => exact ha
  | cons n ns ih =>
    simp only [List.foldl_cons]
    exact ih _ ⟨Int.emod_nonneg _ (by omega), Int.emod_lt_of_pos _ hm⟩

/-- The number of elements of an accepted tensor. -/
theorem countElemNum_eq {t : Tensor} {b : Buf} (h : t.Valid b) : countElemNum t = prod t.shape ∧ 1 ≤ prod t.shape ∧ prod t.shape < 2 ^ 31 := by
  have hp : ∀ n ∈ t.shape, 1 ≤ n := by
    intro n hn
    obtain ⟨d, hd, rfl⟩ := List.mem_map.1 hn
    exact h.shape_pos d hd
  have hc := h.count_le
  have e := prod_toNat (ns := t.shape) fun n hn => by have := hp n hn; omega
  rw [← e] at hc
  have p1 : 1 ≤ prod t.shape := prod_pos hp
  refine ⟨?_, p1, hc⟩
  have f1 := foldl_mod t.shape 1 (2 ^ 32)
  have f2 := foldl_mod_range t.shape 1 (2 ^ 32) (by decide) (by decide)
  unfold countElemNum countElemNumPart
  simp only [List.drop_zero]
  rw [show t.dims.map (fun x => x.shape) = t.shape from rfl]
  rw [Int.emod_eq_of_lt f2.1 f2.2, Int.one_mul, Int.emod_eq_of_lt (by omega) (by omega)] at f1
  exact f1

/-! ## What is accepted -/

theorem chkFc_ok {apart : Bool} {tin tw tb tout : Tensor} (h : chkFc apart tin tw tb tout = some .ok) :
    ∃ wi wo bn on, tw.dims = [wi, wo] ∧ tb.dims = [bn] ∧ tout.dims = [on] ∧ countElemNum tin = wi.shape ∧ bn.shape = wo.shape ∧
      on.shape = wo.shape ∧ isContig tin = true ∧ wo.stride = 1 ∧ bn.stride = 1 ∧ on.stride = 1 ∧ apart = true := by
  unfold chkFc at h
  rw [Option.bind_eq_some_iff] at h
  obtain ⟨s1, -, h⟩ := h
  split at h
  · rename_i h'; exact absurd (Option.some.inj h) h'
  replace h := Option.some.inj h
  unfold chkFcGeo at h
  split at h
  · rename_i wi wo bn on e1 e2 e3
    split at h
    · cases h
    rename_i hsh
    split at h
    · cases h
    rename_i hin
    split at h
    · cases h
    rename_i hap
    have hsh := not_not.1 hsh
    simp only [innerOne, isContig, contigScan, Tensor.strides, e1, e2, List.map_cons, List.map_nil, Bool.not_eq_true, Bool.not_eq_false',
      Bool.and_eq_true, List.getLast?_cons_cons, List.getLast?_singleton, beq_iff_eq, Int.mul_one, true_and] at hin
    exact ⟨wi, wo, bn, on, e1, e2, e3, hsh.1, hsh.2.1, hsh.2.2, hin.1.1.1, hin.1.1.2, hin.1.2, hin.2, by simpa using hap⟩
  · cases h

/-- The check of the fully connected kernels: accepted tensors with matching sizes, contiguous input, unit strides and an
output apart from the input. -/
theorem c39_check {apart : Bool} {tin tw tb tout : Tensor} {src wts bias dst : Buf}
    (vi : tin.Valid src) (vw : tw.Valid wts) (vb : tb.Valid bias) (vo : tout.Valid dst)
    {wi wo bn on : Dim} (e1 : tw.dims = [wi, wo]) (e2 : tb.dims = [bn]) (e3 : tout.dims = [on]) :
    chkFc apart tin tw tb tout = some .ok ↔
      (prod tin.shape = wi.shape ∧ bn.shape = wo.shape ∧ on.shape = wo.shape) ∧
      (isContig tin = true ∧ wo.stride = 1 ∧ bn.stride = 1 ∧ on.stride = 1) ∧ apart = true := by
  have hc := (countElemNum_eq vi).1
  constructor
  · intro h
    obtain ⟨wi', wo', bn', on', e1', e2', e3', a, b, c, d, e, f, g, i⟩ := chkFc_ok h
    rw [e1] at e1'; rw [e2] at e2'; rw [e3] at e3'
    simp only [List.cons.injEq, and_true] at e1' e2' e3'
    obtain ⟨rfl, rfl⟩ := e1'
    subst e2' e3'
    exact ⟨⟨by rw [← hc, a], b, c⟩, ⟨d, e, f, g⟩, i⟩
  · rintro ⟨⟨a, b, c⟩, ⟨d, e, f, g⟩, i⟩
    have hct : chkTensors [tin, tw, tb, tout] = some .ok := by
      simp [chkTensors, vi.accepted, vw.accepted, vb.accepted, vo.accepted]
    unfold chkFc
    rw [hct, Option.bind_some, if_neg (by simp)]
    unfold chkFcGeo
    rw [e1, e2, e3]
    simp only []
    rw [if_neg (not_not.2 ⟨by rw [hc, a], b, c⟩), if_neg (by
      simp [innerOne, isContig, contigScan, Tensor.strides, e1, e2, e, f, g]
      simpa [isContig] using d), if_neg (by simp [i])]

/-- Arguments of a fully connected kernel: accepted tensors over the buffers that hold their elements,
of `wi`, `ww` and `wb` bits. -/
structure FcArgs (tin tw tb tout : Tensor) (src wts bias dst : Buf) (wi ww wb : Nat) : Prop where
  vi : tin.Valid src
  vw : tw.Valid wts
  vb : tb.Valid bias
  vo : tout.Valid dst
  hi : tin.Holds src wi
  hw : tw.Holds wts ww
  hb : tb.Holds bias wb

/-! ## Loops -/

/-- A loop that stores each element of a one-dimensional tensor. -/
theorem loop1_writes (t : Tensor) (mem : Buf) (hv : t.Valid mem) {n : Dim} (e : t.dims = [n]) (val : List Int → Int)
    (f : Nat → Buf → Option Buf)
    (hf : ∀ k : Nat, (k : Int) < n.shape → ∀ d' : Buf, d'.size = mem.size → f k d' = d'.wr (t.addr [(k : Int)]) (val [(k : Int)])) :
    ∃ mem', forRange n.shape.toNat f mem = some mem' ∧ t.Writes val mem mem' := by
  have so : t.shape = [n.shape] := by simp [Tensor.shape, e]
  have inS : ∀ k : Nat, (k : Int) < n.shape → InShape t.shape [(k : Int)] := fun k hk => by rw [so]; exact ⟨⟨by omega, hk⟩, trivial⟩
  have hc : Coherent (fun k : Nat => t.addr [(k : Int)]) (fun k : Nat => val [(k : Int)]) (fun k : Nat => (k : Int) < n.shape) := by
    intro p q hp hq e
    have := c09_accepted_no_alias t hv.accepted _ _ (inS p hp) (inS q hq) (by
      have : t.addr _ = t.addr _ := e
      unfold Tensor.addr at this; omega)
    show val _ = val _
    rw [this]
  obtain ⟨d', h1, h2⟩ := forRange_emits hc n.shape.toNat f (fun k p => p = k) mem (by rintro i p hi rfl; omega) (by
    intro k d1 hk hd1
    rw [hf k (by omega) d1 hd1]
    have := hv.inBounds (inS k (by omega))
    exact Emits.one (fun k : Nat => t.addr [(k : Int)]) (fun k : Nat => val [(k : Int)]) k d1 (by
      show 0 ≤ t.addr _ ∧ t.addr _ < _
      unfold Tensor.addr; omega))
  refine ⟨d', h1, h2.size, ?_, ?_⟩
  · intro is his
    rw [so] at his
    match is, his with
    | [k], ⟨⟨k0, k1⟩, _⟩ =>
      obtain ⟨k, rfl⟩ := Int.eq_ofNat_of_zero_le k0
      exact h2.hit k ⟨k, by omega, rfl⟩
  · intro a ha
    apply h2.frame
    rintro p ⟨k, hk, e⟩
    exact ha _ (inS p (by omega))

theorem dotprod1D_eq (aw : Nat) (src wts : Buf) (p q a n is ks : Int) :
    dotprod1D aw src wts p q a n is ks = forRange n.toNat (fun (k : Nat) a => macStep aw src wts (p + is * k) (q + ks * k) a) a := by
  unfold dotprod1D
  rw [dotRow_eq, Option.map_map]
  exact Option.map_id'

theorem dotprod1D_adds {aw : Nat} {src wts : Buf} {p q n is ks : Int} (X Y : Nat → Int) (B : Int)
    (hx : ∀ k : Nat, k < n.toNat → src.rd (p + is * k) = some (X k)) (hy : ∀ k : Nat, k < n.toNat → wts.rd (q + ks * k) = some (Y k))
    (hB : ∀ k : Nat, k < n.toNat → |X k * Y k| ≤ B) :
    Adds aw (fun a => dotprod1D aw src wts p q a n is ks) (∑ k ∈ Finset.range n.toNat, X k * Y k) (n.toNat * B) := by
  simp only [dotprod1D_eq]
  exact Adds.forRange _ (fun (k : Nat) a => macStep aw src wts (p + is * k) (q + ks * k) a) _ _
    fun k hk => macStep_adds (hx k hk) (hy k hk) (hB k hk)

/-- The weights additive of one output of a fully connected layer, on top of the dot product: all intermediate values
are sums of `n` terms that are products of a weight with an input, corrected by the zero point or not. -/
theorem wAdd_line {q : ConvQ} {wts : Buf} {p n ws : Int} (hz : wrap 16 (-q.zx) = -q.zx) (X Y : Nat → Int) (B : Int)
    (hy : ∀ k : Nat, k < n.toNat → wts.rd (p + ws * k) = some (Y k))
    (hb1 : ∀ k : Nat, k < n.toNat → |X k * Y k| ≤ B) (hb2 : ∀ k : Nat, k < n.toNat → |(X k - q.zx) * Y k| ≤ B)
    (hfit : n.toNat * B ≤ hi q.aw) :
    wAdd3D q wts p (∑ k ∈ Finset.range n.toNat, X k * Y k) n 1 1 ws 1 1 = some (∑ k ∈ Finset.range n.toNat, (X k - q.zx) * Y k) := by
  unfold wAdd3D
  by_cases h : q.zx = 0
  · simp only [h, ne_eq, not_true_eq_false, if_false, Int.sub_zero]
  · simp only [ne_eq, h, not_false_eq_true, if_true, hz, winAcc]
    rw [show (1 : Int).toNat = 1 from rfl]
    simp only [Mli.forRange, Option.bind_some, Nat.cast_zero, Int.mul_zero, Int.add_zero, Int.zero_add]
    obtain ⟨a, h1, h2⟩ := forRange_inv (n := n.toNat)
      (f := fun (c : Nat) acc => (wts.rd (p + ws * c)).bind fun x => macFx q.aw acc (-q.zx) x)
      (s := ∑ k ∈ Finset.range n.toNat, X k * Y k)
      (fun k a => a = ∑ i ∈ Finset.range n.toNat, (if i < k then (X i - q.zx) * Y i else X i * Y i)) (by simp) (by
        intro k a hk ha
        rw [hy k hk, Option.bind_some]
        have e : a + -q.zx * Y k = ∑ i ∈ Finset.range n.toNat, (if i < k + 1 then (X i - q.zx) * Y i else X i * Y i) := by
          have e1 : -q.zx * Y k = ∑ i ∈ Finset.range n.toNat, (if i = k then -q.zx * Y i else 0) := by
            rw [Finset.sum_ite_eq', if_pos (Finset.mem_range.2 hk)]
          rw [ha, e1, ← Finset.sum_add_distrib]
          apply Finset.sum_congr rfl; intro i _
          rcases lt_trichotomy i k with hlt | rfl | hgt
          · rw [if_pos hlt, if_neg (by omega), if_pos (by omega)]; ring
          · rw [if_neg (by omega), if_pos rfl, if_pos (by omega)]; ring
          · rw [if_neg (by omega), if_neg (by omega), if_neg (by omega)]; ring
        refine ⟨a + -q.zx * Y k, ?_, e⟩
        have hab : |a + -q.zx * Y k| ≤ n.toNat * B := by
          rw [e]
          refine (Finset.abs_sum_le_sum_abs _ _).trans ?_
          have := Finset.sum_le_card_nsmul (Finset.range n.toNat)
            (fun i => |if i < k + 1 then (X i - q.zx) * Y i else X i * Y i|) B (by
              intro i hi
              have hi := Finset.mem_range.1 hi
              split
              · exact hb2 i hi
              · exact hb1 i hi)
          simpa using this
        have hab := abs_le.1 (hab.trans hfit)
        have := lo_eq q.aw
        have := hi_eq q.aw
        show ckd _ _ = _
        unfold ckd
        rw [if_pos ⟨by omega, hab.2⟩])
    rw [h1, h2]
    congr 1
    apply Finset.sum_congr rfl; intro i hi
    rw [if_pos (Finset.mem_range.1 hi)]

/-- What `innerProduct` computes for accepted tensors. -/
theorem innerProduct_all {apart : Bool} {tin tw tb tout : Tensor} {src wts bias dst : Buf} {wi ww wb : Nat}
    (A : FcArgs tin tw tb tout src wts bias dst wi ww wb) (hchk : chkFc apart tin tw tb tout = some .ok)
    {n m : Int} (sw : tw.shape = [n, m])
    (q : ConvQ) (post : Int → Int → Int → Int) (hzw : q.zw = 0) (hzx : wrap 16 (-q.zx) = -q.zx) (B : Int)
    (hB1 : ∀ is js, InShape tin.shape is → InShape tw.shape js → |src.get (tin.addr is) * wts.get (tw.addr js)| ≤ B)
    (hB2 : ∀ is js, InShape tin.shape is → InShape tw.shape js → |(src.get (tin.addr is) - q.zx) * wts.get (tw.addr js)| ≤ B)
    (hfit : n * B ≤ hi q.aw) :
    ∃ dst' val X, tin.Flat src X ∧
      innerProduct q post src wts bias tin.base tw.base tb.base tout.base (countElemNum tin) (tw.shape.getD 1 0) (tw.strides.getD 0 0) dst
        = some dst' ∧ tout.Writes val dst dst' ∧
      ∀ o, InShape tout.shape [o] → InShape tb.shape [o] ∧ (0 ≤ o ∧ o < m) ∧
        |dotSum n (fun i => X i - q.zx) (fun i => wts.get (tw.addr [i, o]))| ≤ n * B ∧
        val [o] = post o (bias.get (tb.addr [o])) (dotSum n (fun i => X i - q.zx) (fun i => wts.get (tw.addr [i, o]))) := by
  obtain ⟨wi', wo, bn, on, e1, e2, e3, hn, hbn, hon, hct, s1, s2, s3, -⟩ := chkFc_ok hchk
  simp only [Tensor.shape, e1, List.map_cons, List.map_nil, List.cons.injEq, and_true] at sw
  obtain ⟨rfl, rfl⟩ := sw
  obtain ⟨c1, c2, c3⟩ := countElemNum_eq A.vi
  have hstr : tin.strides = cstr tin.shape := (contigScan_cstr tin.dims hct).1
  have hpos : ∀ k ∈ tin.shape, 1 ≤ k := by
    intro k hk
    obtain ⟨d, hd, rfl⟩ := List.mem_map.1 hk
    exact A.vi.shape_pos d hd
  -- each element of the input
  have hX : ∀ k : Nat, (k : Int) < wi'.shape → ∃ is, InShape tin.shape is ∧ tin.addr is = tin.base + k := by
    intro k hk
    obtain ⟨is, h1, h2⟩ := contig_offset_onto tin.shape hpos k (by omega) (by omega)
    exact ⟨is, h1, by unfold Tensor.addr; rw [hstr, h2]⟩
  have hW : ∀ k o : Nat, (k : Int) < wi'.shape → (o : Int) < wo.shape → InShape tw.shape [(k : Int), (o : Int)] ∧
      tw.addr [(k : Int), (o : Int)] = tw.base + o + wi'.stride * k := by
    intro k o hk ho
    refine ⟨?_, ?_⟩
    · simp only [Tensor.shape, e1, List.map_cons, List.map_nil, InShape]
      exact ⟨⟨by omega, hk⟩, ⟨by omega, ho⟩, trivial⟩
    · simp only [Tensor.addr, Tensor.strides, e1, List.map_cons, List.map_nil, offset, s1]
      ring
  have hn0 : (wi'.shape.toNat : Int) = wi'.shape := by omega
  have hrx : ∀ k : Nat, k < wi'.shape.toNat → src.rd (tin.base + 1 * k) = some (src.get (tin.base + k)) := by
    intro k hk
    obtain ⟨is, h1, h2⟩ := hX k (by omega)
    have := A.vi.rd h1 rfl
    rw [h2] at this
    rw [Int.one_mul, this]
  have hrw : ∀ o : Nat, (o : Int) < wo.shape → ∀ k : Nat, k < wi'.shape.toNat →
      wts.rd (tw.base + o + wi'.stride * k) = some (wts.get (tw.addr [(k : Int), (o : Int)])) := by
    intro o ho k hk
    obtain ⟨h1, h2⟩ := hW k o (by omega) ho
    rw [← h2]
    exact A.vw.rd h1 rfl
  have hsum : ∀ o : Nat, (o : Int) < wo.shape →
      |dotSum wi'.shape (fun i => src.get (tin.base + i) - q.zx) (fun i => wts.get (tw.addr [i, (o : Int)]))| ≤ wi'.shape * B := by
    intro o ho
    unfold dotSum
    refine (Finset.abs_sum_le_sum_abs _ _).trans ?_
    have := Finset.sum_le_card_nsmul (Finset.range wi'.shape.toNat)
      (fun i => |(src.get (tin.base + i) - q.zx) * wts.get (tw.addr [(i : Int), (o : Int)])|) B (by
        intro i hi
        have hi := Finset.mem_range.1 hi
        obtain ⟨is, h1, h2⟩ := hX i (by omega)
        obtain ⟨h3, -⟩ := hW i o (by omega) ho
        have a := hB2 is _ h1 h3
        rw [h2] at a
        exact a)
    simpa [hn0] using this
  have run : ∀ o : Nat, (o : Int) < wo.shape →
      (dotprod1D q.aw src wts tin.base (tw.base + o) 0 wi'.shape 1 wi'.stride).bind (fun acc =>
        wAdd3D q wts (tw.base + o) acc wi'.shape 1 1 wi'.stride 1 1) =
      some (dotSum wi'.shape (fun i => src.get (tin.base + i) - q.zx) (fun i => wts.get (tw.addr [i, (o : Int)]))) := by
    intro o ho
    have hb1 : ∀ k : Nat, k < wi'.shape.toNat → |src.get (tin.base + k) * wts.get (tw.addr [(k : Int), (o : Int)])| ≤ B := by
      intro k hk
      obtain ⟨is, h1, h2⟩ := hX k (by omega)
      have := hB1 is _ h1 (hW k o (by omega) ho).1
      rw [h2] at this
      exact this
    have hb2 : ∀ k : Nat, k < wi'.shape.toNat → |(src.get (tin.base + k) - q.zx) * wts.get (tw.addr [(k : Int), (o : Int)])| ≤ B := by
      intro k hk
      obtain ⟨is, h1, h2⟩ := hX k (by omega)
      have := hB2 is _ h1 (hW k o (by omega) ho).1
      rw [h2] at this
      exact this
    have a1 := dotprod1D_adds (aw := q.aw) (src := src) (wts := wts) (p := tin.base) (q := tw.base + o) (n := wi'.shape) (is := 1)
      (ks := wi'.stride) (fun k => src.get (tin.base + k)) (fun k => wts.get (tw.addr [(k : Int), (o : Int)])) B hrx (hrw o ho) hb1
    have h0 := a1.2 0 (by have := lo_eq q.aw; have := hi_eq q.aw; rw [hn0]; omega) (by rw [hn0]; omega)
    simp only [Int.zero_add] at h0
    rw [h0, Option.bind_some, wAdd_line hzx (fun k => src.get (tin.base + k)) _ B (hrw o ho) hb1 hb2 (by rw [hn0]; exact hfit)]
    rfl
  obtain ⟨dst', h1, h2⟩ := loop1_writes tout dst A.vo e3
    (fun is => match is with
      | [o] => post o (bias.get (tb.addr [o])) (dotSum wi'.shape (fun i => src.get (tin.base + i) - q.zx) (fun i => wts.get (tw.addr [i, o])))
      | _ => 0)
    (fun (o : Nat) d =>
      (dotprod1D q.aw src wts tin.base (tw.base + o) 0 wi'.shape 1 wi'.stride).bind fun acc =>
      (wAdd3D q wts (tw.base + o) acc wi'.shape 1 1 wi'.stride 1 1).bind fun acc =>
      (bias.rd (tb.base + o)).bind fun b =>
      d.wr (tout.base + o) (post o b (addFx q.aw acc 0))) (by
      intro o ho d' _
      have ho' : (o : Int) < wo.shape := by omega
      have r := run o ho'
      have hbr : bias.rd (tb.base + o) = some (bias.get (tb.addr [(o : Int)])) := by
        have hs : InShape tb.shape [(o : Int)] := by
          simp only [Tensor.shape, e2, List.map_cons, List.map_nil, InShape]
          exact ⟨by omega, trivial⟩
        rw [← A.vb.rd hs rfl]
        congr 1
        simp only [Tensor.addr, Tensor.strides, e2, List.map_cons, List.map_nil, offset, s2]
        ring
      have hS := abs_le.1 ((hsum o ho').trans hfit)
      have hl := lo_eq q.aw
      have hh := hi_eq q.aw
      have hrS : InRange q.aw (dotSum wi'.shape (fun i => src.get (tin.base + i) - q.zx) (fun i => wts.get (tw.addr [i, (o : Int)]))) :=
        ⟨by omega, hS.2⟩
      have ha : addFx q.aw (dotSum wi'.shape (fun i => src.get (tin.base + i) - q.zx) (fun i => wts.get (tw.addr [i, (o : Int)]))) 0 =
          dotSum wi'.shape (fun i => src.get (tin.base + i) - q.zx) (fun i => wts.get (tw.addr [i, (o : Int)])) := by
        rw [addFx_eq hrS ⟨(lo_neg q.aw).le, hi_nonneg q.aw⟩, Int.add_zero, clamp_of_inRange hrS]
      have ea : tout.addr [(o : Int)] = tout.base + o := by
        simp only [Tensor.addr, Tensor.strides, e3, List.map_cons, List.map_nil, offset, s3]
        ring
      rw [← Option.bind_assoc, r, Option.bind_some, hbr, Option.bind_some, ha, ea])
  refine ⟨dst', _, fun i => src.get (tin.base + i), contig_flat hct src, ?_, h2, ?_⟩
  · unfold innerProduct
    simp only [inAdd2D, hzw, ne_eq, not_true_eq_false, if_false, Option.bind_some, zpAdd, false_or]
    have hz : (if ¬ q.zx = 0 then forRange (countElemNum tin).toNat (fun _ a => macFx q.aw a q.zx 0) 0 else some 0) = some 0 := by
      have := (zpAdd_adds (q := q) (countElemNum tin)).2 0 (by rw [hzw]; simpa using (lo_neg q.aw).le) (by rw [hzw]; simpa using hi_nonneg q.aw)
      simpa [zpAdd, hzw] using this
    rw [hz, Option.bind_some]
    simp only [Tensor.shape, Tensor.strides, e1, List.map_cons, List.map_nil, List.getD_cons_succ, List.getD_cons_zero, hn, ← hon]
    exact h1
  · intro o ho
    simp only [Tensor.shape, e3, List.map_cons, List.map_nil, InShape] at ho
    obtain ⟨⟨o0, o1⟩, -⟩ := ho
    obtain ⟨o, rfl⟩ := Int.eq_ofNat_of_zero_le o0
    refine ⟨?_, ⟨by omega, by omega⟩, hsum o (by omega), rfl⟩
    simp only [Tensor.shape, e2, List.map_cons, List.map_nil, InShape]
    exact ⟨by omega, trivial⟩

/-! ## C39 -/

/-- Conversion to the output format of `w` bits and built-in ReLU. -/
theorem castLimFxTo_spec (w : Nat) (hw : w = 8 ∨ w = 16) (m : Rnd) (aw : Nat) (ha : 16 ≤ aw) (f : FxQ) {acc : Int} (hr : InRange aw acc)
    (h1 : f.relu = .one → f.fo < 30)
    (hup : m = .up → f.fi + f.fw - f.fo ≤ (aw : Int) - w ∨ (aw : Int) ≤ f.fi + f.fw - f.fo ∨
      acc + 2 ^ ((f.fi + f.fw - f.fo).toNat - 1) ≤ hi aw) :
    ∃ r, Scaled m acc (f.fi + f.fw - f.fo) r ∧
      NearestIn (f.relu.Admissible w 0 1 f.fo) (clamp w r) (castLimFxTo w m aw f acc) := by
  obtain ⟨mn, mx, hlim, -, -, b1, b2, hiff⟩ := reluLimits_iff w hw f.relu 0 1 f.fo (by rcases hw with rfl | rfl <;> decide) (by decide) (by decide)
    (fun _ => Or.inl rfl) h1
  obtain ⟨r, hr1, hr2⟩ : ∃ r, Scaled m acc (f.fi + f.fw - f.fo) r ∧ castFx m aw w acc (f.fi + f.fw - f.fo) = clamp w r := by
    cases m
    · exact c05_cast_up_partial aw w (by omega) (by omega) acc hr _ (hup rfl)
    · exact c05_cast_convergent aw w (by omega) (by omega) acc hr _
  refine ⟨r, hr1, ?_⟩
  unfold castLimFxTo
  rw [hlim, hr2, applyLimits_eq (by omega)]
  exact nearestIn_interval (by omega) hiff

theorem chkFcFx_ok {apart : Bool} {f : FxQ} {tin tw tb tout : Tensor} (h : chkFcFx apart f tin tw tb tout = some .ok) :
    f.fb ≤ f.fi + f.fw ∧ f.fo ≤ f.fi + f.fw ∧ chkFc apart tin tw tb tout = some .ok := by
  unfold chkFcFx at h
  split at h
  · cases h
  rename_i h1
  split at h
  · cases h
  rename_i h2
  exact ⟨not_not.1 h1, not_not.1 h2, h⟩

/-- What an accepted fixed-point fully connected layer computes, as long as the accumulator cannot overflow. -/
theorem krnFcFx_exact (m : Rnd) (w aw : Nat) (apart : Bool) (f : FxQ) (src wts bias dst : Buf) (tin tw tb tout : Tensor) (n k : Int)
    (ww wb : Nat) (hw : 1 ≤ w) (hww : 1 ≤ ww) (A : FcArgs tin tw tb tout src wts bias dst w ww wb)
    (hchk : chkFcFx apart f tin tw tb tout = some .ok) (sw : tw.shape = [n, k])
    (hfit : n * (2 ^ (w - 1) * 2 ^ (ww - 1)) ≤ hi aw) :
    ∃ dst' val X, tin.Flat src X ∧ krnFcFx m w aw apart f src wts bias tin tw tb tout dst = some (.ok, dst') ∧
      tout.Writes val dst dst' ∧ ∀ o, InShape tout.shape [o] → InShape tb.shape [o] ∧
        |dotSum n X (fun i => wts.get (tw.addr [i, o]))| ≤ n * (2 ^ (w - 1) * 2 ^ (ww - 1)) ∧
        val [o] = castLimFxTo w m aw f (biasFx m aw (f.fi + f.fw - f.fb) (bias.get (tb.addr [o]))
          (dotSum n X (fun i => wts.get (tw.addr [i, o])))) := by
  obtain ⟨f1, f2, hck⟩ := chkFcFx_ok hchk
  obtain ⟨dst', val, X, hX, r1, r2, r3⟩ := innerProduct_all A hck sw { aw := aw }
    (fun _ b acc => castLimFxTo w m aw f (biasFx m aw (f.fi + f.fw - f.fb) b acc)) rfl (show wrap 16 (-0) = -0 by decide)
    (2 ^ (w - 1) * 2 ^ (ww - 1)) (fun is js h1 h2 => abs_mul_le hw hww (A.hi is h1) (A.hw js h2))
    (fun is js h1 h2 => by simpa using abs_mul_le hw hww (A.hi is h1) (A.hw js h2)) hfit
  refine ⟨dst', val, X, hX, ?_, r2, ?_⟩
  · unfold krnFcFx
    simp only [hchk, Option.bind_eq_bind, Option.bind_some, ne_eq, not_true_eq_false, if_false, r1, Option.pure_def]
  · intro o ho
    obtain ⟨a, -, b, c⟩ := r3 o ho
    simp only [Int.sub_zero] at b c
    exact ⟨a, b, c⟩

/-- C39, 16-bit fixed point: for every accepted call, output `o` is the exact sum over the elements of the input (in row-major
order) times the weights of column `o`, plus the bias aligned to the format of the products, scaled to the output format, rounded,
saturated and limited by the built-in ReLU; no accumulation overflows, for any size.  Partial: the bias must not be shifted
left by more than 16 bits (`c39_bias_violated`). -/
theorem c39_fx16_partial (m : Rnd) (apart : Bool) (f : FxQ) (src wts bias dst : Buf) (tin tw tb tout : Tensor) (n k : Int)
    (A : FcArgs tin tw tb tout src wts bias dst 16 16 16) (hchk : chkFcFx apart f tin tw tb tout = some .ok) (sw : tw.shape = [n, k])
    (hb : f.fi + f.fw - f.fb ≤ 16) (h1 : f.relu = .one → f.fo < 30) :
    ∃ dst' val X, tin.Flat src X ∧ krnFcFx m 16 64 apart f src wts bias tin tw tb tout dst = some (.ok, dst') ∧
      tout.Writes val dst dst' ∧ ∀ o, InShape tout.shape [o] →
        ∃ r, Scaled m (dotSum n X (fun i => wts.get (tw.addr [i, o])) +
            bias.get (tb.addr [o]) * 2 ^ (f.fi + f.fw - f.fb).toNat) (f.fi + f.fw - f.fo) r ∧
          NearestIn (f.relu.Admissible 16 0 1 f.fo) (clamp 16 r) (val [o]) := by
  have f1 := (chkFcFx_ok hchk).1
  obtain ⟨wi, wo, bn, on, e1, -, -, hn, -⟩ := chkFc_ok (chkFcFx_ok hchk).2.2
  have hc := countElemNum_eq A.vi
  have hn' : n = wi.shape := by simpa [Tensor.shape, e1] using congrArg (fun l : List Int => l.headD 0) sw.symm
  have hle : n * (2 ^ (16 - 1) * 2 ^ (16 - 1)) ≤ 2 ^ 61 := by omega
  obtain ⟨dst', val, X, hX, r1, r2, r3⟩ := krnFcFx_exact m 16 64 apart f src wts bias dst tin tw tb tout n k 16 16 (by omega) (by omega) A hchk sw
    (hle.trans (by decide))
  refine ⟨dst', val, X, hX, r1, r2, fun o ho => ?_⟩
  obtain ⟨hk, hS, e0⟩ := r3 o ho
  obtain ⟨e, e1, e2⟩ := biasFx64 m (f.fi + f.fw - f.fb) (by omega) hb (A.hb [o] hk) (hS.trans hle)
  rw [e0, e]
  apply castLimFxTo_spec 16 (by omega) m 64 (by omega) f e1 h1
  intro _
  by_cases h64 : 64 ≤ f.fi + f.fw - f.fo
  · exact Or.inr (Or.inl h64)
  · refine Or.inr (Or.inr ?_)
    have : (2 : Int) ^ ((f.fi + f.fw - f.fo).toNat - 1) ≤ 2 ^ 62 := pow_le_pow_right₀ (by decide) (by omega)
    omega

/-- C39, 16-bit input with 8-bit weights and bias, accumulated in 32 bits.  Partial: at most 511 inputs (the 8 guard bits of
`mli_hlp_accu_guard_bits_fx16_fx8` stand for 256; `c39_fx16_fx8_overflow_violated` for 512), and with rounding up the output shift must not be
between 17 and 31 (`c05_cast_up_violated`). -/
theorem c39_fx16_fx8_partial (m : Rnd) (apart : Bool) (f : FxQ) (src wts bias dst : Buf) (tin tw tb tout : Tensor) (n k : Int)
    (A : FcArgs tin tw tb tout src wts bias dst 16 8 8) (hchk : chkFcFx apart f tin tw tb tout = some .ok) (sw : tw.shape = [n, k])
    (hn : n ≤ 511) (h1 : f.relu = .one → f.fo < 30) (hup : m = .up → f.fi + f.fw - f.fo ≤ 16 ∨ 32 ≤ f.fi + f.fw - f.fo) :
    ∃ dst' val X, tin.Flat src X ∧ krnFcFx m 16 32 apart f src wts bias tin tw tb tout dst = some (.ok, dst') ∧
      tout.Writes val dst dst' ∧ ∀ o, InShape tout.shape [o] →
        ∃ r, Scaled m (clamp 32 (dotSum n X (fun i => wts.get (tw.addr [i, o])) +
            clamp 32 (bias.get (tb.addr [o]) * 2 ^ (f.fi + f.fw - f.fb).toNat))) (f.fi + f.fw - f.fo) r ∧
          NearestIn (f.relu.Admissible 16 0 1 f.fo) (clamp 16 r) (val [o]) := by
  have f1 := (chkFcFx_ok hchk).1
  have hle : n * (2 ^ (16 - 1) * 2 ^ (8 - 1)) ≤ 2 ^ 31 - 1 := by omega
  obtain ⟨dst', val, X, hX, r1, r2, r3⟩ := krnFcFx_exact m 16 32 apart f src wts bias dst tin tw tb tout n k 8 8 (by omega) (by omega) A hchk sw
    (hle.trans (by decide))
  refine ⟨dst', val, X, hX, r1, r2, fun o ho => ?_⟩
  obtain ⟨hk, hS, e0⟩ := r3 o ho
  have hS := abs_le.1 (hS.trans hle)
  rw [e0, biasFx32 m (f.fi + f.fw - f.fb) (by omega) (A.hb [o] hk) ⟨by simp only [lo]; omega, by simp only [hi]; omega⟩]
  exact castLimFxTo_spec 16 (by omega) m 32 (by omega) f (clamp_inRange _ _) h1 (fun hm => (hup hm).elim (fun h => Or.inl (by omega)) (fun h => Or.inr (Or.inl (by omega))))

/-- C39, 8-bit fixed point, accumulated in 32 bits.  Partial: at most 131071 inputs, and with rounding up the output shift must not be
between 25 and 31. -/
theorem c39_fx8_partial (m : Rnd) (apart : Bool) (f : FxQ) (src wts bias dst : Buf) (tin tw tb tout : Tensor) (n k : Int)
    (A : FcArgs tin tw tb tout src wts bias dst 8 8 8) (hchk : chkFcFx apart f tin tw tb tout = some .ok) (sw : tw.shape = [n, k])
    (hn : n ≤ 131071) (h1 : f.relu = .one → f.fo < 30) (hup : m = .up → f.fi + f.fw - f.fo ≤ 24 ∨ 32 ≤ f.fi + f.fw - f.fo) :
    ∃ dst' val X, tin.Flat src X ∧ krnFcFx m 8 32 apart f src wts bias tin tw tb tout dst = some (.ok, dst') ∧
      tout.Writes val dst dst' ∧ ∀ o, InShape tout.shape [o] →
        ∃ r, Scaled m (clamp 32 (dotSum n X (fun i => wts.get (tw.addr [i, o])) +
            clamp 32 (bias.get (tb.addr [o]) * 2 ^ (f.fi + f.fw - f.fb).toNat))) (f.fi + f.fw - f.fo) r ∧
          NearestIn (f.relu.Admissible 8 0 1 f.fo) (clamp 8 r) (val [o]) := by
  have f1 := (chkFcFx_ok hchk).1
  have hle : n * (2 ^ (8 - 1) * 2 ^ (8 - 1)) ≤ 2 ^ 31 - 1 := by omega
  obtain ⟨dst', val, X, hX, r1, r2, r3⟩ := krnFcFx_exact m 8 32 apart f src wts bias dst tin tw tb tout n k 8 8 (by omega) (by omega) A hchk sw
    (hle.trans (by decide))
  refine ⟨dst', val, X, hX, r1, r2, fun o ho => ?_⟩
  obtain ⟨hk, hS, e0⟩ := r3 o ho
  have hS := abs_le.1 (hS.trans hle)
  rw [e0, biasFx32 m (f.fi + f.fw - f.fb) (by omega) (A.hb [o] hk) ⟨by simp only [lo]; omega, by simp only [hi]; omega⟩]
  exact castLimFxTo_spec 8 (by omega) m 32 (by omega) f (clamp_inRange _ _) h1 (fun hm => (hup hm).elim (fun h => Or.inl (by omega)) (fun h => Or.inr (Or.inl (by omega))))

/-- What an accepted call of `krnFcSa8` computes. -/
theorem krnFcSa8_exact (m : Rnd) (full ext apart : Bool) (q : Sa8Q) (src wts bias dst : Buf) (tin tw tb tout : Tensor) (n k : Int)
    (A : FcArgs tin tw tb tout src wts bias dst 8 8 32) (tq : q.qi.Typed ∧ q.qw.Typed ∧ q.qo.Typed)
    (hck : chkFc apart tin tw tb tout = some .ok) (hq : chkSa8At 1 m q tin tw tb tout = some .ok) (sw : tw.shape = [n, k])
    (hn : n ≤ 65536) :
    ∃ rt dst' val X, tin.Flat src X ∧ krnFcSa8 m full ext apart q src wts bias tin tw tb tout dst = some (.ok, dst') ∧
      tout.Writes val dst dst' ∧
      inToOut m (q.qi.scaleAt 0) (q.qi.fracAt 0) (q.qo.scaleAt 0) (q.qo.fracAt 0) = some rt ∧
      ∀ o, InShape tout.shape [o] → InShape tb.shape [o] ∧ 0 < q.qw.scaleAt o ∧
        InRange 32 (dotSum n (fun i => X i - if ext then 0 else q.qi.zpAt 0) (fun i => wts.get (tw.addr [i, o]))) ∧
        val [o] = castLimSa8 m full q rt o (biasS8 full (bias.get (tb.addr [o]))
          (dotSum n (fun i => X i - if ext then 0 else q.qi.zpAt 0) (fun i => wts.get (tw.addr [i, o])))) := by
  obtain ⟨⟨d1, d2, d3⟩, ⟨I1, I2⟩, ⟨O1, O2⟩, hWt⟩ := chkSa8At_ok hq
  rw [sw] at hWt
  simp only [List.getD_cons_succ, List.getD_cons_zero] at hWt
  obtain ⟨wi, wo, bn, on, e1, -, -, -⟩ := chkFc_ok hck
  have pk := A.vw.shape_pos wo (by simp [e1])
  have ek : wo.shape = k := by
    simp only [Tensor.shape, e1, List.map_cons, List.map_nil, List.cons.injEq, and_true] at sw
    exact sw.2
  have hzw := (hWt 0 (by omega) (by omega)).2
  have hz8 : InRange 8 (if ext then 0 else q.qi.zpAt 0) := by
    split
    · decide
    · exact I2
  obtain ⟨ratio, shift, hrt, -⟩ := c46_in_to_out m (q.qi.scaleAt 0) (q.qi.fracAt 0) (q.qo.scaleAt 0) (q.qo.fracAt 0) I1
    (tq.1.scaleAt 0) O1 (tq.2.2.scaleAt 0)
  generalize hz : (if ext then 0 else q.qi.zpAt 0) = z at hz8 ⊢
  have zx16 : wrap 16 (-z) = -z := by
    apply wrap_of_inRange (by omega)
    obtain ⟨a, b⟩ := hz8
    simp only [lo, hi] at a b
    constructor <;> simp only [lo, hi] <;> omega
  obtain ⟨dst', val, X, hX, r1, r2, r3⟩ := innerProduct_all A hck sw { aw := 32, zx := z, zw := q.qw.zpAt 0 }
    (fun o b acc => castLimSa8 m full q (ratio, shift) o (biasS8 full b acc)) hzw zx16 32640
    (fun is js h1 h2 => (abs_mul_le (by omega) (by omega) (A.hi is h1) (A.hw js h2)).trans (by decide))
    (fun is js h1 h2 => by
      obtain ⟨x1, x2⟩ := A.hi is h1
      obtain ⟨w1, w2⟩ := A.hw js h2
      obtain ⟨z1, z2⟩ := hz8
      simp only [lo, hi] at x1 x2 w1 w2 z1 z2
      rw [abs_mul]
      exact (mul_le_mul (show _ ≤ (255 : Int) by rw [abs_le]; simp only []; omega) (show _ ≤ (128 : Int) by rw [abs_le]; omega)
        (abs_nonneg _) (by decide)).trans (by decide)) (by simp only [hi]; omega)
  refine ⟨(ratio, shift), dst', val, X, hX, ?_, r2, hrt, ?_⟩
  · unfold krnFcSa8
    simp only [hck, hq, hrt, hz, Option.bind_eq_bind, Option.bind_some, ne_eq, not_true_eq_false, if_false, r1, Option.pure_def]
  · intro o ho
    obtain ⟨a, b, c, d⟩ := r3 o ho
    have c := abs_le.1 (c.trans (show n * 32640 ≤ 2 ^ 31 - 1 by omega))
    exact ⟨a, (hWt o b.1 b.2).1, ⟨by simp only [lo]; simp only [] at c; omega, by simp only [hi]; exact c.2⟩, d⟩

/-- C39 and C46, 8-bit asymmetric: for every accepted call, output `o` is the sum of `(x - x_zp) * w` over the elements of the
input, plus the bias, rescaled, within 3/5 of an output step, then limited by the built-in ReLU; no accumulation overflows.  For the
kernel with extended bias (`ext`) the input zero point is taken as 0.  Partial: at most 65536 inputs (what the 16 guard bits of
`mli_hlp_accu_guard_bits_sa8_sa8` stand for); in the default build the accumulator must be less than `2^23 - 2^7` (`c46_result_cast_violated`). -/
theorem c39_sa8_partial (m : Rnd) (full ext apart : Bool) (q : Sa8Q) (src wts bias dst : Buf) (tin tw tb tout : Tensor) (n k : Int)
    (A : FcArgs tin tw tb tout src wts bias dst 8 8 32) (tq : q.qi.Typed ∧ q.qw.Typed ∧ q.qo.Typed)
    (hck : chkFc apart tin tw tb tout = some .ok) (hq : chkSa8At 1 m q tin tw tb tout = some .ok) (sw : tw.shape = [n, k])
    (hn : n ≤ 65536) (h6 : q.relu = .six → q.qo.zpAt 0 = 0 ∨ q.qo.fracAt 0 < 28) (h1 : q.relu = .one → q.qo.fracAt 0 < 30) :
    ∃ dst' val X, tin.Flat src X ∧ krnFcSa8 m full ext apart q src wts bias tin tw tb tout dst = some (.ok, dst') ∧
      tout.Writes val dst dst' ∧ ∀ o, InShape tout.shape [o] →
        ∃ b' acc, BiasFor full (bias.get (tb.addr [o])) b' ∧
          acc = clamp 32 (dotSum n (fun i => X i - if ext then 0 else q.qi.zpAt 0) (fun i => wts.get (tw.addr [i, o])) + b') ∧
          (full = true ∨ |acc| < 2 ^ 23 - 2 ^ 7 → ∃ v : Int,
            |(v : ℚ) - limitQ (-128) 127 (q.qo.zpAt 0 + q.real o acc)| ≤ 3 / 5 ∧
            NearestIn (q.relu.Admissible 8 (q.qo.zpAt 0) (q.qo.scaleAt 0) (q.qo.fracAt 0)) v (val [o])) := by
  obtain ⟨⟨d1, d2, d3⟩, ⟨I1, I2⟩, ⟨O1, O2⟩, hWt⟩ := chkSa8At_ok hq
  obtain ⟨rt, dst', val, X, hX, r1, r2, hrt, r3⟩ := krnFcSa8_exact m full ext apart q src wts bias dst tin tw tb tout n k A tq hck hq sw hn
  refine ⟨dst', val, X, hX, r1, r2, fun o hs => ?_⟩
  obtain ⟨hb, hk, hSr, e0⟩ := r3 o hs
  obtain ⟨b', hb1, hb2⟩ := biasFor full (A.hb [o] hb) hSr
  refine ⟨b', _, hb2, rfl, ?_⟩
  intro hacc
  rw [e0, hb1]
  exact castLimSa8_spec m full q hrt ⟨I1, tq.1.scaleAt 0⟩ ⟨hk, tq.2.1.scaleAt o⟩ ⟨O1, tq.2.2.scaleAt 0⟩ O2 h6 h1
    (clamp_inRange _ _) hacc

/-- The row-major listing of the elements is unique. -/
theorem flat_unique {t : Tensor} {b : Buf} (h : t.Valid b) {X Y : Int → Int} (hX : t.Flat b X) (hY : t.Flat b Y) {i : Int} (h0 : 0 ≤ i)
    (h1 : i < prod t.shape) : X i = Y i := by
  have hpos : ∀ k ∈ t.shape, 1 ≤ k := by
    intro k hk
    obtain ⟨d, hd, rfl⟩ := List.mem_map.1 hk
    exact h.shape_pos d hd
  obtain ⟨is, h2, h3⟩ := contig_offset_onto t.shape hpos i h0 h1
  have a := hX is h2
  have b := hY is h2
  rw [flatIndex_eq, h3] at a b
  rw [a, b]

/-- C39, kernel with extended bias: given biases from which the contribution of the input zero point is already subtracted, it
writes the same output as the kernel that computes it.  Partial: at most 65536 inputs, builds with `FULL_ACCU` (otherwise both
biases are rounded to fewer bits), both biases representable. -/
theorem c39_ext_bias_partial (m : Rnd) (apart : Bool) (q : Sa8Q) (src wts bias bias2 dst : Buf) (tin tw tb tout : Tensor) (n k : Int)
    (A : FcArgs tin tw tb tout src wts bias dst 8 8 32) (A2 : FcArgs tin tw tb tout src wts bias2 dst 8 8 32)
    (tq : q.qi.Typed ∧ q.qw.Typed ∧ q.qo.Typed)
    (hck : chkFc apart tin tw tb tout = some .ok) (hq : chkSa8At 1 m q tin tw tb tout = some .ok) (sw : tw.shape = [n, k])
    (hn : n ≤ 65536)
    (hext : ∀ o, InShape tb.shape [o] →
      bias2.get (tb.addr [o]) = bias.get (tb.addr [o]) - q.qi.zpAt 0 * ∑ i ∈ Finset.range n.toNat, wts.get (tw.addr [(i : Int), o])) :
    ∃ d1 d2 val, krnFcSa8 m true false apart q src wts bias tin tw tb tout dst = some (.ok, d1) ∧
      krnFcSa8 m true true apart q src wts bias2 tin tw tb tout dst = some (.ok, d2) ∧
      tout.Writes val dst d1 ∧ tout.Writes val dst d2 := by
  obtain ⟨rt, d1, v1, X, hX, r1, r2, hrt, r3⟩ := krnFcSa8_exact m true false apart q src wts bias dst tin tw tb tout n k A tq hck hq sw hn
  obtain ⟨rt', d2, v2, Y, hY, p1, p2, hrt', p3⟩ := krnFcSa8_exact m true true apart q src wts bias2 dst tin tw tb tout n k A2 tq hck hq sw hn
  rw [hrt] at hrt'
  cases hrt'
  obtain ⟨wi, wo, bn, on, e1, e2, e3, hc, -⟩ := chkFc_ok hck
  have hn' : n = wi.shape := by simpa [Tensor.shape, e1] using congrArg (fun l : List Int => l.headD 0) sw.symm
  have hc' := countElemNum_eq A.vi
  refine ⟨d1, d2, v1, r1, p1, r2, p2.congr ?_⟩
  intro is his
  have so : tout.shape = [on.shape] := by simp [Tensor.shape, e3]
  rw [so] at his
  match is, his with
  | [o], hs =>
    rw [← so] at hs
    obtain ⟨a1, a2, a3, a4⟩ := r3 o hs
    obtain ⟨b1, b2, b3, b4⟩ := p3 o hs
    rw [a4, b4]
    congr 1
    simp only [Bool.false_eq_true, if_false, if_true, Int.sub_zero] at a3 b3 ⊢
    obtain ⟨c1, x1, x2, -, -⟩ := c46_bias true (A.hb [o] a1) a3
    obtain ⟨c2, y1, y2, -, -⟩ := c46_bias true (A2.hb [o] a1) b3
    rw [x1, y1, x2 rfl, y2 rfl, hext o a1]
    congr 1
    have e : dotSum n (fun i => X i - q.qi.zpAt 0) (fun i => wts.get (tw.addr [i, o])) =
        dotSum n Y (fun i => wts.get (tw.addr [i, o])) - q.qi.zpAt 0 * ∑ i ∈ Finset.range n.toNat, wts.get (tw.addr [(i : Int), o]) := by
      unfold dotSum
      rw [Finset.mul_sum, ← Finset.sum_sub_distrib]
      apply Finset.sum_congr rfl; intro i hi
      have hi := Finset.mem_range.1 hi
      simp only []
      rw [flat_unique A.vi hX hY (show 0 ≤ (i : Int) by omega) (by omega)]
      ring
    rw [e]
    ring

/-- A fully connected kernel that reports an error leaves the output as it was; success means that the arguments were accepted. -/
theorem c39_status_fx (m : Rnd) (w aw : Nat) (apart : Bool) (f : FxQ) (src wts bias : Buf) (tin tw tb tout : Tensor) (dst dst' : Buf) (st : Status)
    (h : krnFcFx m w aw apart f src wts bias tin tw tb tout dst = some (st, dst')) :
    (st ≠ .ok → dst' = dst) ∧ (st = .ok → chkFcFx apart f tin tw tb tout = some .ok) := by
  unfold krnFcFx at h
  simp only [Option.bind_eq_bind, Option.pure_def] at h
  rw [Option.bind_eq_some_iff] at h
  obtain ⟨s1, hs1, h⟩ := h
  split at h
  · rename_i hne
    simp only [Option.some.injEq, Prod.mk.injEq] at h
    obtain ⟨rfl, rfl⟩ := h
    exact ⟨fun _ => rfl, fun e => absurd e hne⟩
  · rename_i hne
    simp only [Option.bind_eq_some_iff, Option.some.injEq, Prod.mk.injEq] at h
    obtain ⟨_, -, rfl, -⟩ := h
    exact ⟨fun e => absurd rfl e, fun _ => by rw [hs1, not_not.1 hne]⟩

/-- The same for the 8-bit asymmetric kernels. -/
theorem c39_status_sa8 (m : Rnd) (full ext apart : Bool) (q : Sa8Q) (src wts bias : Buf) (tin tw tb tout : Tensor) (dst dst' : Buf) (st : Status)
    (h : krnFcSa8 m full ext apart q src wts bias tin tw tb tout dst = some (st, dst')) :
    (st ≠ .ok → dst' = dst) ∧
    (st = .ok → chkFc apart tin tw tb tout = some .ok ∧ chkSa8At 1 m q tin tw tb tout = some .ok) := by
  unfold krnFcSa8 at h
  simp only [Option.bind_eq_bind, Option.pure_def] at h
  rw [Option.bind_eq_some_iff] at h
  obtain ⟨s1, hs1, h⟩ := h
  split at h
  · rename_i hne
    simp only [Option.some.injEq, Prod.mk.injEq] at h
    obtain ⟨rfl, rfl⟩ := h
    exact ⟨fun _ => rfl, fun e => absurd e hne⟩
  · rename_i hne
    rw [Option.bind_eq_some_iff] at h
    obtain ⟨s2, hs2, h⟩ := h
    split at h
    · rename_i hne2
      simp only [Option.some.injEq, Prod.mk.injEq] at h
      obtain ⟨rfl, rfl⟩ := h
      exact ⟨fun _ => rfl, fun e => absurd e hne2⟩
    · rename_i hne2
      simp only [Option.bind_eq_some_iff, Option.some.injEq, Prod.mk.injEq] at h
      obtain ⟨_, -, _, -, rfl, -⟩ := h
      exact ⟨fun e => absurd rfl e, fun _ => ⟨by rw [hs1, not_not.1 hne], by rw [hs2, not_not.1 hne2]⟩⟩

/-! ## A concrete call -/

/-- 2 by 3 input, 4 outputs; the rows of the weights are 5 elements apart. -/
def exFcIn : Tensor := { dims := [⟨2, 3⟩, ⟨3, 1⟩], cap := 12, es := 2 }
def exFcW : Tensor := { dims := [⟨6, 5⟩, ⟨4, 1⟩], cap := 60, es := 2 }
def exFcB : Tensor := { dims := [⟨4, 1⟩], cap := 8, es := 2 }
def exFcO : Tensor := { dims := [⟨4, 1⟩], cap := 8, es := 2, base := 1 }
def exFcSrc : List Int := [10, -20, 30, -40, 50, -60]
def exFcWts : List Int := (List.range 30).map fun (n : Nat) => 40 - 3 * (n : Int)

theorem exFcArgs : FcArgs exFcIn exFcW exFcB exFcO (Buf.ofList exFcSrc) (Buf.ofList exFcWts) (Buf.ofList [5, -6, 7, -8])
    (Buf.ofList (List.replicate 6 99)) 16 16 16 :=
  ⟨⟨by decide, by decide, by decide, by decide⟩, ⟨by decide, by decide, by decide, by decide⟩, ⟨by decide, by decide, by decide, by decide⟩,
    ⟨by decide, by decide, by decide, by decide⟩, holds_ofList (by decide) _, holds_ofList (by decide) _, holds_ofList (by decide) _⟩

theorem exFcArgs8 : FcArgs exFcIn exFcW.bytes exFcB.bytes exFcO (Buf.ofList exFcSrc) (Buf.ofList exFcWts) (Buf.ofList [5, -6, 7, -8])
    (Buf.ofList (List.replicate 6 99)) 16 8 8 ∧ FcArgs exFcIn.bytes exFcW.bytes exFcB.bytes exFcO.bytes (Buf.ofList exFcSrc) (Buf.ofList exFcWts)
    (Buf.ofList [5, -6, 7, -8]) (Buf.ofList (List.replicate 6 99)) 8 8 8 :=
  ⟨⟨⟨by decide, by decide, by decide, by decide⟩, ⟨by decide, by decide, by decide, by decide⟩, ⟨by decide, by decide, by decide, by decide⟩,
    ⟨by decide, by decide, by decide, by decide⟩, holds_ofList (by decide) _, holds_ofList (by decide) _, holds_ofList (by decide) _⟩,
   ⟨⟨by decide, by decide, by decide, by decide⟩, ⟨by decide, by decide, by decide, by decide⟩, ⟨by decide, by decide, by decide, by decide⟩,
    ⟨by decide, by decide, by decide, by decide⟩, holds_ofList (by decide) _, holds_ofList (by decide) _, holds_ofList (by decide) _⟩⟩

def exFcF : FxQ := { fi := 3, fw := 4, fb := 5, fo := 2, relu := .none }

example : FcArgs exFcIn exFcW exFcB exFcO (Buf.ofList exFcSrc) (Buf.ofList exFcWts) (Buf.ofList [5, -6, 7, -8])
    (Buf.ofList (List.replicate 6 99)) 16 16 16 ∧ chkFcFx true exFcF exFcIn exFcW exFcB exFcO = some .ok ∧
    (krnFcFx .convergent 16 64 true exFcF (Buf.ofList exFcSrc) (Buf.ofList exFcWts) (Buf.ofList [5, -6, 7, -8]) exFcIn exFcW exFcB exFcO
      (Buf.ofList (List.replicate 6 99))).map (fun p => (p.1, p.2.toList)) = some (.ok, [99, 48, 49, 53, 54, 99]) :=
  ⟨exFcArgs, by decide, by decide +kernel⟩

example : chkFcFx true exFcF exFcIn exFcW.bytes exFcB.bytes exFcO = some .ok ∧
    chkFcFx true { exFcF with relu := .six } exFcIn.bytes exFcW.bytes exFcB.bytes exFcO.bytes = some .ok ∧
    (krnFcFx .up 16 32 true exFcF (Buf.ofList exFcSrc) (Buf.ofList exFcWts) (Buf.ofList [5, -6, 7, -8]) exFcIn exFcW.bytes exFcB.bytes exFcO
      (Buf.ofList (List.replicate 6 99))).map (fun p => (p.1, p.2.toList)) = some (.ok, [99, 48, 49, 53, 54, 99]) ∧
    (krnFcFx .up 8 32 true { exFcF with relu := .six } (Buf.ofList exFcSrc) (Buf.ofList exFcWts) (Buf.ofList [5, -6, 7, -8]) exFcIn.bytes
      exFcW.bytes exFcB.bytes exFcO.bytes (Buf.ofList (List.replicate 6 99))).map (fun p => (p.1, p.2.toList)) = some (.ok, [99, 24, 24, 24, 24, 99]) :=
  ⟨by decide, by decide, by decide +kernel, by decide +kernel⟩

/-- Weights that do not match the size of the input are rejected. -/
example : chkFc true exFcIn exFcW exFcB exFcO = some .ok ∧ chkFc true exFcW exFcW exFcB exFcO ≠ some .ok := by decide

def exFcB32 : Tensor := { dims := [⟨4, 1⟩], cap := 16, es := 4 }
def exFcQ : Sa8Q := {
  qi := { dim := -1, zp := [-3], scale := [20000], frac := [18] }
  qw := { dim := 1, zp := [0, 0, 0, 0], scale := [150, 97, 80, 101], frac := [12, 11, 11, 10] }
  qb := { dim := 0, zp := [0, 0, 0, 0], scale := [183, 118, 97, 123], frac := [16, 15, 15, 14] }
  qo := { dim := -1, zp := [7], scale := [6000], frac := [15] }
  relu := .gen }

theorem exFcArgsSa8 : FcArgs exFcIn.bytes exFcW.bytes exFcB32 exFcO.bytes (Buf.ofList exFcSrc) (Buf.ofList exFcWts)
      (Buf.ofList [1500, -600, 700, -800]) (Buf.ofList (List.replicate 6 99)) 8 8 32 ∧
    FcArgs exFcIn.bytes exFcW.bytes exFcB32 exFcO.bytes (Buf.ofList exFcSrc) (Buf.ofList exFcWts)
      (Buf.ofList [1545, -609, 637, -917]) (Buf.ofList (List.replicate 6 99)) 8 8 32 := by
  constructor <;> exact
    ⟨⟨by decide, by decide, by decide, by decide⟩, ⟨by decide, by decide, by decide, by decide⟩, ⟨by decide, by decide, by decide, by decide⟩,
      ⟨by decide, by decide, by decide, by decide⟩, holds_ofList (by decide) _, holds_ofList (by decide) _, holds_ofList (by decide) _⟩

/-- The two kernels on the same layer: the second bias is the first plus 3 times the sum of the weights. -/
example : (exFcQ.qi.Typed ∧ exFcQ.qw.Typed ∧ exFcQ.qo.Typed) ∧
    chkSa8At 1 .convergent exFcQ exFcIn.bytes exFcW.bytes exFcB32 exFcO.bytes = some .ok ∧
    (krnFcSa8 .convergent true false true exFcQ (Buf.ofList exFcSrc) (Buf.ofList exFcWts) (Buf.ofList [1500, -600, 700, -800]) exFcIn.bytes
      exFcW.bytes exFcB32 exFcO.bytes (Buf.ofList (List.replicate 6 99))).map (fun p => (p.1, p.2.toList)) = some (.ok, [99, 53, 26, 45, 42, 99]) ∧
    (krnFcSa8 .convergent true true true exFcQ (Buf.ofList exFcSrc) (Buf.ofList exFcWts) (Buf.ofList [1545, -609, 637, -917]) exFcIn.bytes
      exFcW.bytes exFcB32 exFcO.bytes (Buf.ofList (List.replicate 6 99))).map (fun p => (p.1, p.2.toList)) = some (.ok, [99, 53, 26, 45, 42, 99]) :=
  ⟨by decide, by decide, by decide +kernel, by decide +kernel⟩

/-- C39 fails for a bias shifted left by more than 16 bits: with zero input the output should be the bias, and is its negation. -/
theorem c39_bias_violated :
    let t1 : Tensor := { dims := [⟨1, 1⟩], cap := 2, es := 2 }
    let tw : Tensor := { dims := [⟨1, 1⟩, ⟨1, 1⟩], cap := 2, es := 2 }
    let f : FxQ := { fi := 15, fw := 15, fb := 13, fo := 13, relu := .none }
    (krnFcFx .convergent 16 64 true f (Buf.ofList [0]) (Buf.ofList [0]) (Buf.ofList [16384]) t1 tw t1 t1
      (Buf.ofList [99])).map (fun p => (p.1, p.2.toList)) = some (.ok, [-16384]) ∧
    Scaled .convergent (0 + 16384 * 2 ^ (f.fi + f.fw - f.fb).toNat) (f.fi + f.fw - f.fo) 16384 := by
  refine ⟨by decide +kernel, ?_⟩
  show RoundHalfEven (0 + 16384 * 2 ^ 17) (2 ^ 17) 16384
  unfold RoundHalfEven
  norm_num

set_option maxRecDepth 4000 in
/-- C39 fails for 512 inputs with 8-bit weights: the 32-bit accumulator overflows. -/
theorem c39_fx16_fx8_overflow_violated :
    let tin : Tensor := { dims := [⟨512, 1⟩], cap := 1024, es := 2 }
    let tw : Tensor := { dims := [⟨512, 1⟩, ⟨1, 1⟩], cap := 512, es := 1 }
    let tb : Tensor := { dims := [⟨1, 1⟩], cap := 1, es := 1 }
    let to' : Tensor := { dims := [⟨1, 1⟩], cap := 2, es := 2 }
    let f : FxQ := { fi := 15, fw := 7, fb := 7, fo := 15, relu := .none }
    chkFcFx true f tin tw tb to' = some .ok ∧
    krnFcFx .convergent 16 32 true f { size := 512, get := fun _ => -32768 } { size := 512, get := fun _ => -128 } (Buf.ofList [0]) tin tw tb to'
      (Buf.ofList [99]) = none := by
  decide +kernel

end Mli
