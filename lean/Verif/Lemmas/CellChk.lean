import Verif.Lemmas.CellLoop

/-! # The checks of the recurrent cells -/

namespace Mli

open Spec

/-- Input, previous output, cells, output rows and scratch buffer as the user has to provide them: every tensor in its buffer, with the element
size of the input; room for all output rows; the scratch buffer apart from all of them, and input, cells and output rows apart from each other.
The previous output may be anywhere else, for instance in the output or in the cell. -/
structure CellArgs.Placed (a : CellArgs) (G : Int) (mem : Buf) (cell : List Tensor) : Prop where
  vi : a.tin.Valid mem
  vh : a.tprev.Valid mem
  vo : a.tout.Valid mem
  vc : ∀ c ∈ cell, c.Valid mem
  vwi : a.twi.Valid a.wi
  vwo : a.two.Valid a.wo
  vb : a.tb.Valid a.bias
  es : a.tin.es = 1 ∨ a.tin.es = 2
  esh : a.tprev.es = a.tin.es
  eso : a.tout.es = a.tin.es
  esc : ∀ c ∈ cell, c.es = a.tin.es
  room : a.rows * a.n * a.tin.es ≤ a.tout.cap
  scr : 0 ≤ a.scr ∧ a.scr * a.tin.es + a.scrCap ≤ mem.size * a.tin.es
  scrCap : a.scrCap ≤ int32Max
  dis : Apart a.tin.base (a.seq * a.k) a.scr (G * a.n)
  dhs : Apart a.tprev.base a.n a.scr (G * a.n)
  dos : Apart a.tout.base (a.rows * a.n) a.scr (G * a.n)
  dio : Apart a.tin.base (a.seq * a.k) a.tout.base (a.rows * a.n)
  dcs : ∀ c ∈ cell, Apart c.base a.n a.scr (G * a.n)
  dco : ∀ c ∈ cell, Apart c.base a.n a.tout.base (a.rows * a.n)
  dic : ∀ c ∈ cell, Apart a.tin.base (a.seq * a.k) c.base a.n

/-- What the shapes of an accepted call are. -/
structure CellArgs.Shapes (a : CellArgs) (G : Nat) (cell : List Tensor) : Prop where
  n1 : 1 ≤ a.n
  k1 : 1 ≤ a.k
  s1 : 1 ≤ a.seq
  tin : a.tin.dims = [⟨a.seq, a.k⟩, ⟨a.k, 1⟩]
  tprev : a.tprev.dims = [⟨a.n, 1⟩]
  wi : ∃ s0 s1, a.twi.dims = [⟨G, s0⟩, ⟨a.k, s1⟩, ⟨a.n, 1⟩]
  wo : ∃ s0 s1, a.two.dims = [⟨G, s0⟩, ⟨a.n, s1⟩, ⟨a.n, 1⟩]
  tb : ∃ s0, a.tb.dims = [⟨G, s0⟩, ⟨a.n, 1⟩]
  cell : ∀ c ∈ cell, c.dims = [⟨a.n, 1⟩]
  wiN : G * a.k * a.n < 2 ^ 31
  woN : G * a.n * a.n < 2 ^ 31
  need : (G * a.n) % 2 ^ 32 * a.tin.es % 2 ^ 32 ≤ a.scrCap

theorem dims_of {t : Tensor} : ∀ {ns : List Int}, t.shape = ns → ∃ ss : List Int, ss.length = ns.length ∧ t.dims = List.zipWith Dim.mk ns ss := by
  intro ns h
  refine ⟨t.strides, ?_, ?_⟩
  · rw [← h]; simp [Tensor.shape, Tensor.strides]
  · rw [← h]
    unfold Tensor.shape Tensor.strides
    generalize t.dims = ds
    induction ds with
    | nil => rfl
    | cons d ds ih => simp only [List.map_cons, List.zipWith_cons_cons, ← ih]

theorem shapeDims1 {t : Tensor} {n : Int} (h : t.shape = [n]) (h1 : innerOne t = true) : t.dims = [⟨n, 1⟩] := by
  obtain ⟨ss, h2, h3⟩ := dims_of h
  match ss, h2 with
  | [s], _ =>
    simp only [List.zipWith_cons_cons, List.zipWith_nil_left] at h3
    simp [innerOne, Tensor.strides, h3] at h1
    rw [h3, h1]

theorem shapeDims2 {t : Tensor} {g n : Int} (h : t.shape = [g, n]) (h1 : innerOne t = true) : ∃ s0, t.dims = [⟨g, s0⟩, ⟨n, 1⟩] := by
  obtain ⟨ss, h2, h3⟩ := dims_of h
  match ss, h2 with
  | [s, s'], _ =>
    simp only [List.zipWith_cons_cons, List.zipWith_nil_left] at h3
    simp [innerOne, Tensor.strides, h3] at h1
    exact ⟨s, by rw [h3, h1]⟩

theorem shapeDims3 {t : Tensor} {g k n : Int} (h : t.shape = [g, k, n]) (h1 : innerOne t = true) : ∃ s0 s1, t.dims = [⟨g, s0⟩, ⟨k, s1⟩, ⟨n, 1⟩] := by
  obtain ⟨ss, h2, h3⟩ := dims_of h
  match ss, h2 with
  | [s, s', s''], _ =>
    simp only [List.zipWith_cons_cons, List.zipWith_nil_left] at h3
    simp [innerOne, Tensor.strides, h3] at h1
    exact ⟨s, s', by rw [h3, h1]⟩

/-- A status that was tested. -/
theorem bind_ok {o : Option Status} {f : Option Status} (h : (o.bind fun s => if s ≠ .ok then some s else f) = some .ok) : o = some .ok ∧ f = some .ok := by
  rw [Option.bind_eq_some_iff] at h
  obtain ⟨s, hs, h⟩ := h
  by_cases e : s = .ok
  · rw [if_neg (not_not.2 e)] at h
    exact ⟨by rw [hs, e], h⟩
  · rw [if_pos e] at h
    exact absurd (Option.some.inj h) e

theorem if_ok {c : Prop} [Decidable c] {s : Status} (hs : s ≠ .ok) {f : Option Status} (h : (if ¬ c then some s else f) = some .ok) : c ∧ f = some .ok := by
  by_cases e : c
  · rw [if_neg (not_not.2 e)] at h; exact ⟨e, h⟩
  · rw [if_pos e] at h; exact absurd (Option.some.inj h) hs

theorem ifb_ok {c : Bool} {s : Status} (hs : s ≠ .ok) {f : Option Status} (h : (if !c then some s else f) = some .ok) : c = true ∧ f = some .ok := by
  cases c
  · exact absurd (Option.some.inj h) hs
  · exact ⟨rfl, h⟩

theorem chkCell_ok {G : Nat} {a : CellArgs} {cell : List Tensor} {mem : Buf} (P : a.Placed G mem cell) (h : chkCell G a cell = some .ok) :
    a.Shapes G cell := by
  obtain ⟨-, h⟩ := bind_ok h
  obtain ⟨⟨l1, l2⟩, h⟩ := if_ok (by decide) h
  obtain ⟨c1, h⟩ := ifb_ok (by decide) h
  obtain ⟨hw, ho⟩ := bind_ok h
  rw [Bool.and_eq_true] at c1
  -- the weights
  obtain ⟨-, hw⟩ := bind_ok hw
  obtain ⟨⟨w1, w2⟩, hw⟩ := if_ok (by decide) hw
  obtain ⟨c2, hw⟩ := ifb_ok (by decide) hw
  rw [Bool.and_eq_true] at c2
  obtain ⟨-, hw⟩ := bind_ok hw
  obtain ⟨w3, hw⟩ := if_ok (by decide) hw
  obtain ⟨-, hw⟩ := bind_ok hw
  obtain ⟨w4, -⟩ := if_ok (by decide) hw
  -- the output
  obtain ⟨-, ho⟩ := bind_ok ho
  obtain ⟨-, ho⟩ := if_ok (by decide) ho
  obtain ⟨o2, ho⟩ := if_ok (by decide) ho
  obtain ⟨o3, -⟩ := ifb_ok (by decide) ho
  rw [Bool.and_eq_true, Bool.and_eq_true] at o3
  obtain ⟨⟨o3, o4⟩, -⟩ := o3
  -- the input
  have hin : a.tin.dims = [⟨a.seq, a.k⟩, ⟨a.k, 1⟩] ∧ 1 ≤ a.seq ∧ 1 ≤ a.k := by
    match e : a.tin.dims, l1 with
    | [d0, d1], _ =>
      have hc := c1.1
      simp [isContig, e, contigScan] at hc
      obtain ⟨g1, g2⟩ := hc
      have p0 := P.vi.shape_pos d0 (by simp [e])
      have p1 := P.vi.shape_pos d1 (by simp [e])
      have t1 := (P.vi.typed.1 d1 (by simp [e])).2.1
      have ek : a.k = d1.shape := by
        simp only [CellArgs.k, countElemNumPart, e, List.drop_succ_cons, List.drop_zero, List.map_cons, List.map_nil, List.foldl_cons, List.foldl_nil]
        rw [Int.one_mul, Int.emod_eq_of_lt (by omega) t1]
      have es : a.seq = d0.shape := by simp [CellArgs.seq, Tensor.shape, e]
      refine ⟨?_, by omega, by omega⟩
      obtain ⟨d0s, d0t⟩ := d0
      obtain ⟨d1s, d1t⟩ := d1
      simp only at g1 g2 ek es
      rw [ek, es]
      subst g1
      rw [g2, Int.mul_one]
  have hpr : a.tprev.dims = [⟨a.n, 1⟩] ∧ 1 ≤ a.n := by
    match e : a.tprev.dims, l2 with
    | [d], _ =>
      have h1 := (countElemNum_eq P.vh).1
      have p := P.vh.shape_pos d (by simp [e])
      have en : a.n = d.shape := by
        unfold CellArgs.n
        rw [h1]
        simp [Tensor.shape, e, prod]
      have := shapeDims1 (t := a.tprev) (n := a.n) (by simp [Tensor.shape, e, en]) c1.2
      exact ⟨by rw [← e]; exact this, by omega⟩
  have n1 := hpr.2
  have k1 := hin.2.2
  have q1 := (countElemNum_eq P.vwi).2.2
  have q2 := (countElemNum_eq P.vwo).2.2
  rw [w1] at q1
  rw [w2] at q2
  simp only [prod, Int.mul_one] at q1 q2
  refine ⟨n1, k1, hin.2.1, hin.1, hpr.1, shapeDims3 w1 c2.1, shapeDims3 w2 c2.2, shapeDims2 w3 o4, ?_, ?_, ?_, o2⟩
  · intro c hc
    exact shapeDims1 (w4 c hc) (List.all_eq_true.1 o3 c hc)
  · rw [Int.mul_assoc]; exact q1
  · rw [Int.mul_assoc]; exact q2

/-- What the proofs about the steps need. -/
theorem CellArgs.Shapes.ok {G : Nat} {a : CellArgs} {cell : List Tensor} {mem : Buf} (P : a.Placed G mem cell) (h : a.Shapes G cell) (hG : 1 ≤ G) (hG4 : G ≤ 4) :
    a.Ok G mem.size := by
  have n1 := h.n1
  have k1 := h.k1
  have hw := h.woN
  have hes : 1 ≤ a.tin.es ∧ a.tin.es ≤ 2 := by have := P.es; omega
  have hn2 : a.n * a.n ≤ G * a.n * a.n := by
    rw [Int.mul_assoc]
    nlinarith [mul_pos (show 0 < a.n by omega) (show 0 < a.n by omega)]
  have hnn : a.n < 2 ^ 16 := by nlinarith
  have hGn : (G : Int) * a.n ≤ 4 * a.n := mul_le_mul_of_nonneg_right (by omega) (by omega)
  have hG0 : 0 ≤ (G : Int) * a.n := by positivity
  have hb : (G : Int) * a.n * a.tin.es ≤ G * a.n * 2 := mul_le_mul_of_nonneg_left hes.2 hG0
  have hb0 : 0 ≤ (G : Int) * a.n * a.tin.es := mul_nonneg hG0 (by omega)
  have need := h.need
  rw [Int.emod_eq_of_lt hG0 (by omega), Int.emod_eq_of_lt hb0 (by omega)] at need
  refine ⟨n1, k1, h.wi, h.wo, h.tb, P.vwi, P.vwo, P.vb, P.es, need, P.scrCap, P.scr.1, ?_⟩
  have hs := P.scr.2
  have : (a.scr + G * a.n) * a.tin.es ≤ mem.size * a.tin.es := by rw [Int.add_mul]; omega
  exact le_of_mul_le_mul_right this (by omega)

/-- A one-dimensional tensor is a row. -/
theorem rowT_of {t : Tensor} {mem : Buf} {n : Int} (v : t.Valid mem) (e : t.dims = [⟨n, 1⟩]) (h1 : 1 ≤ n) (hes : t.es = 1 ∨ t.es = 2) :
    RowT t n t.base ∧ 0 ≤ t.base ∧ t.base + n ≤ mem.size := by
  have ef : t.footprint = n * t.es := by
    rw [footprint_eq]
    simp only [e, span, List.map_cons, List.map_nil, List.sum_cons, List.sum_nil]
    ring
  have hsm : n * t.es ≤ int32Max := by rw [← ef]; exact v.small
  obtain ⟨⟨-, hcap, -, -⟩, hfp⟩ := (c10_check_decision_partial t v.typed v.small (fun d hd => by
    rw [e] at hd
    obtain rfl := List.mem_singleton.1 hd
    show n * 1 ≤ _
    rcases hes with h | h <;> rw [h] at hsm <;> omega)).1.1 v.accepted
  rw [ef] at hfp
  refine ⟨⟨Or.inl e, rfl, hes, h1, hfp, hcap⟩, v.fits.1, ?_⟩
  have := v.fits.2
  have : (t.base + n) * t.es ≤ mem.size * t.es := by rw [Int.add_mul]; omega
  exact le_of_mul_le_mul_right this (by omega)

end Mli
