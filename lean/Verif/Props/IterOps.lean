import Verif.Model.IterOps
import Verif.Props.Iter
import Verif.Props.View

/-! # C87 - C89: operations on tilings -/

namespace Mli.Iter

open Spec

/-! ## C87: tiles without their overlap -/

theorem subTensor_length (shape : List Int) : ∀ (cfg : List DimCfg) (ss : List DimSt),
    (subTensor shape cfg ss).1.length = shape.length ∧ (subTensor shape cfg ss).2.length = shape.length := by
  intro cfg
  induction cfg with
  | nil => intro ss; simp [subTensor]
  | cons c cs ih =>
    intro ss
    cases ss with
    | nil => simp [subTensor]
    | cons s ss =>
      simp only [subTensor]
      split
      · exact ih ss
      · simpa using ih ss

/-- The tile along the first iteration dimension after `m` calls of `Next()`. -/
theorem head_tile (shape : List Int) (c : DimCfg) (cs : List DimCfg) (hpos : ∀ e ∈ c :: cs, 1 ≤ e.count)
    (hord : 0 ≤ c.order ∧ c.order < shape.length) (m : Nat) :
    (subTensor shape (c :: cs) (nextN (c :: cs) m).1).1.getD c.order.toNat 0 = u32 (posOf c (m % c.count)) ∧
    (subTensor shape (c :: cs) (nextN (c :: cs) m).1).2.getD c.order.toNat 0 =
      tileSize (shape.getD c.order.toNat 0) c { pos := posOf c (m % c.count), idx := m % c.count } := by
  rw [nextN_eq hpos]
  simp only [stateAt, subTensor, if_neg (show ¬ c.order < 0 by omega)]
  obtain ⟨l1, l2⟩ := subTensor_length shape cs (stateAt cs (m / c.count))
  exact ⟨getD_set_self _ _ _ (by omega), getD_set_self _ _ _ (by omega)⟩

/-- The tile along another dimension depends on the other entries of the configuration only. -/
theorem tail_tile (shape : List Int) (c c' : DimCfg) (cs : List DimCfg) (hpos : ∀ e ∈ c :: cs, 1 ≤ e.count)
    (ho : c'.order = c.order) (hc : c'.count = c.count) (m d : Nat) (hd : d ≠ c.order.toNat) :
    (subTensor shape (c' :: cs) (nextN (c' :: cs) m).1).1.getD d 0 = (subTensor shape (c :: cs) (nextN (c :: cs) m).1).1.getD d 0 ∧
    (subTensor shape (c' :: cs) (nextN (c' :: cs) m).1).2.getD d 0 = (subTensor shape (c :: cs) (nextN (c :: cs) m).1).2.getD d 0 := by
  have hpos' : ∀ e ∈ c' :: cs, 1 ≤ e.count := by
    intro e he
    rcases List.mem_cons.mp he with rfl | he
    · rw [hc]; exact hpos c (List.mem_cons_self ..)
    · exact hpos e (List.mem_cons_of_mem _ he)
  rw [nextN_eq hpos, nextN_eq hpos']
  simp only [stateAt, subTensor, ho, hc]
  split
  · exact ⟨rfl, rfl⟩
  · exact ⟨by rw [getD_set_ne _ _ _ _ (Ne.symm hd), getD_set_ne _ _ _ _ (Ne.symm hd)],
      by rw [getD_set_ne _ _ _ _ (Ne.symm hd), getD_set_ne _ _ _ _ (Ne.symm hd)]⟩

/-- Where the tiles of such a tiling begin and end before and after the overlap was removed, for any entries with the values of `kernelDim`. -/
theorem removeOverlap_aux {out tile skew n k s p q r : Int} (e : DimCfg) (h : KernOk out tile skew n k s p)
    (f1 : out + skew = tile * q + r) (f2 : 1 ≤ r) (f3 : r ≤ tile) (hec : e.count = q + 1) (hq1 : 1 ≤ q)
    (hnew : tile * q * s - skew * s - p + (k - s) < n)
    (g2 : e.firstInc = (tile - skew) * s - p) (hinc : e.inc = tile * s)
    (g4 : e.lastInc = tile * s * (2 - (q + 1)) - ((tile - skew) * s - p)) (g6 : e.size = (tile - 1) * s + k)
    (g7 : e.firstSize = min ((tile - skew - 1) * s + k - p) n) (g8 : e.lastSize = u32 (n + e.lastInc)) :
    ∀ g, g = removeOverlapDim e →
    g.order = e.order ∧ g.count = q + 1 ∧ g.code = calcDiffCode g.count g.firstSize g.size g.lastSize ∧
    g.firstInc = tile * s - skew * s - s + k - p ∧ g.inc = tile * s ∧ g.size = tile * s ∧
    g.firstSize = tile * s - skew * s - s + k - p ∧
    g.lastSize = n - (tile * q * s - skew * s - p) - (k - s) ∧
    g.lastInc = tile * s - tile * q * s - (tile * s - skew * s - p) - (k - s) ∧
    1 ≤ tile * s - skew * s - s + k - p ∧ e.firstInc = tile * s - skew * s - p := by
  obtain ⟨⟨⟨t1, t2⟩, ⟨s1, s2⟩, hN⟩, hk, hs, ⟨hp0, hp1⟩, hf, hl, ⟨hn1, hn2⟩, hsm⟩ := h
  intro g hgd
  have hos : s ≤ out * s := by nlinarith
  have hts : tile * s ≤ out * s := by nlinarith
  have hts1 : s ≤ tile * s := by nlinarith
  have hqs : tile * q * s ≤ (out + skew - 1) * s := Int.mul_le_mul_of_nonneg_right (by omega) (by omega)
  have hqs1 : tile * s ≤ tile * q * s := by nlinarith [Int.mul_nonneg (show 0 ≤ tile * s by omega) (show 0 ≤ q - 1 by omega)]
  have hsk : skew * s ≤ tile * s := Int.mul_le_mul_of_nonneg_right (by omega) (by omega)
  have hsk0 : 0 ≤ skew * s := Int.mul_nonneg (by omega) (by omega)
  have x1 : (tile - skew - 1) * s = tile * s - skew * s - s := by ring
  have x2 : (tile - skew) * s = tile * s - skew * s := by ring
  have x3 : (tile - 1) * s = tile * s - s := by ring
  have x5 : (out + skew - 1) * s = out * s + skew * s - s := by ring
  have x7 : (out - 1) * s = out * s - s := by ring
  have hx1 : 0 ≤ (tile - skew - 1) * s := Int.mul_nonneg (by omega) (by omega)
  have x6 : tile * s * (2 - (q + 1)) = tile * s - tile * q * s := by ring
  -- the first tile is not clipped
  have hfs : e.firstSize = tile * s - skew * s - s + k - p := by
    rw [g7, x1]; exact min_eq_left (by omega)
  have hfi : e.firstInc = tile * s - skew * s - p := by rw [← x2]; exact g2
  have hsz : e.size = tile * s - s + k := by rw [← x3]; exact g6
  have hli : e.lastInc = tile * s - tile * q * s - (tile * s - skew * s - p) := by rw [g4, x6, x2]
  have hls : e.lastSize = n - (tile * q * s - skew * s - p) := by
    rw [g8, hli, u32_id ⟨by omega, by omega⟩]; ring
  have hov : wrap 32 (u32 (e.size - e.inc)) = k - s := by
    rw [hsz, hinc, wrap_u32 ⟨by omega, by omega⟩]; ring
  have hg : g = { e with
      firstInc := wrap 32 e.firstSize
      size := u32 e.inc
      lastSize := u32 (e.lastSize - (k - s))
      lastInc := e.lastInc - (k - s)
      code := calcDiffCode e.count e.firstSize (u32 e.inc) (u32 (e.lastSize - (k - s))) } := by
    rw [hgd]
    unfold removeOverlapDim
    rw [if_pos (by omega)]
    simp only [hov]
  have ho : g.order = e.order := by rw [hg]
  have hgc : g.count = q + 1 := by rw [hg]; exact hec
  have hgf : g.firstInc = tile * s - skew * s - s + k - p := by
    rw [hg]; show wrap 32 e.firstSize = _
    rw [hfs, ← u32_id (x := tile * s - skew * s - s + k - p) ⟨by omega, by omega⟩, wrap_u32 ⟨by omega, by omega⟩, u32_id ⟨by omega, by omega⟩]
  have hgi : g.inc = tile * s := by rw [hg]; exact hinc
  have hgs : g.size = tile * s := by rw [hg]; show u32 e.inc = _; rw [hinc, u32_id ⟨by omega, by omega⟩]
  have hgfs : g.firstSize = tile * s - skew * s - s + k - p := by rw [hg]; exact hfs
  have hgl : g.lastSize = n - (tile * q * s - skew * s - p) - (k - s) := by
    rw [hg]; show u32 (e.lastSize - (k - s)) = _
    rw [hls, u32_id ⟨by omega, by omega⟩]
  have hgli : g.lastInc = tile * s - tile * q * s - (tile * s - skew * s - p) - (k - s) := by rw [hg]; show e.lastInc - (k - s) = _; rw [hli]
  have hcode : g.code = calcDiffCode g.count g.firstSize g.size g.lastSize := by rw [hg]
  exact ⟨ho, hgc, hcode, hgf, hgi, hgs, hgfs, hgl, hgli, by omega, hfi⟩

/-- Positions that follow from these values. -/
theorem removeOverlap_pos {tile skew n k s p q : Int} (e g : DimCfg) (hec : e.count = q + 1) (hq1 : 1 ≤ q) (hts : 0 ≤ tile * s) (hn : n < 2 ^ 32)
    (hinc : e.inc = tile * s) (hnew : tile * q * s - skew * s - p + (k - s) < n)
    (ho : g.order = e.order) (hgc : g.count = q + 1) (hcode : g.code = calcDiffCode g.count g.firstSize g.size g.lastSize)
    (hgf : g.firstInc = tile * s - skew * s - s + k - p) (hgi : g.inc = tile * s) (hgs : g.size = tile * s)
    (hgfs : g.firstSize = tile * s - skew * s - s + k - p)
    (hgl : g.lastSize = n - (tile * q * s - skew * s - p) - (k - s))
    (hgli : g.lastInc = tile * s - tile * q * s - (tile * s - skew * s - p) - (k - s))
    (hfp : 1 ≤ tile * s - skew * s - s + k - p) (hfi : e.firstInc = tile * s - skew * s - p) :
    g.order = e.order ∧ g.count = e.count ∧
    g.firstInc + (g.count - 2) * g.inc + g.lastInc = 0 ∧
    g.code = calcDiffCode g.count g.firstSize g.size g.lastSize ∧
    posOf g 0 = 0 ∧ 0 < posOf g 1 ∧
    (∀ j, 1 ≤ j → posOf g (j + 1) = posOf g j + tile * s) ∧
    (∀ j, 1 ≤ j → posOf e j + (k - s) = posOf g j) ∧
    posOf g (g.count - 1) < n ∧
    (∀ j, 0 ≤ j → j < g.count → posOf g j + tileSize n g { pos := posOf g j, idx := j } = if j = g.count - 1 then n else posOf g (j + 1)) := by
  have hp : ∀ j, 1 ≤ j → posOf g j = (tile * s - skew * s - s + k - p) + (j - 1) * (tile * s) := by
    intro j hj
    unfold posOf
    rw [if_neg (by omega), hgf, hgi]
  have hpe : ∀ j, 1 ≤ j → posOf e j = (tile * s - skew * s - p) + (j - 1) * (tile * s) := by
    intro j hj
    unfold posOf
    rw [if_neg (by omega), hfi, hinc]
  have hlastpos : posOf g (g.count - 1) = tile * q * s - skew * s - p + (k - s) := by
    rw [hgc, hp _ (by omega)]; ring
  refine ⟨ho, by omega, ?_, hcode, by simp [posOf], ?_, ?_, ?_, by omega, ?_⟩
  · rw [hgf, hgc, hgi, hgli]; ring
  · rw [hp 1 (by omega)]; omega
  · intro j hj; rw [hp j hj, hp (j + 1) (by omega)]; ring
  · intro j hj; rw [hp j hj, hpe j hj]; ring
  · intro j h0 h1
    by_cases hl : j = g.count - 1
    · rw [if_pos hl]
      unfold tileSize
      simp only
      rw [if_pos hl, hl, hlastpos, hgl]; ring
    · rw [if_neg hl]
      unfold tileSize
      simp only
      rw [if_neg hl]
      by_cases hj0 : j = 0
      · subst hj0
        rw [if_pos rfl, hgfs, hp (0 + 1) (by omega)]
        simp [posOf]
      · rw [if_neg hj0]
        have hjq : (j + 1 - 1) * (tile * s) ≤ (q - 1) * (tile * s) := Int.mul_le_mul_of_nonneg_right (by omega) (by omega)
        have y1 : (q - 1) * (tile * s) = tile * q * s - tile * s := by ring
        have y2 : (j + 1 - 1) * (tile * s) = (j - 1) * (tile * s) + tile * s := by ring
        have y3 : 0 ≤ (j - 1) * (tile * s) := Int.mul_nonneg (by omega) (by omega)
        have p1 := hp j (by omega)
        have p2 := hp (j + 1) (by omega)
        generalize posOf g j = P at p1 ⊢
        generalize posOf g (j + 1) = Q at p2 ⊢
        have hPQ : Q = P + tile * s := by omega
        have hP : 0 ≤ P ∧ P + tile * s ≤ n := by omega
        rw [hgs, hPQ]
        rw [u32_id (x := P) ⟨by omega, by omega⟩, u32_id ⟨by omega, by omega⟩, min_eq_right (by omega)]

theorem mono_le (f : Nat → Int) (C : Nat) (hf : ∀ j, j < C → f j < f (j + 1)) (i j : Nat) (hij : i ≤ j) (hj : j ≤ C) : f i ≤ f j := by
  have step : ∀ t, i + t ≤ C → f i ≤ f (i + t) := by
    intro t
    induction t with
    | zero => intro _; simp
    | succ t iht =>
      intro ht
      have := hf (i + t) (by omega)
      have := iht (by omega)
      rw [← Nat.add_assoc]; omega
  have := step (j - i) (by omega)
  rwa [Nat.add_sub_cancel' hij] at this

/-- A strictly increasing sequence cuts an interval into pieces. -/
theorem pieces (f : Nat → Int) : ∀ C : Nat, (∀ j, j < C → f j < f (j + 1)) → ∀ x, f 0 ≤ x → x < f C →
    ∃ j, (j < C ∧ f j ≤ x ∧ x < f (j + 1)) ∧ ∀ i, i < C ∧ f i ≤ x ∧ x < f (i + 1) → i = j := by
  intro C
  induction C with
  | zero => intro _ x h0 h1; omega
  | succ C ih =>
    intro hf x h0 h1
    have hm : ∀ i, i ≤ C → f i ≤ f C := fun i hi => mono_le f (C + 1) hf i C hi (by omega)
    by_cases hx : x < f C
    · obtain ⟨j, ⟨j1, j2, j3⟩, hu⟩ := ih (fun j hj => hf j (by omega)) x h0 hx
      refine ⟨j, ⟨by omega, j2, j3⟩, ?_⟩
      rintro i ⟨i1, i2, i3⟩
      by_cases hi : i = C
      · subst hi; omega
      · exact hu i ⟨by omega, i2, i3⟩
    · refine ⟨C, ⟨by omega, by omega, h1⟩, ?_⟩
      rintro i ⟨i1, i2, i3⟩
      by_contra hne
      have := hm (i + 1) (by omega)
      omega

/-- What the user has to know about the first iteration dimension: it is the dimension `d` of the tensors, cut into tiles as in `KernOk`, and if there is more than one tile, the
last one needs at least one element beyond those of the tile before: the last input coordinate which the outputs before the last tile look at (through the last kernel tap) is
inside the input and not the last one. -/
structure HeadOk (oshape tiles ishape : List Int) (d : Nat) (skew : Int) (k s p : Nat → Int) : Prop where
  kern : KernOk (oshape.getD d 0) (tiles.getD d 0) skew (ishape.getD d 0) (k d) (s d) (p d)
  new : 1 ≤ (oshape.getD d 0 + skew - 1) / tiles.getD d 0 →
    (((oshape.getD d 0 + skew - 1) / tiles.getD d 0) * tiles.getD d 0 - skew - 1) * s d + (k d - 1) - p d < ishape.getD d 0 - 1

/-- Beginnings of the tiles of one dimension after the removal. -/
theorem overlap_dim {out tile skew n k s p : Int} (d : Int) (h : KernOk out tile skew n k s p) (C : Nat) (hC : (C : Int) = (out + skew - 1) / tile + 1)
    (hnew : 1 ≤ (out + skew - 1) / tile → (((out + skew - 1) / tile) * tile - skew - 1) * s + (k - 1) - p < n - 1) :
    let e := kernelDim (tileDim d out tile skew) n k s p
    let g := removeOverlapDim e
    g.order = d ∧ e.count = C ∧ g.count = C ∧ Closed g ∧ g.code = calcDiffCode g.count g.firstSize g.size g.lastSize ∧
    ∃ f : Nat → Int, f 0 = 0 ∧ f C = n ∧ (∀ j, j < C → f j < f (j + 1)) ∧
      (∀ j, j < C → posOf g j = f j ∧ posOf g j + tileSize n g { pos := posOf g j, idx := j } = f (j + 1)) ∧
      (∀ j, j < C → 0 ≤ posOf e j ∧ posOf e j < n ∧ posOf e j + tileSize n e { pos := posOf e j, idx := j } ≤ f (j + 1)) := by
  have hx : ∀ j, 0 ≤ j ∧ j < (tileDim d out tile skew).count → 0 ≤ posOf (kernelDim (tileDim d out tile skew) n k s p) j ∧
      posOf (kernelDim (tileDim d out tile skew) n k s p) j < n ∧ posOf (kernelDim (tileDim d out tile skew) n k s p) j +
        tileSize n (kernelDim (tileDim d out tile skew) n k s p) { pos := posOf (kernelDim (tileDim d out tile skew) n k s p) j, idx := j } ≤ n := by
    intro j hj
    obtain ⟨a1, a2, a3, _⟩ := c25_tile_extent d h j hj
    obtain ⟨b1, b2, b3, _⟩ := tileDim_spec d h.otile j hj
    refine ⟨a1, ?_, a2⟩
    rw [a3]
    have hs := h.hs
    have hl := h.hlast
    have hn := h.hn
    have : posOf (tileDim d out tile skew) j * s ≤ (out - 1) * s := Int.mul_le_mul_of_nonneg_right (by omega) (by omega)
    exact max_lt (by omega) (by omega)
  obtain ⟨q, r, f1, f2, f3, f4, f5, e1, e2, e3, e4, e5, e6, e7⟩ := tileDim_facts d h.otile
  obtain ⟨g0, g1, g2, g3, g4, g5, g6, g7, g8⟩ := kernelDim_facts d h
  have hcode : (kernelDim (tileDim d out tile skew) n k s p).code = calcDiffCode (kernelDim (tileDim d out tile skew) n k s p).count
    (kernelDim (tileDim d out tile skew) n k s p).firstSize (kernelDim (tileDim d out tile skew) n k s p).size
    (kernelDim (tileDim d out tile skew) n k s p).lastSize := rfl
  rw [e1] at g1 g4 g5 hx
  simp only
  have hq : (out + skew - 1) / tile = q := by
    have := h.otile.htile
    rw [show out + skew - 1 = (r - 1) + tile * q by omega, Int.add_mul_ediv_left _ _ (by omega), Int.ediv_eq_zero_of_lt (by omega) (by omega)]
    omega
  rw [hq] at hC hnew
  generalize kernelDim (tileDim d out tile skew) n k s p = e at *
  clear e1 e2 e3 e4 e5 e6 e7
  by_cases hq0 : q = 0
  · -- one tile only
    subst hq0
    have hC1 : C = 1 := by omega
    subst hC1
    have hg : removeOverlapDim e = e := by
      unfold removeOverlapDim; rw [if_neg (by omega)]
    have hn := h.hn
    have hl : e.lastSize = n := by rw [g8, g5 (by omega), u32_id ⟨by omega, by omega⟩]; omega
    rw [hg]
    refine ⟨g0, by omega, by omega, ?_, hcode, fun j => if j = 0 then 0 else n, rfl, rfl, ?_, ?_, ?_⟩
    · rw [closed_iff (by omega)]; left; exact ⟨by omega, g5 (by omega)⟩
    · intro j hj
      have : j = 0 := by omega
      subst this; simp; omega
    · intro j hj
      have : j = 0 := by omega
      subst this
      simp [posOf, tileSize, g1, hl]
    · intro j hj
      have : j = 0 := by omega
      subst this
      simpa using hx 0 (by omega)
  · have hq1 : 1 ≤ q := by omega
    have hnew' : tile * q * s - skew * s - p + (k - s) < n := by
      have := hnew hq1
      have e : (q * tile - skew - 1) * s + (k - 1) - p = tile * q * s - skew * s - p + (k - s) - 1 := by ring
      omega
    have hts : s ≤ tile * s := by
      have := h.otile.htile
      have := h.hs
      nlinarith
    have hs1 := h.hs
    have hn := h.hn
    obtain ⟨v1, v2, v3, v4, v5, v6, v7, v8, v9, v10, v11⟩ := removeOverlap_aux e h f1 f2 f3 g1 hq1 hnew' g2 g3 (g4 (by omega)) g6 g7 g8 _ rfl
    obtain ⟨w1, w2, w3, w4, w5, w6, w7, w8, w9, w10⟩ := removeOverlap_pos (tile := tile) (skew := skew) (n := n) (k := k) (s := s) (p := p) (q := q) e _ g1 hq1 (by omega)
      (by omega) g3 hnew' v1 v2 v3 v4 v5 v6 v7 v8 v9 v10 v11
    generalize removeOverlapDim e = g at *
    have hgC : g.count = C := by omega
    rw [hgC] at w3 w9 w10
    refine ⟨by omega, by omega, hgC, ?_, v3, fun j => if j = C then n else posOf g j, ?_, by simp, ?_, ?_, ?_⟩
    · rw [closed_iff (by omega)]; right; rw [hgC]; exact ⟨by omega, w3⟩
    · simp only [if_neg (show ¬ 0 = C by omega)]; exact w5
    · intro j hj
      simp only [if_neg (show ¬ j = C by omega)]
      by_cases hl : j + 1 = C
      · rw [if_pos hl]
        rw [show ((C : Int) - 1) = (j : Int) by omega] at w9
        exact w9
      · rw [if_neg hl]
        by_cases h0 : j = 0
        · subst h0; rw [show ((0 : Nat) : Int) = 0 from rfl, w5]; exact w6
        · have := w7 j (by omega)
          push_cast; omega
    · intro j hj
      simp only [if_neg (show ¬ j = C by omega), true_and]
      rw [w10 j (by omega) (by omega)]
      by_cases hl : j + 1 = C
      · rw [if_pos hl, if_pos (by omega)]
      · rw [if_neg hl, if_neg (by omega)]; push_cast; rfl
    · intro j hj
      obtain ⟨a1, a2, a3⟩ := hx j (by omega)
      refine ⟨a1, a2, ?_⟩
      simp only
      by_cases hl : j + 1 = C
      · rw [if_pos hl]; exact a3
      · rw [if_neg hl]
        by_cases h0 : j = 0
        · subst h0
          have e1 : posOf e ((0 : Nat) : Int) = 0 := by simp [posOf]
          have e2 : tileSize n e { pos := 0, idx := ((0 : Nat) : Int) } = e.firstSize := by
            unfold tileSize; rw [if_neg (by simp; omega), if_pos (by simp)]
          have e3 : posOf g ((0 + 1 : Nat) : Int) = g.firstInc := by simp [posOf]
          rw [e1, e2, e3, v4, g7]
          have : (tile - skew - 1) * s + k - p = tile * s - skew * s - s + k - p := by ring
          have := min_le_left ((tile - skew - 1) * s + k - p) n
          omega
        · have p1 := w8 j (by omega)
          have p2 := w7 j (by omega)
          have : tileSize n e { pos := posOf e j, idx := j } ≤ e.size := by
            unfold tileSize
            simp only
            rw [if_neg (by omega), if_neg (by omega)]
            exact min_le_right _ _
          rw [g6] at this
          have : (tile - 1) * s = tile * s - s := by ring
          push_cast
          omega

theorem tileCfg_head (shape tiles : List Int) (order : List Nat) (skew : Int) (h : TilingOk shape tiles order skew) (d : Nat) (hd : order.getD 0 0 = d) :
    ∃ rest, tileCfg shape tiles order skew = tileDim d (shape.getD d 0) (tiles.getD d 0) skew :: rest := by
  have h0 : 0 < order.length := by rw [h.len]; exact h.pos
  unfold tileCfg
  obtain ⟨n, hn⟩ : ∃ n, order.length = n + 1 := ⟨order.length - 1, by omega⟩
  rw [hn, List.range_succ_eq_map, List.map_cons]
  simp only [hd, if_true]
  exact ⟨_, rfl⟩

theorem kernelDim_closed (c : DimCfg) (n k s p : Int) (h : 1 ≤ (kernelDim c n k s p).count) :
    ((kernelDim c n k s p).count = 1 ∧ (kernelDim c n k s p).lastInc = 0) ∨
      (2 ≤ (kernelDim c n k s p).count ∧ (kernelDim c n k s p).firstInc + ((kernelDim c n k s p).count - 2) * (kernelDim c n k s p).inc +
        (kernelDim c n k s p).lastInc = 0) := by
  have hc : (kernelDim c n k s p).count = c.count := rfl
  have hl : (kernelDim c n k s p).lastInc = if c.count > 1 then
    (kernelDim c n k s p).inc * (2 - c.count) - (kernelDim c n k s p).firstInc else 0 := rfl
  rw [hc] at h ⊢
  rw [hl]
  by_cases h1 : c.count > 1
  · right; rw [if_pos h1]; exact ⟨by omega, by ring⟩
  · left; rw [if_neg h1]; exact ⟨by omega, rfl⟩

theorem overlap_core (ishape : List Int) (e g : DimCfg) (cs : List DimCfg) (d C : Nat) (hdl : d < ishape.length) (hn : 1 ≤ ishape.getD d 0 ∧ ishape.getD d 0 < 2 ^ 30)
    (hcpos : ∀ c ∈ e :: cs, 1 ≤ c.count) (hclosed : ∀ c ∈ e :: cs, 0 ≤ c.order ∧ (passIncs c).sum = 0) (eo : e.order = d)
    (o1 : g.order = d) (o2 : e.count = C) (o3 : g.count = C) (o4 : Closed g) (f : Nat → Int) (f0 : f 0 = 0) (fC : f C = ishape.getD d 0)
    (fm : ∀ j, j < C → f j < f (j + 1))
    (fg : ∀ j : Nat, j < C → posOf g j = f j ∧ posOf g j + tileSize (ishape.getD d 0) g { pos := posOf g j, idx := j } = f (j + 1))
    (fe : ∀ j : Nat, j < C → 0 ≤ posOf e j ∧ posOf e j < ishape.getD d 0 ∧ posOf e j + tileSize (ishape.getD d 0) e { pos := posOf e j, idx := j } ≤ f (j + 1)) :
    let old := fun m d => (subTensor ishape (e :: cs) (nextN (e :: cs) m).1).1.getD d 0
    let oldEnd := fun m d => old m d + (subTensor ishape (e :: cs) (nextN (e :: cs) m).1).2.getD d 0
    let new := fun m d => (subTensor ishape (g :: cs) (nextN (g :: cs) m).1).1.getD d 0
    let newEnd := fun m d => new m d + (subTensor ishape (g :: cs) (nextN (g :: cs) m).1).2.getD d 0
    (∀ (i : Nat) (x : Int), 0 ≤ x → x < ishape.getD d 0 →
      ∃ m : Nat, (m / C = i ∧ new m d ≤ x ∧ x < newEnd m d) ∧ ∀ m' : Nat, m' / C = i ∧ new m' d ≤ x ∧ x < newEnd m' d → m' = m) ∧
    (∀ (m : Nat) (x : Int), old m d ≤ x → x < oldEnd m d → ∃ m' : Nat, m' ≤ m ∧ m' / C = m / C ∧ new m' d ≤ x ∧ x < newEnd m' d) ∧
    (∀ m, 0 ≤ new m d ∧ new m d < newEnd m d ∧ newEnd m d ≤ ishape.getD d 0) ∧
    (∀ m d', d' ≠ d → new m d' = old m d' ∧ newEnd m d' = oldEnd m d') ∧
    (∀ c ∈ (g :: cs), 1 ≤ c.count ∧ 0 ≤ c.order ∧ (passIncs c).sum = 0) := by
  intro old oldEnd new newEnd
  have hgpos : ∀ c ∈ g :: cs, 1 ≤ c.count := by
    intro c hc
    rcases List.mem_cons.mp hc with rfl | hc
    · rw [o3, ← o2]; exact hcpos e (List.mem_cons_self ..)
    · exact hcpos c (List.mem_cons_of_mem _ hc)
  have hC0 : 0 < C := by
    have := hcpos e (List.mem_cons_self ..)
    omega
  have hfn : ∀ j, j ≤ C → 0 ≤ f j ∧ f j ≤ ishape.getD d 0 := by
    intro j hj
    have h1 := mono_le f C fm 0 j (by omega) hj
    have h2 := mono_le f C fm j C hj (by omega)
    omega
  have hnew : ∀ m, new m d = f (m % C) ∧ newEnd m d = f (m % C + 1) := by
    intro m
    have hm := Nat.mod_lt m hC0
    obtain ⟨a, b⟩ := head_tile ishape g cs hgpos (by rw [o1]; omega) m
    rw [o1, o3, show (d : Int).toNat = d from rfl, ← Int.natCast_mod] at a b
    obtain ⟨c1, c2⟩ := fg _ hm
    obtain ⟨b1, b2⟩ := hfn (m % C) (by omega)
    have e1 : new m d = f (m % C) := by
      show (subTensor ishape (g :: cs) (nextN (g :: cs) m).1).1.getD d 0 = _
      rw [a, c1, u32_id ⟨b1, by omega⟩]
    refine ⟨e1, ?_⟩
    show new m d + (subTensor ishape (g :: cs) (nextN (g :: cs) m).1).2.getD d 0 = _
    rw [e1, b, ← c2, c1]
  have hold : ∀ m, 0 ≤ old m d ∧ oldEnd m d ≤ f (m % C + 1) := by
    intro m
    have hm := Nat.mod_lt m hC0
    obtain ⟨a, b⟩ := head_tile ishape e cs hcpos (by rw [eo]; omega) m
    rw [eo, o2, show (d : Int).toNat = d from rfl, ← Int.natCast_mod] at a b
    obtain ⟨c1, c2, c3⟩ := fe _ hm
    have e1 : old m d = posOf e ((m % C : Nat) : Int) := by
      show (subTensor ishape (e :: cs) (nextN (e :: cs) m).1).1.getD d 0 = _
      rw [a, u32_id ⟨c1, by omega⟩]
    refine ⟨by omega, ?_⟩
    show old m d + (subTensor ishape (e :: cs) (nextN (e :: cs) m).1).2.getD d 0 ≤ _
    rw [e1, b]; exact c3
  refine ⟨?_, ?_, ?_, ?_, ?_⟩
  · intro i x x0 x1
    obtain ⟨j, ⟨j1, j2, j3⟩, hu⟩ := pieces f C fm x (by omega) (by omega)
    have hjm : (j + C * i) % C = j := by rw [Nat.add_mul_mod_self_left]; exact Nat.mod_eq_of_lt j1
    refine ⟨j + C * i, ⟨?_, ?_⟩, ?_⟩
    · rw [Nat.add_mul_div_left _ _ hC0, Nat.div_eq_of_lt j1]; omega
    · rw [(hnew _).1, (hnew _).2, hjm]; exact ⟨j2, j3⟩
    · rintro m' ⟨q1, q2⟩
      rw [(hnew _).1, (hnew _).2] at q2
      have := hu (m' % C) ⟨Nat.mod_lt _ hC0, q2⟩
      have := Nat.mod_add_div m' C
      rw [q1] at this
      omega
  · intro m x h0 h1
    obtain ⟨a, b⟩ := hold m
    have hm := Nat.mod_lt m hC0
    obtain ⟨j, ⟨j1, j2, j3⟩, _⟩ := pieces f (m % C + 1) (fun j hj => fm j (by omega)) x (by omega) (by omega)
    have hjm : (j + C * (m / C)) % C = j := by rw [Nat.add_mul_mod_self_left]; exact Nat.mod_eq_of_lt (by omega)
    refine ⟨j + C * (m / C), ?_, ?_, ?_⟩
    · have := Nat.mod_add_div m C; omega
    · rw [Nat.add_mul_div_left _ _ hC0, Nat.div_eq_of_lt (by omega)]; omega
    · rw [(hnew _).1, (hnew _).2, hjm]; exact ⟨j2, j3⟩
  · intro m
    have hm := Nat.mod_lt m hC0
    rw [(hnew _).1, (hnew _).2]
    exact ⟨(hfn _ (by omega)).1, fm _ hm, (hfn _ (by omega)).2⟩
  · intro m d' hd'
    obtain ⟨a, b⟩ := tail_tile ishape e g cs hcpos (by omega) (by omega) m d' (by rw [eo]; exact hd')
    exact ⟨a, by simp only [newEnd, oldEnd]; rw [show new m d' = old m d' from a, b]⟩
  · intro c hc
    refine ⟨hgpos c hc, ?_⟩
    rcases List.mem_cons.mp hc with rfl | hc
    · exact ⟨by omega, o4⟩
    · exact hclosed c (List.mem_cons_of_mem _ hc)

/-- **C87**: `RemoveOverlapAdjacentTiles` on the input tiling of a sliding-window kernel.  Along the first iteration dimension `d` (`C` tiles) every element is now in exactly one
tile of each pass, so it is transferred once; whatever a tile contained before has been transferred when the same tile is reached; the tiles are not empty and inside the tensor; the
other dimensions keep their tiles; and the increments still add up to zero. -/
theorem c87_no_overlap_partial (oshape tiles ishape : List Int) (order : List Nat) (skew : Int) (k s p : Nat → Int) (h : TilingOk oshape tiles order skew)
    (hlen : ishape.length = oshape.length) (d C : Nat) (hd : order.getD 0 0 = d) (hC : (C : Int) = (oshape.getD d 0 + skew - 1) / tiles.getD d 0 + 1)
    (hh : HeadOk oshape tiles ishape d skew k s p) :
    let icfg := kernelCfg (tileCfg oshape tiles order skew) ishape k s p
    let ncfg := removeOverlap icfg
    let old := fun m d => (subTensor ishape icfg (nextN icfg m).1).1.getD d 0
    let oldEnd := fun m d => old m d + (subTensor ishape icfg (nextN icfg m).1).2.getD d 0
    let new := fun m d => (subTensor ishape ncfg (nextN ncfg m).1).1.getD d 0
    let newEnd := fun m d => new m d + (subTensor ishape ncfg (nextN ncfg m).1).2.getD d 0
    (∀ (i : Nat) (x : Int), 0 ≤ x → x < ishape.getD d 0 →
      ∃ m : Nat, (m / C = i ∧ new m d ≤ x ∧ x < newEnd m d) ∧ ∀ m' : Nat, m' / C = i ∧ new m' d ≤ x ∧ x < newEnd m' d → m' = m) ∧
    (∀ (m : Nat) (x : Int), old m d ≤ x → x < oldEnd m d → ∃ m' : Nat, m' ≤ m ∧ m' / C = m / C ∧ new m' d ≤ x ∧ x < newEnd m' d) ∧
    (∀ m, 0 ≤ new m d ∧ new m d < newEnd m d ∧ newEnd m d ≤ ishape.getD d 0) ∧
    (∀ m d', d' ≠ d → new m d' = old m d' ∧ newEnd m d' = oldEnd m d') ∧
    (∀ c ∈ ncfg, 1 ≤ c.count ∧ 0 ≤ c.order ∧ (passIncs c).sum = 0) := by
  intro icfg ncfg
  obtain ⟨rest, hrest⟩ := tileCfg_head oshape tiles order skew h d hd
  have hdl : d < ishape.length := by
    rw [hlen]
    have h0 : 0 < order.length := by rw [h.len]; exact h.pos
    apply h.lt
    rw [← hd, List.getD_eq_getElem?_getD, List.getElem?_eq_getElem h0]
    exact List.getElem_mem ..
  obtain ⟨o1, o2, o3, o4, o5, f, f0, fC, fm, fg, fe⟩ := overlap_dim d hh.kern C hC hh.new
  have hcfg : icfg = kernelDim (tileDim d (oshape.getD d 0) (tiles.getD d 0) skew) (ishape.getD d 0) (k d) (s d) (p d) ::
      kernelCfg rest ishape k s p := by
    show kernelCfg (tileCfg oshape tiles order skew) ishape k s p = _
    rw [hrest]
    simp [kernelCfg, tileDim]
  have hn := hh.kern.hn
  have hcpos : ∀ c ∈ icfg, 1 ≤ c.count := by
    intro c hc
    obtain ⟨c', hc', rfl⟩ := List.mem_map.mp hc
    exact tileCfg_count_pos h c' hc'
  have hclosed : ∀ c ∈ icfg, 0 ≤ c.order ∧ (passIncs c).sum = 0 := by
    intro c hc
    have h1 := hcpos c hc
    obtain ⟨c', hc', rfl⟩ := List.mem_map.mp hc
    obtain ⟨d', sk, _, _, rfl⟩ := tileCfg_mem h hc'
    refine ⟨by simp [kernelDim, tileDim], ?_⟩
    exact (closed_iff h1).mpr (kernelDim_closed _ _ _ _ _ h1)
  have hncfg : ncfg = removeOverlapDim (kernelDim (tileDim d (oshape.getD d 0) (tiles.getD d 0) skew) (ishape.getD d 0) (k d) (s d) (p d)) ::
      kernelCfg rest ishape k s p := by
    show removeOverlap icfg = _
    rw [hcfg]; rfl
  rw [hcfg] at hcpos hclosed
  rw [hcfg, hncfg]
  exact overlap_core ishape _ _ _ d C hdl hn hcpos hclosed rfl o1 o2 o3 o4 f f0 fC fm fg fe

/-- The hypotheses are met by an output of 6 rows in tiles of 2 rows, kernel size 3, one row of padding on each side. -/
example : TilingOk [6, 4] [2, 4] [0, 1] 0 ∧ HeadOk [6, 4] [2, 4] [6, 4] 0 0 (fun d => if d = 0 then 3 else 1) (fun _ => 1) (fun d => if d = 0 then 1 else 0) := by
  refine ⟨⟨rfl, by decide, by decide, by decide, ?_⟩, ⟨⟨⟨by decide, by decide, by decide⟩, by decide, by decide, by decide, by decide, by decide, by decide, by decide⟩, by decide⟩⟩
  intro i hi
  have : i = 0 ∨ i = 1 := by simp at hi; omega
  rcases this with rfl | rfl <;> exact ⟨by decide, by decide, by decide⟩

/-- The tiles of this example, before and after: rows 0-2, 1-4, 3-5 become 0-2, 3-4, 5. -/
example :
    let icfg := kernelCfg (tileCfg [6, 4] [2, 4] [0, 1] 0) [6, 4] (fun d => if d = 0 then 3 else 1) (fun _ => 1) (fun d => if d = 0 then 1 else 0)
    (List.range 3).map (fun n => subTensor [6, 4] icfg (nextN icfg n).1) = [([0, 0], [3, 4]), ([1, 0], [4, 4]), ([3, 0], [3, 4])] ∧
    (List.range 3).map (fun n => subTensor [6, 4] (removeOverlap icfg) (nextN (removeOverlap icfg) n).1) =
      [([0, 0], [3, 4]), ([3, 0], [2, 4]), ([5, 0], [1, 4])] := by decide

/-- **Violation**: when the last tile needs nothing new (here a kernel of size 5 with post-padding), its remaining size is negative and wraps around to almost 2^32 elements. -/
theorem c87_wrap_violated :
    let icfg := kernelCfg (tileCfg [5] [1] [0] 0) [5] (fun _ => 5) (fun _ => 1) (fun _ => 0)
    subTensor [5] (removeOverlap icfg) (nextN (removeOverlap icfg) 4).1 = ([8], [4294967293]) := by decide

/-! ### Positions in the padded tensor -/

theorem stateAt_map_pos (t : DimCfg → DimCfg) (w : DimCfg → Int) : ∀ (cfg : List DimCfg),
    (∀ c ∈ cfg, 1 ≤ c.count ∧ (t c).count = c.count ∧ ∀ j, 0 ≤ j → j < c.count → posOf (t c) j = posOf c j * w c) → ∀ n : Int,
    (stateAt (cfg.map t) n).map (·.pos) = (cfg.zip (stateAt cfg n)).map fun q => q.2.pos * w q.1 := by
  intro cfg
  induction cfg with
  | nil => intro _ n; rfl
  | cons c cs ih =>
    intro h n
    obtain ⟨h1, h2, h3⟩ := h c (List.mem_cons_self ..)
    simp only [List.map_cons, stateAt, List.zip_cons_cons, h2]
    rw [ih (fun d hd => h d (List.mem_cons_of_mem _ hd)), h3 _ (Int.emod_nonneg _ (by omega)) (Int.emod_lt_of_pos _ (by omega))]

theorem prePad_dim {out tile skew n k s : Int} (p : Nat → Int) (d : Nat) (h : KernOk out tile skew n k s (p d)) :
    let e := prePadDim p (kernelDim (tileDim d out tile skew) n k s (p d))
    e.count = (tileDim d out tile skew).count ∧ e.order = d ∧ Closed e ∧
    ∀ j, 0 ≤ j → j < (tileDim d out tile skew).count → posOf e j = posOf (tileDim d out tile skew) j * s := by
  obtain ⟨q, r, f1, f2, f3, f4, f5, e1, e2, e3, e4, e5, e6, e7⟩ := tileDim_facts d h.otile
  obtain ⟨g0, g1, g2, g3, g4, g5, g6, g7, g8⟩ := kernelDim_facts d h
  simp only
  rw [e1] at g1 g4 g5
  have hpos : ∀ j, posOf (tileDim d out tile skew) j = if j = 0 then 0 else (tile - skew) + (j - 1) * tile := by
    intro j; unfold posOf; rw [e2, e3]
  rw [e1]
  generalize kernelDim (tileDim d out tile skew) n k s (p d) = e at *
  obtain ⟨⟨⟨t1, t2⟩, ⟨s1, s2⟩, hN⟩, hk, hs, ⟨hp0, hp1⟩, hf, hl, ⟨hn1, hn2⟩, hsm⟩ := h
  by_cases hq : q = 0
  · have hpd : prePadDim p e = e := by unfold prePadDim; rw [if_neg (by omega)]
    rw [hpd]
    refine ⟨g1, g0, ?_, ?_⟩
    · rw [closed_iff (by omega)]; left; exact ⟨by omega, g5 (by omega)⟩
    · intro j h0 h1
      have : j = 0 := by omega
      subst this
      rw [hpos]; simp [posOf]
  · have hts : tile * s ≤ out * s := Int.mul_le_mul_of_nonneg_right t2 (by omega)
    have hsk : 0 ≤ (tile - skew) * s := Int.mul_nonneg (by omega) (by omega)
    have hsk0 : 0 ≤ skew * s := Int.mul_nonneg (by omega) (by omega)
    have hqs : tile * q * s ≤ (out + skew) * s := Int.mul_le_mul_of_nonneg_right (by omega) (by omega)
    have hsk1 : skew * s ≤ tile * s := Int.mul_le_mul_of_nonneg_right (by omega) (by omega)
    have x2 : (tile - skew) * s = tile * s - skew * s := by ring
    have x3 : (out + skew) * s = out * s + skew * s := by ring
    have x5 : 0 ≤ tile * q * s := Int.mul_nonneg (Int.mul_nonneg (by omega) (by omega)) (by omega)
    have x6 : tile * s * (2 - (q + 1)) = tile * s - tile * q * s := by ring
    have hg4 := g4 (by omega)
    have hpd : prePadDim p e = { e with firstInc := (tile - skew) * s, lastInc := tile * s * (2 - (q + 1)) - (tile - skew) * s } := by
      unfold prePadDim
      rw [if_pos ⟨by omega, by omega⟩, g0, show (d : Int).toNat = d from rfl, g2, hg4, wrap_u32 ⟨by omega, by omega⟩, wrap_u32 ⟨by omega, by omega⟩]
      congr 1 <;> ring
    rw [hpd]
    refine ⟨g1, g0, ?_, ?_⟩
    · rw [closed_iff (by simp only; omega)]; right
      simp only
      rw [g1, g3]
      exact ⟨by omega, by ring⟩
    · intro j h0 h1
      rw [hpos]
      unfold posOf
      simp only
      split
      · ring
      · rw [g3]; ring

/-- **C90**: after `ApplyPrePadding` the input tiles are counted in the padded tensor: at every step the position of the input tile is the position of the output tile times the
stride, and the increments still add up to zero. -/
theorem c90_pre_padding (oshape tiles ishape : List Int) (order : List Nat) (skew : Int) (k s p : Nat → Int) (h : TilingOk oshape tiles order skew)
    (hk : ∀ i, i < order.length → KernOk (oshape.getD (order.getD i 0) 0) (tiles.getD (order.getD i 0) 0)
      (if i = 0 then skew else 0) (ishape.getD (order.getD i 0) 0) (k (order.getD i 0)) (s (order.getD i 0)) (p (order.getD i 0)))
    (n : Nat) :
    let ocfg := tileCfg oshape tiles order skew
    let pcfg := applyPrePadding (kernelCfg ocfg ishape k s p) p
    (nextN pcfg n).1.map (·.pos) = (ocfg.zip (nextN ocfg n).1).map (fun q => q.2.pos * s q.1.order.toNat) ∧
    (∀ c ∈ pcfg, 1 ≤ c.count ∧ 0 ≤ c.order ∧ (passIncs c).sum = 0) := by
  intro ocfg pcfg
  let t : DimCfg → DimCfg := fun c => prePadDim p (kernelDim c (ishape.getD c.order.toNat 0) (k c.order.toNat) (s c.order.toNat) (p c.order.toNat))
  have hp : pcfg = ocfg.map t := by
    show ((tileCfg oshape tiles order skew).map _).map _ = _
    rw [List.map_map]; rfl
  have hdim : ∀ c ∈ ocfg, ∃ (d : Nat) (tile sk : Int), c = tileDim d (oshape.getD d 0) tile sk ∧
      KernOk (oshape.getD d 0) tile sk (ishape.getD d 0) (k d) (s d) (p d) := by
    intro c hc
    obtain ⟨i, hi, rfl⟩ := List.mem_map.mp hc
    rw [List.mem_range] at hi
    exact ⟨_, _, _, rfl, hk i hi⟩
  have hpos := tileCfg_count_pos h
  have hall : ∀ c ∈ ocfg, (t c).count = c.count ∧ 0 ≤ (t c).order ∧ Closed (t c) ∧
      ∀ j, 0 ≤ j → j < c.count → posOf (t c) j = posOf c j * s c.order.toNat := by
    intro c hc
    obtain ⟨d, tile, sk, rfl, hK⟩ := hdim c hc
    obtain ⟨a1, a2, a3, a4⟩ := prePad_dim p d hK
    have ho : (tileDim (d : Int) (oshape.getD d 0) tile sk).order.toNat = d := by simp [tileDim]
    simp only [t, ho]
    exact ⟨a1, by omega, a3, a4⟩
  have hpp : ∀ c ∈ pcfg, 1 ≤ c.count := by
    rw [hp]
    intro c hc
    obtain ⟨c', hc', rfl⟩ := List.mem_map.mp hc
    rw [(hall c' hc').1]; exact hpos c' hc'
  constructor
  · rw [nextN_eq hpp, nextN_eq hpos, hp]
    apply stateAt_map_pos t (fun c => s c.order.toNat)
    intro c hc
    obtain ⟨a1, a2, a3, a4⟩ := hall c hc
    exact ⟨hpos c hc, a1, a4⟩
  · intro c hc
    refine ⟨hpp c hc, ?_⟩
    rw [hp] at hc
    obtain ⟨c', hc', rfl⟩ := List.mem_map.mp hc
    obtain ⟨a1, a2, a3, a4⟩ := hall c' hc'
    exact ⟨a2, a3⟩

/-- Positions of the example above in the padded tensor of 8 rows: 0, 2, 4. -/
example :
    let pcfg := applyPrePadding (kernelCfg (tileCfg [6, 4] [2, 4] [0, 1] 0) [6, 4] (fun d => if d = 0 then 3 else 1) (fun _ => 1) (fun d => if d = 0 then 1 else 0))
      (fun d => if d = 0 then 1 else 0)
    (List.range 3).map (fun n => (nextN pcfg n).1.map (·.pos)) = [[0, 0], [2, 0], [4, 0]] := by decide

/-! ## C88: transposed iterators -/

theorem getD_set_eq (l : List Int) (d e : Nat) (v : Int) (h : d < l.length) : (l.set d v).getD e 0 = if d = e then v else l.getD e 0 := by
  split
  · rename_i h'; subst h'; exact getD_set_self _ _ _ h
  · rename_i h'; exact getD_set_ne _ _ _ _ h'

theorem getD_map_getD (shape : List Int) (no : List Nat) (b : Nat) (h : b < no.length) :
    (no.map fun d => shape.getD d 0).getD b 0 = shape.getD (no.getD b 0) 0 := by
  rw [List.getD_eq_getElem?_getD, List.getElem?_map, List.getElem?_eq_getElem h, List.getD_eq_getElem?_getD (l := no), List.getElem?_eq_getElem h]
  rfl

theorem subTensor_transpose (shape : List Int) (no : List Nat) (hl : no.length = shape.length)
    (hinv : ∀ a, a < shape.length → no.getD a 0 < shape.length ∧ no.getD (no.getD a 0) 0 = a) :
    ∀ (cfg : List DimCfg) (ss : List DimSt), (∀ c ∈ cfg, c.order < shape.length) → ∀ a, a < shape.length →
    (subTensor (no.map fun d => shape.getD d 0) (transposeOrder cfg no) ss).1.getD a 0 = (subTensor shape cfg ss).1.getD (no.getD a 0) 0 ∧
    (subTensor (no.map fun d => shape.getD d 0) (transposeOrder cfg no) ss).2.getD a 0 = (subTensor shape cfg ss).2.getD (no.getD a 0) 0 := by
  have hzero : ∀ (l : List Int) (i : Nat), (l.map fun _ => (0 : Int)).getD i 0 = 0 := by
    intro l i
    rw [List.getD_eq_getElem?_getD, List.getElem?_map]
    cases l[i]? <;> rfl
  intro cfg
  induction cfg with
  | nil =>
    intro ss _ a ha
    simp only [transposeOrder, List.map_nil, subTensor]
    exact ⟨by rw [hzero, hzero], getD_map_getD shape no a (by omega)⟩
  | cons c cs ih =>
    intro ss ho a ha
    cases ss with
    | nil =>
      simp only [transposeOrder, List.map_cons, subTensor]
      exact ⟨by rw [hzero, hzero], getD_map_getD shape no a (by omega)⟩
    | cons st ss =>
      obtain ⟨i1, i2⟩ := ih ss (fun d hd => ho d (List.mem_cons_of_mem _ hd)) a ha
      have hc := ho c (List.mem_cons_self ..)
      by_cases hneg : c.order < 0
      · simp only [transposeOrder, List.map_cons, subTensor, hneg, if_true, show (-1 : Int) < 0 by omega]
        exact ⟨i1, i2⟩
      · have hd : c.order.toNat < shape.length := by omega
        obtain ⟨b1, b2⟩ := hinv _ hd
        obtain ⟨a1, a2⟩ := hinv a ha
        have hl1 := subTensor_length (no.map fun d => shape.getD d 0) (transposeOrder cs no) ss
        have hl2 := subTensor_length shape cs ss
        rw [List.length_map, hl] at hl1
        have hiff : (no.getD c.order.toNat 0 = a) ↔ (c.order.toNat = no.getD a 0) := by
          constructor
          · intro h; rw [← h]; exact b2.symm
          · intro h; rw [h]; exact a2
        have ht : ∀ (x : DimCfg) (y : Int), tileSize y { x with order := ((no.getD x.order.toNat 0 : Nat) : Int) } st = tileSize y x st := fun _ _ => rfl
        have hsh : (no.map fun d => shape.getD d 0).getD (no.getD c.order.toNat 0) 0 = shape.getD c.order.toNat 0 := by
          rw [getD_map_getD _ _ _ (by omega), b2]
        have hu : subTensor (no.map fun d => shape.getD d 0) (transposeOrder (c :: cs) no) (st :: ss) =
            ((subTensor (no.map fun d => shape.getD d 0) (transposeOrder cs no) ss).1.set (no.getD c.order.toNat 0) (u32 st.pos),
             (subTensor (no.map fun d => shape.getD d 0) (transposeOrder cs no) ss).2.set (no.getD c.order.toNat 0) (tileSize (shape.getD c.order.toNat 0) c st)) := by
          simp only [transposeOrder, List.map_cons, subTensor, hneg, if_false, Int.toNat_natCast, show ¬ (((no.getD c.order.toNat 0 : Nat) : Int) < 0) by omega]
          rw [hsh]; rfl
        have hv : subTensor shape (c :: cs) (st :: ss) =
            ((subTensor shape cs ss).1.set c.order.toNat (u32 st.pos), (subTensor shape cs ss).2.set c.order.toNat (tileSize (shape.getD c.order.toNat 0) c st)) := by
          simp only [subTensor, hneg, if_false]
        rw [hu, hv]
        simp only
        rw [getD_set_eq _ _ _ _ (by omega), getD_set_eq _ _ _ _ (by omega), getD_set_eq _ _ _ _ (by omega), getD_set_eq _ _ _ _ (by omega)]
        by_cases he : c.order.toNat = no.getD a 0
        · rw [if_pos he, if_pos he, if_pos (hiff.mpr he), if_pos (hiff.mpr he)]
          exact ⟨rfl, rfl⟩
        · rw [if_neg he, if_neg he, if_neg (fun h => he (hiff.mp h)), if_neg (fun h => he (hiff.mp h))]
          exact ⟨i1, i2⟩

theorem next_transposeOrder (cfg : List DimCfg) (no : List Nat) (ss : List DimSt) : next (transposeOrder cfg no) ss = next cfg ss := by
  unfold transposeOrder
  induction cfg generalizing ss with
  | nil => rfl
  | cons c cs ih =>
    cases ss with
    | nil => rfl
    | cons s ss =>
      simp only [List.map_cons, next, ih]
      simp

theorem nextN_transposeOrder (cfg : List DimCfg) (no : List Nat) (n : Nat) : nextN (transposeOrder cfg no) n = nextN cfg n := by
  induction n with
  | zero =>
    simp only [nextN, reset, transposeOrder, List.map_map]
    rfl
  | succ n ih => simp only [nextN]; rw [ih, next_transposeOrder]

/-- **C88**: for a permutation that is its own inverse, the transposed iterator visits the transposed tiles: at every step the tile's position and size along dimension `a` are those
of the original iterator along dimension `no[a]`, which is the dimension `a` of the transposed tensor (`c26_transpose`). -/
theorem c88_transpose_partial (shape : List Int) (cfg : List DimCfg) (no : List Nat) (hl : no.length = shape.length)
    (hinv : ∀ a, a < shape.length → no.getD a 0 < shape.length ∧ no.getD (no.getD a 0) 0 = a)
    (hord : ∀ c ∈ cfg, c.order < shape.length) (n a : Nat) (ha : a < shape.length) :
    let tshape := no.map fun d => shape.getD d 0
    let tcfg := transposeOrder cfg no
    (subTensor tshape tcfg (nextN tcfg n).1).1.getD a 0 = (subTensor shape cfg (nextN cfg n).1).1.getD (no.getD a 0) 0 ∧
    (subTensor tshape tcfg (nextN tcfg n).1).2.getD a 0 = (subTensor shape cfg (nextN cfg n).1).2.getD (no.getD a 0) 0 ∧
    nextN tcfg n = nextN cfg n := by
  intro tshape tcfg
  have hnn : nextN tcfg n = nextN cfg n := nextN_transposeOrder cfg no n
  rw [hnn]
  obtain ⟨h1, h2⟩ := subTensor_transpose shape no hl hinv cfg (nextN cfg n).1 hord a ha
  exact ⟨h1, h2, rfl⟩

/-- Swapping height and channels of tiles over a 2×3×4 tensor. -/
example : (∀ a, a < 3 → [2, 1, 0].getD a 0 < 3 ∧ [2, 1, 0].getD ([2, 1, 0].getD a 0) 0 = a) ∧
    (let cfg := tileCfg [2, 3, 4] [2, 3, 3] [2, 0, 1] 0
     subTensor [2, 3, 4] cfg (nextN cfg 1).1 = ([0, 0, 3], [2, 3, 1]) ∧
     subTensor [4, 3, 2] (transposeOrder cfg [2, 1, 0]) (nextN (transposeOrder cfg [2, 1, 0]) 1).1 = ([3, 0, 0], [1, 3, 2])) := by decide

/-- **Violation**: for a cyclic permutation the tensor and its tiles are transposed in opposite directions.  Dimension `a` of the transposed tensor is dimension `no[a]` of the
original; the tiles along dimension `d` of the original become tiles along `no[d]`.  Here 2 tiles of 1×3×4 become tiles with 3 elements along a dimension of 2. -/
theorem c88_cycle_violated :
    let no := [1, 2, 0]
    let shape := [2, 3, 4]
    let tshape := no.map fun d => shape.getD d 0
    let cfg := tileCfg shape [1, 3, 4] [0, 1, 2] 0
    tshape = [3, 4, 2] ∧ subTensor shape cfg (nextN cfg 0).1 = ([0, 0, 0], [1, 3, 4]) ∧
    subTensor tshape (transposeOrder cfg no) (nextN (transposeOrder cfg no) 0).1 = ([0, 0, 0], [4, 1, 3]) := by decide

/-! ## Offsets -/

/-- Offset of a position: the sum over the iteration dimensions of the position times the stride of the tensor dimension. -/
def posOffs (stride : List Int) : List DimCfg → List Int → Int
  | c :: cs, p :: ps => p * stride.getD c.order.toNat 0 + posOffs stride cs ps
  | _, _ => 0

theorem posOffs_zero (stride : List Int) : ∀ cfg : List DimCfg, posOffs stride cfg (cfg.map fun _ => 0) = 0 := by
  intro cfg
  induction cfg with
  | nil => rfl
  | cons c cs ih => simp only [List.map_cons, posOffs, ih]; ring

theorem nextOffs_eq (stride : List Int) : ∀ (cfg : List DimCfg), (∀ c ∈ cfg, 0 ≤ c.order) → ∀ idx : List Int, cfg.length = idx.length →
    (nextOffs stride cfg idx).1 = posOffs stride cfg (nextInc cfg idx).1 ∧ (nextOffs stride cfg idx).2 = (nextInc cfg idx).2 := by
  intro cfg
  induction cfg with
  | nil => intro _ idx _; simp [nextOffs, nextInc, posOffs]
  | cons c cs ih =>
    intro ho idx hl
    cases idx with
    | nil => simp at hl
    | cons i is =>
      have hc := ho c (List.mem_cons_self ..)
      obtain ⟨i1, i2⟩ := ih (fun d hd => ho d (List.mem_cons_of_mem _ hd)) is (by simpa using hl)
      simp only [nextOffs, nextInc, if_neg (show ¬ c.order < 0 by omega)]
      split
      · simp only [posOffs]
        rw [i1, show (nextOffs stride cs is).2.1 = (nextInc cs is).2.1 from congrArg _ i2, show (nextOffs stride cs is).2.2 = (nextInc cs is).2.2 from congrArg _ i2]
        exact ⟨rfl, rfl⟩
      · split
        · simp only [posOffs, posOffs_zero, Int.add_zero]
          exact ⟨trivial, trivial⟩
        · simp only [posOffs, posOffs_zero, Int.add_zero]
          exact ⟨trivial, trivial⟩

theorem posOffs_add (stride : List Int) : ∀ (cfg : List DimCfg) (p q : List Int), p.length = cfg.length → q.length = cfg.length →
    posOffs stride cfg (List.zipWith (· + ·) p q) = posOffs stride cfg p + posOffs stride cfg q := by
  intro cfg
  induction cfg with
  | nil => intro p q _ _; simp [posOffs]
  | cons c cs ih =>
    intro p q hp hq
    cases p with
    | nil => simp at hp
    | cons x xs =>
      cases q with
      | nil => simp at hq
      | cons y ys =>
        simp only [List.zipWith_cons_cons, posOffs]
        rw [ih xs ys (by simpa using hp) (by simpa using hq)]
        ring

theorem nextInc_length : ∀ (cfg : List DimCfg) (idx : List Int), cfg.length = idx.length → (nextInc cfg idx).1.length = cfg.length := by
  intro cfg
  induction cfg with
  | nil => intro idx _; simp [nextInc]
  | cons c cs ih =>
    intro idx hl
    cases idx with
    | nil => simp at hl
    | cons i is =>
      have := ih is (by simpa using hl)
      simp only [nextInc]
      split
      · simp [this]
      · split
        · simp [this]
        · split <;> simp

theorem wrap_add_wrap (a b : Int) : wrap 32 (wrap 32 a + b) = wrap 32 (a + b) := by
  have h1 := wrap_emod 32 a
  have h2 := wrap_emod 32 (wrap 32 a + b)
  have h3 := wrap_emod 32 (a + b)
  have h4 := wrap_inRange (w := 32) (wrap 32 a + b)
  have h5 := wrap_inRange (w := 32) (a + b)
  unfold InRange lo hi at h4 h5
  norm_num at *
  omega

/-- **C23**: a caller that adds up the increments returned by `Next(offset_inc)` is always at the offset of the position that `Next()` maintains (as an `int32_t`), and every completed
pass brings the offset back to 0. -/
theorem c23_offset_increments (stride : List Int) (cfg : List DimCfg) (h : ∀ c ∈ cfg, 1 ≤ c.count ∧ 0 ≤ c.order ∧ (passIncs c).sum = 0) (n : Nat) :
    (accOffs stride cfg n).1 = wrap 32 (((cfg.zip (nextN cfg n).1).map fun q => q.2.pos * stride.getD q.1.order.toNat 0).sum) ∧
    (accOffs stride cfg (n * (prod (cfg.map (·.count))).toNat)).1 = 0 := by
  have hpos : ∀ c ∈ cfg, 1 ≤ c.count := fun c hc => (h c hc).1
  have key : ∀ m : Nat, accOffs stride cfg m = (wrap 32 (posOffs stride cfg (accInc cfg m).1), (accInc cfg m).2) := by
    intro m
    induction m with
    | zero =>
      simp only [accOffs, accInc, posOffs_zero]
      rfl
    | succ m ih =>
      have he := accInc_eq h m
      have hl1 : (accInc cfg m).1.length = cfg.length := by rw [he]; simp [stateAt_length]
      have hl2 : (accInc cfg m).2.length = cfg.length := by rw [he]; simp [stateAt_length]
      obtain ⟨n1, n2⟩ := nextOffs_eq stride cfg (fun c hc => (h c hc).2.1) (accInc cfg m).2 hl2.symm
      simp only [accOffs, accInc, ih]
      rw [n1, show (nextOffs stride cfg (accInc cfg m).2).2.1 = (nextInc cfg (accInc cfg m).2).2.1 from congrArg _ n2, wrap_add_wrap,
        posOffs_add _ _ _ _ hl1 (nextInc_length _ _ hl2.symm)]
  obtain ⟨c1, c2, c3⟩ := c23_increments cfg h n
  constructor
  · rw [key]
    simp only [c1]
    congr 1
    generalize (nextN cfg n).1 = ss
    clear c1 c2 c3 key h hpos
    induction cfg generalizing ss with
    | nil => rfl
    | cons c cs ih =>
      cases ss with
      | nil => rfl
      | cons s ss => simp only [List.map_cons, posOffs, List.zip_cons_cons, List.sum_cons, ih]
  · rw [key]
    simp only [c3, posOffs_zero]
    rfl

/-- Three tiles of 2 rows over a 5×4 tensor: the offsets are 0, 8, 16 and 0 again. -/
example : let cfg := tileCfg [5, 4] [2, 4] [0, 1] 0
    (List.range 4).map (fun n => (accOffs [4, 1] cfg n).1) = [0, 8, 16, 0] ∧ ∀ c ∈ cfg, 1 ≤ c.count ∧ 0 ≤ c.order ∧ (passIncs c).sum = 0 := by decide

end Mli.Iter
