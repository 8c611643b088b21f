import Verif.Props.IterOps

/-!
# C89: converting the granularity of tensors and tilings

A tensor of elements of `old` bytes is turned into one of vectors of `new` bytes, and so is a tiling of it.
-/

namespace Mli.Iter
open Mli Mli.Spec

theorem ceilDivU_exact {a new : Int} (hn : 1 ≤ new) (ha : 0 ≤ a) (h : new * a + new < 2 ^ 32) : ceilDivU (new * a) new = a := by
  have hp : 0 ≤ new * a := Int.mul_nonneg (by omega) ha
  unfold ceilDivU
  rw [u32_id (x := new * a + new) ⟨by omega, by omega⟩, u32_id ⟨by omega, by omega⟩, show new * a + new - 1 = (new - 1) + new * a by ring, Int.add_mul_ediv_left _ _ (by omega),
    Int.ediv_eq_zero_of_lt (by omega) (by omega)]
  omega

theorem ceilDivS_exact {a new : Int} (hn : 1 ≤ new) (ha : 0 ≤ a) : ceilDivS (new * a) new = a := by
  have hp : 0 ≤ new * a := Int.mul_nonneg (by omega) ha
  unfold ceilDivS
  rw [Int.tdiv_eq_ediv_of_nonneg (by omega), show new * a + new - 1 = (new - 1) + new * a by ring, Int.add_mul_ediv_left _ _ (by omega),
    Int.ediv_eq_zero_of_lt (by omega) (by omega)]
  omega

/-- `CEIL_DIV` of a negative multiple is one too large, for every granularity above 1. -/
theorem ceilDivS_neg {a new : Int} (hn : 2 ≤ new) (ha : a < 0) : ceilDivS (new * a) new = a + 1 := by
  unfold ceilDivS
  have e : new * a + new - 1 = -(1 + new * (-(a + 1))) := by ring
  rw [e, Int.neg_tdiv, Int.tdiv_eq_ediv_of_nonneg (by have : 0 ≤ new * (-(a + 1)) := Int.mul_nonneg (by omega) (by omega); omega),
    Int.add_mul_ediv_left _ _ (by omega), Int.ediv_eq_zero_of_lt (by omega) (by omega)]
  omega

theorem tile_size {n tile skew : Int} (d : Int) (h : TileOk n tile skew) (j : Int) (hj : 0 ≤ j ∧ j < (tileDim d n tile skew).count) :
    tileSize n (tileDim d n tile skew) { pos := posOf (tileDim d n tile skew) j, idx := j } =
      if j = (tileDim d n tile skew).count - 1 then (tileDim d n tile skew).lastSize else if j = 0 then tile - skew else tile := by
  obtain ⟨q, r, h1, h2, h3, h4, h5, e1, e2, e3, e4, e5, e6, e7⟩ := tileDim_facts d h
  have hp := posOf_tileDim d h j hj.1
  obtain ⟨⟨t1, t2⟩, ⟨s1, s2⟩, hn⟩ := h
  unfold tileSize
  simp only
  split
  · rfl
  · split
    · exact e5
    · have hj1 : 1 ≤ j := by omega
      rw [e1] at hj
      have a1 : tile ≤ j * tile := by nlinarith
      have hjq : j + 1 ≤ q := by omega
      have a2 : (j + 1) * tile ≤ tile * q := by nlinarith
      have a3 : (j + 1) * tile = j * tile + tile := by ring
      rw [hp, e6, max_eq_right (by omega), u32_id (x := j * tile - skew) ⟨by omega, by omega⟩, u32_id ⟨by omega, by omega⟩, min_eq_right (by omega)]

/-- One dimension: what the tiling of `n` elements and the tiling of `n'` vectors have to do with each other. -/
structure Scaled (n tile skew n' tile' skew' old new : Int) : Prop where
  old1 : 1 ≤ old
  new1 : 1 ≤ new
  hn : new * n' = n * old
  ht : new * tile' = tile * old
  hs : new * skew' = skew * old
  small : n * old + new < 2 ^ 30

theorem Scaled.tileOk {n tile skew n' tile' skew' old new : Int} (h : TileOk n tile skew) (hS : Scaled n tile skew n' tile' skew' old new) :
    TileOk n' tile' skew' := by
  obtain ⟨⟨t1, t2⟩, ⟨s1, s2⟩, hn⟩ := h
  obtain ⟨o1, n1, hN, hT, hK, hsm⟩ := hS
  have p1 : 0 < tile * old := Int.mul_pos (by omega) (by omega)
  have p2 : tile * old ≤ n * old := Int.mul_le_mul_of_nonneg_right t2 (by omega)
  have p3 : 0 ≤ skew * old := Int.mul_nonneg s1 (by omega)
  have p4 : skew * old < tile * old := Int.mul_lt_mul_of_pos_right s2 (by omega)
  have q1 : 0 < tile' := by
    by_contra hc
    have : new * tile' ≤ 0 := Int.mul_nonpos_of_nonneg_of_nonpos (by omega) (by omega)
    omega
  have q2 : tile' ≤ n' := by
    by_contra hc
    have : new * n' < new * tile' := Int.mul_lt_mul_of_pos_left (by omega) (by omega)
    omega
  have q3 : 0 ≤ skew' := by
    by_contra hc
    have : new * skew' < 0 := Int.mul_neg_of_pos_of_neg (by omega) (by omega)
    omega
  have q4 : skew' < tile' := by
    by_contra hc
    have : new * tile' ≤ new * skew' := Int.mul_le_mul_of_nonneg_left (by omega) (by omega)
    omega
  have q5 : 1 * n' ≤ new * n' := Int.mul_le_mul_of_nonneg_right n1 (by omega)
  exact ⟨⟨by omega, q2⟩, ⟨q3, q4⟩, by omega⟩

/-- Same number of tiles, scaled sizes. -/
theorem scaled_count {n tile skew n' tile' skew' old new : Int} (d : Int) (h : TileOk n tile skew) (hS : Scaled n tile skew n' tile' skew' old new) :
    (tileDim d n' tile' skew').count = (tileDim d n tile skew).count ∧
    new * (tileDim d n' tile' skew').lastSize = (tileDim d n tile skew).lastSize * old := by
  obtain ⟨q, r, h1, h2, h3, h4, h5, e1, e2, e3, e4, e5, e6, e7⟩ := tileDim_facts d h
  obtain ⟨q', r', h1', h2', h3', h4', h5', e1', e2', e3', e4', e5', e6', e7'⟩ := tileDim_facts d (hS.tileOk h)
  obtain ⟨o1, n1, hN, hT, hK, hsm⟩ := hS
  rw [e1, e1', e7, e7']
  have k1 : new * (tile' * q' + r') = (tile * q + r) * old := by
    rw [← h1, ← h1']; ring_nf; linarith
  have k2 : new * tile' * (q' - q) = r * old - new * r' := by
    have : new * (tile' * q' + r') = new * tile' * q' + new * r' := by ring
    have : (tile * q + r) * old = tile * old * q + r * old := by ring
    have : new * tile' * q = tile * old * q := by rw [hT]
    have : new * tile' * (q' - q) = new * tile' * q' - new * tile' * q := by ring
    omega
  have b1 : 0 < r * old := Int.mul_pos (by omega) (by omega)
  have b2 : r * old ≤ tile * old := Int.mul_le_mul_of_nonneg_right h3 (by omega)
  have b3 : 0 < new * r' := Int.mul_pos (by omega) (by omega)
  have b4 : new * r' ≤ new * tile' := Int.mul_le_mul_of_nonneg_left h3' (by omega)
  have hq : q' - q = 0 := by
    by_contra hc
    rcases (by omega : q' - q ≤ -1 ∨ 1 ≤ q' - q) with hc | hc
    · have : new * tile' * (q' - q) ≤ new * tile' * (-1) := Int.mul_le_mul_of_nonneg_left hc (by omega)
      omega
    · have : new * tile' * 1 ≤ new * tile' * (q' - q) := Int.mul_le_mul_of_nonneg_left hc (by omega)
      omega
  rw [hq, Int.mul_zero] at k2
  exact ⟨by omega, by omega⟩

theorem mul_cancel_iff {a b a' b' old new : Int} (ho : 1 ≤ old) (hn : 1 ≤ new) (ha : new * a' = a * old) (hb : new * b' = b * old) : a' = b' ↔ a = b := by
  constructor
  · intro h
    have : a * old = b * old := by rw [← ha, ← hb, h]
    exact Int.eq_of_mul_eq_mul_right (by omega) this
  · intro h
    have : new * a' = new * b' := by rw [ha, hb, h]
    exact Int.eq_of_mul_eq_mul_left (by omega) this

theorem calcDiffCode_scaled {f s l f' s' l' old new : Int} (c : Int) (ho : 1 ≤ old) (hn : 1 ≤ new) (hf : new * f' = f * old) (hs : new * s' = s * old)
    (hl : new * l' = l * old) : calcDiffCode c f' s' l' = calcDiffCode c f s l := by
  unfold calcDiffCode
  simp only [ne_eq, mul_cancel_iff ho hn hf hl, mul_cancel_iff ho hn hf hs, mul_cancel_iff ho hn hs hl]

/-- One dimension: the converted tiling is the tiling of the converted dimension, up to the last increment. -/
theorem gran_dim {n tile skew n' tile' skew' old new : Int} (d : Int) (h : TileOk n tile skew) (hS : Scaled n tile skew n' tile' skew' old new) :
    convertGranDim d old new (tileDim d n tile skew) =
      { tileDim d n' tile' skew' with lastInc := ceilDivS ((tileDim d n tile skew).lastInc * old) new } := by
  obtain ⟨hc, hl⟩ := scaled_count d h hS
  have h' := hS.tileOk h
  obtain ⟨q, r, h1, h2, h3, h4, h5, e1, e2, e3, e4, e5, e6, e7⟩ := tileDim_facts d h
  obtain ⟨q', r', h1', h2', h3', h4', h5', e1', e2', e3', e4', e5', e6', e7'⟩ := tileDim_facts d h'
  obtain ⟨⟨t1, t2⟩, ⟨s1, s2⟩, hn⟩ := h
  obtain ⟨⟨t1', t2'⟩, ⟨s1', s2'⟩, hn'⟩ := h'
  obtain ⟨o1, n1, hN, hT, hK, hsm⟩ := hS
  have hf : new * (tile' - skew') = (tile - skew) * old := by
    have : new * (tile' - skew') = new * tile' - new * skew' := by ring
    have : (tile - skew) * old = tile * old - skew * old := by ring
    omega
  have hcode : (tileDim d n' tile' skew').code = (tileDim d n tile skew).code := by
    have a1 : (tileDim d n tile skew).code = calcDiffCode (tileDim d n tile skew).count (tileDim d n tile skew).firstSize tile (tileDim d n tile skew).lastSize := rfl
    have a2 : (tileDim d n' tile' skew').code =
      calcDiffCode (tileDim d n' tile' skew').count (tileDim d n' tile' skew').firstSize tile' (tileDim d n' tile' skew').lastSize := rfl
    rw [a1, a2, hc, e5, e5']
    exact calcDiffCode_scaled _ o1 n1 hf hT hl
  have p1 : tile * old ≤ n * old := Int.mul_le_mul_of_nonneg_right t2 (by omega)
  have p2 : (tile - skew) * old ≤ n * old := Int.mul_le_mul_of_nonneg_right (by omega) (by omega)
  have p3 : r * old ≤ n * old := Int.mul_le_mul_of_nonneg_right (by omega) (by omega)
  have z1 : 0 ≤ tile * old := Int.mul_nonneg (by omega) (by omega)
  have z2 : 0 ≤ (tile - skew) * old := Int.mul_nonneg (by omega) (by omega)
  have z3 : 0 ≤ r * old := Int.mul_nonneg (by omega) (by omega)
  rw [e7, e7'] at hl
  unfold convertGranDim
  rw [if_pos (show (tileDim d n tile skew).order = d from rfl), e2, e3, e5, e6, e7]
  have v1 : ceilDivU (u32 ((tile - skew) * old)) new = tile' - skew' := by rw [u32_id ⟨by omega, by omega⟩, ← hf]; exact ceilDivU_exact n1 (by omega) (by omega)
  have v2 : ceilDivU (u32 (tile * old)) new = tile' := by rw [u32_id ⟨by omega, by omega⟩, ← hT]; exact ceilDivU_exact n1 (by omega) (by omega)
  have v3 : ceilDivU (u32 (r * old)) new = r' := by rw [u32_id ⟨by omega, by omega⟩, ← hl]; exact ceilDivU_exact n1 (by omega) (by omega)
  have v4 : ceilDivS ((tile - skew) * old) new = tile' - skew' := by rw [← hf]; exact ceilDivS_exact n1 (by omega)
  have v5 : ceilDivS (tile * old) new = tile' := by rw [← hT]; exact ceilDivS_exact n1 (by omega)
  rw [v1, v2, v3, v4, v5]
  have ho : (tileDim d n tile skew).order = d := rfl
  have ho' : (tileDim d n' tile' skew').order = d := rfl
  generalize tileDim d n tile skew = c at *
  generalize tileDim d n' tile' skew' = c' at *
  cases c
  cases c'
  simp only at *
  subst ho ho' hcode e2' e3' e5' e6' e7'
  rw [hc]

/-- The members that `Next()` and `GetSubTensor` look at. -/
def noLast (c : DimCfg) : DimCfg := { c with lastInc := 0 }

theorem next_noLast (cfg : List DimCfg) (ss : List DimSt) : next (cfg.map noLast) ss = next cfg ss := by
  induction cfg generalizing ss with
  | nil => rfl
  | cons c cs ih =>
    cases ss with
    | nil => rfl
    | cons s ss =>
      simp only [List.map_cons, next, ih]
      simp [noLast]

theorem nextN_noLast (cfg : List DimCfg) (n : Nat) : nextN (cfg.map noLast) n = nextN cfg n := by
  induction n with
  | zero =>
    simp only [nextN, reset, List.map_map]
    rfl
  | succ n ih => simp only [nextN]; rw [ih, next_noLast]

theorem subTensor_noLast (shape : List Int) (cfg : List DimCfg) (ss : List DimSt) : subTensor shape (cfg.map noLast) ss = subTensor shape cfg ss := by
  induction cfg generalizing ss with
  | nil => rfl
  | cons c cs ih =>
    cases ss with
    | nil => rfl
    | cons s ss =>
      simp only [List.map_cons, subTensor, ih]
      rfl

/-- Bytes per unit along dimension `d`. -/
def gran (tnsDim g d : Nat) : Int := if d = tnsDim then g else 1

/-- A tensor and a tiling of it, before and after the conversion of dimension `tnsDim` from units of `old` bytes to units of `new` bytes.  All sizes are whole numbers of new
units; the sizes of the other dimensions stay. -/
structure GranOk (shape tiles shape' tiles' : List Int) (order : List Nat) (skew skew' : Int) (tnsDim : Nat) (old new : Int) : Prop where
  tiling : TilingOk shape tiles order skew
  len : shape'.length = shape.length
  dim : ∀ i, i < order.length → order.getD i 0 = tnsDim →
    Scaled (shape.getD tnsDim 0) (tiles.getD tnsDim 0) (if i = 0 then skew else 0) (shape'.getD tnsDim 0) (tiles'.getD tnsDim 0) (if i = 0 then skew' else 0) old new
  rest : ∀ i, i < order.length → order.getD i 0 ≠ tnsDim →
    shape'.getD (order.getD i 0) 0 = shape.getD (order.getD i 0) 0 ∧ tiles'.getD (order.getD i 0) 0 = tiles.getD (order.getD i 0) 0 ∧ (i = 0 → skew' = skew)

theorem gran_cfg {shape tiles shape' tiles' : List Int} {order : List Nat} {skew skew' : Int} {tnsDim : Nat} {old new : Int}
    (h : GranOk shape tiles shape' tiles' order skew skew' tnsDim old new) :
    (convertGran (tileCfg shape tiles order skew) tnsDim old new).map noLast = (tileCfg shape' tiles' order skew').map noLast := by
  unfold convertGran tileCfg
  rw [List.map_map, List.map_map, List.map_map]
  apply List.map_congr_left
  intro i hi
  rw [List.mem_range] at hi
  simp only [Function.comp_apply]
  by_cases hd : order.getD i 0 = tnsDim
  · rw [hd]
    have ht := h.tiling.dims i hi
    rw [hd] at ht
    rw [gran_dim (tnsDim : Int) ht (h.dim i hi hd)]
    rfl
  · obtain ⟨r1, r2, r3⟩ := h.rest i hi hd
    rw [r1, r2]
    have hs : (if i = 0 then skew' else 0) = (if i = 0 then skew else 0) := by
      split
      · rename_i h0; exact r3 h0
      · rfl
    rw [hs]
    have hne : ¬ (tileDim ((order.getD i 0 : Nat) : Int) (shape.getD (order.getD i 0) 0) (tiles.getD (order.getD i 0) 0) (if i = 0 then skew else 0)).order =
        (tnsDim : Int) := by
      show ¬ ((order.getD i 0 : Nat) : Int) = (tnsDim : Int)
      exact_mod_cast hd
    unfold convertGranDim
    rw [if_neg hne]

/-- The tiles of the two tilings, at the same number of steps. -/
theorem scaled_tiles {shape shape' : List Int} (hlen : shape'.length = shape.length) (B A : Nat → Int) : ∀ (l : List Nat) (f f' : Nat → DimCfg),
    (∀ i ∈ l, 0 ≤ (f i).order ∧ (f i).order < shape.length ∧ (f' i).order = (f i).order ∧ 1 ≤ (f i).count ∧ (f' i).count = (f i).count ∧
      ∀ j, 0 ≤ j → j < (f i).count →
        B (f i).order.toNat * u32 (posOf (f' i) j) = u32 (posOf (f i) j) * A (f i).order.toNat ∧
        B (f i).order.toNat * tileSize (shape'.getD (f i).order.toNat 0) (f' i) { pos := posOf (f' i) j, idx := j } =
          tileSize (shape.getD (f i).order.toNat 0) (f i) { pos := posOf (f i) j, idx := j } * A (f i).order.toNat) →
    ∀ (n : Int) (d : Nat), B d * shape'.getD d 0 = shape.getD d 0 * A d → 
      B d * (subTensor shape' (l.map f') (stateAt (l.map f') n)).1.getD d 0 = (subTensor shape (l.map f) (stateAt (l.map f) n)).1.getD d 0 * A d ∧
      B d * (subTensor shape' (l.map f') (stateAt (l.map f') n)).2.getD d 0 = (subTensor shape (l.map f) (stateAt (l.map f) n)).2.getD d 0 * A d := by
  have hzero : ∀ (l : List Int) (i : Nat), (l.map fun _ => (0 : Int)).getD i 0 = 0 := by
    intro l i
    rw [List.getD_eq_getElem?_getD, List.getElem?_map]
    cases l[i]? <;> rfl
  intro l f f'
  induction l with
  | nil =>
    intro _ n d hd
    simp only [List.map_nil, subTensor]
    exact ⟨by rw [hzero, hzero]; ring, hd⟩
  | cons i is ih =>
    intro h n d hd
    obtain ⟨h0, h1, h2, h3, h4, h5⟩ := h i (List.mem_cons_self ..)
    obtain ⟨p1, p2⟩ := h5 (n % (f i).count) (Int.emod_nonneg _ (by omega)) (Int.emod_lt_of_pos _ (by omega))
    obtain ⟨i1, i2⟩ := ih (fun k hk => h k (List.mem_cons_of_mem _ hk)) (n / (f i).count) d hd
    have l1 := subTensor_length shape (is.map f) (stateAt (is.map f) (n / (f i).count))
    have l2 := subTensor_length shape' (is.map f') (stateAt (is.map f') (n / (f i).count))
    simp only [List.map_cons, stateAt, subTensor, h4, h2, if_neg (show ¬ (f i).order < 0 by omega)]
    rw [getD_set_eq _ _ _ _ (by omega), getD_set_eq _ _ _ _ (by omega), getD_set_eq _ _ _ _ (by omega), getD_set_eq _ _ _ _ (by omega)]
    by_cases he : (f i).order.toNat = d
    · subst he
      simp only [if_true]
      exact ⟨p1, p2⟩
    · simp only [if_neg he]
      exact ⟨i1, i2⟩

/-- Positions and sizes of one dimension, scaled. -/
theorem scaled_pos {n tile skew n' tile' skew' old new : Int} (d : Int) (h : TileOk n tile skew) (hS : Scaled n tile skew n' tile' skew' old new) (j : Int)
    (hj : 0 ≤ j ∧ j < (tileDim d n tile skew).count) :
    new * u32 (posOf (tileDim d n' tile' skew') j) = u32 (posOf (tileDim d n tile skew) j) * old ∧
    new * tileSize n' (tileDim d n' tile' skew') { pos := posOf (tileDim d n' tile' skew') j, idx := j } =
      tileSize n (tileDim d n tile skew) { pos := posOf (tileDim d n tile skew) j, idx := j } * old := by
  obtain ⟨hc, hl⟩ := scaled_count d h hS
  have h' := hS.tileOk h
  have hj' : 0 ≤ j ∧ j < (tileDim d n' tile' skew').count := by omega
  obtain ⟨a1, a2, a3, _⟩ := tileDim_spec d h j hj
  obtain ⟨b1, b2, b3, _⟩ := tileDim_spec d h' j hj'
  have hn := h.hsmall
  have hn' := h'.hsmall
  rw [u32_id ⟨b1, by omega⟩, u32_id ⟨a1, by omega⟩, tile_size d h j hj, tile_size d h' j hj', posOf_tileDim d h j hj.1, posOf_tileDim d h' j hj.1, hc]
  obtain ⟨⟨t1, t2⟩, ⟨s1, s2⟩, _⟩ := h
  obtain ⟨⟨t1', t2'⟩, ⟨s1', s2'⟩, _⟩ := h'
  obtain ⟨o1, n1, hN, hT, hK, hsm⟩ := hS
  constructor
  · by_cases h0 : j = 0
    · subst h0
      rw [max_eq_left (by omega), max_eq_left (by omega)]; ring
    · have g1 : 1 * tile ≤ j * tile := Int.mul_le_mul_of_nonneg_right (by omega) (by omega)
      have g2 : 1 * tile' ≤ j * tile' := Int.mul_le_mul_of_nonneg_right (by omega) (by omega)
      rw [max_eq_right (by omega), max_eq_right (by omega)]
      calc new * (j * tile' - skew') = j * (new * tile') - new * skew' := by ring
        _ = j * (tile * old) - skew * old := by rw [hT, hK]
        _ = (j * tile - skew) * old := by ring
  · split
    · exact hl
    · split
      · calc new * (tile' - skew') = new * tile' - new * skew' := by ring
          _ = tile * old - skew * old := by rw [hT, hK]
          _ = (tile - skew) * old := by ring
      · exact hT

/-- **C89**: when all sizes are whole numbers of new units, the converted tiling is the tiling of the converted tensor: after any number of calls of `Next()` it is in the state of an
iterator built for the converted tensor and gives the same tile, and each tile covers the same bytes as before the conversion. -/
theorem c89_tiles_partial (shape tiles shape' tiles' : List Int) (order : List Nat) (skew skew' : Int) (tnsDim : Nat) (old new : Int)
    (h : GranOk shape tiles shape' tiles' order skew skew' tnsDim old new) (n : Nat) :
    let cfg := tileCfg shape tiles order skew
    let ccfg := convertGran cfg tnsDim old new
    let cfg' := tileCfg shape' tiles' order skew'
    let tile := subTensor shape cfg (nextN cfg n).1
    let ctile := subTensor shape' ccfg (nextN ccfg n).1
    nextN ccfg n = nextN cfg' n ∧ ctile = subTensor shape' cfg' (nextN cfg' n).1 ∧
    ∀ d, d < shape.length →
      (if d = tnsDim then new else 1) * ctile.1.getD d 0 = tile.1.getD d 0 * (if d = tnsDim then old else 1) ∧
      (if d = tnsDim then new else 1) * ctile.2.getD d 0 = tile.2.getD d 0 * (if d = tnsDim then old else 1) := by
  intro cfg ccfg cfg' tile ctile
  have hc : ccfg.map noLast = cfg'.map noLast := gran_cfg h
  have hN : nextN ccfg n = nextN cfg' n := by rw [← nextN_noLast ccfg, hc, nextN_noLast]
  have hS : ctile = subTensor shape' cfg' (nextN cfg' n).1 := by
    show subTensor shape' ccfg (nextN ccfg n).1 = _
    rw [hN, ← subTensor_noLast, hc, subTensor_noLast]
  refine ⟨hN, hS, ?_⟩
  rw [hS]
  have hT := h.tiling
  -- facts of the entries
  have hent : ∀ i ∈ List.range order.length,
      0 ≤ ((tileDim ((order.getD i 0 : Nat) : Int) (shape.getD (order.getD i 0) 0) (tiles.getD (order.getD i 0) 0) (if i = 0 then skew else 0))).order ∧ True := by
    intro i _; exact ⟨Int.natCast_nonneg _, trivial⟩
  let f : Nat → DimCfg := fun i => tileDim ((order.getD i 0 : Nat) : Int) (shape.getD (order.getD i 0) 0) (tiles.getD (order.getD i 0) 0) (if i = 0 then skew else 0)
  let f' : Nat → DimCfg := fun i => tileDim ((order.getD i 0 : Nat) : Int) (shape'.getD (order.getD i 0) 0) (tiles'.getD (order.getD i 0) 0) (if i = 0 then skew' else 0)
  have hcount : ∀ i, i < order.length → (f' i).count = (f i).count := by
    intro i hi
    simp only [f, f']
    by_cases hd : order.getD i 0 = tnsDim
    · rw [hd]
      have ht := hT.dims i hi
      rw [hd] at ht
      exact (scaled_count (tnsDim : Int) ht (h.dim i hi hd)).1
    · obtain ⟨r1, r2, r3⟩ := h.rest i hi hd
      rw [r1, r2]
      by_cases h0 : i = 0
      · rw [if_pos h0, if_pos h0, r3 h0]
      · rw [if_neg h0, if_neg h0]
  have hpos : ∀ c ∈ cfg, 1 ≤ c.count := tileCfg_count_pos hT
  have hpos' : ∀ c ∈ cfg', 1 ≤ c.count := by
    intro c hc'
    obtain ⟨i, hi, rfl⟩ := List.mem_map.mp hc'
    have hi' := List.mem_range.mp hi
    have := hpos (f i) (List.mem_map.mpr ⟨i, hi, rfl⟩)
    have e := hcount i hi'
    show 1 ≤ (f' i).count
    omega
  intro d hd
  show _ * (subTensor shape' cfg' (nextN cfg' n).1).1.getD d 0 = (subTensor shape cfg (nextN cfg n).1).1.getD d 0 * _ ∧
    _ * (subTensor shape' cfg' (nextN cfg' n).1).2.getD d 0 = (subTensor shape cfg (nextN cfg n).1).2.getD d 0 * _
  rw [nextN_eq hpos, nextN_eq hpos']
  have hlt : ∀ i, i < order.length → order.getD i 0 < shape.length := by
    intro i hi
    apply hT.lt
    rw [List.getD_eq_getElem?_getD, List.getElem?_eq_getElem hi]
    exact List.getElem_mem ..
  refine scaled_tiles h.len (fun d => if d = tnsDim then new else 1) (fun d => if d = tnsDim then old else 1) (List.range order.length) f f' ?_ n d ?_
  · intro i hi
    have hi' := List.mem_range.mp hi
    have hlt' := hlt i hi'
    refine ⟨Int.natCast_nonneg _, ?_, rfl, hpos _ (List.mem_map.mpr ⟨i, hi, rfl⟩), hcount i hi', ?_⟩
    · show ((order.getD i 0 : Nat) : Int) < shape.length
      exact_mod_cast hlt'
    · intro j j0 j1
      have ho : (f i).order.toNat = order.getD i 0 := by simp [f, tileDim]
      rw [ho]
      simp only [f, f'] at j1 ⊢
      by_cases hd' : order.getD i 0 = tnsDim
      · simp only [hd', if_true]
        have ht := hT.dims i hi'
        rw [hd'] at ht j1
        exact scaled_pos (tnsDim : Int) ht (h.dim i hi' hd') j ⟨j0, j1⟩
      · simp only [if_neg hd']
        obtain ⟨r1, r2, r3⟩ := h.rest i hi' hd'
        rw [r1, r2]
        have hs : (if i = 0 then skew' else 0) = (if i = 0 then skew else 0) := by
          by_cases h0 : i = 0
          · rw [if_pos h0, if_pos h0, r3 h0]
          · rw [if_neg h0, if_neg h0]
        rw [hs]
        exact ⟨by ring, by ring⟩
  · have hmem := order_surj hT.len hT.nodup hT.lt hd
    obtain ⟨i, hi, rfl⟩ := List.getElem_of_mem hmem
    have hg : order.getD i 0 = order[i] := by rw [List.getD_eq_getElem?_getD, List.getElem?_eq_getElem hi]; rfl
    rw [← hg]
    by_cases hd' : order.getD i 0 = tnsDim
    · simp only [hd', if_true]
      exact (h.dim i hi hd').hn
    · simp only [if_neg hd']
      rw [(h.rest i hi hd').1]
      ring

/-- The hypotheses are met: 3 rows of 16 bytes in tiles of 2 rows and 8 bytes, converted to vectors of 4 bytes. -/
theorem exGran : GranOk [3, 16] [2, 8] [3, 4] [2, 2] [1, 0] 0 0 1 1 4 := by
  refine ⟨⟨rfl, by decide, by decide, by decide, ?_⟩, rfl, ?_, ?_⟩
  all_goals
    intro i hi
    have hi2 : i = 0 ∨ i = 1 := by simp at hi; omega
    rcases hi2 with rfl | rfl
  · exact ⟨by decide, by decide, by decide⟩
  · exact ⟨by decide, by decide, by decide⟩
  · intro _; exact ⟨by decide, by decide, by decide, by decide, by decide, by decide⟩
  · intro h; exact absurd h (by decide)
  · intro h; exact absurd rfl h
  · intro _; exact ⟨by decide, by decide, by decide⟩

example : (let cfg := tileCfg [3, 16] [2, 8] [1, 0] 0
    (List.range 4).map (fun n => subTensor [3, 16] cfg (nextN cfg n).1) = [([0, 0], [2, 8]), ([0, 8], [2, 8]), ([2, 0], [1, 8]), ([2, 8], [1, 8])] ∧
    (List.range 4).map (fun n => subTensor [3, 4] (convertGran cfg 1 1 4) (nextN (convertGran cfg 1 1 4) n).1) =
      [([0, 0], [2, 2]), ([0, 2], [2, 2]), ([2, 0], [1, 2]), ([2, 2], [1, 2])]) := by decide

/-- **Violation**: after the conversion of any tiling with more than one tile along the dimension, to units of two or more bytes, the last increment is one unit too large: a caller of
`Next(pos_inc)` does not come back to the start. -/
theorem c89_last_increment_violated (n tile skew n' tile' skew' old new d : Int) (h : TileOk n tile skew) (hS : Scaled n tile skew n' tile' skew' old new) (hnew : 2 ≤ new)
    (hcount : 1 < (tileDim d n tile skew).count) :
    (passIncs (convertGranDim d old new (tileDim d n tile skew))).sum = 1 := by
  have h' := hS.tileOk h
  obtain ⟨hc, _⟩ := scaled_count d h hS
  rw [gran_dim d h hS]
  obtain ⟨q, r, h1, h2, h3, h4, h5, e1, e2, e3, e4, e5, e6, e7⟩ := tileDim_facts d h
  obtain ⟨q', r', h1', h2', h3', h4', h5', e1', e2', e3', e4', e5', e6', e7'⟩ := tileDim_facts d h'
  have hq : q' = q := by omega
  subst hq
  have ht' := h'.htile
  have hs' := h'.hskew
  have g : 1 * tile' ≤ tile' * q' := by
    have := Int.mul_le_mul_of_nonneg_left (show 1 ≤ q' by omega) (show 0 ≤ tile' by omega)
    omega
  have hl : ceilDivS ((tileDim d n tile skew).lastInc * old) new = skew' - tile' * q' + 1 := by
    rw [e4, show (skew - tile * q') * old = new * (skew' - tile' * q') by
      calc (skew - tile * q') * old = skew * old - tile * old * q' := by ring
        _ = new * skew' - new * tile' * q' := by rw [hS.hs, hS.ht]
        _ = _ := by ring]
    exact ceilDivS_neg hnew (by omega)
  rw [hl]
  unfold passIncs
  simp only
  rw [if_neg (by omega), List.sum_cons, List.sum_append, List.sum_replicate, List.sum_singleton, e1', e2', e3', nsmul_eq_mul, Int.toNat_of_nonneg (by omega)]
  ring

example : 1 < (tileDim 1 16 8 0).count ∧ (convertGranDim 1 1 4 (tileDim 1 16 8 0)).lastInc = -1 := by decide

/-- Seen by a caller that adds up the increments: after every pass the position along the converted dimension is one vector further. -/
theorem c89_drift_violated :
    let ccfg := convertGran (tileCfg [16] [8] [0] 0) 0 1 4
    (List.range 7).map (fun n => (accInc ccfg n).1) = [[0], [2], [1], [3], [2], [4], [3]] := by decide

end Mli.Iter

namespace Mli.Cs
open Mli Mli.Spec Mli.Iter

theorem offset_append_one : ∀ (ss ps : List Int) (s p : Int), ps.length = ss.length → offset (ss ++ [s]) (ps ++ [p]) = offset ss ps + p * s := by
  intro ss
  induction ss with
  | nil =>
    intro ps s p h
    cases ps with
    | nil => simp [offset]
    | cons _ _ => simp at h
  | cons t ts ih =>
    intro ps s p h
    cases ps with
    | nil => simp at h
    | cons q qs =>
      simp only [List.cons_append, offset]
      rw [ih qs s p (by simpa using h)]
      ring

/-- The descriptor of the converted tensor, when everything is a whole number of new units. -/
theorem convertGran_dims (outer : List (Int × Int)) (n os n' os' old new : Int) (hne : outer ≠ []) (hos : (outer.getD (outer.length - 1) (0, 0)).2 = os)
    (old1 : 1 ≤ old) (new1 : 1 ≤ new) (hn0 : 0 ≤ n) (os0 : 0 ≤ os) (hn : new * n' = n * old) (hs : new * os' = os * old)
    (b1 : n * old + new < 2 ^ 31) (b2 : os * old + new < 2 ^ 31) (offs : Int) :
    View.convertGran ⟨offs, outer ++ [(n, 1)], outer.length + 1⟩ old new =
      ⟨offs, outer.map (fun p => (p.1, p.2.tdiv os * os')) ++ [(n', 1)], outer.length + 1⟩ := by
  have z1 : 0 ≤ n * old := Int.mul_nonneg hn0 (by omega)
  have z2 : 0 ≤ os * old := Int.mul_nonneg os0 (by omega)
  have hl : 1 ≤ outer.length := by
    cases outer with
    | nil => exact absurd rfl hne
    | cons _ _ => simp
  have n0' : 0 ≤ n' := by
    by_contra hc
    have : new * n' < 0 := Int.mul_neg_of_pos_of_neg (by omega) (by omega)
    omega
  have s0' : 0 ≤ os' := by
    by_contra hc
    have : new * os' < 0 := Int.mul_neg_of_pos_of_neg (by omega) (by omega)
    omega
  have s1 : 1 * os' ≤ new * os' := Int.mul_le_mul_of_nonneg_right new1 s0'
  have g1 : (outer ++ [(n, (1 : Int))]).getD outer.length (0, 0) = (n, 1) := by simp [List.getD_eq_getElem?_getD]
  have g2 : ((outer ++ [(n, (1 : Int))]).getD (outer.length - 1) (0, 0)).2 = os := by
    rw [List.getD_eq_getElem?_getD, List.getElem?_append_left (by omega), ← List.getD_eq_getElem?_getD, hos]
  have v1 : ceilDivU (u32 (n * old)) (u32 new) = n' := by
    rw [u32_id ⟨by omega, by omega⟩, u32_id ⟨by omega, by omega⟩, ← hn]; exact ceilDivU_exact new1 n0' (by omega)
  have v2 : wrap 32 (ceilDivU (u32 (os * old)) (u32 new)) = os' := by
    rw [u32_id ⟨by omega, by omega⟩, u32_id ⟨by omega, by omega⟩, ← hs, ceilDivU_exact new1 s0' (by omega)]
    exact wrap_of_inRange (by omega) (by unfold InRange lo hi; omega)
  unfold View.convertGran
  simp only [Nat.add_sub_cancel]
  rw [g1, g2, v1, v2]
  congr 1
  apply List.ext_getElem?
  intro i
  rw [List.getElem?_mapIdx]
  rcases (by omega : i < outer.length ∨ i = outer.length ∨ outer.length < i) with h | h | h
  · rw [List.getElem?_append_left h, List.getElem?_append_left (by simpa using h), List.getElem?_map, List.getElem?_eq_getElem h]
    simp only [Option.map_some, if_neg (show ¬ i = outer.length by omega), if_pos h]
  · subst h
    rw [List.getElem?_append_right (by omega), List.getElem?_append_right (by simp)]
    simp
  · rw [List.getElem?_eq_none (by simp; omega), List.getElem?_eq_none (by simp; omega)]
    rfl

/-- **C89**: converting a tensor at the start of its buffer whose rows are whole numbers of vectors and whose outer strides are multiples of the row stride: the last dimension holds
the same bytes, and the vector at every position is at the byte address of its first element. -/
theorem c89_tensor_partial (outer : List (Int × Int)) (n os n' os' old new : Int) (hne : outer ≠ []) (hos : (outer.getD (outer.length - 1) (0, 0)).2 = os)
    (hmul : ∀ p ∈ outer, os ∣ p.2)
    (old1 : 1 ≤ old) (new1 : 1 ≤ new) (hn0 : 0 ≤ n) (os0 : 0 < os) (hn : new * n' = n * old) (hs : new * os' = os * old)
    (b1 : n * old + new < 2 ^ 31) (b2 : os * old + new < 2 ^ 31) :
    let v : View := ⟨0, outer ++ [(n, 1)], outer.length + 1⟩
    let w := v.convertGran old new
    w.shape = outer.map (·.1) ++ [n'] ∧ w.offs = 0 ∧
    ∀ (ps : List Int) (x y : Int), ps.length = outer.length → new * y = x * old →
      new * offset (w.dims.map (·.2)) (ps ++ [y]) = offset (v.dims.map (·.2)) (ps ++ [x]) * old := by
  intro v w
  have hw : w = ⟨0, outer.map (fun p => (p.1, p.2.tdiv os * os')) ++ [(n', 1)], outer.length + 1⟩ :=
    convertGran_dims outer n os n' os' old new hne hos old1 new1 hn0 (by omega) hn hs b1 b2 0
  rw [hw]
  refine ⟨?_, rfl, ?_⟩
  · unfold View.shape
    rw [List.take_of_length_le (by simp)]
    simp
  · intro ps x y hl hxy
    simp only [v, List.map_append, List.map_map, List.map_cons, List.map_nil]
    rw [offset_append_one _ _ _ _ (by simpa using hl), offset_append_one _ _ _ _ (by simpa using hl), Int.mul_add, Int.add_mul]
    have key : ∀ (o : List (Int × Int)) (qs : List Int), (∀ p ∈ o, os ∣ p.2) → qs.length = o.length →
        new * offset (o.map ((fun p => p.2) ∘ fun p => (p.1, p.2.tdiv os * os'))) qs = offset (o.map (·.2)) qs * old := by
      intro o
      induction o with
      | nil => intro qs _ _; cases qs <;> simp [offset]
      | cons p o ih =>
        intro qs hd hq
        cases qs with
        | nil => simp at hq
        | cons q qs =>
          have i1 := ih qs (fun p hp => hd p (List.mem_cons_of_mem _ hp)) (by simpa using hq)
          obtain ⟨t, ht⟩ := hd p (List.mem_cons_self ..)
          simp only [List.map_cons, offset, Function.comp_apply]
          rw [Int.mul_add, i1, ht, Int.mul_tdiv_cancel_left _ (by omega)]
          calc new * (q * (t * os')) + offset (o.map (·.2)) qs * old = q * t * (new * os') + offset (o.map (·.2)) qs * old := by ring
            _ = q * t * (os * old) + offset (o.map (·.2)) qs * old := by rw [hs]
            _ = _ := by ring
    rw [key outer ps hmul hl]
    have : new * (y * 1) = x * 1 * old := by rw [Int.mul_one, Int.mul_one, hxy]
    omega

/-- A 2×3×8 tensor of bytes with rows of 16 bytes, as vectors of 4 bytes. -/
example : View.convertGran ⟨0, [(2, 48), (3, 16), (8, 1)], 3⟩ 1 4 = ⟨0, [(2, 12), (3, 4), (2, 1)], 3⟩ := by decide

/-- **Violation**: the position of a sub-tensor is not converted: the tensor of the second half of the first row (bytes 4 to 7) becomes the one of vector 4, bytes 16 to 19. -/
theorem c89_offset_violated : (View.convertGran ⟨4, [(2, 8), (4, 1)], 2⟩ 1 4).cell [0, 0] * 4 = 16 ∧ (View.mk 4 [(2, 8), (4, 1)] 2).cell [0, 0] * 1 = 4 := by decide

/-- **Violation**: an outer stride that is a whole number of vectors, but not of rows, is rounded down: the second plane of a 2×2×4 tensor with rows of 8 and planes of 20 bytes is
looked for at byte 16. -/
theorem c89_stride_violated :
    (View.convertGran ⟨0, [(2, 20), (2, 8), (4, 1)], 3⟩ 1 4).cell [1, 0, 0] * 4 = 16 ∧ (View.mk 0 [(2, 20), (2, 8), (4, 1)] 3).cell [1, 0, 0] * 1 = 20 := by decide

/-- **Violation**: the size of the buffer, which counts bytes, is scaled as if it counted elements. -/
theorem c89_buffer_size_violated : granBufSize 64 1 4 = 16 := by decide

end Mli.Cs
