import Verif.Model.TransposeTiles
import Verif.Lemmas.ConvTiles
import Verif.Props.TransposeConv

/-! # One round and all rounds of the run-time transposed convolution -/

namespace Mli.Rt

open Mli Mli.Iter Mli.Spec

/-! ## The iterators -/

/-- Tile indices of five dimensions in round `n`. -/
structure Idx5 (n : Int) (k0 k1 k2 k3 k4 j0 j1 j2 j3 j4 : Int) : Prop where
  e0 : j0 = n % k0
  e1 : j1 = n / k0 % k1
  e2 : j2 = n / k0 / k1 % k2
  e3 : j3 = n / k0 / k1 / k2 % k3
  e4 : j4 = n / k0 / k1 / k2 / k3 % k4

/-- An iterator that goes through five dimensions in their own order, in round `n`. -/
theorem five_at {c0 c1 c2 c3 c4 : DimCfg} (q0 : c0.order = 0) (q1 : c1.order = 1) (q2 : c2.order = 2) (q3 : c3.order = 3) (q4 : c4.order = 4)
    (hpos : ∀ c ∈ [c0, c1, c2, c3, c4], 1 ≤ c.count) (s0 s1 s2 s3 s4 : Int) (strides : List Int) (n : Nat) {j0 j1 j2 j3 j4 : Int}
    (J : Idx5 n c0.count c1.count c2.count c3.count c4.count j0 j1 j2 j3 j4) :
    let t := (TIt.start [c0, c1, c2, c3, c4] [s0, s1, s2, s3, s4] strides).at n
    t.getPos = [posOf c0 j0, posOf c1 j1, posOf c2 j2, posOf c3 j3, posOf c4 j4] ∧
    t.sizes = [tileSize s0 c0 ⟨posOf c0 j0, j0⟩, tileSize s1 c1 ⟨posOf c1 j1, j1⟩, tileSize s2 c2 ⟨posOf c2 j2, j2⟩, tileSize s3 c3 ⟨posOf c3 j3, j3⟩,
      tileSize s4 c4 ⟨posOf c4 j4, j4⟩] ∧ t.st.map (·.idx) = [j0, j1, j2, j3, j4] := by
  intro t
  obtain ⟨rfl, rfl, rfl, rfl, rfl⟩ := J
  have st : t.st = stateAt [c0, c1, c2, c3, c4] n := nextN_eq hpos n
  refine ⟨?_, ?_, ?_⟩
  · unfold TIt.getPos
    rw [st]; rfl
  · show (subTensor [s0, s1, s2, s3, s4] [c0, c1, c2, c3, c4] t.st).2 = _
    rw [st]
    simp [stateAt, subTensor, q0, q1, q2, q3, q4]
  · rw [st]; rfl

theorem idx5_range {n k0 k1 k2 k3 k4 j0 j1 j2 j3 j4 : Int} (J : Idx5 n k0 k1 k2 k3 k4 j0 j1 j2 j3 j4) (h0 : 1 ≤ k0) (h1 : 1 ≤ k1) (h2 : 1 ≤ k2)
    (h3 : 1 ≤ k3) (h4 : 1 ≤ k4) : (0 ≤ j0 ∧ j0 < k0) ∧ (0 ≤ j1 ∧ j1 < k1) ∧ (0 ≤ j2 ∧ j2 < k2) ∧ (0 ≤ j3 ∧ j3 < k3) ∧ 0 ≤ j4 ∧ j4 < k4 := by
  obtain ⟨rfl, rfl, rfl, rfl, rfl⟩ := J
  have := fun (m k : Int) (h : 1 ≤ k) => (⟨Int.emod_nonneg m (by omega), Int.emod_lt_of_pos m (by omega)⟩ : 0 ≤ m % k ∧ m % k < k)
  exact ⟨this _ _ h0, this _ _ h1, this _ _ h2, this _ _ h3, this _ _ h4⟩

/-- All combinations of tile indices occur. -/
theorem idx5_onto {k0 k1 k2 k3 k4 j0 j1 j2 j3 j4 : Int} (h0 : 0 ≤ j0 ∧ j0 < k0) (h1 : 0 ≤ j1 ∧ j1 < k1) (h2 : 0 ≤ j2 ∧ j2 < k2) (h3 : 0 ≤ j3 ∧ j3 < k3)
    (h4 : 0 ≤ j4 ∧ j4 < k4) : ∃ n : Nat, (n : Int) < k0 * (k1 * (k2 * (k3 * k4))) ∧ Idx5 n k0 k1 k2 k3 k4 j0 j1 j2 j3 j4 := by
  obtain ⟨a, b⟩ := encode_range [k0, k1, k2, k3, k4] [j0, j1, j2, j3, j4] ⟨h0, h1, h2, h3, h4, trivial⟩
  have step : ∀ k j e : Int, 0 ≤ j → j < k → (j + k * e) % k = j ∧ (j + k * e) / k = e := by
    intro k j e a b
    rw [Int.add_mul_emod_self_left, Int.emod_eq_of_lt a b, Int.add_mul_ediv_left _ _ (by omega), Int.ediv_eq_zero_of_lt a b]
    exact ⟨rfl, by omega⟩
  refine ⟨(encode [k0, k1, k2, k3, k4] [j0, j1, j2, j3, j4]).toNat, ?_, ?_⟩
  · rw [Int.toNat_of_nonneg a]
    simpa [prod] using b
  · rw [Int.toNat_of_nonneg a]
    simp only [encode]
    constructor <;> simp only [step _ _ _ h0.1 h0.2, step _ _ _ h1.1 h1.2, step _ _ _ h2.1 h2.2, step _ _ _ h3.1 h3.2, step _ _ _ h4.1 h4.2]

/-! ## One axis -/

/-- Height or width of the base iterator: not tiled if the last tile is shorter than the kernel. -/
def axCfg (d n t k : Int) : DimCfg :=
  let c := tileDim d n t 0
  if c.lastSize < k then { c with firstSize := n, size := n, lastSize := n, code := 0, count := 1 } else c

/-- What height or width has to satisfy: `n` input elements in tiles of `t`, kernel `k`, stride `s`, padding `p` before and `pe` behind, `out` output
elements; unless the input is one tile, the kernel has the size of the stride, so that output tiles do not overlap. -/
structure TcSplit (n t k s p pe out : Int) : Prop where
  tile : 1 ≤ t ∧ t ≤ n
  s1 : 1 ≤ s
  sk : s ≤ k
  hp : 0 ≤ p ∧ p < k
  he : 0 ≤ pe ∧ pe < k
  o1 : 1 ≤ out
  hout : out = (n - 1) * s + k - p - pe
  one : t = n ∨ (n - 1) % t + 1 < k ∨ k = s
  small : n * s + k < 2 ^ 30

/-- Height or width of a tile: input at `ipos`, output at `opos`, padding `p'`. -/
structure TcAx (n k s p out ipos isz opos osz p' : Int) : Prop where
  i0 : 0 ≤ ipos
  i1 : 1 ≤ isz
  i2 : ipos + isz ≤ n
  o0 : 0 ≤ opos
  o1 : 1 ≤ osz
  o2 : opos + osz ≤ out
  p0 : 0 ≤ p'
  p1 : p' ≤ p
  eq : opos = ipos * s - p + p'
  own : ∀ y i t, 0 ≤ y → y < osz → 0 ≤ i → i < n → 0 ≤ t → t < k → i * s + t - p = y + opos → ipos ≤ i ∧ i < ipos + isz
  len : osz ≤ (isz - 1) * s + k - p'

theorem TcSplit.out_lt {n t k s p pe out : Int} (h : TcSplit n t k s p pe out) : n < 2 ^ 30 ∧ out < 2 ^ 30 := by
  have h1 := h.small
  have h2 := h.hout
  have h3 := h.tile
  have h4 := h.s1
  have h5 := h.hp
  have h6 := h.he
  have h7 := h.sk
  have e : (n - 1) * s = n * s - s := by ring
  have : n * 1 ≤ n * s := Int.mul_le_mul_of_nonneg_left h4 (by omega)
  omega

theorem TcSplit.tileOk {n t k s p pe out : Int} (h : TcSplit n t k s p pe out) : TileOk n t 0 := by
  have := h.out_lt
  have := h.tile
  exact ⟨⟨by omega, by omega⟩, ⟨by omega, by omega⟩, by omega⟩

/-- The padding of a tile. -/
def padOf (c : DimCfg) (j p : Int) : Int := if j ≠ 0 then (if u32 (c.inc * j) < p then p - u32 (c.inc * j) else 0) else p

/-- Positions and sizes on the axis: either there is only one tile, or the tiles are those of the iterator and the kernel has the size of the stride. -/
theorem TcSplit.cases {n t k s p pe out : Int} (d : Int) (h : TcSplit n t k s p pe out) :
    ((axCfg d n t k).count = 1 ∧ (axCfg d n t k).lastSize = n) ∨ (axCfg d n t k = tileDim d n t 0 ∧ k = s) := by
  obtain ⟨q, r, h1, h2, h3, h4, h5, e1, e2, e3, e4, e5, e6, e7⟩ := tileDim_facts d h.tileOk
  unfold axCfg
  simp only
  split
  · exact Or.inl ⟨rfl, rfl⟩
  · rename_i hl
    have ht1 := h.tile
    have hr : (n - 1) % t = r - 1 := by
      have e : n - 1 = r - 1 + t * q := by omega
      rw [e, Int.add_mul_emod_self_left]
      exact Int.emod_eq_of_lt (by omega) (by omega)
    by_cases ht : t = n
    · left
      have hq : q = 0 := by
        rcases Int.lt_or_le 0 q with hq | hq
        · have : t * 1 ≤ t * q := Int.mul_le_mul_of_nonneg_left (by omega) (by omega)
          omega
        · omega
      rw [hq] at h1
      rw [e1, e7]
      omega
    · right
      refine ⟨rfl, ?_⟩
      rcases h.one with hc | hc | hc
      · exact absurd hc ht
      · rw [e7] at hl
        omega
      · exact hc

theorem TcSplit.kern {n t k p pe out : Int} (h : TcSplit n t k k p pe out) : KernOk n t 0 out k k p := by
  have h0 := h.out_lt
  have h1 := h.tile
  have h2 := h.s1
  have h3 := h.hp
  have h4 := h.he
  have h5 := h.hout
  have h6 := h.small
  have h7 := h.o1
  have : 1 * k ≤ t * k := Int.mul_le_mul_of_nonneg_right h1.1 (by omega)
  exact ⟨h.tileOk, by omega, by omega, h3, by rw [Int.sub_zero]; omega, by omega, ⟨by omega, by omega⟩, h6⟩

theorem TcSplit.ax {n t k s p pe out : Int} (d : Int) (h : TcSplit n t k s p pe out) (j : Int) (hj : 0 ≤ j ∧ j < (axCfg d n t k).count) {c e : DimCfg}
    (hc : c = axCfg d n t k) (he : e = kernelDim c out k s p) :
    TcAx n k s p out (posOf c j) (tileSize n c ⟨posOf c j, j⟩) (posOf e j) (tileSize out e ⟨posOf e j, j⟩) (padOf e j p) := by
  obtain ⟨hn, ho⟩ := h.out_lt
  have h1 := h.tile
  have h2 := h.s1
  have h3 := h.hp
  have h4 := h.he
  have h5 := h.hout
  have h7 := h.o1
  rcases h.cases d with ⟨g1, g2⟩ | ⟨g1, rfl⟩
  · rw [g1] at hj
    rw [← hc] at g1 g2
    have hj0 : j = 0 := by omega
    subst hj0
    have k1 : e.count = 1 := by rw [he]; exact g1
    have k2 : e.lastSize = out := by
      rw [he]
      simp only [kernelDim, g1]
      rw [if_neg (by omega), Int.add_zero, u32_id ⟨by omega, by omega⟩]
    have p1 : posOf c 0 = 0 := rfl
    have p2 : posOf e 0 = 0 := rfl
    have s1 : tileSize n c ⟨0, 0⟩ = n := by unfold tileSize; rw [if_pos (by show (0 : Int) = _; omega), g2]
    have s2 : tileSize out e ⟨0, 0⟩ = out := by unfold tileSize; rw [if_pos (by show (0 : Int) = _; omega), k2]
    have s3 : padOf e 0 p = p := rfl
    rw [p1, p2, s1, s2, s3]
    exact ⟨by omega, by omega, by omega, by omega, by omega, by omega, by omega, by omega, by omega,
      fun y i t a b c' d' _ _ _ => ⟨by omega, by omega⟩, by omega⟩
  · rw [g1] at hj
    rw [g1] at hc
    have hk := h.kern
    have W := winAt d hk j hj hc he
    obtain ⟨a0, a1, a2, a3, b0, b1, b3, c0, c1, c2, c3, c4, c5⟩ := W
    have hinc : e.inc = t * k := by rw [he, hc]; exact (kernelDim_facts d hk).2.2.2.1
    generalize posOf c j = ipos at *
    generalize tileSize n c ⟨ipos, j⟩ = isz at *
    generalize posOf e j = opos at *
    generalize tileSize out e ⟨opos, j⟩ = osz at *
    have hp : padOf e j p = if j = 0 then p else 0 := by
      unfold padOf
      by_cases h0 : j = 0
      · rw [if_neg (by simpa using h0), if_pos h0]
      · rw [if_pos h0, if_neg h0, hinc]
        have t1 : 1 * k ≤ t * k := Int.mul_le_mul_of_nonneg_right h1.1 (by omega)
        have t2 : t * k * 1 ≤ t * k * j := Int.mul_le_mul_of_nonneg_left (by omega) (by omega)
        have t3 : t * k * j < 2 ^ 30 := by
          have u1 : j * t ≤ n := by
            have := a3
            rw [Int.sub_zero, max_eq_right (Int.mul_nonneg c0 (by omega))] at c1
            omega
          have u2 : j * t * k ≤ n * k := Int.mul_le_mul_of_nonneg_right u1 (by omega)
          have := h.small
          have e : t * k * j = j * t * k := by ring
          omega
        rw [u32_id ⟨by omega, by omega⟩, if_neg (by omega)]
    rw [hp]
    have heq : opos = ipos * k - p + if j = 0 then p else 0 := by
      split
      · rename_i e
        obtain ⟨u, v, -⟩ := c2 e
        rw [u, v]; simp
      · rename_i e
        have := (c3 e).1
        omega
    have hend : opos + osz ≤ (ipos + isz) * k - p := by
      rcases c5 with c5 | ⟨c5, c6⟩
      · have e : (ipos + isz - 1) * k + k = (ipos + isz) * k := by ring
        omega
      · have e : (n - 1) * k + k = n * k := by ring
        rw [c6]; omega
    refine ⟨a0, a1, a3, b0, b1, b3, by split <;> omega, by split <;> omega, heq, ?_, ?_⟩
    · intro y i u y0 y1 i0 i1 u0 u1 hu
      constructor
      · by_cases h0 : j = 0
        · have := (c2 h0).1
          omega
        · rw [if_neg h0] at heq
          by_contra hlt
          have : (i + 1) * k ≤ ipos * k := Int.mul_le_mul_of_nonneg_right (by omega) (by omega)
          have e : (i + 1) * k = i * k + k := by ring
          omega
      · by_contra hge
        have : (ipos + isz) * k ≤ i * k := Int.mul_le_mul_of_nonneg_right (by omega) (by omega)
        omega
    · have e : (isz - 1) * k + k = isz * k := by ring
      have e2 : (ipos + isz) * k = ipos * k + isz * k := by ring
      omega

/-- Every output row or column belongs to a tile. -/
theorem TcSplit.cover {n t k s p pe out : Int} (d : Int) (h : TcSplit n t k s p pe out) {c e : DimCfg}
    (hc : c = axCfg d n t k) (he : e = kernelDim c out k s p) (y : Int) (y0 : 0 ≤ y) (y1 : y < out) :
    ∃ j, (0 ≤ j ∧ j < c.count) ∧ posOf e j ≤ y ∧ y < posOf e j + tileSize out e ⟨posOf e j, j⟩ := by
  obtain ⟨hn, ho⟩ := h.out_lt
  have h1 := h.tile
  have h2 := h.s1
  have h3 := h.hp
  have h4 := h.he
  have h5 := h.hout
  rcases h.cases d with ⟨g1, g2⟩ | ⟨g1, rfl⟩
  · rw [← hc] at g1 g2
    refine ⟨0, ⟨by omega, by omega⟩, ?_⟩
    have k2 : e.lastSize = out := by
      rw [he]
      simp only [kernelDim, g1]
      rw [if_neg (by omega), Int.add_zero, u32_id ⟨by omega, by omega⟩]
    have k1 : e.count = 1 := by rw [he]; exact g1
    have p2 : posOf e 0 = 0 := rfl
    have s2 : tileSize out e ⟨0, 0⟩ = out := by unfold tileSize; rw [if_pos (by show (0 : Int) = _; omega), k2]
    rw [p2, s2]
    omega
  · rw [g1] at hc
    have hk := h.kern
    have e1 : (n - 1) * k + k = n * k := by ring
    have i0 : 0 ≤ (y + p) / k := Int.ediv_nonneg (by omega) (by omega)
    have i1 : (y + p) / k < n := Int.ediv_lt_of_lt_mul (by omega) (by omega)
    have hA := fun j hj => tileDim_spec d h.tileOk j hj
    obtain ⟨q, r, f1, f2, f3, f4, f5, g1, -⟩ := tileDim_facts d h.tileOk
    -- the tile of that input element
    have hcnt : 0 ≤ (y + p) / k / t ∧ (y + p) / k / t < (tileDim d n t 0).count := by
      have hc0 : (0 : Int) < (tileDim d n t 0).count := by rw [g1]; omega
      have := (hA 0 ⟨by omega, hc0⟩).2.2.2.2 ((y + p) / k) i0 i1
      rwa [Int.add_zero] at this
    have W := winAt d hk _ hcnt hc he
    have hin := ((hA _ hcnt).2.2.2.1 ((y + p) / k) i0 i1).mpr (by rw [Int.add_zero])
    refine ⟨(y + p) / k / t, by rw [hc]; exact hcnt, ?_⟩
    have hd := Int.emod_add_mul_ediv (y + p) k
    have hm0 := Int.emod_nonneg (y + p) (show k ≠ 0 by omega)
    have hm1 := Int.emod_lt_of_pos (y + p) (show 0 < k by omega)
    have hcomm : k * ((y + p) / k) = (y + p) / k * k := by ring
    rw [← hc] at hin
    have := W.field ((y + p) / k) ((y + p) % k) hin.1 hin.2 hm0 hm1 (by omega) (by omega)
    have ey : (y + p) / k * k + (y + p) % k - p = y := by omega
    rw [ey] at this
    exact this

/-! ## The configurations -/

/-- The channels of the output are tiled like those of any tensor. -/
theorem overrideDim_eq {oc toc : Int} (h : TileOk oc toc 0) (c : DimCfg) (ho : c.order = 4) (hc : c.count = wrap 32 (ceilDivU oc toc)) :
    overrideDim toc oc c = tileDim 4 oc toc 0 := by
  obtain ⟨q, r, h1, h2, h3, h4, h5, e1, e2, e3, e4, e5, e6, e7⟩ := tileDim_facts 4 h
  have ht := h.htile
  have hs := h.hsmall
  have hcc : c.count = (tileDim 4 oc toc 0).count := by
    rw [hc]
    simp only [tileDim]
    rw [Int.add_zero, u32_id (x := oc) ⟨by omega, by omega⟩]
  have hu : u32 toc = toc := u32_id ⟨by omega, by omega⟩
  have hli : (if c.count > 1 then toc * (2 - c.count) - toc else 0) = (tileDim 4 oc toc 0).lastInc := by
    rw [e4, hcc, e1]
    split
    · ring
    · rename_i hq
      have : q = 0 := by omega
      rw [this]; ring
  have hls : u32 (oc + (tileDim 4 oc toc 0).lastInc) = (tileDim 4 oc toc 0).lastSize := by
    rw [e4, e7, show oc + (0 - toc * q) = r by omega, u32_id ⟨by omega, by omega⟩]
  unfold overrideDim
  rw [if_neg (by omega)]
  simp only
  rw [hli, hls, hu, hcc, ho]
  have f1 : (tileDim 4 oc toc 0).firstInc = toc := by rw [e2]; omega
  have f2 : (tileDim 4 oc toc 0).firstSize = toc := by rw [e5]; omega
  have f3 : (tileDim 4 oc toc 0).code = calcDiffCode (tileDim 4 oc toc 0).count (tileDim 4 oc toc 0).firstSize (tileDim 4 oc toc 0).size
    (tileDim 4 oc toc 0).lastSize := rfl
  have f4 : (tileDim 4 oc toc 0).order = 4 := rfl
  rw [f2, e6] at f3
  generalize tileDim 4 oc toc 0 = g at *
  cases g
  simp only at *
  subst f1 f2 f3 f4 e3 e6
  rfl

/-- The channels of the input are not tiled. -/
def inCh (ic : Int) (count : Int) : DimCfg := { tileDim 4 ic ic 0 with count := wrap 32 count }

theorem deconvBase_eq (nb ih iw ic t1 t2 oc toc kh kw : Int) :
    deconvBase [nb, ih, iw, 1, ic] [1, t1, t2, 1, ic] (List.range 5) oc toc kh kw =
      [tileDim 0 nb 1 0, axCfg 1 ih t1 kh, axCfg 2 iw t2 kw, tileDim 3 1 1 0, inCh ic (ceilDivU oc toc)] := by
  have e : tileCfg [nb, ih, iw, 1, ic] [1, t1, t2, 1, ic] (List.range 5) 0 =
    [tileDim 0 nb 1 0, tileDim 1 ih t1 0, tileDim 2 iw t2 0, tileDim 3 1 1 0, tileDim 4 ic ic 0] := rfl
  have w1 : wrap 32 1 = 1 := by decide
  unfold deconvBase
  rw [e]
  generalize tileDim 0 nb 1 0 = c0
  generalize tileDim 3 1 1 0 = c3
  have h1 : setCount (ceilDivU oc toc) 4 [c0, tileDim 1 ih t1 0, tileDim 2 iw t2 0, c3, tileDim 4 ic ic 0] =
    [c0, tileDim 1 ih t1 0, tileDim 2 iw t2 0, c3, inCh ic (ceilDivU oc toc)] := rfl
  rw [h1]
  generalize inCh ic (ceilDivU oc toc) = c4
  have h2 : wholeIfShort 1 kh [nb, ih, iw, 1, ic] [c0, tileDim 1 ih t1 0, tileDim 2 iw t2 0, c3, c4] = [c0, axCfg 1 ih t1 kh, tileDim 2 iw t2 0, c3, c4] := by
    unfold wholeIfShort axCfg
    generalize tileDim 1 ih t1 0 = c1
    generalize tileDim 2 iw t2 0 = c2
    show (if c1.lastSize < kh then _ else _) = _
    simp only
    split
    · show [c0, { c1 with firstSize := ih, size := ih, lastSize := ih, code := 0, count := wrap 32 1 }, c2, c3, c4] = _
      rw [w1]
    · rfl
  rw [h2]
  unfold wholeIfShort
  generalize axCfg 1 ih t1 kh = c1
  unfold axCfg
  generalize tileDim 2 iw t2 0 = c2
  show (if c2.lastSize < kw then _ else _) = _
  simp only
  split
  · show [c0, c1, { c2 with firstSize := iw, size := iw, lastSize := iw, code := 0, count := wrap 32 1 }, c3, c4] = _
    rw [w1]
  · rfl

theorem deconvOut_eq {oc toc : Int} (h : TileOk oc toc 0) (c0 c1 c2 c3 : DimCfg) (q0 : c0.order = 0) (q1 : c1.order = 1) (q2 : c2.order = 2) (q3 : c3.order = 3)
    (ic nb oh ow : Int) (k s p : Nat → Int) :
    deconvOut [c0, c1, c2, c3, inCh ic (ceilDivU oc toc)] [nb, oh, ow, 1, oc] toc k s p =
      [kernelDim c0 nb (k 0) (s 0) (p 0), kernelDim c1 oh (k 1) (s 1) (p 1), kernelDim c2 ow (k 2) (s 2) (p 2), kernelDim c3 1 (k 3) (s 3) (p 3), tileDim 4 oc toc 0] := by
  unfold deconvOut kernelCfg
  simp only [List.map_cons, List.map_nil, q0, q1, q2, q3]
  have h4 : overrideDim toc oc (kernelDim (inCh ic (ceilDivU oc toc)) oc (k 4) (s 4) (p 4)) = tileDim 4 oc toc 0 := overrideDim_eq h _ rfl rfl
  rw [← h4]
  rfl

/-- The weights tile in a round: all of the dimensions but the last, and in this the channels of the output tile. -/
theorem deconvWts_at {c0 c1 c2 c3 c4 : DimCfg} (q0 : c0.order = 0) (q1 : c1.order = 1) (q2 : c2.order = 2) (q3 : c3.order = 3) (q4 : c4.order = 4)
    (hpos : ∀ c ∈ [c0, c1, c2, c3, c4], 1 ≤ c.count) {kh kw ic oc : Int} (h1 : 0 ≤ kh ∧ kh < 2 ^ 32) (h2 : 0 ≤ kw ∧ kw < 2 ^ 32) (h3 : 0 ≤ ic ∧ ic < 2 ^ 32)
    (lw : List Int) (n : Nat) {j0 j1 j2 j3 j4 : Int} (J : Idx5 n c0.count c1.count c2.count c3.count c4.count j0 j1 j2 j3 j4) :
    let w := (TIt.start (deconvWts [c0, c1, c2, c3, c4] [1, kh, kw, ic, oc]) [1, kh, kw, ic, oc] lw).at n
    w.getPos = [0, 0, 0, 0, posOf c4 j4] ∧ w.sizes = [1, kh, kw, ic, tileSize oc c4 ⟨posOf c4 j4, j4⟩] := by
  let b0 : DimCfg := { order := 0, count := c0.count, firstInc := 0, inc := 0, lastInc := 0, firstSize := 1, size := 1, lastSize := 1, code := 0 }
  let b1 : DimCfg := { order := 1, count := c1.count, firstInc := 0, inc := 0, lastInc := 0, firstSize := kh, size := kh, lastSize := kh, code := 0 }
  let b2 : DimCfg := { order := 2, count := c2.count, firstInc := 0, inc := 0, lastInc := 0, firstSize := kw, size := kw, lastSize := kw, code := 0 }
  let b3 : DimCfg := { order := 3, count := c3.count, firstInc := 0, inc := 0, lastInc := 0, firstSize := ic, size := ic, lastSize := ic, code := 0 }
  have hcfg : deconvWts [c0, c1, c2, c3, c4] [1, kh, kw, ic, oc] = [b0, b1, b2, b3, c4] := by
    simp [deconvWts, followCfg, disableTiling, zeroInc, q0, q1, q2, q3, q4, b0, b1, b2, b3]
  rw [hcfg]
  have k0 := hpos c0 (by simp)
  have k1 := hpos c1 (by simp)
  have k2 := hpos c2 (by simp)
  have k3 := hpos c3 (by simp)
  have k4 := hpos c4 (by simp)
  have hb : ∀ c ∈ [b0, b1, b2, b3, c4], 1 ≤ c.count := by
    simp only [List.mem_cons, List.not_mem_nil, or_false]
    rintro c (rfl | rfl | rfl | rfl | rfl) <;> assumption
  obtain ⟨f1, f2, -⟩ := five_at (c0 := b0) (c1 := b1) (c2 := b2) (c3 := b3) (c4 := c4) rfl rfl rfl rfl q4 hb 1 kh kw ic oc lw n J
  refine ⟨?_, ?_⟩
  · rw [f1, posOf_still b0 _ rfl rfl, posOf_still b1 _ rfl rfl, posOf_still b2 _ rfl rfl, posOf_still b3 _ rfl rfl]
  · rw [f2, posOf_still b0 _ rfl rfl, posOf_still b1 _ rfl rfl, posOf_still b2 _ rfl rfl, posOf_still b3 _ rfl rfl,
      tileSize_all 1 b0 _ rfl rfl rfl (by omega), tileSize_all kh b1 _ rfl rfl rfl h1, tileSize_all kw b2 _ rfl rfl rfl h2, tileSize_all ic b3 _ rfl rfl rfl h3]

/-! ## The sums -/

theorem sum_window {n a m : Int} (F : Int → Int) (ha : 0 ≤ a) (hm : 0 ≤ m) (hn : a + m ≤ n) (hz : ∀ i, 0 ≤ i → i < n → ¬ (a ≤ i ∧ i < a + m) → F i = 0) :
    ∑ i ∈ Finset.range n.toNat, F i = ∑ i ∈ Finset.range m.toNat, F (i + a) := by
  obtain ⟨a', rfl⟩ := Int.eq_ofNat_of_zero_le ha
  obtain ⟨m', rfl⟩ := Int.eq_ofNat_of_zero_le hm
  obtain ⟨r, hr⟩ := Int.eq_ofNat_of_zero_le (show 0 ≤ n - (a' + m') by omega)
  have hn' : n.toNat = a' + m' + r := by omega
  rw [hn', Finset.sum_range_add, Finset.sum_range_add]
  have z1 : ∑ i ∈ Finset.range a', F (i : Int) = 0 := Finset.sum_eq_zero fun i hi => by
    rw [Finset.mem_range] at hi
    exact hz i (by omega) (by omega) (by omega)
  have z2 : ∑ i ∈ Finset.range r, F ((a' + m' + i : Nat) : Int) = 0 := Finset.sum_eq_zero fun i hi => by
    rw [Finset.mem_range] at hi
    exact hz _ (by omega) (by omega) (by omega)
  rw [z1, z2, Int.zero_add, Int.add_zero, Int.toNat_natCast]
  refine Finset.sum_congr rfl fun i _ => ?_
  congr 1
  push_cast
  ring

/-- The sum in a tile is the sum in the whole tensor. -/
theorem scatterSum_shift {ih iw kh kw ic sh sw pt pl oh ow iy isy oy osy pt' ix isx ox osx pl' y x : Int} {X W : Int → Int → Int → Int}
    (H : TcAx ih kh sh pt oh iy isy oy osy pt') (V : TcAx iw kw sw pl ow ix isx ox osx pl') (hy : 0 ≤ y ∧ y < osy) (hx : 0 ≤ x ∧ x < osx) :
    scatterSum isy isx kh kw ic (fun r q c => X (r + iy) (q + ix) c) W sh sw pt' pl' y x = scatterSum ih iw kh kw ic X W sh sw pt pl (y + oy) (x + ox) := by
  unfold scatterSum
  symm
  rw [sum_window (fun r => ∑ ky ∈ Finset.range kh.toNat, ∑ q ∈ Finset.range iw.toNat, ∑ kx ∈ Finset.range kw.toNat,
    if r * sh + ky - pt = y + oy ∧ q * sw + kx - pl = x + ox then ∑ c ∈ Finset.range ic.toNat, X r q c * W ky kx c else 0)
    H.i0 (by have := H.i1; omega) H.i2]
  · refine Finset.sum_congr rfl fun r hr => Finset.sum_congr rfl fun ky hky => ?_
    rw [sum_window (fun q => ∑ kx ∈ Finset.range kw.toNat,
      if (r + iy) * sh + ky - pt = y + oy ∧ q * sw + kx - pl = x + ox then ∑ c ∈ Finset.range ic.toNat, X (r + iy) q c * W ky kx c else 0)
      V.i0 (by have := V.i1; omega) V.i2]
    · refine Finset.sum_congr rfl fun q hq => Finset.sum_congr rfl fun kx hkx => ?_
      have e1 := H.eq
      have e2 := V.eq
      have f1 : ((r : Int) + iy) * sh = r * sh + iy * sh := by ring
      have f2 : ((q : Int) + ix) * sw = q * sw + ix * sw := by ring
      have hiff : ((r + iy) * sh + ky - pt = y + oy ∧ (q + ix) * sw + kx - pl = x + ox) ↔ (r * sh + ky - pt' = y ∧ q * sw + kx - pl' = x) := by
        constructor <;> rintro ⟨u, v⟩ <;> constructor <;> omega
      by_cases hc : (r * sh + ky - pt' = y ∧ q * sw + kx - pl' = x)
      · rw [if_pos hc, if_pos (hiff.mpr hc)]
      · rw [if_neg hc, if_neg fun h => hc (hiff.mp h)]
    · intro q q0 q1 hout
      refine Finset.sum_eq_zero fun kx hkx => ?_
      rw [Finset.mem_range] at hkx
      rw [if_neg]
      rintro ⟨-, u⟩
      exact hout (V.own x q kx hx.1 hx.2 q0 q1 (by omega) (by omega) u)
  · intro r r0 r1 hout
    refine Finset.sum_eq_zero fun ky hky => Finset.sum_eq_zero fun q _ => Finset.sum_eq_zero fun kx _ => ?_
    rw [Finset.mem_range] at hky
    rw [if_neg]
    rintro ⟨u, -⟩
    exact hout (H.own y r ky hy.1 hy.2 r0 r1 (by omega) (by omega) u)

theorem scatterSum_congr {ih iw kh kw ic sh sw pt pl y x : Int} {X Y W V : Int → Int → Int → Int}
    (hX : ∀ r q c, (0 ≤ r ∧ r < ih) → (0 ≤ q ∧ q < iw) → (0 ≤ c ∧ c < ic) → X r q c = Y r q c)
    (hW : ∀ i j c, (0 ≤ i ∧ i < kh) → (0 ≤ j ∧ j < kw) → (0 ≤ c ∧ c < ic) → W i j c = V i j c) :
    scatterSum ih iw kh kw ic X W sh sw pt pl y x = scatterSum ih iw kh kw ic Y V sh sw pt pl y x := by
  unfold scatterSum
  refine Finset.sum_congr rfl fun r hr => Finset.sum_congr rfl fun i hi => Finset.sum_congr rfl fun q hq => Finset.sum_congr rfl fun j hj => ?_
  rw [Finset.mem_range] at hr hi hq hj
  congr 1
  refine Finset.sum_congr rfl fun c hc => ?_
  rw [Finset.mem_range] at hc
  rw [hX r q c (by omega) (by omega) (by omega), hW i j c (by omega) (by omega) (by omega)]

theorem kernelSum_congr {kh kw ic : Int} {W V : Int → Int → Int → Int}
    (hW : ∀ i j c, (0 ≤ i ∧ i < kh) → (0 ≤ j ∧ j < kw) → (0 ≤ c ∧ c < ic) → W i j c = V i j c) : kernelSum kh kw ic W = kernelSum kh kw ic V := by
  unfold kernelSum
  refine Finset.sum_congr rfl fun i hi => Finset.sum_congr rfl fun j hj => Finset.sum_congr rfl fun c hc => ?_
  rw [Finset.mem_range] at hi hj hc
  rw [hW i j c (by omega) (by omega) (by omega)]

end Mli.Rt
