import Verif.Lemmas.Tiles

/-! # Input and output tiles of a sliding-window kernel -/

namespace Mli.Rt

open Mli Mli.Iter Mli.Spec

/-- One dimension of the `n`-th tile of an iterator that goes through the dimensions in their own order. -/
theorem cell_range {cfg : List DimCfg} {shape : List Int} (strides : List Int) (hlen : cfg.length = shape.length)
    (hord : cfg.map (·.order) = (List.range shape.length).map fun d : Nat => (d : Int)) (hpos : ∀ c ∈ cfg, 1 ≤ c.count)
    (n d : Nat) (hd : d < shape.length) (hd' : d < cfg.length) (hd'' : d < (stateAt cfg n).length) :
    let t := (TIt.start cfg shape strides).at n
    let j := (stateAt cfg n)[d].idx
    t.getPos.getD d 0 = posOf cfg[d] j ∧ t.sizes.getD d 0 = tileSize (shape.getD d 0) cfg[d] { pos := posOf cfg[d] j, idx := j } ∧
    (0 ≤ j ∧ j < cfg[d].count) ∧ (t.st.map (·.idx)).getD d 0 = j := by
  intro t j
  have hnd : (cfg.map (·.order)).Nodup := by
    rw [hord]; exact List.Nodup.map (fun a b hab => by exact_mod_cast hab) List.nodup_range
  have hod : ∀ (i : Nat) (hi : i < cfg.length), cfg[i].order = i := by
    intro i hi
    have : (cfg.map (·.order))[i]? = some (i : Int) := by
      rw [hord, List.getElem?_map, List.getElem?_range (by omega)]; rfl
    rw [List.getElem?_map, List.getElem?_eq_getElem hi] at this
    simpa using this
  have hb : ∀ c ∈ cfg, 0 ≤ c.order ∧ c.order < shape.length := by
    intro c hc
    obtain ⟨i, hi, rfl⟩ := List.getElem_of_mem hc
    rw [hod i hi]; omega
  have hsub := subTensor_spec shape cfg (stateAt cfg n) (by rw [stateAt_length]) hnd hb
  have hst : t.st = stateAt cfg n := by
    show (nextN cfg n).1 = _
    rw [nextN_eq hpos]
  have hp : (cfg[d], (stateAt cfg n)[d]) ∈ cfg.zip (stateAt cfg n) := by
    rw [← List.getElem_zip (h := by simp; omega)]
    exact List.getElem_mem _
  obtain ⟨g1, g2⟩ := hsub.2.2 _ hp
  obtain ⟨z1, z2, z3⟩ := zip_stateAt cfg hpos n _ hp
  simp only [hod d hd', Int.toNat_natCast] at g1 g2 z1
  refine ⟨?_, ?_, ⟨z2, z3⟩, ?_⟩
  · show (t.st.map (·.pos)).getD d 0 = _
    rw [hst, List.getD_eq_getElem?_getD, List.getElem?_map, List.getElem?_eq_getElem hd'']
    exact z1
  · show (subTensor shape cfg t.st).2.getD d 0 = _
    rw [hst, g2]
    congr 1
    rw [← z1]
  · rw [hst, List.getD_eq_getElem?_getD, List.getElem?_map, List.getElem?_eq_getElem hd'']
    rfl

theorem cell_len {cfg : List DimCfg} {shape : List Int} (strides : List Int) (hlen : cfg.length = shape.length)
    (hord : cfg.map (·.order) = (List.range shape.length).map fun d : Nat => (d : Int)) (hpos : ∀ c ∈ cfg, 1 ≤ c.count) (n : Nat) :
    let t := (TIt.start cfg shape strides).at n
    t.getPos.length = shape.length ∧ t.sizes.length = shape.length := by
  intro t
  have hnd : (cfg.map (·.order)).Nodup := by
    rw [hord]; exact List.Nodup.map (fun a b hab => by exact_mod_cast hab) List.nodup_range
  have hb : ∀ c ∈ cfg, 0 ≤ c.order ∧ c.order < shape.length := by
    intro c hc
    have : c.order ∈ cfg.map (·.order) := List.mem_map_of_mem hc
    rw [hord, List.mem_map] at this
    obtain ⟨i, hi, e⟩ := this
    rw [List.mem_range] at hi
    omega
  have hst : t.st = stateAt cfg n := by
    show (nextN cfg n).1 = _
    rw [nextN_eq hpos]
  have hsub := subTensor_spec shape cfg (stateAt cfg n) (by rw [stateAt_length]) hnd hb
  refine ⟨?_, ?_⟩
  · show (t.st.map (·.pos)).length = _
    rw [hst, List.length_map, stateAt_length, hlen]
  · show (subTensor shape cfg t.st).2.length = _
    rw [hst]
    exact hsub.2.1

/-- One dimension of the input and output tile in a round: output extent `out` in tiles of `tile` with `skew`, input extent `n`, kernel `k`, stride `s`, padding `p`
before the input. -/
structure WinAt (out tile skew n k s p : Int) (opos osz ipos isz idx : Int) : Prop where
  o0 : 0 ≤ opos
  o1 : 1 ≤ osz
  o2 : osz ≤ tile
  o3 : opos + osz ≤ out
  i0 : 0 ≤ ipos
  i1 : 1 ≤ isz
  i3 : ipos + isz ≤ n
  idx0 : 0 ≤ idx
  start : opos = max 0 (idx * tile - skew)
  first : idx = 0 → opos = 0 ∧ ipos = 0 ∧ p ≤ osz * s
  later : idx ≠ 0 → ipos = opos * s - p ∧ p ≤ opos * s
  field : ∀ o t, opos ≤ o → o < opos + osz → 0 ≤ t → t < k → 0 ≤ o * s + t - p → o * s + t - p < n →
    ipos ≤ o * s + t - p ∧ o * s + t - p < ipos + isz
  ends : ipos + isz = min n ((opos + osz - 1) * s + k - p) ∨ (ipos + isz = n ∧ opos + osz = out)

theorem winAt {out tile skew n k s p : Int} (d : Int) (h : KernOk out tile skew n k s p) (j : Int)
    (hj : 0 ≤ j ∧ j < (tileDim d out tile skew).count) {c e : DimCfg} (hc : c = tileDim d out tile skew) (he : e = kernelDim c n k s p) :
    WinAt out tile skew n k s p (posOf c j) (tileSize out c { pos := posOf c j, idx := j }) (posOf e j)
      (tileSize n e { pos := posOf e j, idx := j }) j := by
  obtain ⟨q, r, f1, f2, f3, f4, f5, e1, e2, e3, e4, e5, e6, e7⟩ := tileDim_facts d h.otile
  have hA := tileDim_spec d h.otile j hj
  have hB := c25_tile_extent d h j hj
  have hop := posOf_tileDim d h.otile j hj.1
  have hle := tileSize_le d h.otile { pos := posOf c j, idx := j }
  have hK := kernelDim_facts d h
  simp only at hA hB hK
  rw [← hc] at hA hB hop hle hj e1 e2 e3 e4 e5 e6 e7 hK
  rw [← he] at hB hK
  clear hc he
  obtain ⟨a1, a2, a3, a4, a5⟩ := hA
  obtain ⟨b1, b2, b3, b4, b5⟩ := hB
  obtain ⟨g0, g1, g2, g3, g4, g5, g6, g7, g8⟩ := hK
  obtain ⟨⟨⟨t1, t2⟩, ⟨s1, s2⟩, hN⟩, hk, hs, ⟨hp0, hp1⟩, hf, hl, ⟨hn1, hn2⟩, hsm⟩ := h
  have hlastEnd : j = q → posOf c j + tileSize out c { pos := posOf c j, idx := j } = out := by
    intro hjq
    have hx := (a4 (out - 1) (by omega) (by omega)).mpr (by
      rw [hjq]
      symm
      have hx : out - 1 + skew = tile * q + (r - 1) := by omega
      rw [hx, Int.mul_add_ediv_left _ _ (by omega), Int.ediv_eq_zero_of_lt (by omega) (by omega)]; omega)
    omega
  have hjt : 1 ≤ j → tile ≤ j * tile := fun hj1 => by
    have := Int.mul_le_mul_of_nonneg_right hj1 (show 0 ≤ tile by omega)
    rwa [one_mul] at this
  have hisz : 1 ≤ tileSize n e { pos := posOf e j, idx := j } := by
    have hm : posOf c j * s ≤ (out - 1) * s := Int.mul_le_mul_of_nonneg_right (by omega) (by omega)
    have hm2 : 0 ≤ posOf c j * s := Int.mul_nonneg a1 (by omega)
    by_cases hq : posOf c j * s - p < 0
    · have hx := b5 (posOf c j) (p - posOf c j * s) (by omega) (by omega) (by omega) (by omega) (by omega) (by omega)
      omega
    · have hx := b5 (posOf c j) 0 (by omega) (by omega) (by omega) (by omega) (by omega) (by omega)
      omega
  refine ⟨a1, a2, hle, a3, b1, hisz, b2, hj.1, hop, ?_, ?_, b5, ?_⟩
  · intro h0
    have ho : posOf c j = 0 := by rw [hop, h0]; simp; omega
    refine ⟨ho, by rw [b3, ho, max_eq_left (by omega)], ?_⟩
    have h1 : tile - skew ≤ tileSize out c { pos := posOf c j, idx := j } := by
      by_cases hq : j = q
      · have := hlastEnd hq
        omega
      · unfold tileSize
        simp only
        rw [if_neg (by change ¬ (j = c.count - 1); rw [show c.count = q + 1 from e1]; omega), if_pos h0, show c.firstSize = _ from e5]
    have := Int.mul_le_mul_of_nonneg_right h1 (show 0 ≤ s by omega)
    omega
  · intro h0
    have hj1 : 1 ≤ j := by omega
    have := hjt hj1
    have ho : posOf c j = j * tile - skew := by rw [hop, max_eq_right (by omega)]
    have h1 : tile - skew ≤ posOf c j := by omega
    have h2 := Int.mul_le_mul_of_nonneg_right h1 (show 0 ≤ s by omega)
    exact ⟨by rw [b3, max_eq_right (by omega)], by omega⟩
  · by_cases hq : j = q
    · right
      refine ⟨?_, hlastEnd hq⟩
      have hli : e.lastInc = -posOf e j := by
        by_cases hq0 : q = 0
        · have : e.lastInc = 0 := g5 (by rw [e1]; omega)
          rw [this]; unfold posOf; rw [if_pos (by omega)]; rfl
        · have hx : e.lastInc = _ := g4 (by rw [e1]; omega)
          rw [hx]; unfold posOf
          rw [if_neg (by omega), show e.firstInc = _ from g2, show e.inc = _ from g3, e1, hq]; ring
      have : posOf e j < n := by omega
      unfold tileSize
      simp only
      rw [if_pos (by change j = e.count - 1; rw [show e.count = c.count from g1, show c.count = q + 1 from e1]; omega), show e.lastSize = _ from g8]
      change posOf e j + u32 (n + e.lastInc) = n
      rw [hli, u32_id ⟨by omega, by omega⟩]; ring
    · left
      exact b4 (by change j < c.count - 1; rw [show c.count = q + 1 from e1]; omega)

/-- One dimension of the `n`-th input and output tile: both iterators have the same tile index. -/
theorem lockCell {oshape tiles ishape : List Int} {skew : Int} {k s p : Nat → Int} (ostr istr : List Int)
    (h : TilingOk oshape tiles (List.range oshape.length) skew) (hlen : ishape.length = oshape.length) (n d : Nat) (hd : d < oshape.length) :
    let ocfg := tileCfg oshape tiles (List.range oshape.length) skew
    let o := (TIt.start ocfg oshape ostr).at n
    let i := (TIt.start (kernelCfg ocfg ishape k s p) ishape istr).at n
    let c := tileDim d (oshape.getD d 0) (tiles.getD d 0) (if d = 0 then skew else 0)
    let e := kernelDim c (ishape.getD d 0) (k d) (s d) (p d)
    let j := (i.st.map (·.idx)).getD d 0
    ((0 ≤ j ∧ j < c.count) ∧ o.getPos.getD d 0 = posOf c j ∧ o.sizes.getD d 0 = tileSize (oshape.getD d 0) c { pos := posOf c j, idx := j } ∧
      i.getPos.getD d 0 = posOf e j ∧ i.sizes.getD d 0 = tileSize (ishape.getD d 0) e { pos := posOf e j, idx := j }) ∧
    (i.cfg.map (·.inc)).getD d 0 = e.inc ∧ i.getPos.length = ishape.length ∧ i.sizes.length = ishape.length := by
  intro ocfg o i c e j
  have hopos := tileCfg_count_pos h
  have hol : ocfg.length = oshape.length := by simp [ocfg, tileCfg]
  have hil : (kernelCfg ocfg ishape k s p).length = ishape.length := by simp [kernelCfg, hol, hlen]
  have hoo : ocfg.map (·.order) = (List.range oshape.length).map (fun d : Nat => (d : Int)) := tileCfg_order ..
  have hio : (kernelCfg ocfg ishape k s p).map (·.order) = (List.range ishape.length).map (fun d : Nat => (d : Int)) := by
    rw [hlen, ← hoo]
    simp only [kernelCfg, List.map_map]
    rfl
  have hipos : ∀ c ∈ kernelCfg ocfg ishape k s p, 1 ≤ c.count := by
    intro c hc
    obtain ⟨c', hc', rfl⟩ := List.mem_map.mp hc
    exact hopos c' hc'
  have hd1 : d < ocfg.length := by omega
  have hd2 : d < (kernelCfg ocfg ishape k s p).length := by omega
  have hd3 : d < (stateAt ocfg n).length := by rw [stateAt_length]; omega
  have hd4 : d < (stateAt (kernelCfg ocfg ishape k s p) n).length := by rw [stateAt_length]; omega
  obtain ⟨o1, o2, o3, o4⟩ := cell_range ostr hol hoo hopos n d hd hd1 hd3
  obtain ⟨i1, i2, i3, i4⟩ := cell_range istr hil hio hipos n d (by omega) hd2 hd4
  have hidx : ∀ (cs : List DimCfg) (g : DimCfg → DimCfg), (∀ c, (g c).count = c.count) → ∀ m : Int,
      (stateAt (cs.map g) m).map (·.idx) = (stateAt cs m).map (·.idx) := by
    intro cs g hg
    induction cs with
    | nil => intro m; rfl
    | cons c cs ih => intro m; simp only [List.map_cons, stateAt, hg, ih]
  have hsame : (stateAt (kernelCfg ocfg ishape k s p) n)[d].idx = (stateAt ocfg n)[d].idx := by
    have := congrArg (·[d]?) (hidx ocfg (fun c =>
      kernelDim c (ishape.getD c.order.toNat 0) (k c.order.toNat) (s c.order.toNat) (p c.order.toNat)) (fun c => rfl) n)
    simp only [List.getElem?_map] at this
    change Option.map _ (stateAt (kernelCfg ocfg ishape k s p) n)[d]? = _ at this
    rw [List.getElem?_eq_getElem hd4, List.getElem?_eq_getElem hd3] at this
    simpa using this
  have eo : ocfg[d] = tileDim d (oshape.getD d 0) (tiles.getD d 0) (if d = 0 then skew else 0) := by
    simp only [ocfg, tileCfg, List.getElem_map, List.getElem_range, List.length_range]
    have : (List.range oshape.length).getD d 0 = d := by
      rw [List.getD_eq_getElem?_getD, List.getElem?_range hd]; rfl
    rw [this]
  have ei : (kernelCfg ocfg ishape k s p)[d] = kernelDim (tileDim d (oshape.getD d 0) (tiles.getD d 0) (if d = 0 then skew else 0))
      (ishape.getD d 0) (k d) (s d) (p d) := by
    simp only [kernelCfg, List.getElem_map, eo]
    simp [tileDim]
  rw [eo] at o1 o2 o3
  rw [ei, hsame] at i1 i2
  rw [hsame] at i4
  have hj : j = _ := i4
  refine ⟨?_, ?_, cell_len istr hil hio hipos n⟩
  · rw [hj]
    exact ⟨o3, o1, o2, i1, i2⟩
  · show ((kernelCfg ocfg ishape k s p).map (·.inc)).getD d 0 = _
    rw [List.getD_eq_getElem?_getD, List.getElem?_map, List.getElem?_eq_getElem hd2, Option.map_some, Option.getD_some, ei]

/-- Input and output tiles of a kernel in lockstep, for dimensions in their own order. -/
theorem winTiles {oshape tiles ishape : List Int} {skew : Int} {k s p : Nat → Int} (ostr istr : List Int)
    (h : TilingOk oshape tiles (List.range oshape.length) skew) (hlen : ishape.length = oshape.length)
    (n d : Nat) (hd : d < oshape.length)
    (hk : KernOk (oshape.getD d 0) (tiles.getD d 0) (if d = 0 then skew else 0) (ishape.getD d 0) (k d) (s d) (p d)) :
    let ocfg := tileCfg oshape tiles (List.range oshape.length) skew
    let o := (TIt.start ocfg oshape ostr).at n
    let i := (TIt.start (kernelCfg ocfg ishape k s p) ishape istr).at n
    WinAt (oshape.getD d 0) (tiles.getD d 0) (if d = 0 then skew else 0) (ishape.getD d 0) (k d) (s d) (p d) (o.getPos.getD d 0) (o.sizes.getD d 0) (i.getPos.getD d 0)
      (i.sizes.getD d 0) ((i.st.map (·.idx)).getD d 0) ∧ (i.cfg.map (·.inc)).getD d 0 = tiles.getD d 0 * s d ∧
    i.getPos.length = ishape.length ∧ i.sizes.length = ishape.length := by
  intro ocfg o i
  obtain ⟨⟨h1, h2, h3, h4, h5⟩, h6, h7⟩ := lockCell (k := k) (s := s) (p := p) ostr istr h hlen n d hd
  refine ⟨?_, ?_, h7⟩
  · rw [show o.getPos.getD d 0 = _ from h2, show o.sizes.getD d 0 = _ from h3, show i.getPos.getD d 0 = _ from h4, show i.sizes.getD d 0 = _ from h5]
    exact winAt d hk _ h1 rfl rfl
  · exact h6.trans (kernelDim_facts d hk).2.2.2.1

end Mli.Rt
