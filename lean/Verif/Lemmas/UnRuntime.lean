import Verif.Model.UnRuntime
import Verif.Lemmas.MapRuntime
import Verif.Props.Reduce

/-! # All rounds of `ReduceSum`, `ReduceMax` and `Permute` -/

namespace Mli.Rt

open Mli Mli.Iter Mli.Spec

/-! ## All rounds -/

/-- One tensor of the caller: its tiling, the local buffer of a tile, the tensor in global memory. -/
structure SideOk (shape tiles loc : List Int) (b size : Int) (gs : List Int) (gsize : Int) : Prop where
  tiling : TilingOk shape tiles (List.range shape.length) 0
  rank : tiles.length = shape.length
  room : Room tiles loc b size
  glob : ∀ x, InShape shape x → 0 ≤ offset gs x ∧ offset gs x < gsize

/-- The iterator of a tensor with the iteration order 0, 1, 2, 3. -/
def tileIt (shape tiles loc : List Int) : TIt := TIt.start (tileCfg shape tiles (List.range shape.length) 0) shape loc

/-- The object in round `n`. -/
def UnObj.at (o : UnObj) (n : Nat) : UnObj :=
  { o with inp := o.inp.at n, out := o.out.at n
           tin := tileT (if n = 0 then o.op.firstSizes o.inp else (o.inp.at n).sizes) o.inp.strides o.tin.base
           tout := tileT (if n = 0 then o.op.firstSizes o.out else (o.out.at n).sizes) o.out.strides o.tout.base }

theorem un_run {ishape itiles li : List Int} {bi : Int} {gin : Glob} {lin : Buf} {oshape otiles lo gos : List Int} {bo : Int} {lout gout : Buf}
    (h1 : SideOk ishape itiles li bi lin.size gin.strides gin.buf.size) (h2 : SideOk oshape otiles lo bo lout.size gos gout.size)
    (ginj : ∀ x y, InShape oshape x → InShape oshape y → offset gos x = offset gos y → x = y) (op : UnOp) (es : Nat) (val : List Int → Int)
    (hissue : ∀ (n : Nat) (l d : Buf), l.size = lin.size → d.size = lout.size →
      (∀ y, InShape ((tileIt ishape itiles li).at n).sizes y →
        l.get (bi + offset li y) = gin.buf.get (offset gin.strides (addPos y ((tileIt ishape itiles li).at n).getPos))) →
      ∃ d', ((UnObj.new op es (tileIt ishape itiles li) (tileIt oshape otiles lo) bi bo).at n).issue l d = some (.ok, d') ∧ d'.size = d.size ∧
        ∀ y, InShape ((tileIt oshape otiles lo).at n).sizes y → d'.get (bo + offset lo y) = val (addPos y ((tileIt oshape otiles lo).at n).getPos)) :
    ∃ s, UnHost.run gin gos (totalCount (tileIt oshape otiles lo).cfg).toNat
        ⟨UnObj.new op es (tileIt ishape itiles li) (tileIt oshape otiles lo) bi bo, lin, lout, gout, .ok⟩ = some s ∧ s.status = .ok ∧
      Result oshape gos val gout s.gout := by
  have hp := tileSeq_range h1.tiling h1.rank li
  have hq := tileSeq_range h2.tiling h2.rank lo
  change TileSeq _ _ _ (fun n => ((tileIt ishape itiles li).at n).getPos) (fun n => ((tileIt ishape itiles li).at n).sizes) at hp
  change TileSeq _ _ (totalCount (tileIt oshape otiles lo).cfg).toNat (fun n => ((tileIt oshape otiles lo).at n).getPos)
    (fun n => ((tileIt oshape otiles lo).at n).sizes) at hq
  have sin : (tileIt ishape itiles li).strides = li := rfl
  have sout : (tileIt oshape otiles lo).strides = lo := rfl
  have shin : (tileIt ishape itiles li).shape = ishape := rfl
  have shout : (tileIt oshape otiles lo).shape = oshape := rfl
  have hi0 : (tileIt ishape itiles li).at 0 = tileIt ishape itiles li := rfl
  have ho0 : (tileIt oshape otiles lo).at 0 = tileIt oshape otiles lo := rfl
  generalize tileIt ishape itiles li = inp at *
  generalize tileIt oshape otiles lo = out at *
  have hli : ∀ n, (inp.at n).sizes.length = li.length := fun n => by rw [hp.lenS n, h1.room.len, h1.rank]
  have hlo : ∀ n, (out.at n).sizes.length = lo.length := fun n => by rw [hq.lenS n, h2.room.len, h2.rank]
  have hfi : ∀ n, (if n = 0 then op.firstSizes inp else (inp.at n).sizes).length = li.length := fun n => by
    split
    · unfold UnOp.firstSizes
      split
      · rw [shin, h1.room.len, h1.rank]
      · have := hli 0; rwa [hi0] at this
    · exact hli n
  have hfo : ∀ n, (if n = 0 then op.firstSizes out else (out.at n).sizes).length = lo.length := fun n => by
    split
    · unfold UnOp.firstSizes
      split
      · rw [shout, h2.room.len, h2.rank]
      · have := hlo 0; rwa [ho0] at this
    · exact hlo n
  let o := UnObj.new op es inp out bi bo
  have h0 : o = o.at 0 := by
    simp only [o, UnObj.new, UnObj.at, hi0, ho0, if_true, tileT]
  let J : Nat → UnHost → Prop := fun n s => s.status = .ok ∧ s.obj = o.at n ∧ s.lin.size = lin.size ∧ s.lout.size = lout.size ∧ s.gout.size = gout.size
  obtain ⟨s', k1, k2, k3⟩ := tile_loop hq ginj val (fun s => UnHost.round gin gos s) (fun s => s.gout) J ⟨o, lin, lout, gout, .ok⟩
    ⟨rfl, h0, rfl, rfl, rfl⟩ (by
    rintro n ⟨obj, l0, d0, g0, st⟩ hn ⟨j1, j2, j3, j4, j5⟩
    simp only at j1 j2 j3 j4 j5
    have ei : ∀ y, InShape (inp.at n).sizes y → addPos y (zeros (inp.at n).sizes) = y := fun y hy => addPos_zeros (inShape_length _ _ hy).symm
    have eo : ∀ y, InShape (out.at n).sizes y → addPos y (zeros (out.at n).sizes) = y := fun y hy => addPos_zeros (inShape_length _ _ hy).symm
    obtain ⟨l1, f1, f2, f3, -⟩ := copyBox_ok (size := (inp.at n).sizes) (src := gin.buf) (sb := 0) (ss := gin.strides) (sp := (inp.at n).getPos)
      (db := bi) (ds := li) (dp := zeros (inp.at n).sizes) (dst := l0)
      (fun y hy => by rw [Int.zero_add]; exact h1.glob _ (hp.global hy))
      (fun y hy => by rw [ei y hy, j3]; exact h1.room.inb y (hp.local_ hy))
      (fun y z hy hz e => by
        rw [ei y hy, ei z hz] at e
        exact h1.room.inj y z (hp.local_ hy) (hp.local_ hz) (by omega))
    obtain ⟨d1, q4, q5, q6⟩ := hissue n l1 d0 (by omega) j4 (fun y hy => by
      have := f3 y hy
      rw [ei y hy, Int.zero_add] at this
      exact this)
    obtain ⟨g', c1, c2, c3, c4⟩ := copyBox_ok (size := (out.at n).sizes) (src := d1) (sb := bo) (ss := lo) (sp := zeros (out.at n).sizes)
      (db := 0) (ds := gos) (dp := (out.at n).getPos) (dst := g0)
      (fun y hy => by rw [eo y hy, q5, j4]; exact h2.room.inb y (hq.local_ hy))
      (fun y hy => by rw [Int.zero_add, j5]; exact h2.glob _ (hq.global hy))
      (fun y z hy hz e => by
        rw [Int.zero_add, Int.zero_add] at e
        exact addPos_inj (by rw [hq.len hy, hq.lenP n]) (by rw [hq.len hz, hq.lenP n]) (ginj _ _ (hq.global hy) (hq.global hz) e))
    simp only [Int.zero_add] at c3 c4
    refine ⟨⟨(o.at n).update, l1, d1, g', .ok⟩, ?_, ⟨rfl, ?_, by simp only; omega, by simp only; omega, by simp only; omega⟩, c2, ?_, c4⟩
    · unfold UnHost.round
      simp only
      rw [j2, j1]
      show (copyBox (inp.at n).sizes gin.buf 0 gin.strides (inp.at n).getPos bi inp.strides (zeros (inp.at n).sizes) l0).bind _ = _
      rw [sin, f1, Option.bind_some, q4, Option.bind_some]
      show (copyBox (out.at n).sizes d1 bo out.strides (zeros (out.at n).sizes) 0 gos (out.at n).getPos g0).map _ = _
      rw [sout, c1]
      rfl
    · show (o.at n).update = o.at (n + 1)
      unfold UnObj.update UnObj.at
      simp only [TIt.at_next, if_neg (Nat.succ_ne_zero n)]
      simp only [o, UnObj.new, sin, sout]
      rw [tileT_setShape (hfi n) (hli (n + 1)), tileT_setShape (hfo n) (hlo (n + 1))]
    · intro y hy
      rw [c3 y hy, eo y hy]
      exact q6 y hy)
  exact ⟨s', k1, k2.1, k3⟩

/-! ## Which tile is current in round `n` -/

/-- The number of the tile along dimension `d` in round `n`, for `cs` tiles along the dimensions. -/
def tileIx : List Int → Int → Nat → Int
  | [], _, _ => 0
  | c :: _, n, 0 => n % c
  | c :: cs, n, d + 1 => tileIx cs (n / c) d

theorem stateAt_get (cfg : List DimCfg) : ∀ (n : Int) (d : Nat) (hd : d < cfg.length),
    (stateAt cfg n)[d]? = some { pos := posOf cfg[d] (tileIx (cfg.map (·.count)) n d), idx := tileIx (cfg.map (·.count)) n d } := by
  induction cfg with
  | nil => intro n d hd; simp at hd
  | cons c cs ih =>
    intro n d hd
    cases d with
    | zero => rfl
    | succ d =>
      simp only [stateAt, List.getElem?_cons_succ, List.map_cons, tileIx, List.getElem_cons_succ]
      exact ih _ _ (by simpa using hd)

/-- The number of tiles along each dimension. -/
def tileCounts (shape tiles : List Int) : List Int := (List.range shape.length).map fun d => (tileDim 0 (shape.getD d 0) (tiles.getD d 0) 0).count

/-- Position and size of the current tile along dimension `d`. -/
theorem tile_dim {shape tiles : List Int} (h : TilingOk shape tiles (List.range shape.length) 0) (loc : List Int) (n d : Nat) (hd : d < shape.length) :
    let j := tileIx (tileCounts shape tiles) n d
    let c := tileDim 0 (shape.getD d 0) (tiles.getD d 0) 0
    ((tileIt shape tiles loc).at n).getPos.getD d 0 = posOf c j ∧
      ((tileIt shape tiles loc).at n).sizes.getD d 0 = tileSize (shape.getD d 0) c { pos := posOf c j, idx := j } := by
  intro j c
  have hpos := tileCfg_count_pos h
  have hcfg : tileCfg shape tiles (List.range shape.length) 0 = (List.range shape.length).map fun d : Nat =>
      tileDim d (shape.getD d 0) (tiles.getD d 0) 0 := by
    unfold tileCfg
    rw [List.length_range]
    apply List.map_congr_left
    intro i hi
    rw [List.mem_range] at hi
    have : (List.range shape.length).getD i 0 = i := by rw [List.getD_eq_getElem?_getD, List.getElem?_range hi]; rfl
    simp only [this, ite_self]
  have hcnt : (tileCfg shape tiles (List.range shape.length) 0).map (·.count) = tileCounts shape tiles := by
    rw [hcfg, List.map_map]; rfl
  have hst : ((tileIt shape tiles loc).at n).st = stateAt (tileCfg shape tiles (List.range shape.length) 0) n := nextN_eq hpos n
  have hlen : (tileCfg shape tiles (List.range shape.length) 0).length = shape.length := by simp [tileCfg]
  have hget : (tileCfg shape tiles (List.range shape.length) 0)[d]'(by omega) = tileDim d (shape.getD d 0) (tiles.getD d 0) 0 := by
    simp only [hcfg, List.getElem_map, List.getElem_range]
  have hs := stateAt_get (tileCfg shape tiles (List.range shape.length) 0) n d (by omega)
  rw [hcnt, hget] at hs
  have hnd : ((tileCfg shape tiles (List.range shape.length) 0).map (·.order)).Nodup := by
    rw [tileCfg_order]
    exact List.Nodup.map (fun a b hab => by exact_mod_cast hab) h.nodup
  have hb : ∀ c ∈ tileCfg shape tiles (List.range shape.length) 0, 0 ≤ c.order ∧ c.order < shape.length := by
    intro c hc
    obtain ⟨d, sk, hd, _, rfl⟩ := tileCfg_mem h hc
    simp only [tileDim]; omega
  have hls : d < (stateAt (tileCfg shape tiles (List.range shape.length) 0) n).length := by rw [stateAt_length]; omega
  obtain ⟨-, -, g⟩ := subTensor_spec shape _ (stateAt (tileCfg shape tiles (List.range shape.length) 0) n) (by rw [stateAt_length]) hnd hb
  obtain ⟨-, g2⟩ := g (tileDim d (shape.getD d 0) (tiles.getD d 0) 0, { pos := posOf c j, idx := j }) (by
    have e : (stateAt (tileCfg shape tiles (List.range shape.length) 0) n)[d] = { pos := posOf c j, idx := j } := by
      rw [List.getElem?_eq_getElem hls] at hs
      exact Option.some.inj hs
    rw [← e, ← hget, ← List.getElem_zip (h := by simp; omega)]
    exact List.getElem_mem _)
  refine ⟨?_, ?_⟩
  · unfold TIt.getPos
    rw [hst, List.getD_eq_getElem?_getD, List.getElem?_map, hs]
    rfl
  · show (subTensor shape (tileCfg shape tiles (List.range shape.length) 0) ((tileIt shape tiles loc).at n).st).2.getD d 0 = _
    rw [hst]
    exact g2

theorem tileCounts_len (shape tiles : List Int) : (tileCounts shape tiles).length = shape.length := by simp [tileCounts]

theorem tileCounts_getD {shape : List Int} (tiles : List Int) {d : Nat} (hd : d < shape.length) (z : Int) :
    (tileCounts shape tiles).getD d z = (tileDim 0 (shape.getD d 0) (tiles.getD d 0) 0).count := by
  unfold tileCounts
  rw [List.getD_eq_getElem?_getD, List.getElem?_map, List.getElem?_range hd]
  rfl

/-- A dimension that is not tiled. -/
theorem untiled {n : Int} (h : TileOk n n 0) (i : Int) : (tileDim 0 n n 0).count = 1 ∧ posOf (tileDim 0 n n 0) 0 = 0 ∧
    tileSize n (tileDim 0 n n 0) { pos := i, idx := 0 } = n := by
  obtain ⟨q, r, e1, e2, e3, e4, -, e6, -, -, -, -, -, e12⟩ := tileDim_facts 0 h
  have := h.htile
  have hq : q = 0 := by nlinarith
  subst hq
  refine ⟨by omega, rfl, ?_⟩
  unfold tileSize
  rw [if_pos (show (0 : Int) = _ by omega), e12]
  omega

theorem tileIx_one : ∀ (cs : List Int) (n : Int) (d : Nat), cs.getD d 1 = 1 → tileIx cs n d = 0 := by
  intro cs
  induction cs with
  | nil => intros; rfl
  | cons c cs ih =>
    intro n d hd
    cases d with
    | zero => simp at hd; simp [tileIx, hd]
    | succ d => exact ih _ _ (by simpa using hd)

/-- The number of the tile, from the product of the numbers of tiles of the dimensions before. -/
theorem tileIx_eq : ∀ (cs : List Int) (_ : ∀ c ∈ cs, 1 ≤ c) (n : Int) (d : Nat), d < cs.length →
    tileIx cs n d = n / ((List.range cs.length).map fun m => if m < d then cs.getD m 1 else 1).prod % cs.getD d 1 := by
  intro cs
  induction cs with
  | nil => intro _ n d hd; simp at hd
  | cons c cs ih =>
    intro hc n d hd
    have h1 := hc c (by simp)
    rw [List.length_cons, List.range_succ_eq_map, List.map_cons, List.map_map, List.prod_cons]
    cases d with
    | zero =>
      have : ((List.range cs.length).map ((fun m => if m < 0 then (c :: cs).getD m 1 else 1) ∘ Nat.succ)).prod = 1 := by
        apply List.prod_eq_one
        intro x hx
        rw [List.mem_map] at hx
        obtain ⟨i, -, rfl⟩ := hx
        rfl
      rw [this]
      simp [tileIx]
    | succ d =>
      have : ((List.range cs.length).map ((fun m => if m < d + 1 then (c :: cs).getD m 1 else 1) ∘ Nat.succ)) =
          (List.range cs.length).map fun m => if m < d then cs.getD m 1 else 1 := by
        apply List.map_congr_left
        intro m _
        simp
      rw [this, if_pos (by omega)]
      simp only [tileIx, List.getD_cons_zero, List.getD_cons_succ]
      rw [ih (fun x hx => hc x (by simp [hx])) _ _ (by simpa using hd), Int.ediv_ediv_of_nonneg (by omega)]

theorem tileCounts_pos {shape tiles : List Int} (h : TilingOk shape tiles (List.range shape.length) 0) : ∀ c ∈ tileCounts shape tiles, 1 ≤ c := by
  intro c hc
  unfold tileCounts at hc
  rw [List.mem_map] at hc
  obtain ⟨d, hd, rfl⟩ := hc
  rw [List.mem_range] at hd
  have hk := h.dims d (by simpa using hd)
  have e : (List.range shape.length).getD d 0 = d := by rw [List.getD_eq_getElem?_getD, List.getElem?_range hd]; rfl
  rw [e, ite_self] at hk
  obtain ⟨q, r, e1, e2, e3, e4, -, e6, -⟩ := tileDim_facts 0 hk
  omega

/-! ## Reductions -/

theorem ext_getD {x y : List Int} (hl : x.length = y.length) (h : ∀ d, d < x.length → x.getD d 0 = y.getD d 0) : x = y := by
  apply List.ext_getElem hl
  intro i h1 h2
  have := h i h1
  simp only [List.getD_eq_getElem?_getD] at this
  rwa [List.getElem?_eq_getElem h1, List.getElem?_eq_getElem h2] at this

theorem getD_set {x : List Int} {a : Nat} (ha : a < x.length) (v : Int) (d : Nat) : (x.set a v).getD d 0 = if d = a then v else x.getD d 0 := by
  simp only [List.getD_eq_getElem?_getD, List.getElem?_set]
  by_cases h : d = a
  · subst h; simp [ha]
  · rw [if_neg (fun e => h e.symm), if_neg h]

/-- The tiles of input and output of a reduction correspond, if the reduced dimension is not tiled. -/
theorem reduce_at {ishape itiles : List Int} {a : Nat} (ha : a < ishape.length) (hT : TilingOk ishape itiles (List.range ishape.length) 0)
    (ht : itiles.length = ishape.length) (hta : itiles.getD a 0 = ishape.getD a 0)
    (hO : TilingOk (ishape.set a 1) (itiles.set a 1) (List.range (ishape.set a 1).length) 0) (li lo : List Int) (n : Nat) :
    let inp := tileIt ishape itiles li
    let out := tileIt (ishape.set a 1) (itiles.set a 1) lo
    (out.at n).sizes = (inp.at n).sizes.set a 1 ∧ (out.at n).getPos = (inp.at n).getPos ∧ (inp.at n).sizes.getD a 0 = ishape.getD a 0 ∧
      (inp.at n).getPos.getD a 0 = 0 := by
  intro inp out
  have hp := tileSeq_range hT ht li
  have hq := tileSeq_range hO (by simp [ht]) lo
  change TileSeq _ _ _ (fun n => (inp.at n).getPos) (fun n => (inp.at n).sizes) at hp
  change TileSeq _ _ _ (fun n => (out.at n).getPos) (fun n => (out.at n).sizes) at hq
  have lp := hp.lenP n
  have ls := hp.lenS n
  have lp' := hq.lenP n
  have ls' := hq.lenS n
  rw [List.length_set] at lp' ls'
  have h1 : TileOk (ishape.getD a 0) (ishape.getD a 0) 0 := by
    have := hT.dims a (by simpa using ha)
    have e : (List.range ishape.length).getD a 0 = a := by rw [List.getD_eq_getElem?_getD, List.getElem?_range ha]; rfl
    rw [e, ite_self, hta] at this
    exact this
  have hc : tileCounts (ishape.set a 1) (itiles.set a 1) = tileCounts ishape itiles := by
    apply ext_getD (by simp [tileCounts_len])
    intro d hd
    rw [tileCounts_len, List.length_set] at hd
    rw [tileCounts_getD _ (by simpa using hd), tileCounts_getD _ hd, getD_set ha, getD_set (by omega)]
    split
    · next h =>
      subst h
      rw [hta, (untiled h1 0).1]
      decide
    · rfl
  have ja : tileIx (tileCounts ishape itiles) n a = 0 := by
    apply tileIx_one
    rw [tileCounts_getD _ ha, hta]
    exact (untiled h1 0).1
  obtain ⟨ia1, ia2⟩ := tile_dim hT li n a ha
  simp only [ja, hta, (untiled h1 0).2.1] at ia1 ia2
  rw [(untiled h1 _).2.2] at ia2
  obtain ⟨oa1, oa2⟩ := tile_dim hO lo n a (by simpa using ha)
  simp only [hc, ja, getD_set ha, getD_set (show a < itiles.length by omega), if_true] at oa1 oa2
  have one : TileOk 1 1 0 := ⟨⟨by decide, by decide⟩, ⟨by decide, by decide⟩, by decide⟩
  rw [(untiled one 0).2.1] at oa1
  rw [(untiled one _).2.2] at oa2
  refine ⟨ext_getD (by simp only [List.length_set]; omega) fun d hd => ?_, ext_getD (by omega) fun d hd => ?_, ia2, ia1⟩
  · rw [getD_set (by omega)]
    split
    · next h => rw [h]; exact oa2
    · next h =>
      rw [(tile_dim hO lo n d (by rw [List.length_set]; omega)).2, (tile_dim hT li n d (by omega)).2, hc, getD_set ha, if_neg h, getD_set (by omega), if_neg h]
  · by_cases h : d = a
    · rw [h]; exact oa1.trans ia1.symm
    · rw [(tile_dim hO lo n d (by rw [List.length_set]; omega)).1, (tile_dim hT li n d (by omega)).1, hc, getD_set ha, if_neg h, getD_set (by omega), if_neg h]

/-- The loops on one tile; the shape `sz` of the descriptor may be larger than the tile. -/
theorem reduce_tile {init : Int → Option Int} {step : Int → Int → Int} {a : Nat} {sz li lo : List Int} {bi bo : Int} {src dst : Buf} (hr : sz.length ≤ 4)
    (ha : a < sz.length) (hp : ∀ k ∈ sz, 1 ≤ k) (l1 : sz.length = li.length) (l2 : sz.length = lo.length)
    (hi : ∀ y, InShape sz y → 0 ≤ bi + offset li y ∧ bi + offset li y < src.size)
    (ho : ∀ y, InShape (sz.set a 1) y → 0 ≤ bo + offset lo y ∧ bo + offset lo y < dst.size)
    (hinj : ∀ y z, InShape (sz.set a 1) y → InShape (sz.set a 1) z → offset lo y = offset lo z → y = z) (v0 : (Nat → Int) → Int)
    (hinit : ∀ y, InShape (sz.set a 1) y → init (bi + offset li (y.set a 0)) = some (v0 fun i => src.get (bi + offset li (y.set a i)))) :
    ∃ d', reduceLoops init step a src (tileT sz li bi) (tileT (sz.set a 1) lo bo) dst = some d' ∧ d'.size = dst.size ∧
      ∀ y, InShape (sz.set a 1) y → d'.get (bo + offset lo y) =
        (List.range (sz.getD a 0).toNat).foldl (fun v (i : Nat) => step v (src.get (bi + offset li (y.set a i)))) (v0 fun i => src.get (bi + offset li (y.set a i))) := by
  have l2' : (sz.set a 1).length = lo.length := by simpa using l2
  have s1 := tileT_shape l1 bi
  have s2 := tileT_shape l2' bo
  have a1 := tileT_addr l1 bi
  have a2 := tileT_addr l2' bo
  have r1 : (tileT sz li bi).dims.length = sz.length := by
    have := congrArg List.length s1
    simpa [Tensor.shape] using this
  have hsh : ∀ d ∈ (tileT sz li bi).dims, 1 ≤ d.shape := fun d hd => hp _ (by rw [← s1]; exact List.mem_map.mpr ⟨d, hd, rfl⟩)
  have hg : (tileT sz li bi).gShape a = sz.getD a 0 := by rw [gShape_lt (by omega), s1]
  generalize tileT sz li bi = tin at *
  generalize tileT (sz.set a 1) lo bo = tout at *
  obtain ⟨d', h1, h2⟩ := reduce_laid (init := init) (step := step) src dst tin tout (by omega) hsh
    (fun is his => by rw [a1]; rw [s1] at his; exact hi is his)
    (fun is his => by rw [a2]; rw [s2] at his; exact ho is his)
    (fun y z hy hz e => by rw [a2, a2] at e; rw [s2] at hy hz; exact hinj y z hy hz (by omega)) (show a < _ by omega) (by rw [s1, s2]) v0
    (fun js hj => by simp only [a1]; rw [s2] at hj; exact hinit js hj)
  refine ⟨d', h1, h2.size, fun y hy => ?_⟩
  have := h2.elem y (by rw [s2]; exact hy)
  simp only [a1, a2, hg] at this
  exact this

/-! ## Permute -/

/-- `perm` is a permutation of the dimensions. -/
def IsPerm (r : Nat) (perm : PermCfg) : Prop := (∀ k, k < r → perm.getD k 0 < r) ∧ ∀ i j, i < j → j < r → perm.getD j 0 ≠ perm.getD i 0

theorem IsPerm.perm {r : Nat} {perm : PermCfg} (h : IsPerm r perm) : ((List.range r).map (perm.getD · 0)).Perm (List.range r) := perm_isPerm h.1 h.2

/-- The tiles of input and output of a permutation correspond, if the permutation keeps the order of the dimensions with more than one tile. -/
theorem permute_at {ishape itiles oshape otiles : List Int} {perm : PermCfg} (hT : TilingOk ishape itiles (List.range ishape.length) 0)
    (hO : TilingOk oshape otiles (List.range oshape.length) 0) (hl : oshape.length = ishape.length) (hp : IsPerm ishape.length perm)
    (hsh : ∀ k, k < ishape.length → oshape.getD k 0 = ishape.getD (perm.getD k 0) 0)
    (hti : ∀ k, k < ishape.length → otiles.getD k 0 = itiles.getD (perm.getD k 0) 0)
    (hord : ∀ k l, k < l → l < ishape.length → otiles.getD k 0 < oshape.getD k 0 → otiles.getD l 0 < oshape.getD l 0 → perm.getD k 0 < perm.getD l 0)
    (li lo : List Int) (n k : Nat) (hk : k < ishape.length) :
    ((tileIt oshape otiles lo).at n).getPos.getD k 0 = ((tileIt ishape itiles li).at n).getPos.getD (perm.getD k 0) 0 ∧
      ((tileIt oshape otiles lo).at n).sizes.getD k 0 = ((tileIt ishape itiles li).at n).sizes.getD (perm.getD k 0) 0 := by
  have hpk := hp.1 k hk
  obtain ⟨o1, o2⟩ := tile_dim hO lo n k (by omega)
  obtain ⟨i1, i2⟩ := tile_dim hT li n _ hpk
  have hcnt : ∀ k, k < ishape.length → (tileCounts oshape otiles).getD k 1 = (tileCounts ishape itiles).getD (perm.getD k 0) 1 := by
    intro k hk
    rw [tileCounts_getD _ (by omega), tileCounts_getD _ (hp.1 k hk), hsh k hk, hti k hk]
  have hone : ∀ k, k < ishape.length → (tileCounts oshape otiles).getD k 1 = 1 ∨ otiles.getD k 0 < oshape.getD k 0 := by
    intro k hk
    have h0 := hO.dims k (by rw [List.length_range]; omega)
    have e : (List.range oshape.length).getD k 0 = k := by rw [List.getD_eq_getElem?_getD, List.getElem?_range (by omega)]; rfl
    rw [e, ite_self] at h0
    rcases Int.lt_or_eq_of_le h0.htile.2 with h | h
    · exact Or.inr h
    · left
      rw [tileCounts_getD _ (by omega), h]
      rw [h] at h0
      exact (untiled h0 0).1
  have hj : tileIx (tileCounts oshape otiles) n k = tileIx (tileCounts ishape itiles) n (perm.getD k 0) := by
    rcases hone k hk with h1 | h1
    · rw [tileIx_one _ _ _ h1, tileIx_one _ _ _ (by rw [← hcnt k hk]; exact h1)]
    · rw [tileIx_eq _ (tileCounts_pos hO) _ _ (by rw [tileCounts_len]; omega), tileIx_eq _ (tileCounts_pos hT) _ _ (by rw [tileCounts_len]; omega), hcnt k hk,
        tileCounts_len, tileCounts_len, hl]
      congr 2
      have hmap := (hp.perm.map fun m => if m < perm.getD k 0 then (tileCounts ishape itiles).getD m 1 else 1).prod_eq
      rw [← hmap, List.map_map]
      congr 1
      apply List.map_congr_left
      intro m hm
      rw [List.mem_range] at hm
      simp only [Function.comp]
      rw [← hcnt m hm]
      rcases hone m hm with h2 | h2
      · rw [h2]; simp
      · by_cases hmk : m < k
        · rw [if_pos hmk, if_pos (hord m k hmk hk h2 h1)]
        · rw [if_neg hmk]
          rcases Nat.lt_or_eq_of_le (Nat.le_of_not_lt hmk) with h3 | h3
          · rw [if_neg (by have := hord k m h3 hm h1 h2; omega)]
          · rw [h3, if_neg (by omega)]
  rw [o1, o2, i1, i2, hj, hsh k hk, hti k hk]
  exact ⟨rfl, rfl⟩

/-- `mli_krn_permute_run` on one tile. -/
theorem permute_tile {perm : PermCfg} {szi szo li lo : List Int} {bi bo : Int} {src dst : Buf} (hr : szi.length ≤ 4) (hl : szo.length = szi.length)
    (hpos : ∀ k ∈ szo, 1 ≤ k) (l1 : szi.length = li.length) (l2 : szo.length = lo.length) (hp : IsPerm szi.length perm)
    (hsh : ∀ k, k < szi.length → szo.getD k 0 = szi.getD (perm.getD k 0) 0)
    (hi : ∀ y, InShape szi y → 0 ≤ bi + offset li y ∧ bi + offset li y < src.size)
    (ho : ∀ y, InShape szo y → 0 ≤ bo + offset lo y ∧ bo + offset lo y < dst.size)
    (hinj : ∀ y z, InShape szo y → InShape szo z → offset lo y = offset lo z → y = z) :
    ∃ d', permuteRun (tileT szi li bi) (tileT szo lo bo) perm src dst = some d' ∧ d'.size = dst.size ∧
      ∀ y, InShape szo y → ∃ x, InShape szi x ∧ (∀ k, k < szi.length → y.getD k 0 = x.getD (perm.getD k 0) 0) ∧
        d'.get (bo + offset lo y) = src.get (bi + offset li x) := by
  have s1 := tileT_shape l1 bi
  have s2 := tileT_shape l2 bo
  have a1 : ∀ y, (tileT szi li bi).base + offset (tileT szi li bi).strides y = bi + offset li y := tileT_addr l1 bi
  have a2 : ∀ y, (tileT szo lo bo).base + offset (tileT szo lo bo).strides y = bo + offset lo y := tileT_addr l2 bo
  have r1 : (tileT szi li bi).dims.length = szi.length := by
    have := congrArg List.length s1
    simpa [Tensor.shape] using this
  have r2 : (tileT szo lo bo).dims.length = szo.length := by
    have := congrArg List.length s2
    simpa [Tensor.shape] using this
  have hps : ∀ d ∈ (tileT szo lo bo).dims, 0 ≤ d.shape := fun d hd => by
    have := hpos d.shape (by rw [← s2]; exact List.mem_map.mpr ⟨d, hd, rfl⟩)
    omega
  generalize tileT szi li bi = tin at *
  generalize tileT szo lo bo = tout at *
  have hd : PermDims tin tout perm := fun k hk => by
    rw [r1] at hk ⊢
    refine ⟨hp.1 k hk, fun j h1 h2 => hp.2 k j h1 h2, ?_⟩
    rw [gShape_lt (by omega), gShape_lt (by rw [r1]; exact hp.1 k hk), s1, s2]
    exact hsh k hk
  obtain ⟨d', h1, h2, h3, -⟩ := permute_laid tin tout perm src dst (by omega)
    (fun is his => by rw [a1]; rw [s1] at his; exact hi is his)
    (fun is his => by rw [a2]; rw [s2] at his; exact ho is his)
    (fun y z hy hz e => by
      have e1 := a2 y
      have e2 := a2 z
      rw [s2] at hy hz; exact hinj y z hy hz (by omega)) hps (by omega) hd
  refine ⟨d', h1, h2, fun y hy => ?_⟩
  obtain ⟨x, hx, hrel⟩ := permDims_source tin tout perm hd (by omega) y (by rw [s2]; exact hy)
  have := h3 x y hx (by rw [s2]; exact hy) hrel
  rw [a1, a2] at this
  rw [s1] at hx
  rw [r1] at hrel
  exact ⟨x, hx, hrel, this⟩

/-- The position of the input is determined by that of the output. -/
theorem perm_unique {r : Nat} {perm : PermCfg} (hp : IsPerm r perm) {x x' y : List Int} (hx : x.length = r) (hx' : x'.length = r)
    (h : ∀ k, k < r → y.getD k 0 = x.getD (perm.getD k 0) 0) (h' : ∀ k, k < r → y.getD k 0 = x'.getD (perm.getD k 0) 0) : x = x' := by
  apply ext_getD (by omega)
  intro d hd
  obtain ⟨k, hk, rfl⟩ := perm_surj hp.perm (show d < r by omega)
  rw [← h k hk, ← h' k hk]

end Mli.Rt
