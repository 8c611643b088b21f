import Verif.Model.MapRuntime
import Verif.Lemmas.ConvTiles
import Verif.Props.Params
import Verif.Props.Rescale

/-! # One round and all rounds of `Rescale` and `PRelu` -/

namespace Mli.Rt

open Mli Mli.Iter Mli.Spec

/-! ## Loops over tiles -/

/-- `forPos_inplace` for tensors that are not checked. -/
theorem forPos_laid (tl out : Tensor) (mem : Buf) (hr : out.dims.length ≤ 4) (hb : ∀ is, InShape out.shape is → 0 ≤ out.addr is ∧ out.addr is < mem.size)
    (hsep : out.Separate out) (hs : tl.shape = out.shape) (val : List Int → Int) (f : Nat → Nat → Nat → Nat → Buf → Option Buf)
    (hf : ∀ p ∈ out.pts, ∀ d' : Buf, d'.size = mem.size →
      (∀ a, (∀ js, InShape out.shape js → js ≠ idx4 out.dims.length p → out.addr js ≠ a) → d'.get a = mem.get a) →
      f p.1 p.2.1 p.2.2.1 p.2.2.2 d' = d'.wr (out.addr (idx4 out.dims.length p)) (val (idx4 out.dims.length p))) :
    ∃ mem', forPos tl f mem = some mem' ∧ out.Writes val mem mem' := by
  unfold forPos
  rw [nest4_eq_foldlM]
  change ∃ mem', List.foldlM _ mem tl.pts = some mem' ∧ _
  rw [pts_congr hs]
  obtain ⟨d', h1, h2⟩ := foldlM_inplace (fun p => out.addr (idx4 out.dims.length p)) (fun p => val (idx4 out.dims.length p))
    (fun (s : Buf) (p : Nat × Nat × Nat × Nat) => f p.1 p.2.1 p.2.2.1 p.2.2.2 s) mem out.pts (nodup_pts4 _ _ _ _)
    (fun p hp d' hd hfr => hf p hp d' hd (fun a ha => hfr a (fun q hq hne => ha _ (pts_inShape hr hq).1
      (fun e => hne (idx4_inj hr hq hp e)))))
    (fun p hp => hb _ (pts_inShape hr hp).1)
    (fun p hp q hq e => idx4_inj hr hp hq (hsep _ _ (pts_inShape hr hp).1 (pts_inShape hr hq).1 e))
  refine ⟨d', h1, h2.size, fun is hi => ?_, fun a ha => h2.frame a (fun q hq => ha _ (pts_inShape hr hq).1)⟩
  obtain ⟨p, hp, rfl⟩ := pts_onto hr hi
  exact h2.hit p hp

/-- The tensor of a tile of size `sz`. -/
def tileT (sz st : List Int) (b : Int) : Tensor := { dims := List.zipWith Dim.mk sz st, base := b, cap := 0, es := 1 }

theorem tileT_shape {sz st : List Int} (h : sz.length = st.length) (b : Int) : (tileT sz st b).shape = sz := zip_shape h

theorem tileT_addr {sz st : List Int} (h : sz.length = st.length) (b : Int) (y : List Int) : (tileT sz st b).addr y = b + offset st y := by
  unfold Tensor.addr
  rw [show (tileT sz st b).strides = st from zip_strides h]
  rfl

theorem tileT_setShape {sz sz' st : List Int} (h : sz.length = st.length) (h' : sz'.length = st.length) (b : Int) :
    setShape (tileT sz st b) sz' = tileT sz' st b := by
  unfold setShape tileT
  rw [zip_setShape h h']

/-- A local buffer for tiles: a box of the largest tile at address `b` with strides `loc`. -/
structure Room (tiles loc : List Int) (b size : Int) : Prop where
  len : loc.length = tiles.length
  inb : ∀ y, InShape tiles y → 0 ≤ b + offset loc y ∧ b + offset loc y < size
  inj : ∀ y z, InShape tiles y → InShape tiles z → offset loc y = offset loc z → y = z

/-! ## All rounds -/

/-- The caller's arrangement: tiling, local buffers of input and output tiles, tensors in global memory. -/
structure MapOk (shape tiles : List Int) (skew : Int) (li lo : List Int) (bi bo : Int) (gin : Glob) (gos : List Int) (lin lout gout : Buf) : Prop where
  tiling : TilingOk shape tiles (List.range shape.length) skew
  rank : tiles.length = shape.length
  room : Room tiles li bi lin.size
  roomOut : Room tiles lo bo lout.size
  glob : ∀ x, InShape shape x → 0 ≤ offset gin.strides x ∧ offset gin.strides x < gin.buf.size
  gin : ∀ x, InShape shape x → 0 ≤ offset gos x ∧ offset gos x < gout.size
  ginj : ∀ x y, InShape shape x → InShape shape y → offset gos x = offset gos y → x = y

/-- The object in round `n`. -/
def MapObj.at (o : MapObj) (n : Nat) : MapObj :=
  { o with inp := o.inp.at n, par := o.par.at n, out := o.out.at n
           tin := tileT (o.inp.at n).sizes o.inp.strides o.tin.base, tout := tileT (o.out.at n).sizes o.out.strides o.tout.base }

theorem map_run {m : Rnd} {shape tiles : List Int} {skew : Int} {li lo : List Int} {bi bo : Int} {gin : Glob} {gos : List Int} {lin lout gout : Buf}
    (h : MapOk shape tiles skew li lo bi bo gin gos lin lout gout) (o : MapObj)
    (hin : o.inp = TIt.start (tileCfg shape tiles (List.range shape.length) skew) shape li)
    (hout : o.out = TIt.start (tileCfg shape tiles (List.range shape.length) skew) shape lo)
    (hbi : o.tin.base = bi) (hbo : o.tout.base = bo) (h0 : o = o.at 0)
    (enc : Buf) (N : Int) (val : List Int → Int) (pm : Buf)
    (hissue : ∀ (n : Nat) (pm' l d : Buf), pm'.size = pm.size → (o.axis = -1 → pm' = pm) → l.size = lin.size → d.size = lout.size →
      (∀ y, InShape (o.out.at n).sizes y → l.get (bi + offset li y) = gin.buf.get (offset gin.strides (addPos y (o.out.at n).getPos))) →
      ∃ pm'' d', (if o.axis = -1 then some pm' else fetchParams N ((o.out.at n).getPos.getD o.axis.toNat 0) (o.at n).parCount o.pb enc o.parSizes o.parOffsets 0 pm')
          = some pm'' ∧ pm''.size = pm.size ∧ (o.axis = -1 → pm'' = pm) ∧ (o.at n).issue m pm'' l d = some (.ok, d') ∧ d'.size = d.size ∧
        ∀ y, InShape (o.out.at n).sizes y → d'.get (bo + offset lo y) = val (addPos y (o.out.at n).getPos)) :
    ∃ s, MapHost.run m gin enc N gos (totalCount o.out.cfg).toNat ⟨o, lin, lout, pm, gout, .ok⟩ = some s ∧ s.status = .ok ∧
      Result shape gos val gout s.gout := by
  have hT := h.tiling
  have hq := tileSeq_range hT h.rank lo
  have esz : ∀ n, (o.inp.at n).sizes = (o.out.at n).sizes := fun n => by rw [hin, hout]; rfl
  have eps : ∀ n, (o.inp.at n).getPos = (o.out.at n).getPos := fun n => by rw [hin, hout]; rfl
  have sin : o.inp.strides = li := by rw [hin]; rfl
  have sout : o.out.strides = lo := by rw [hout]; rfl
  rw [← hout] at hq
  have hlo : ∀ n, (o.out.at n).sizes.length = lo.length := fun n => by rw [hq.lenS n, h.roomOut.len, h.rank]
  have hli : ∀ n, (o.out.at n).sizes.length = li.length := fun n => by rw [hq.lenS n, h.room.len, h.rank]
  let J : Nat → MapHost → Prop := fun n s => s.status = .ok ∧ s.obj = o.at n ∧ s.lin.size = lin.size ∧ s.lout.size = lout.size ∧ s.pm.size = pm.size ∧
    (o.axis = -1 → s.pm = pm) ∧ s.gout.size = gout.size
  obtain ⟨s', k1, k2, k3⟩ := tile_loop hq h.ginj val (fun s => MapHost.round m gin enc N gos s) (fun s => s.gout) J ⟨o, lin, lout, pm, gout, .ok⟩
    ⟨rfl, h0, rfl, rfl, rfl, fun _ => rfl, rfl⟩ (by
    rintro n ⟨obj, l0, d0, p0, g0, st⟩ hn ⟨j1, j2, j3, j4, j5, j6, j7⟩
    simp only at j1 j2 j3 j4 j5 j6 j7
    have ez : ∀ y, InShape (o.out.at n).sizes y → addPos y (zeros (o.out.at n).sizes) = y := fun y hy =>
      addPos_zeros (inShape_length _ _ hy).symm
    obtain ⟨l1, f1, f2, f3, -⟩ := copyBox_ok (size := (o.out.at n).sizes) (src := gin.buf) (sb := 0) (ss := gin.strides) (sp := (o.out.at n).getPos)
      (db := bi) (ds := li) (dp := zeros (o.out.at n).sizes) (dst := l0)
      (fun y hy => by rw [Int.zero_add]; exact h.glob _ (hq.global hy))
      (fun y hy => by rw [ez y hy, j3]; exact h.room.inb y (hq.local_ hy))
      (fun y z hy hz e => by
        rw [ez y hy, ez z hz] at e
        exact h.room.inj y z (hq.local_ hy) (hq.local_ hz) (by omega))
    obtain ⟨p1, d1, q1, q2, q3, q4, q5, q6⟩ := hissue n p0 l1 d0 j5 j6 (by omega) j4 (fun y hy => by
      have := f3 y hy
      rw [ez y hy, Int.zero_add] at this
      exact this)
    obtain ⟨g', c1, c2, c3, c4⟩ := copyBox_ok (size := (o.out.at n).sizes) (src := d1) (sb := bo) (ss := lo) (sp := zeros (o.out.at n).sizes)
      (db := 0) (ds := gos) (dp := (o.out.at n).getPos) (dst := g0)
      (fun y hy => by rw [ez y hy, q5, j4]; exact h.roomOut.inb y (hq.local_ hy))
      (fun y hy => by rw [Int.zero_add, j7]; exact h.gin _ (hq.global hy))
      (fun y z hy hz e => by
        rw [Int.zero_add, Int.zero_add] at e
        exact addPos_inj (by rw [hq.len hy, hq.lenP n]) (by rw [hq.len hz, hq.lenP n]) (h.ginj _ _ (hq.global hy) (hq.global hz) e))
    simp only [Int.zero_add] at c3 c4
    refine ⟨⟨(o.at n).update, l1, d1, p1, g', .ok⟩, ?_, ⟨rfl, ?_, by simp only; omega, by simp only; omega, q2, q3, by simp only; omega⟩, c2, ?_, c4⟩
    · unfold MapHost.round
      simp only
      rw [j2, j1]
      show (copyBox (o.inp.at n).sizes gin.buf 0 gin.strides (o.inp.at n).getPos o.tin.base o.inp.strides (zeros (o.inp.at n).sizes) l0).bind _ = _
      rw [esz, eps, hbi, sin, f1, Option.bind_some]
      show (if o.axis = -1 then some p0 else fetchParams N ((o.out.at n).getPos.getD o.axis.toNat 0) (o.at n).parCount o.pb enc o.parSizes o.parOffsets 0 p0).bind _ = _
      rw [q1, Option.bind_some, q4, Option.bind_some]
      show (copyBox (o.out.at n).sizes d1 o.tout.base o.out.strides (zeros (o.out.at n).sizes) 0 gos (o.out.at n).getPos g0).map _ = _
      rw [hbo, sout, c1]
      rfl
    · show (o.at n).update = o.at (n + 1)
      unfold MapObj.update MapObj.at
      simp only [TIt.at_next, sin, sout, hbi, hbo]
      rw [tileT_setShape (by rw [esz]; exact hli n) (by rw [esz]; exact hli (n + 1)), tileT_setShape (hlo n) (hlo (n + 1))]
    · intro y hy
      rw [c3 y hy, ez y hy]
      exact q6 y hy)
  exact ⟨s', k1, k2.1, k3⟩

/-! ## The iterator of the parameters -/

/-- The parameters of round `n` are those of the channels of the tile, and the local buffer has room for the channels of the largest tile. -/
theorem par_at {n0 n1 n2 n3 t0 t1 t2 t3 skew : Int} (h : TilingOk [n0, n1, n2, n3] [t0, t1, t2, t3] (List.range 4) skew) (a : Nat) (ha : a < 4)
    (lo : List Int) (inp : TIt) (n : Nat) :
    let cfg := tileCfg [n0, n1, n2, n3] [t0, t1, t2, t3] (List.range 4) skew
    ((parIt cfg ([n0, n1, n2, n3].getD a 0) a).at n).sizes = [((TIt.start cfg [n0, n1, n2, n3] lo).at n).sizes.getD a 0] ∧
    maxParams false a inp (parIt cfg ([n0, n1, n2, n3].getD a 0) a) = [t0, t1, t2, t3].getD a 0 := by
  intro cfg0
  have hopos := tileCfg_count_pos h
  have hmem := fun c hc => tileCfg_mem h (c := c) hc
  generalize hc : cfg0 = cfg at hopos
  have hc' : cfg = tileCfg [n0, n1, n2, n3] [t0, t1, t2, t3] (List.range 4) skew := by rw [← hc]
  have hcfg : cfg = [tileDim 0 n0 t0 skew, tileDim 1 n1 t1 0, tileDim 2 n2 t2 0, tileDim 3 n3 t3 0] := by rw [hc']; rfl
  have d0 := h.dims 0 (by simp)
  have d1 := h.dims 1 (by simp)
  have d2 := h.dims 2 (by simp)
  have d3 := h.dims 3 (by simp)
  simp at d0 d1 d2 d3
  obtain ⟨_, _, -, -, -, -, -, -, -, -, -, y0, z0, -⟩ := tileDim_facts 0 d0
  obtain ⟨_, _, -, -, -, -, -, -, -, -, -, y1, z1, -⟩ := tileDim_facts 1 d1
  obtain ⟨_, _, -, -, -, -, -, -, -, -, -, y2, z2, -⟩ := tileDim_facts 2 d2
  obtain ⟨_, _, -, -, -, -, -, -, -, -, -, y3, z3, -⟩ := tileDim_facts 3 d3
  have q0 : (tileDim 0 n0 t0 skew).order = 0 := rfl
  have q1 : (tileDim 1 n1 t1 0).order = 1 := rfl
  have q2 : (tileDim 2 n2 t2 0).order = 2 := rfl
  have q3 : (tileDim 3 n3 t3 0).order = 3 := rfl
  have s0 := d0.hskew
  rw [← hc'] at hopos
  generalize tileDim 0 n0 t0 skew = c0 at *
  generalize tileDim 1 n1 t1 0 = c1 at *
  generalize tileDim 2 n2 t2 0 = c2 at *
  generalize tileDim 3 n3 t3 0 = c3 at *
  clear hmem hc hc'
  clear_value cfg0
  subst hcfg
  have k0 := hopos c0 (by simp)
  have k1 := hopos c1 (by simp)
  have k2 := hopos c2 (by simp)
  have k3 := hopos c3 (by simp)
  have so : ((TIt.start [c0, c1, c2, c3] [n0, n1, n2, n3] lo).at n).st = stateAt [c0, c1, c2, c3] n := nextN_eq hopos n
  let b : DimCfg → DimCfg := fun c => { order := -1, count := c.count, firstInc := 0, inc := 0, lastInc := 0, firstSize := 0, size := 0, lastSize := 0, code := 0 }
  let e : DimCfg → DimCfg := fun c => { c with order := 0 }
  have hb1 : ∀ c, (b c).order = -1 := fun _ => rfl
  have hb2 : ∀ c, (b c).count = c.count := fun _ => rfl
  have he1 : ∀ c, (e c).order = 0 := fun _ => rfl
  have he2 : ∀ c, (e c).count = c.count := fun _ => rfl
  have he3 : ∀ c j, posOf (e c) j = posOf c j := fun _ _ => rfl
  have he4 : ∀ c n s, tileSize n (e c) s = tileSize n c s := fun _ _ _ => rfl
  have he5 : ∀ c, (e c).firstSize = c.firstSize := fun _ => rfl
  have he6 : ∀ c, (e c).size = c.size := fun _ => rfl
  have h4 : a = 0 ∨ a = 1 ∨ a = 2 ∨ a = 3 := by omega
  have so' : ((TIt.start [c0, c1, c2, c3] [n0, n1, n2, n3] lo).at n).sizes =
        (subTensor [n0, n1, n2, n3] [c0, c1, c2, c3] ((TIt.start [c0, c1, c2, c3] [n0, n1, n2, n3] lo).at n).st).2 := rfl
  rw [so', so]
  rcases h4 with rfl | rfl | rfl | rfl
  · have hp : parIt [c0, c1, c2, c3] ([n0, n1, n2, n3].getD 0 0) 0 = TIt.start [e c0, b c1, b c2, b c3] [n0] [1] := by
      simp [parIt, followCfg, disableTiling, zeroInc, updateOrder, b, e, show List.range 4 = [0, 1, 2, 3] from rfl]
    have hk : ∀ c ∈ [e c0, b c1, b c2, b c3], 1 ≤ c.count := by
      simp only [List.mem_cons, List.not_mem_nil, or_false]
      rintro c (rfl | rfl | rfl | rfl) <;> assumption
    have sw : ((TIt.start [e c0, b c1, b c2, b c3] [n0] [1]).at n).st = stateAt [e c0, b c1, b c2, b c3] n := nextN_eq hk n
    rw [hp]
    clear_value b e
    refine ⟨?_, ?_⟩
    · show (subTensor [n0] [e c0, b c1, b c2, b c3] ((TIt.start [e c0, b c1, b c2, b c3] [n0] [1]).at n).st).2 = _
      rw [sw]
      simp [stateAt, subTensor, hb1, hb2, he1, he2, he3, he4, q0, q1, q2, q3]
    · simp [maxParams, TIt.start, he5, he6, y0, z0]
      omega
  · have hp : parIt [c0, c1, c2, c3] ([n0, n1, n2, n3].getD 1 0) 1 = TIt.start [b c0, e c1, b c2, b c3] [n1] [1] := by
      simp [parIt, followCfg, disableTiling, zeroInc, updateOrder, b, e, show List.range 4 = [0, 1, 2, 3] from rfl]
    have hk : ∀ c ∈ [b c0, e c1, b c2, b c3], 1 ≤ c.count := by
      simp only [List.mem_cons, List.not_mem_nil, or_false]
      rintro c (rfl | rfl | rfl | rfl) <;> assumption
    have sw : ((TIt.start [b c0, e c1, b c2, b c3] [n1] [1]).at n).st = stateAt [b c0, e c1, b c2, b c3] n := nextN_eq hk n
    rw [hp]
    clear_value b e
    refine ⟨?_, ?_⟩
    · show (subTensor [n1] [b c0, e c1, b c2, b c3] ((TIt.start [b c0, e c1, b c2, b c3] [n1] [1]).at n).st).2 = _
      rw [sw]
      simp [stateAt, subTensor, hb1, hb2, he1, he2, he3, he4, q0, q1, q2, q3]
    · simp [maxParams, TIt.start, he5, he6, y1, z1]
  · have hp : parIt [c0, c1, c2, c3] ([n0, n1, n2, n3].getD 2 0) 2 = TIt.start [b c0, b c1, e c2, b c3] [n2] [1] := by
      simp [parIt, followCfg, disableTiling, zeroInc, updateOrder, b, e, show List.range 4 = [0, 1, 2, 3] from rfl]
    have hk : ∀ c ∈ [b c0, b c1, e c2, b c3], 1 ≤ c.count := by
      simp only [List.mem_cons, List.not_mem_nil, or_false]
      rintro c (rfl | rfl | rfl | rfl) <;> assumption
    have sw : ((TIt.start [b c0, b c1, e c2, b c3] [n2] [1]).at n).st = stateAt [b c0, b c1, e c2, b c3] n := nextN_eq hk n
    rw [hp]
    clear_value b e
    refine ⟨?_, ?_⟩
    · show (subTensor [n2] [b c0, b c1, e c2, b c3] ((TIt.start [b c0, b c1, e c2, b c3] [n2] [1]).at n).st).2 = _
      rw [sw]
      simp [stateAt, subTensor, hb1, hb2, he1, he2, he3, he4, q0, q1, q2, q3]
    · simp [maxParams, TIt.start, he5, he6, y2, z2]
  · have hp : parIt [c0, c1, c2, c3] ([n0, n1, n2, n3].getD 3 0) 3 = TIt.start [b c0, b c1, b c2, e c3] [n3] [1] := by
      simp [parIt, followCfg, disableTiling, zeroInc, updateOrder, b, e, show List.range 4 = [0, 1, 2, 3] from rfl]
    have hk : ∀ c ∈ [b c0, b c1, b c2, e c3], 1 ≤ c.count := by
      simp only [List.mem_cons, List.not_mem_nil, or_false]
      rintro c (rfl | rfl | rfl | rfl) <;> assumption
    have sw : ((TIt.start [b c0, b c1, b c2, e c3] [n3] [1]).at n).st = stateAt [b c0, b c1, b c2, e c3] n := nextN_eq hk n
    rw [hp]
    clear_value b e
    refine ⟨?_, ?_⟩
    · show (subTensor [n3] [b c0, b c1, b c2, e c3] ((TIt.start [b c0, b c1, b c2, e c3] [n3] [1]).at n).st).2 = _
      rw [sw]
      simp [stateAt, subTensor, hb1, hb2, he1, he2, he3, he4, q0, q1, q2, q3]
    · simp [maxParams, TIt.start, he5, he6, y3, z3]

/-! ## One tile -/

/-- Values of the parameters at the positions of a tile. -/
structure _root_.Mli.RescaleParams.Reads (p : RescaleParams) (axis : Int) (sz : List Int) (b s k bo : List Int → Int) : Prop where
  biasIn : ∀ y, InShape sz y → p.biasIn.rd (paramIdx axis y) = some (b y)
  scale : ∀ y, InShape sz y → p.scale.rd (paramIdx axis y) = some (s y)
  shift : ∀ y, InShape sz y → p.shift.rd (paramIdx axis y) = some (k y)
  biasOut : ∀ y, InShape sz y → p.biasOut.rd (paramIdx axis y) = some (bo y)

theorem rescale_writes (m : Rnd) (wi wo : Nat) (axis : Int) (p : RescaleParams) {sz li lo : List Int} {bi bo : Int} {src dst : Buf} (hr : sz.length ≤ 4)
    (ha : axis < sz.length) (l1 : sz.length = li.length) (l2 : sz.length = lo.length)
    (hi : ∀ y, InShape sz y → 0 ≤ bi + offset li y ∧ bi + offset li y < src.size) (ho : ∀ y, InShape sz y → 0 ≤ bo + offset lo y ∧ bo + offset lo y < dst.size)
    (hinj : ∀ y z, InShape sz y → InShape sz z → offset lo y = offset lo z → y = z) (x b s k c : List Int → Int)
    (hx : ∀ y, InShape sz y → src.get (bi + offset li y) = x y) (hp : p.Reads axis sz b s k c) :
    ∃ d', krnRescale m wi wo axis p src (tileT sz li bi) (tileT sz lo bo) dst = some d' ∧
      (tileT sz lo bo).Writes (fun y => rescaleValue m wi wo (x y) (b y) (c y) (s y) (k y)) dst d' := by
  have s1 := tileT_shape l1 bi
  have s2 := tileT_shape l2 bo
  have a1 := tileT_addr l1 bi
  have a2 := tileT_addr l2 bo
  have hs : (tileT sz li bi).shape = (tileT sz lo bo).shape := by rw [s1, s2]
  have hl := length_congr hs
  have r2 : (tileT sz lo bo).dims.length = sz.length := by
    have := congrArg List.length s2
    simpa [Tensor.shape] using this
  have r1 : (tileT sz li bi).dims.length = sz.length := by rw [hl, r2]
  generalize tileT sz li bi = tin at *
  generalize tileT sz lo bo = tout at *
  obtain ⟨d', h1, h2⟩ := forPos_laid tin tout dst (by omega) (fun is his => by rw [a2]; rw [s2] at his; exact ho is his)
    (fun y z hy hz e => by rw [a2, a2] at e; rw [s2] at hy hz; exact hinj y z hy hz (by omega)) hs
    (fun y => rescaleValue m wi wo (x y) (b y) (c y) (s y) (k y))
    (fun a b c e d =>
      (src.rd (tin.gPos a b c e)).bind fun x =>
      (rescaleAt m wi wo p (if axis < 0 then 0 else [(a : Int), b, c, e].getD axis.toNat 0) x).bind fun v =>
      d.wr (tout.gPos a b c e) v)
    (fun q hq d' hd hfr => by
      have hq' : q ∈ tin.pts := by rw [pts_congr hs]; exact hq
      have hin := (pts_inShape (by omega) hq').1
      rw [s1] at hin
      rw [gPos_eq (by omega) hq', gPos_eq (by omega) hq, ← hl, a1, Buf.rd_some (hi _ hin), Option.bind_some, hx _ hin]
      have hidx : (if axis < 0 then 0 else [(q.1 : Int), q.2.1, q.2.2.1, q.2.2.2].getD axis.toNat 0) =
          paramIdx axis (idx4 tin.dims.length q) := by
        unfold paramIdx
        split
        · rfl
        · rw [idx4_getD (by omega) q (by omega)]; exact pget_eq q _
      rw [hidx, rescaleAt, hp.biasIn _ hin, Option.bind_some, hp.biasOut _ hin, Option.bind_some, hp.scale _ hin, Option.bind_some,
        hp.shift _ hin, Option.bind_some, Option.bind_some])
  exact ⟨d', h1, h2⟩

theorem rescale_tile (m : Rnd) (wi wo : Nat) (axis : Int) (p : RescaleParams) {sz li lo : List Int} {bi bo : Int} {src dst : Buf} (hr : sz.length ≤ 4)
    (ha : axis < sz.length) (l1 : sz.length = li.length) (l2 : sz.length = lo.length)
    (hi : ∀ y, InShape sz y → 0 ≤ bi + offset li y ∧ bi + offset li y < src.size) (ho : ∀ y, InShape sz y → 0 ≤ bo + offset lo y ∧ bo + offset lo y < dst.size)
    (hinj : ∀ y z, InShape sz y → InShape sz z → offset lo y = offset lo z → y = z) (x b s k c : List Int → Int)
    (hx : ∀ y, InShape sz y → src.get (bi + offset li y) = x y) (hp : p.Reads axis sz b s k c) :
    ∃ d', krnRescale m wi wo axis p src (tileT sz li bi) (tileT sz lo bo) dst = some d' ∧ d'.size = dst.size ∧
      ∀ y, InShape sz y → d'.get (bo + offset lo y) = rescaleValue m wi wo (x y) (b y) (c y) (s y) (k y) := by
  obtain ⟨d', h1, h2⟩ := rescale_writes m wi wo axis p hr ha l1 l2 hi ho hinj x b s k c hx hp
  refine ⟨d', h1, h2.size, fun y hy => ?_⟩
  have := h2.elem y (by rw [tileT_shape l2]; exact hy)
  rw [tileT_addr l2] at this
  exact this

/-- Values of the parameters at the positions of a tile. -/
structure PreluParams.Reads (p : PreluParams) (axis : Int) (sz : List Int) (b sp sn kp kn bo : List Int → Int) : Prop where
  bias : ∀ y, InShape sz y → p.bias.rd (paramIdx axis y) = some (b y)
  pos : ∀ y, InShape sz y → p.pos.rd (paramIdx axis y) = some (sp y)
  neg : ∀ y, InShape sz y → p.neg.rd (paramIdx axis y) = some (sn y)
  posShift : ∀ y, InShape sz y → p.posShift.rd (paramIdx axis y) = some (kp y)
  negShift : ∀ y, InShape sz y → p.negShift.rd (paramIdx axis y) = some (kn y)
  asymm : ∀ y, InShape sz y → p.asymm.rd (paramIdx axis y) = some (bo y)

theorem prelu_tile (m : Rnd) (wo : Nat) (axis : Int) (p : PreluParams) {sz li lo : List Int} {bi bo : Int} {src dst : Buf}
    (l1 : sz.length = li.length) (l2 : sz.length = lo.length)
    (hi : ∀ y, InShape sz y → 0 ≤ bi + offset li y ∧ bi + offset li y < src.size) (ho : ∀ y, InShape sz y → 0 ≤ bo + offset lo y ∧ bo + offset lo y < dst.size)
    (hinj : ∀ y z, InShape sz y → InShape sz z → offset lo y = offset lo z → y = z) (x b sp sn kp kn c : List Int → Int)
    (hx : ∀ y, InShape sz y → src.get (bi + offset li y) = x y) (hp : p.Reads axis sz b sp sn kp kn c)
    (hd : ∀ y, InShape sz y → InRange 32 (x y - b y)) :
    ∃ d', krnPrelu m wo axis p src (tileT sz li bi) (tileT sz lo bo) dst = some d' ∧ d'.size = dst.size ∧
      ∀ y, InShape sz y → d'.get (bo + offset lo y) =
        if x y - b y ≥ 0 then rescaleValue m 32 wo (x y) (b y) (c y) (sp y) (kp y) else rescaleValue m 32 wo (x y) (b y) (c y) (sn y) (kn y) := by
  have s1 := tileT_shape l1 bi
  have s2 := tileT_shape l2 bo
  have a1 := tileT_addr l1 bi
  have a2 := tileT_addr l2 bo
  have e1 : ∀ y, (tileT sz li bi).base + offset (tileT sz li bi).strides y = bi + offset li y := a1
  have e2 : ∀ y, (tileT sz lo bo).base + offset (tileT sz lo bo).strides y = bo + offset lo y := a2
  generalize tileT sz li bi = tin at *
  generalize tileT sz lo bo = tout at *
  unfold krnPrelu
  rw [s1]
  obtain ⟨d', h1, h2⟩ := rowMajor_laid tout dst (fun is his => by rw [a2]; rw [s2] at his; exact ho is his)
    (fun y z hy hz e => by rw [a2, a2] at e; rw [s2] at hy hz; exact hinj y z hy hz (by omega))
    (fun y => if x y - b y ≥ 0 then rescaleValue m 32 wo (x y) (b y) (c y) (sp y) (kp y) else rescaleValue m 32 wo (x y) (b y) (c y) (sn y) (kn y))
    (fun d is =>
      (src.rd (tin.base + offset tin.strides is)).bind fun x =>
      (preluAt m wo p (if axis < 0 then 0 else is.getD axis.toNat 0) x).bind fun v => d.wr (tout.base + offset tout.strides is) v)
    (fun is his d' hd' _ => by
      rw [s2] at his
      rw [e1, Buf.rd_some (hi _ his), Option.bind_some, hx _ his]
      show (preluAt m wo p (paramIdx axis is) (x is)).bind _ = _
      unfold preluAt
      rw [hp.bias _ his, Option.bind_some, ckd, if_pos (hd _ his), Option.bind_some, hp.asymm _ his, hp.pos _ his, hp.neg _ his, hp.posShift _ his,
        hp.negShift _ his]
      simp only [Option.bind_some, Option.map_some]
      split <;> simp only [Option.bind_some] <;> rw [e2, a2])
  rw [s2] at h1
  refine ⟨d', h1, h2.size, fun y hy => ?_⟩
  have := h2.elem y (by rw [s2]; exact hy)
  rw [a2] at this
  exact this

end Mli.Rt
