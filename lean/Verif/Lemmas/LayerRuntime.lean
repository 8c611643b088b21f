import Verif.Model.LayerRuntime
import Verif.Lemmas.ConvTiles
import Verif.Lemmas.MapRuntime
import Verif.Props.MapRuntime

/-! # A layer of run-time kernels: one round and all rounds -/

namespace Mli.Rt

open Mli Mli.Iter Mli.Spec

/-! ## The iterator without the group -/

namespace ConvRun

/-- Dimensions of output and tiles without the group. -/
def oshape4 (R : ConvRun) : List Int := [R.nb, R.oh, R.ow, R.oc]
def tiles4 (R : ConvRun) : List Int := [1, R.t1, R.t2, R.t4]
def lo4 (R : ConvRun) : List Int := R.lo.eraseIdx 3
/-- Strides of the output tensor without the group. -/
def gos4 (R : ConvRun) : List Int := R.gos.eraseIdx 3

end ConvRun

theorem ConvOk.tiling4 {R : ConvRun} (h : ConvOk R) : TilingOk R.oshape4 R.tiles4 (List.range 4) 0 := by
  have H := h.tiling
  have d : ∀ i, i < 5 → TileOk (R.oshape.getD i 0) (R.tiles.getD i 0) 0 := by
    intro i hi
    have := H.dims i (by simpa using hi)
    rw [show (List.range 5).getD i 0 = i by rw [List.getD_eq_getElem?_getD, List.getElem?_range hi]; rfl,
      show (if i = 0 then (0 : Int) else 0) = 0 by split <;> rfl] at this
    exact this
  refine ⟨rfl, Nat.zero_lt_succ _, List.nodup_range, fun d hd => by simpa [ConvRun.oshape4] using hd, ?_⟩
  intro i hi
  have hi' : i < 4 := by simpa using hi
  rw [show (List.range 4).getD i 0 = i by rw [List.getD_eq_getElem?_getD, List.getElem?_range hi']; rfl,
    show (if i = 0 then (0 : Int) else 0) = 0 by split <;> rfl]
  match i, hi' with
  | 0, _ => exact d 0 (by omega)
  | 1, _ => exact d 1 (by omega)
  | 2, _ => exact d 2 (by omega)
  | 3, _ => exact d 4 (by omega)

theorem tileDim_noskew {n t : Int} (d : Int) (h : TileOk n t 0) : (tileDim d n t 0).inc = (tileDim d n t 0).firstInc := by
  obtain ⟨_, _, -, -, -, -, -, -, y1, y2, -⟩ := tileDim_facts d h
  rw [y1, y2, Int.sub_zero]

/-- Without skew, dropping the group gives the iterator of the tensor without the group. -/
theorem ConvOk.drop {R : ConvRun} (h : ConvOk R) : dropGroup R.out = TIt.start (tileCfg R.oshape4 R.tiles4 (List.range 4) 0) R.oshape4 R.lo4 := by
  have H := h.tiling4
  have d : ∀ i, i < 4 → TileOk (R.oshape4.getD i 0) (R.tiles4.getD i 0) 0 := by
    intro i hi
    have := H.dims i (by simpa using hi)
    rw [show (List.range 4).getD i 0 = i by rw [List.getD_eq_getElem?_getD, List.getElem?_range hi]; rfl,
      show (if i = 0 then (0 : Int) else 0) = 0 by split <;> rfl] at this
    exact this
  have e : ∀ (i : Nat) (k j n t : Int), TileOk n t 0 → ({ tileDim k n t 0 with order := j, inc := (tileDim k n t 0).firstInc, firstInc := (tileDim k n t 0).inc } : DimCfg) =
      tileDim j n t 0 := by
    intro i k j n t hT
    have := tileDim_noskew j hT
    show ({ tileDim j n t 0 with inc := (tileDim j n t 0).firstInc, firstInc := (tileDim j n t 0).inc } : DimCfg) = _
    generalize tileDim j n t 0 = c at *
    cases c
    simp only at this
    rw [this]
  have e0 := e 0 0 0 _ _ (d 0 (by omega))
  have e1 := e 0 1 1 _ _ (d 1 (by omega))
  have e2 := e 0 2 2 _ _ (d 2 (by omega))
  have e3 := e 0 4 3 _ _ (d 3 (by omega))
  have hc : dropAxis R.out.cfg 3 = tileCfg R.oshape4 R.tiles4 (List.range 4) 0 := by
    show [_, _, _, _] = [_, _, _, _]
    congr 1
    congr 1
    congr 1
    congr 1
  unfold dropGroup
  rw [hc]
  rfl

/-- The iterator without the group is at the tile of the iterator with the group. -/
theorem ConvOk.at4 {R : ConvRun} (h : ConvOk R) {n : Nat}
    {b oy osy iy isy pt ox osx ix isx pl k0 kn c0 cn : Int} (C : ConvCell R n b oy osy iy isy pt ox osx ix isx pl k0 kn c0 cn) :
    ((dropGroup R.out).at n).getPos = [b, oy, ox, k0] ∧ ((dropGroup R.out).at n).sizes = [1, osy, osx, kn] := by
  have h5 := h.tiling
  have h4 := h.tiling4
  have o5 := tileCfg_count_pos h5
  have o4 := tileCfg_count_pos h4
  have p := C.opos
  have z := C.osz
  rw [h.drop]
  have s5 : (R.out.at n).st = stateAt (tileCfg R.oshape R.tiles (List.range 5) 0) n := nextN_eq o5 n
  have s4 : ((TIt.start (tileCfg R.oshape4 R.tiles4 (List.range 4) 0) R.oshape4 R.lo4).at n).st = stateAt (tileCfg R.oshape4 R.tiles4 (List.range 4) 0) n := nextN_eq o4 n
  have c5 : tileCfg R.oshape R.tiles (List.range 5) 0 = [tileDim 0 R.nb 1 0, tileDim 1 R.oh R.t1 0, tileDim 2 R.ow R.t2 0, tileDim 3 1 1 0, tileDim 4 R.oc R.t4 0] := rfl
  have c4 : tileCfg R.oshape4 R.tiles4 (List.range 4) 0 = [tileDim 0 R.nb 1 0, tileDim 1 R.oh R.t1 0, tileDim 2 R.ow R.t2 0, tileDim 3 R.oc R.t4 0] := rfl
  have k1 : (tileDim 3 1 1 0).count = 1 := by decide
  have e1 : (tileDim 3 R.oc R.t4 0).count = (tileDim 4 R.oc R.t4 0).count := rfl
  have e2 : ∀ j, posOf (tileDim 3 R.oc R.t4 0) j = posOf (tileDim 4 R.oc R.t4 0) j := fun _ => rfl
  have e3 : ∀ s, tileSize R.oc (tileDim 3 R.oc R.t4 0) s = tileSize R.oc (tileDim 4 R.oc R.t4 0) s := fun _ => rfl
  have q0 : (tileDim 0 R.nb 1 0).order = 0 := rfl
  have q1 : (tileDim 1 R.oh R.t1 0).order = 1 := rfl
  have q2 : (tileDim 2 R.ow R.t2 0).order = 2 := rfl
  have q3 : (tileDim 3 1 1 0).order = 3 := rfl
  have q4 : (tileDim 4 R.oc R.t4 0).order = 4 := rfl
  have q5 : (tileDim 3 R.oc R.t4 0).order = 3 := rfl
  have p5 : (stateAt (tileCfg R.oshape R.tiles (List.range 5) 0) n).map (·.pos) = [b, oy, ox, 0, k0] := by rw [← s5]; exact p
  have z5 : (subTensor R.oshape (tileCfg R.oshape R.tiles (List.range 5) 0) (stateAt (tileCfg R.oshape R.tiles (List.range 5) 0) n)).2 = [1, osy, osx, 1, kn] := by
    rw [← s5]; exact z
  constructor
  · show ((TIt.start (tileCfg R.oshape4 R.tiles4 (List.range 4) 0) R.oshape4 R.lo4).at n).st.map (·.pos) = _
    rw [s4, c4]
    rw [c5] at p5
    simp only [stateAt, List.map_cons, List.map_nil, k1, Int.ediv_one, List.cons.injEq, and_true] at p5
    simp only [stateAt, List.map_cons, List.map_nil, e1, e2]
    rw [p5.1, p5.2.1, p5.2.2.1, p5.2.2.2.2]
  · show (subTensor R.oshape4 (tileCfg R.oshape4 R.tiles4 (List.range 4) 0) ((TIt.start (tileCfg R.oshape4 R.tiles4 (List.range 4) 0) R.oshape4 R.lo4).at n).st).2 = _
    rw [s4, c4]
    rw [c5] at z5
    generalize tileDim 0 R.nb 1 0 = d0 at *
    generalize tileDim 1 R.oh R.t1 0 = d1 at *
    generalize tileDim 2 R.ow R.t2 0 = d2 at *
    generalize tileDim 3 1 1 0 = d3 at *
    generalize tileDim 4 R.oc R.t4 0 = d4 at *
    generalize tileDim 3 R.oc R.t4 0 = d5 at *
    simp [stateAt, subTensor, ConvRun.oshape, q0, q1, q2, q3, q4, k1] at z5
    simp [stateAt, subTensor, ConvRun.oshape4, q0, q1, q2, q5, e1, e2, e3]
    exact ⟨z5.1, z5.2.1, z5.2.2.1, z5.2.2.2.2⟩

/-! ## Clip -/

/-- One tile. -/
theorem clip_writes (minV maxV : Int) {sz li lo : List Int} {bi bo : Int} {mem : Buf} (hr : sz.length ≤ 4) (l1 : sz.length = li.length) (l2 : sz.length = lo.length)
    (hi : ∀ y, InShape sz y → 0 ≤ bi + offset li y ∧ bi + offset li y < mem.size) (ho : ∀ y, InShape sz y → 0 ≤ bo + offset lo y ∧ bo + offset lo y < mem.size)
    (hinj : ∀ y z, InShape sz y → InShape sz z → offset lo y = offset lo z → y = z)
    (hsep : ∀ y z, InShape sz y → InShape sz z → bi + offset li y = bo + offset lo z → y = z) :
    ∃ mem', krnClip minV maxV (tileT sz li bi) (tileT sz lo bo) mem = some mem' ∧
      (tileT sz lo bo).Writes (fun y => min (max (mem.get (bi + offset li y)) minV) maxV) mem mem' := by
  have s1 := tileT_shape l1 bi
  have s2 := tileT_shape l2 bo
  have a1 := tileT_addr l1 bi
  have a2 := tileT_addr l2 bo
  have hs : (tileT sz li bi).shape = (tileT sz lo bo).shape := by rw [s1, s2]
  have hl := length_congr hs
  have r2 : (tileT sz lo bo).dims.length = sz.length := by
    have := congrArg List.length s2
    simpa [Tensor.shape] using this
  have r1 : (tileT sz li bi).dims.length = sz.length := by rw [hl, r2]
  generalize tileT sz li bi = tin at *
  generalize tileT sz lo bo = tout at *
  obtain ⟨d', h1, h2⟩ := forPos_laid tin tout mem (by omega) (fun is his => by rw [a2]; rw [s2] at his; exact ho is his)
    (fun y z hy hz e => by rw [a2, a2] at e; rw [s2] at hy hz; exact hinj y z hy hz (by omega)) hs
    (fun y => min (max (mem.get (bi + offset li y)) minV) maxV)
    (fun a b c e d => (d.rd (tin.gPos a b c e)).bind fun x => d.wr (tout.gPos a b c e) (minFx (maxFx x minV) maxV))
    (fun q hq d' hd hfr => by
      have hq' : q ∈ tin.pts := by rw [pts_congr hs]; exact hq
      have hin := (pts_inShape (by omega) hq').1
      rw [s1] at hin
      rw [gPos_eq (by omega) hq', gPos_eq (by omega) hq, ← hl, a1, Buf.rd_some (by rw [hd]; exact hi _ hin), Option.bind_some]
      congr 1
      rw [hfr _ (fun js hj hne e => hne (by
        rw [a2] at e
        rw [s2] at hj
        rw [← hl]
        exact (hsep _ _ hin hj e.symm).symm))]
      simp only [minFx, maxFx]
      split <;> split <;> omega)
  exact ⟨d', h1, h2⟩

theorem clip_tile (minV maxV : Int) {sz li lo : List Int} {bi bo : Int} {mem : Buf} (hr : sz.length ≤ 4) (l1 : sz.length = li.length) (l2 : sz.length = lo.length)
    (hi : ∀ y, InShape sz y → 0 ≤ bi + offset li y ∧ bi + offset li y < mem.size) (ho : ∀ y, InShape sz y → 0 ≤ bo + offset lo y ∧ bo + offset lo y < mem.size)
    (hinj : ∀ y z, InShape sz y → InShape sz z → offset lo y = offset lo z → y = z)
    (hsep : ∀ y z, InShape sz y → InShape sz z → bi + offset li y = bo + offset lo z → y = z) :
    ∃ mem', krnClip minV maxV (tileT sz li bi) (tileT sz lo bo) mem = some mem' ∧ mem'.size = mem.size ∧
      ∀ y, InShape sz y → mem'.get (bo + offset lo y) = min (max (mem.get (bi + offset li y)) minV) maxV := by
  obtain ⟨d', h1, h2⟩ := clip_writes minV maxV hr l1 l2 hi ho hinj hsep
  refine ⟨d', h1, h2.size, fun y hy => ?_⟩
  have := h2.elem y (by rw [tileT_shape l2]; exact hy)
  rw [tileT_addr l2] at this
  exact this

/-- The object in round `n`. -/
def ClipObj.at (o : ClipObj) (n : Nat) : ClipObj :=
  { o with inp := o.inp.at n, out := o.out.at n
           tin := tileT (o.inp.at n).sizes o.inp.strides o.tin.base, tout := tileT (o.out.at n).sizes o.out.strides o.tout.base }

/-! ## All rounds -/

/-- A value that is known of each element of a tile. -/
def TileHolds (R : ConvRun) (buf : Buf) (base b oy osy ox osx k0 kn : Int) (val : Int → Int → Int → Int → Int) : Prop :=
  ∀ y x k, InShape [osy, osx, kn] [y, x, k] → buf.get (base + at5 R.lo y x k) = val b (y + oy) (x + ox) (k + k0)

/-- The caller before the first round. -/
def ConvRun.layer (R : ConvRun) (map : MapObj) (clip : Option ClipObj) (mid pm cp : Buf) : LayerHost :=
  ⟨(R.start 8 8 32).obj, map, clip, R.lin, R.lwt, R.lz, R.lout, mid, pm, cp, R.gout, .ok⟩

theorem layer_run {R : ConvRun} (h : ConvOk R) (hg : R.gos.length = 5) (m : Rnd) (map : MapObj) (clip : Option ClipObj) (mid pm cp enc : Buf) (N bm bc : Int)
    (hm0 : map = map.at 0) (hm1 : ∀ n, (map.at n).update = map.at (n + 1)) (hbm : map.tout.base = bm)
    (hc0 : clip = clip.map (·.at 0)) (hc1 : ∀ n, (clip.map (·.at n)).map ClipObj.update = clip.map (·.at (n + 1)))
    (hbc : ∀ n, (match clip.map (·.at n) with | none => bm | some k => k.tout.base) = bc)
    (room : Place R.tiles R.lo bc mid.size) (mval : Int → Int → Int → Int → Int) (cl : Int → Int)
    (hmap : ∀ (n : Nat) (b oy osy iy isy pt ox osx ix isx pl k0 kn c0 cn : Int), n < R.rounds → ConvCell R n b oy osy iy isy pt ox osx ix isx pl k0 kn c0 cn →
      ∀ pm' l d : Buf, pm'.size = pm.size → (map.axis = -1 → pm' = pm) → l.size = R.lout.size → d.size = mid.size →
      TileHolds R l R.bo b oy osy ox osx k0 kn R.value →
      ∃ pm'' d', (if map.axis = -1 then some pm' else fetchParams N k0 (map.at n).parCount map.pb enc map.parSizes map.parOffsets 0 pm') = some pm'' ∧
        pm''.size = pm.size ∧ (map.axis = -1 → pm'' = pm) ∧ (map.at n).issue m pm'' l d = some (.ok, d') ∧ d'.size = d.size ∧
        TileHolds R d' bm b oy osy ox osx k0 kn mval)
    (hclip : ∀ (n : Nat) (b oy osy iy isy pt ox osx ix isx pl k0 kn c0 cn : Int), n < R.rounds → ConvCell R n b oy osy iy isy pt ox osx ix isx pl k0 kn c0 cn →
      ∀ d : Buf, d.size = mid.size → TileHolds R d bm b oy osy ox osx k0 kn mval →
      ∃ d', clipStage (clip.map (·.at n)) cp d = some (.ok, d') ∧ d'.size = d.size ∧ TileHolds R d' bc b oy osy ox osx k0 kn (fun b y x k => cl (mval b y x k))) :
    ∃ s, LayerHost.run m R.gin R.gw R.gz enc N R.gos4 R.rounds (R.layer map clip mid pm cp) = some s ∧ s.status = .ok ∧
      Result R.oshape R.gos (fun x => cl (mval (x.getD 0 0) (x.getD 1 0) (x.getD 2 0) (x.getD 4 0))) R.gout s.gout := by
  have hq := tileSeq_range (shape := R.oshape) h.tiling rfl R.lo
  change TileSeq R.oshape R.tiles R.rounds (fun n => (R.out.at n).getPos) (fun n => (R.out.at n).sizes) at hq
  obtain ⟨a0, a1, a2, a3, elo⟩ := strides5 h.oplace rfl
  obtain ⟨g0, g1, g2, g3, g4, ego⟩ : ∃ g0 g1 g2 g3 g4, R.gos = [g0, g1, g2, g3, g4] := ⟨_, _, _, _, _, list5 hg⟩
  have offL : ∀ r q k : Int, offset R.lo4 [0, r, q, k] = at5 R.lo r q k := fun r q k => by
    unfold ConvRun.lo4 at5
    rw [elo]
    simp [offset]
  have offG : ∀ b r q k : Int, offset R.gos4 [b, r, q, k] = offset R.gos [b, r, q, 0, k] := fun b r q k => by
    unfold ConvRun.gos4
    rw [ego]
    simp [offset]
  let J : Nat → LayerHost → Prop := fun n s => s.status = .ok ∧ s.lin.size = R.lin.size ∧ s.lw.size = R.lwt.size ∧ s.lz.size = R.lz.size ∧
    s.acc.size = R.lout.size ∧ s.mid.size = mid.size ∧ s.pm.size = pm.size ∧ (map.axis = -1 → s.pm = pm) ∧ s.cp = cp ∧ s.gout.size = R.gout.size ∧
    ConvAt R 8 8 32 n s.conv ∧ s.map = map.at n ∧ s.clip = clip.map (·.at n)
  obtain ⟨s', k1, k2, k3⟩ := tile_loop hq h.outj (fun x => cl (mval (x.getD 0 0) (x.getD 1 0) (x.getD 2 0) (x.getD 4 0)))
    (fun s => LayerHost.round m R.gin R.gw R.gz enc N R.gos4 s) (fun s => s.gout) J (R.layer map clip mid pm cp)
    ⟨rfl, rfl, rfl, rfl, rfl, rfl, rfl, fun _ => rfl, rfl, rfl, h.atStart 8 8 32, hm0, hc0⟩ (by
    rintro n ⟨o, mo, co, l0, w0, z0, r0, d0, p0, q0, g0', st⟩ hn ⟨j1, j2, j3, j4, j5, j6, j7, j8, j9, j10, H, j12, j13⟩
    simp only at j1 j2 j3 j4 j5 j6 j7 j8 j9 j10 H j12 j13
    subst j9 j12 j13 j1
    obtain ⟨b, oy, osy, iy, isy, pt, ox, osx, ix, isx, pl, k0, kn, c0, cn, C⟩ := h.cell n
    obtain ⟨l1, w1, z1, r1, f1, p1, q1, i1, f2, p2, q2, i2, eso, i3⟩ := h.stage H hn C j2 j3 j4 j5
    obtain ⟨pm1, d1, m1, m2, m3, m4, m5, m6⟩ := hmap n b oy osy iy isy pt ox osx ix isx pl k0 kn c0 cn hn C p0 r1 d0 j7 j8 (by omega) j6 i3
    obtain ⟨d2, c1, c2, c3⟩ := hclip n b oy osy iy isy pt ox osx ix isx pl k0 kn c0 cn hn C d1 (by omega) m6
    have ez : ∀ (sz y : List Int), InShape sz y → addPos y (zeros sz) = y := fun sz y hy => addPos_zeros (inShape_length _ _ hy).symm
    have four : ∀ y, InShape [1, osy, osx, kn] y → ∃ r q k, y = [0, r, q, k] ∧ InShape [osy, osx, kn] [r, q, k] ∧ InShape [1, osy, osx, 1, kn] [0, r, q, 0, k] := by
      intro y hy
      match y, hy with
      | [a, r, q, k], hy =>
        obtain ⟨y0, y1, y2, y3, -⟩ := hy
        obtain rfl : a = 0 := by omega
        exact ⟨r, q, k, rfl, ⟨y1, y2, y3, trivial⟩, y0, y1, y2, ⟨by omega, by omega⟩, y3, trivial⟩
    have oloc : ∀ y, InShape [1, osy, osx, 1, kn] y → InShape R.tiles y := fun y hy => hq.local_ (n := n) (by rw [C.osz]; exact hy)
    have oglob : ∀ y, InShape [1, osy, osx, 1, kn] y → InShape R.oshape (addPos y [b, oy, ox, 0, k0]) := fun y hy => by
      have := hq.global (n := n) (y := y) (by rw [C.osz]; exact hy)
      rwa [C.opos] at this
    have gpos : ∀ r q k : Int, offset R.gos4 (addPos [0, r, q, k] [b, oy, ox, k0]) = offset R.gos (addPos [0, r, q, 0, k] [b, oy, ox, 0, k0]) := fun r q k => by
      show offset R.gos4 [0 + b, r + oy, q + ox, k + k0] = offset R.gos [0 + b, r + oy, q + ox, 0 + 0, k + k0]
      simp only [offG, Int.zero_add]
    obtain ⟨g', e1, e2, e3, e4⟩ := copyBox_ok (size := [1, osy, osx, kn]) (src := d2) (sb := bc) (ss := R.lo4) (sp := zeros [1, osy, osx, kn])
      (db := 0) (ds := R.gos4) (dp := [b, oy, ox, k0]) (dst := g0')
      (fun y hy => by
        obtain ⟨r, q, k, rfl, -, h5⟩ := four y hy
        rw [ez _ _ hy, offL, show d2.size = mid.size by omega]
        exact room.inb _ (oloc _ h5))
      (fun y hy => by
        obtain ⟨r, q, k, rfl, -, h5⟩ := four y hy
        rw [Int.zero_add, j10, gpos]
        exact h.outb _ (oglob _ h5))
      (fun y z hy hz e => by
        obtain ⟨r, q, k, rfl, -, h5⟩ := four y hy
        obtain ⟨r', q', k', rfl, -, h5'⟩ := four z hz
        rw [Int.zero_add, Int.zero_add, gpos, gpos] at e
        have := addPos_inj (x := [0, r, q, 0, k]) (y := [0, r', q', 0, k']) (p := [b, oy, ox, 0, k0]) rfl rfl (h.outj _ _ (oglob _ h5) (oglob _ h5') e)
        simp only [List.cons.injEq, and_true, true_and] at this
        rw [this.1, this.2.1, this.2.2])
    simp only [Int.zero_add] at e3 e4
    refine ⟨⟨o.update, (map.at n).update, (clip.map (·.at n)).map ClipObj.update, l1, w1, z1, r1, d2, pm1, q0, g', .ok⟩, ?_,
      ⟨rfl, by simp only; omega, by simp only; omega, by simp only; omega, by simp only; omega, by simp only; omega, m2, m3, rfl, by simp only; omega, H.next h,
        hm1 n, hc1 n⟩, e2, ?_, ?_⟩
    · unfold LayerHost.round
      simp only
      rw [f1, Option.bind_some, p1, Option.bind_some, q1, Option.bind_some]
      rw [eso, H.eOut, C.opos]
      show (if map.axis = -1 then some p0 else fetchParams N k0 (map.at n).parCount map.pb enc map.parSizes map.parOffsets 0 p0).bind _ = _
      rw [m1, Option.bind_some, i1, Option.bind_some, m4, Option.bind_some, c1, Option.bind_some]
      have eb : LayerHost.lastBase ⟨o, map.at n, clip.map (·.at n), l0, w0, z0, r0, d0, p0, q0, g0', .ok⟩ = bc := by
        rw [← hbc n]
        unfold LayerHost.lastBase
        simp only
        cases clip with
        | none => exact hbm
        | some k => rfl
      rw [eb]
      show (copyBox [1, osy, osx, kn] d2 bc R.lo4 (zeros [1, osy, osx, kn]) 0 R.gos4 [b, oy, ox, k0] g0').map _ = _
      rw [e1]
      rfl
    · intro y hy
      rw [C.osz] at hy
      rw [C.opos]
      obtain ⟨g, r, q, e, k, rfl⟩ := inShape5 hy
      obtain ⟨y0, y1, y2, y3, y4, -⟩ := hy
      obtain rfl : g = 0 := by omega
      obtain rfl : e = 0 := by omega
      have h4 : InShape [1, osy, osx, kn] [0, r, q, k] := ⟨y0, y1, y2, y4, trivial⟩
      rw [← gpos, e3 _ h4, ez _ _ h4, offL, c3 r q k ⟨y1, y2, y4, trivial⟩]
      show _ = cl (mval (0 + b) (r + oy) (q + ox) (k + k0))
      rw [Int.zero_add]
    · intro a ha
      refine e4 a fun y hy => ?_
      obtain ⟨r, q, k, rfl, -, h5⟩ := four y hy
      have := ha [0, r, q, 0, k] (by rw [C.osz]; exact h5)
      rw [C.opos] at this
      rwa [gpos])
  exact ⟨s', k1, k2.1, k3⟩

end Mli.Rt
