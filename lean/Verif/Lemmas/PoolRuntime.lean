import Verif.Lemmas.PoolTile
import Verif.Lemmas.EltRuntime

/-! # One round and all rounds of a run-time pooling kernel -/

namespace Mli.Rt

open Mli Mli.Iter Mli.Spec

/-- Kernel size, stride and padding of a pooling kernel in the four dimensions of its tensors. -/
def Geo.k4 (g : Geo) (d : Nat) : Int := [1, g.kh, g.kw, 1].getD d 0
def Geo.s4 (g : Geo) (d : Nat) : Int := [1, g.sh, g.sw, 1].getD d 0
def Geo.p4 (g : Geo) (d : Nat) : Int := [0, g.pt, g.pl, 0].getD d 0

/-- The iterator of the output tiles. -/
def poolOut (oshape tiles : List Int) (skew : Int) (strides : List Int) : TIt :=
  TIt.start (tileCfg oshape tiles (List.range oshape.length) skew) oshape strides

/-- The iterator of the input tiles that belongs to it. -/
def poolIn (g : Geo) (oshape ishape tiles : List Int) (skew : Int) (strides : List Int) : TIt :=
  TIt.start (kernelCfg (tileCfg oshape tiles (List.range oshape.length) skew) ishape (Geo.k4 g) (Geo.s4 g) (Geo.p4 g)) ishape strides

/-- Along one axis with output extent `out` in tiles of `tile`: all windows that go beyond the end of the input belong to the last tile. -/
def LastTileOnly (out tile n k s p : Int) : Prop := ∀ j, 0 ≤ j → j * tile < out → (j * tile - 1) * s - p + k ≤ n

/-- Padding and size of the axis in one tile. -/
theorem win_axis {out tile n k s p opos osz ipos isz idx : Int} (h : WinAt out tile 0 n k s p opos osz ipos isz idx) (hk : KernOk out tile 0 n k s p)
    (hb : LastTileOnly out tile n k s p) :
    Shifted n k s p opos osz ipos isz (if idx = 0 then p else 0) ∧ TileAxis isz k s (if idx = 0 then p else 0) osz := by
  obtain ⟨a0, a1, a2, a3, b0, b1, b3, c0, c1, c2, c3, c4, c5⟩ := h
  obtain ⟨⟨⟨t1, t2⟩, -, hN⟩, k1, s1, ⟨p0, p1⟩, hf, hl, ⟨hn1, hn2⟩, hsm⟩ := hk
  have eq : ipos = opos * s - p + (if idx = 0 then p else 0) := by
    split
    · rename_i e
      obtain ⟨u, v, -⟩ := c2 e
      rw [u, v]; simp
    · rename_i e
      have := (c3 e).1
      omega
  have hi0 : 0 ≤ idx * tile := Int.mul_nonneg c0 (by omega)
  have hpos : opos = idx * tile := by rw [c1, max_eq_right (by omega)]; omega
  have hp' : 0 ≤ (if idx = 0 then p else 0) ∧ (if idx = 0 then p else 0) < k := by split <;> omega
  have hbefore : (if idx = 0 then p else 0) ≤ osz * s := by
    split
    · rename_i e; exact (c2 e).2.2
    · exact Int.mul_nonneg (by omega) (by omega)
  generalize (if idx = 0 then p else 0) = p' at *
  refine ⟨⟨b0, b3, eq, c4⟩, ⟨b1, s1, hp', a1, hbefore, ?_, ?_⟩⟩
  · have hbi := hb idx c0 (by omega)
    rw [← hpos] at hbi
    have e1 : (opos - 1) * s = opos * s - s := by ring
    have e2 : (opos + osz - 1) * s = opos * s + (osz - 1) * s := by ring
    have e3 : 0 ≤ (osz - 1) * s := Int.mul_nonneg (by omega) (by omega)
    rcases c5 with c5 | ⟨c5, -⟩ <;> omega
  · have e2 : (opos + osz - 1) * s = opos * s + (osz - 1) * s := by ring
    have hm : (opos + osz - 1) * s ≤ (out - 1) * s := Int.mul_le_mul_of_nonneg_right (by omega) (by omega)
    have hm0 : 0 ≤ (opos + osz - 1) * s := Int.mul_nonneg (by omega) (by omega)
    by_cases hq : (opos + osz - 1) * s - p < 0
    · omega
    · have := c4 (opos + osz - 1) 0 (by omega) (by omega) (by omega) (by omega) (by omega) (by omega)
      omega

/-- Dimensions without a window. -/
theorem win_plain {n tile skew opos osz ipos isz idx : Int} (h : WinAt n tile skew n 1 1 0 opos osz ipos isz idx) : ipos = opos ∧ isz = osz := by
  obtain ⟨a0, a1, a2, a3, b0, b1, b3, c0, c1, c2, c3, c4, c5⟩ := h
  have : ipos = opos := by
    by_cases e : idx = 0
    · obtain ⟨u, v, -⟩ := c2 e; omega
    · have := (c3 e).1; omega
  refine ⟨this, ?_⟩
  rcases c5 with c5 | ⟨c5, c6⟩ <;> omega

/-- SumPool2D takes an input position of zero for the first tile. -/
def SumPads (out tile s p : Int) : Prop := p = 0 ∨ p < tile * s ∨ out ≤ tile

theorem padBefore_eq {it : TIt} {d : Nat} {out tile n k s p opos osz ipos isz : Int}
    (h : WinAt out tile 0 n k s p opos osz ipos isz ((it.st.map (·.idx)).getD d 0)) (hk : KernOk out tile 0 n k s p)
    (hinc : (it.cfg.map (·.inc)).getD d 0 = tile * s) :
    padBefore it d p = if (it.st.map (·.idx)).getD d 0 = 0 then p else 0 := by
  unfold padBefore
  simp only
  rw [hinc]
  generalize (it.st.map (·.idx)).getD d 0 = idx at *
  by_cases e : idx = 0
  · rw [if_neg (by omega), if_pos e]
  · rw [if_pos e, if_neg e]
    have hi0 : 0 ≤ idx * tile := Int.mul_nonneg h.idx0 (by have := hk.otile.htile; omega)
    have hpos : opos = idx * tile := by rw [h.start, max_eq_right (by omega)]; omega
    have hu : tile * s * idx = opos * s := by rw [hpos]; ring
    have h1 : opos * s ≤ out * s := Int.mul_le_mul_of_nonneg_right (by have := h.o1; have := h.o3; omega) (by have := hk.hs; omega)
    have h2 := (h.later e).2
    have h3 := hk.hsmall
    have h4 := hk.hk
    have h5 := hk.hp
    rw [hu, u32_id ⟨by omega, by omega⟩, if_neg (by omega)]

theorem sumBefore_eq {out tile n k s p opos osz ipos isz idx : Int}
    (h : WinAt out tile 0 n k s p opos osz ipos isz idx) (hk : KernOk out tile 0 n k s p) (hs : SumPads out tile s p) :
    (if ipos ≠ 0 then 0 else p) = if idx = 0 then p else 0 := by
  by_cases e : idx = 0
  · rw [if_neg (by have := (h.first e).2.1; omega), if_pos e]
  · rw [if_neg e]
    by_cases e2 : ipos = 0
    · rw [if_neg (by omega)]
      have h1 := h.idx0
      have ht := hk.otile.htile
      have hs1 := hk.hs
      have hm : 1 * tile ≤ idx * tile := Int.mul_le_mul_of_nonneg_right (by omega) (by omega)
      have hpos : opos = idx * tile := by rw [h.start, max_eq_right (by omega)]; omega
      have hm2 : tile * s ≤ opos * s := Int.mul_le_mul_of_nonneg_right (by omega) (by omega)
      have := (h.later e).1
      have := h.o3
      have := h.o1
      rcases hs with hs | hs | hs <;> omega
    · rw [if_pos e2]

/-- The caller's arrangement for the whole run of a pooling kernel: `itiles` are sizes that no input tile exceeds, `ls` and `lo` the strides of the
local buffers at `bi` and `bo`, `gos` the strides of the output tensor. -/
structure PoolOk (op : PoolOp) (g : Geo) (nb ih iw ch oh ow : Int) (tiles itiles : List Int) (skew : Int) (ls lo : List Int) (bi bo : Int) (gin : Glob)
    (gos : List Int) (lin lout gout : Buf) : Prop where
  tiling : TilingOk [nb, oh, ow, ch] tiles (List.range 4) skew
  rank : tiles.length = 4
  kern : ∀ d, d < 4 → KernOk ([nb, oh, ow, ch].getD d 0) (tiles.getD d 0) (if d = 0 then skew else 0) ([nb, ih, iw, ch].getD d 0) (Geo.k4 g d) (Geo.s4 g d)
    (Geo.p4 g d)
  bytes : g.kh < 256 ∧ g.kw < 256 ∧ g.sh < 256 ∧ g.sw < 256
  rows : LastTileOnly oh (tiles.getD 1 0) ih g.kh g.sh g.pt
  cols : LastTileOnly ow (tiles.getD 2 0) iw g.kw g.sw g.pl
  sums : op = .sum → SumPads oh (tiles.getD 1 0) g.sh g.pt ∧ SumPads ow (tiles.getD 2 0) g.sw g.pl
  fits : ∀ n d, n < (totalCount (poolOut [nb, oh, ow, ch] tiles skew lo).cfg).toNat → d < 4 → ((poolIn g [nb, oh, ow, ch] [nb, ih, iw, ch] tiles skew ls).at n).sizes.getD d 0 ≤ itiles.getD d 0
  ilen : itiles.length = 4
  iplace : Place itiles ls bi lin.size
  oplace : Place tiles lo bo lout.size
  inb : ∀ x, InShape [nb, ih, iw, ch] x → 0 ≤ offset gin.strides x ∧ offset gin.strides x < gin.buf.size
  outb : ∀ x, InShape [nb, oh, ow, ch] x → 0 ≤ offset gos x ∧ offset gos x < gout.size
  outj : ∀ x y, InShape [nb, oh, ow, ch] x → InShape [nb, oh, ow, ch] y → offset gos x = offset gos y → x = y
  range : op = .sum → ∀ x, InShape [nb, ih, iw, ch] x → InRange 8 (gin.buf.get (offset gin.strides x))

theorem list4 {l : List Int} (h : l.length = 4) : l = [l.getD 0 0, l.getD 1 0, l.getD 2 0, l.getD 3 0] := by
  match l, h with
  | [a, b, c, d], _ => rfl

theorem byteGeo_eq {g : Geo} (h : g.kh < 256 ∧ g.kw < 256 ∧ g.sh < 256 ∧ g.sw < 256) (hh : 0 ≤ g.pt ∧ g.pt < g.kh) (hw : 0 ≤ g.pl ∧ g.pl < g.kw)
    (hs : 1 ≤ g.sh ∧ 1 ≤ g.sw) : byteGeo g = { g with pb := g.pb % 256, pr := g.pr % 256 } := by
  unfold byteGeo
  rw [Int.emod_eq_of_lt (by omega) h.1, Int.emod_eq_of_lt (by omega) h.2.1, Int.emod_eq_of_lt (by omega) h.2.2.1, Int.emod_eq_of_lt (by omega) h.2.2.2,
    Int.emod_eq_of_lt (by omega) (by omega : g.pt < 256), Int.emod_eq_of_lt (by omega) (by omega : g.pl < 256)]

/-- The geometry in one tile: only the paddings differ. -/
theorem tilePads_fields (op : PoolOp) (it : TIt) (g : Geo) :
    (tilePads op it g).kh = g.kh ∧ (tilePads op it g).kw = g.kw ∧ (tilePads op it g).sh = g.sh ∧ (tilePads op it g).sw = g.sw ∧
    (tilePads op it g).pt = (match op with | .max => padBefore it 1 g.pt | .sum => if it.getPos.getD 1 0 ≠ 0 then 0 else g.pt) ∧
    (tilePads op it g).pl = (match op with | .max => padBefore it 2 g.pl | .sum => if it.getPos.getD 2 0 ≠ 0 then 0 else g.pl) := by
  cases op <;> exact ⟨rfl, rfl, rfl, rfl, rfl, rfl⟩

/-- What is known about round `n`. -/
structure PoolRound (op : PoolOp) (g : Geo) (nb ih iw ch oh ow : Int) (op4 os4 ip4 is4 : Nat → Int) (tg : Geo) : Prop where
  batch : ip4 0 = op4 0 ∧ is4 0 = os4 0
  chan : ip4 3 = op4 3 ∧ is4 3 = os4 3
  shH : Shifted ih g.kh g.sh g.pt (op4 1) (os4 1) (ip4 1) (is4 1) tg.pt
  shW : Shifted iw g.kw g.sw g.pl (op4 2) (os4 2) (ip4 2) (is4 2) tg.pl
  axH : TileAxis (is4 1) g.kh g.sh tg.pt (os4 1)
  axW : TileAxis (is4 2) g.kw g.sw tg.pl (os4 2)
  geo : tg.kh = g.kh ∧ tg.kw = g.kw ∧ tg.sh = g.sh ∧ tg.sw = g.sw
  inside : ∀ d, d < 4 → 0 ≤ ip4 d ∧ ip4 d + is4 d ≤ [nb, ih, iw, ch].getD d 0

theorem PoolOk.round {op : PoolOp} {g : Geo} {nb ih iw ch oh ow : Int} {tiles itiles : List Int} {skew : Int} {ls lo : List Int} {bi bo : Int} {gin : Glob}
    {gos : List Int} {lin lout gout : Buf} (h : PoolOk op g nb ih iw ch oh ow tiles itiles skew ls lo bi bo gin gos lin lout gout) (n : Nat) :
    let i := (poolIn g [nb, oh, ow, ch] [nb, ih, iw, ch] tiles skew ls).at n
    let o := (poolOut [nb, oh, ow, ch] tiles skew lo).at n
    PoolRound op g nb ih iw ch oh ow (fun d => o.getPos.getD d 0) (fun d => o.sizes.getD d 0) (fun d => i.getPos.getD d 0) (fun d => i.sizes.getD d 0)
      (tilePads op i (byteGeo g)) ∧ i.getPos.length = 4 ∧ i.sizes.length = 4 := by
  intro i o
  have hw := fun d (hd : d < 4) => winTiles (oshape := [nb, oh, ow, ch]) (tiles := tiles) (ishape := [nb, ih, iw, ch]) (skew := skew) (k := Geo.k4 g)
    (s := Geo.s4 g) (p := Geo.p4 g) lo ls h.tiling rfl n d hd (h.kern d hd)
  obtain ⟨w0, -, l1, l2⟩ := hw 0 (by omega)
  obtain ⟨w1, n1, -, -⟩ := hw 1 (by omega)
  obtain ⟨w2, n2, -, -⟩ := hw 2 (by omega)
  obtain ⟨w3, -, -, -⟩ := hw 3 (by omega)
  have k1 : KernOk oh (tiles.getD 1 0) 0 ih g.kh g.sh g.pt := h.kern 1 (by omega)
  have k2 : KernOk ow (tiles.getD 2 0) 0 iw g.kw g.sw g.pl := h.kern 2 (by omega)
  obtain ⟨a1, a2⟩ := win_axis w1 k1 h.rows
  obtain ⟨b1, b2⟩ := win_axis w2 k2 h.cols
  have hbg := byteGeo_eq h.bytes k1.hp k2.hp ⟨k1.hs, k2.hs⟩
  obtain ⟨f1, f2, f3, f4, f5, f6⟩ := tilePads_fields op i (byteGeo g)
  have hbf : (byteGeo g).kh = g.kh ∧ (byteGeo g).kw = g.kw ∧ (byteGeo g).sh = g.sh ∧ (byteGeo g).sw = g.sw ∧ (byteGeo g).pt = g.pt ∧ (byteGeo g).pl = g.pl := by
    rw [hbg]; exact ⟨rfl, rfl, rfl, rfl, rfl, rfl⟩
  have pt : (tilePads op i (byteGeo g)).pt = if (i.st.map (·.idx)).getD 1 0 = 0 then g.pt else 0 := by
    rw [f5, hbf.2.2.2.2.1]
    cases op with
    | max => exact padBefore_eq w1 k1 n1
    | sum => exact sumBefore_eq w1 k1 (h.sums rfl).1
  have pl : (tilePads op i (byteGeo g)).pl = if (i.st.map (·.idx)).getD 2 0 = 0 then g.pl else 0 := by
    rw [f6, hbf.2.2.2.2.2]
    cases op with
    | max => exact padBefore_eq w2 k2 n2
    | sum => exact sumBefore_eq w2 k2 (h.sums rfl).2
  refine ⟨⟨win_plain w0, win_plain w3, by rw [pt]; exact a1, by rw [pl]; exact b1, by rw [pt]; exact a2, by rw [pl]; exact b2,
    ⟨f1.trans hbf.1, f2.trans hbf.2.1, f3.trans hbf.2.2.1, f4.trans hbf.2.2.2.1⟩, ?_⟩, l1, l2⟩
  intro d hd
  obtain ⟨w, -⟩ := hw d hd
  exact ⟨w.i0, w.i3⟩

/-- The object and the buffers before round `n`. -/
structure PoolAt (op : PoolOp) (wi wo : Nat) (g : Geo) (inp out : TIt) (bi bo : Int) (n : Nat) (o : PoolObj) : Prop where
  kind : o.op = op ∧ o.wi = wi ∧ o.wo = wo ∧ o.cfg = byteGeo g
  eIn : o.inp = inp.at n
  eOut : o.out = out.at n
  tin : o.tin.dims = List.zipWith Dim.mk (inp.at n).sizes.tail inp.strides.tail ∧ o.tin.base = bi
  tout : o.tout.dims = List.zipWith Dim.mk (out.at n).sizes.tail out.strides.tail ∧ o.tout.base = bo
  nb : o.nb = (inp.at n).sizes.getD 0 0
  si : o.si = inp.strides.getD 0 0
  so : o.so = out.strides.getD 0 0
  tcfg : o.tcfg = tilePads op (inp.at n) (byteGeo g)

theorem PoolAt.next {op : PoolOp} {wi wo : Nat} {g : Geo} {inp out : TIt} {bi bo : Int} {n : Nat} {o : PoolObj} (h : PoolAt op wi wo g inp out bi bo n o)
    (hi : ∀ n, (inp.at n).sizes.length = inp.strides.length) (ho : ∀ n, (out.at n).sizes.length = out.strides.length) :
    PoolAt op wi wo g inp out bi bo (n + 1) o.update := by
  obtain ⟨⟨k1, k2, k3, k4⟩, h1, h2, h3, h4, h5, h6, h7, h8⟩ := h
  have e1 : o.inp.next = inp.at (n + 1) := by rw [h1]; rfl
  have e2 : o.out.next = out.at (n + 1) := by rw [h2]; rfl
  refine ⟨⟨k1, k2, k3, k4⟩, e1, e2, ⟨?_, h3.2⟩, ⟨?_, h4.2⟩, ?_, h6, h7, ?_⟩
  · show List.zipWith _ o.tin.dims o.inp.next.sizes.tail = _
    rw [h3.1, e1, zip_setShape (by simp [hi]) (by simp [hi])]
  · show List.zipWith _ o.tout.dims o.out.next.sizes.tail = _
    rw [h4.1, e2, zip_setShape (by simp [ho]) (by simp [ho])]
  · show o.inp.next.sizes.getD 0 0 = _
    rw [e1]
  · show tilePads o.op o.inp.next o.cfg = _
    rw [e1, k1, k4]

theorem strides4 {tiles loc : List Int} {b size : Int} (h : Place tiles loc b size) (hl : tiles.length = 4) : ∃ a0 a1 a2, loc = [a0, a1, a2, 1] := by
  have h1 := h.len
  have h2 := h.inner
  rw [hl] at h1
  match loc, h1 with
  | [a, b, c, d], _ =>
    simp at h2
    exact ⟨a, b, c, by rw [h2]⟩

theorem inShape4 {a b c d : Int} {x : List Int} (h : InShape [a, b, c, d] x) : ∃ p q r s, x = [p, q, r, s] := by
  match x, h with
  | [p, q, r, s], _ => exact ⟨p, q, r, s, rfl⟩

/-- The element sizes that the kernels support. -/
def PoolOp.widths (op : PoolOp) (wi wo : Nat) : Prop :=
  match op with
  | .max => wi = 8 ∨ wi = 16
  | .sum => wi = 8 ∧ wo = 32

theorem issue_eq {o : PoolObj} {op : PoolOp} (ho : o.op = op) (hw : op.widths o.wi o.wo) (lin lout : Buf) :
    o.issue lin lout = (forRange o.nb.toNat (fun (b : Nat) d => poolHwc op.kernel lin o.tcfg (o.tin.shift (b * o.si)) (o.tout.shift (b * o.so)) d) lout).map
      fun d => (.ok, d) := by
  unfold PoolObj.issue
  rw [ho]
  cases op with
  | max =>
    simp only
    rw [if_pos (by rcases hw with h | h <;> simp [h])]
    rfl
  | sum =>
    simp only
    rw [if_pos (show o.wi = 8 ∧ o.wo = 32 from hw)]
    rfl

/-- All rounds. -/
theorem pool_run {op : PoolOp} {wi wo : Nat} {g : Geo} {nb ih iw ch oh ow : Int} {tiles itiles : List Int} {skew : Int} {ls lo : List Int} {bi bo : Int}
    {gin : Glob} {gos : List Int} {lin lout gout : Buf}
    (h : PoolOk op g nb ih iw ch oh ow tiles itiles skew ls lo bi bo gin gos lin lout gout) (hwd : op.widths wi wo) :
    let inp := poolIn g [nb, oh, ow, ch] [nb, ih, iw, ch] tiles skew ls
    let out := poolOut [nb, oh, ow, ch] tiles skew lo
    ∃ s, PoolHost.run gin gos (totalCount out.cfg).toNat ⟨PoolObj.new op wi wo g inp out bi bo, lin, lout, gout, .ok⟩ = some s ∧ s.status = .ok ∧
      s.gout.size = gout.size ∧
      (∀ b y x c, InShape [nb, oh, ow, ch] [b, y, x, c] → PoolMeaning op (fun r q => gin.buf.get (offset gin.strides [b, r, q, c])) ih iw g.kh g.kw g.sh g.sw
        g.pt g.pl y x (s.gout.get (offset gos [b, y, x, c]))) ∧
      ∀ a, (∀ x, InShape [nb, oh, ow, ch] x → offset gos x ≠ a) → s.gout.get a = gout.get a := by
  intro inp out
  have hq := tileSeq_range (shape := [nb, oh, ow, ch]) h.tiling (by rw [h.rank]; rfl) lo
  change TileSeq _ tiles (totalCount out.cfg).toNat (fun n => (out.at n).getPos) (fun n => (out.at n).sizes) at hq
  obtain ⟨a0, a1, a2, rfl⟩ := strides4 h.iplace h.ilen
  obtain ⟨c0, c1, c2, rfl⟩ := strides4 h.oplace h.rank
  have hRd := fun n => (h.round n).1
  have hIp : ∀ n, (inp.at n).getPos.length = 4 := fun n => (h.round n).2.1
  have hIs : ∀ n, (inp.at n).sizes.length = 4 := fun n => (h.round n).2.2
  have hOp : ∀ n, (out.at n).getPos.length = 4 := fun n => hq.lenP n
  have hOs : ∀ n, (out.at n).sizes.length = 4 := fun n => hq.lenS n
  let X : Int → Int → Int → Int → Int := fun b c r q => gin.buf.get (offset gin.strides [b, r, q, c])
  let M : List Int → Int → Prop := fun x v => PoolMeaning op (X (x.getD 0 0) (x.getD 3 0)) ih iw g.kh g.kw g.sh g.sw g.pt g.pl (x.getD 1 0) (x.getD 2 0) v
  let val : List Int → Int := fun x => Classical.epsilon (M x)
  have hval : ∀ x v, M x v → val x = v := fun x v hv => poolMeaning_unique (Classical.epsilon_spec ⟨v, hv⟩) hv
  let J : Nat → PoolHost → Prop := fun n s => s.status = .ok ∧ s.lin.size = lin.size ∧ s.lout.size = lout.size ∧ s.gout.size = gout.size ∧
    PoolAt op wi wo g inp out bi bo n s.obj ∧ ∀ m, m < n → ∀ y, InShape (out.at m).sizes y → M (addPos y (out.at m).getPos) (val (addPos y (out.at m).getPos))
  obtain ⟨s', k1, k2, k3⟩ := tile_loop hq h.outj val (fun s => PoolHost.round gin gos s) (fun s => s.gout) J
    ⟨PoolObj.new op wi wo g inp out bi bo, lin, lout, gout, .ok⟩
    ⟨rfl, rfl, rfl, rfl, ⟨⟨rfl, rfl, rfl, rfl⟩, rfl, rfl, ⟨rfl, rfl⟩, ⟨rfl, rfl⟩, rfl, rfl, rfl, rfl⟩, fun m hm => by omega⟩ (by
    rintro n ⟨obj, l0, r0, g0, st⟩ hn ⟨j1, j2, j3, j4, j5, j6⟩
    simp only at j1 j2 j3 j4 j5
    obtain ⟨⟨u1, u2⟩, ⟨v1, v2⟩, sH, sW, aH, aW, geo, ins⟩ := hRd n
    change (inp.at n).getPos.getD 0 0 = (out.at n).getPos.getD 0 0 at u1
    change (inp.at n).sizes.getD 0 0 = (out.at n).sizes.getD 0 0 at u2
    change (inp.at n).getPos.getD 3 0 = (out.at n).getPos.getD 3 0 at v1
    change (inp.at n).sizes.getD 3 0 = (out.at n).sizes.getD 3 0 at v2
    have ez : ∀ (sz y : List Int), InShape sz y → addPos y (zeros sz) = y := fun sz y hy => addPos_zeros (inShape_length _ _ hy).symm
    have iloc : ∀ y, InShape (inp.at n).sizes y → InShape itiles y := fun y hy =>
      inShape_mono (by rw [hIs, h.ilen]) (fun d hd => h.fits n d hn (by rw [h.ilen] at hd; exact hd)) hy
    have iglob : ∀ y, InShape (inp.at n).sizes y → InShape [nb, ih, iw, ch] (addPos y (inp.at n).getPos) := fun y hy => by
      rw [addPos_comm]
      exact Cs.inShape_addPos _ _ _ _ (hIp n) (fun d hd => ins d hd) (hIs n) hy
    obtain ⟨l1, f1, f2, f3, -⟩ := copyBox_ok (size := (inp.at n).sizes) (src := gin.buf) (sb := 0) (ss := gin.strides) (sp := (inp.at n).getPos)
      (db := bi) (ds := [a0, a1, a2, 1]) (dp := zeros (inp.at n).sizes) (dst := l0)
      (fun y hy => by rw [Int.zero_add]; exact h.inb _ (iglob y hy))
      (fun y hy => by rw [ez _ y hy, j2]; exact h.iplace.inb y (iloc y hy))
      (fun y z hy hz e => by
        rw [ez _ y hy, ez _ z hz] at e
        exact h.iplace.inj y z (iloc y hy) (iloc z hz) (by omega))
    have f3' : ∀ y, InShape (inp.at n).sizes y → l1.get (bi + offset [a0, a1, a2, 1] y) = gin.buf.get (offset gin.strides (addPos y (inp.at n).getPos)) := by
      intro y hy
      have := f3 y hy
      rwa [ez _ y hy, Int.zero_add] at this
    have eis := list4 (hIs n)
    have eip := list4 (hIp n)
    have eos := list4 (hOs n)
    have eop := list4 (hOp n)
    have hdi : obj.tin.dims = [⟨(inp.at n).sizes.getD 1 0, a1⟩, ⟨(inp.at n).sizes.getD 2 0, a2⟩, ⟨(inp.at n).sizes.getD 3 0, 1⟩] := by
      rw [j5.tin.1, eis]; rfl
    have hdo : obj.tout.dims = [⟨(out.at n).sizes.getD 1 0, c1⟩, ⟨(out.at n).sizes.getD 2 0, c2⟩, ⟨(inp.at n).sizes.getD 3 0, 1⟩] := by
      rw [j5.tout.1, v2, eos]; rfl
    have eis' : [(inp.at n).sizes.getD 0 0, (inp.at n).sizes.getD 1 0, (inp.at n).sizes.getD 2 0, (inp.at n).sizes.getD 3 0] = (inp.at n).sizes := eis.symm
    have eos' : [(inp.at n).sizes.getD 0 0, (out.at n).sizes.getD 1 0, (out.at n).sizes.getD 2 0, (inp.at n).sizes.getD 3 0] = (out.at n).sizes := by
      rw [u2, v2]; exact eos.symm
    have htc := j5.tcfg
    obtain ⟨r1, g1, g2, g3, -⟩ := pool_batch op (tin := obj.tin) (tout := obj.tout) (g := obj.tcfg) (src := l1) (dst := r0)
      (nb := (inp.at n).sizes.getD 0 0) (i0 := a0) (o0 := c0) hdi hdo
      (by rw [htc, geo.1, geo.2.2.1]; exact aH) (by rw [htc, geo.2.1, geo.2.2.2]; exact aW)
      (fun y hy => by rw [j5.tin.2, f2, j2]; rw [eis'] at hy; exact h.iplace.inb y (iloc y hy))
      (fun y hy => by rw [j5.tout.2, j3]; rw [eos'] at hy; exact h.oplace.inb y (hq.local_ hy))
      (fun y z hy hz e => by rw [eos'] at hy hz; exact h.oplace.inj y z (hq.local_ hy) (hq.local_ hz) e)
      (by rw [htc, geo.1, geo.2.1]; exact ⟨h.bytes.1, h.bytes.2.1⟩)
      (fun ho y hy => by rw [eis'] at hy; rw [j5.tin.2, f3' y hy]; exact h.range ho _ (iglob y hy))
    obtain ⟨g', e1, e2, e3, e4⟩ := copyBox_ok (size := (out.at n).sizes) (src := r1) (sb := bo) (ss := [c0, c1, c2, 1]) (sp := zeros (out.at n).sizes)
      (db := 0) (ds := gos) (dp := (out.at n).getPos) (dst := g0)
      (fun y hy => by rw [ez _ y hy, g2, j3]; exact h.oplace.inb y (hq.local_ hy))
      (fun y hy => by rw [Int.zero_add, j4]; exact h.outb _ (hq.global hy))
      (fun y z hy hz e => by
        rw [Int.zero_add, Int.zero_add] at e
        exact addPos_inj (by rw [hq.len hy, hq.lenP n]) (by rw [hq.len hz, hq.lenP n]) (h.outj _ _ (hq.global hy) (hq.global hz) e))
    simp only [Int.zero_add] at e3 e4
    have key : ∀ y, InShape (out.at n).sizes y → M (addPos y (out.at n).getPos) (g'.get (offset gos (addPos y (out.at n).getPos))) := by
      intro y hy
      have hy' := hy
      rw [← eos'] at hy'
      obtain ⟨b, r, q, c, rfl⟩ := inShape4 hy'
      have hm := g3 b r q c hy'
      rw [e3 _ hy, ez _ _ hy]
      rw [j5.tout.2, j5.tin.2, htc, geo.1, geo.2.1, geo.2.2.1, geo.2.2.2] at hm
      have hrr : (0 ≤ r ∧ r < (out.at n).sizes.getD 1 0) ∧ (0 ≤ q ∧ q < (out.at n).sizes.getD 2 0) := ⟨hy'.2.1, hy'.2.2.1⟩
      have hb : 0 ≤ b ∧ b < (inp.at n).sizes.getD 0 0 := hy'.1
      have hc : 0 ≤ c ∧ c < (inp.at n).sizes.getD 3 0 := hy'.2.2.2.1
      show PoolMeaning op (X _ _) ih iw g.kh g.kw g.sh g.sw g.pt g.pl _ _ _
      rw [eop]
      show PoolMeaning op (X (b + (out.at n).getPos.getD 0 0) (c + (out.at n).getPos.getD 3 0)) ih iw g.kh g.kw g.sh g.sw g.pt g.pl
        (r + (out.at n).getPos.getD 1 0) (q + (out.at n).getPos.getD 2 0) _
      refine poolMeaning_shift sH sW hrr.1 hrr.2 ?_
      refine poolMeaning_congr (fun r' q' hr' hq' => ?_) hm
      rw [f3' _ (by rw [← eis']; exact ⟨hb, hr', hq', hc, trivial⟩), eip]
      show gin.buf.get (offset gin.strides [_, _, _, _]) = gin.buf.get (offset gin.strides [_, _, _, _])
      rw [u1, v1]
      rfl
    refine ⟨⟨obj.update, l1, r1, g', .ok⟩, ?_, ⟨rfl, by simp only; omega, by simp only; omega, by simp only; omega,
      j5.next (fun n => by rw [hIs]; rfl) (fun n => by rw [hOs]; rfl), ?_⟩, e2, ?_, e4⟩
    · unfold PoolHost.round
      simp only
      rw [j5.eIn, j5.eOut, j5.tin.2]
      show (copyBox (inp.at n).sizes gin.buf 0 gin.strides (inp.at n).getPos bi [a0, a1, a2, 1] (zeros (inp.at n).sizes) l0).bind _ = _
      rw [f1, Option.bind_some, issue_eq j5.kind.1 (by rw [j5.kind.2.1, j5.kind.2.2.1]; exact hwd)]
      rw [j5.nb, j5.si, j5.so]
      show (Option.map _ (forRange ((inp.at n).sizes.getD 0 0).toNat (fun (b : Nat) d => poolHwc op.kernel l1 obj.tcfg (obj.tin.shift (b * a0))
        (obj.tout.shift (b * c0)) d) r0)).bind _ = _
      rw [g1, Option.map_some, Option.bind_some, j5.tout.2]
      show (copyBox (out.at n).sizes r1 bo [c0, c1, c2, 1] _ 0 gos (out.at n).getPos g0).map _ = _
      rw [e1, j1]
      rfl
    · intro m hm y hy
      by_cases e : m = n
      · subst e
        have := key y hy
        rwa [hval _ _ this]
      · exact j6 m (by omega) y hy
    · intro y hy
      rw [hval _ _ (key y hy)])
  obtain ⟨i1, i2, i3, i4, i5, i6⟩ := k2
  refine ⟨s', k1, i1, k3.size, ?_, k3.frame⟩
  intro b y x c hx
  rw [k3.elem _ hx]
  obtain ⟨n, hn, z, hz, e⟩ := hq.cover _ hx
  rw [e]
  have := i6 n hn z hz
  rw [← e] at this ⊢
  exact this

end Mli.Rt
