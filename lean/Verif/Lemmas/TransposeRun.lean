import Verif.Lemmas.TransposeTiles

/-! # All rounds of the run-time transposed convolution -/

namespace Mli.Rt

open Mli Mli.Iter Mli.Spec

/-- `TransposeConv2D::Issue` on one tile. -/
theorem dc_issue {o : DcObj} (hwd : o.wi = 8 ∧ o.ww = 8 ∧ o.wo = 32) {lin lw lz lout : Buf}
    {isy isx ic kh kw osy osx kn a0 a1 a2 a3 w0 w1 w2 w3 w4 e0 e1 e2 e3 bi bw bo : Int}
    (hti : o.tin.dims = [⟨1, a0⟩, ⟨isy, a1⟩, ⟨isx, a2⟩, ⟨1, a3⟩, ⟨ic, 1⟩] ∧ o.tin.base = bi)
    (htw : o.tw.dims = [⟨1, w0⟩, ⟨kh, w1⟩, ⟨kw, w2⟩, ⟨ic, w3⟩, ⟨kn, w4⟩] ∧ o.tw.base = bw)
    (hto : o.tout.dims = [⟨1, e0⟩, ⟨osy, e1⟩, ⟨osx, e2⟩, ⟨1, e3⟩, ⟨kn, 1⟩] ∧ o.tout.base = bo)
    (p1 : 1 ≤ ic) (p2 : 1 ≤ kh ∧ 1 ≤ kw ∧ 1 ≤ kn)
    (hib : ∀ y, InShape [1, isy, isx, 1, ic] y → (0 ≤ bi + offset [a0, a1, a2, a3, 1] y ∧ bi + offset [a0, a1, a2, a3, 1] y < lin.size) ∧
      InRange 8 (lin.get (bi + offset [a0, a1, a2, a3, 1] y)))
    (hwb : ∀ y, InShape [1, kh, kw, ic, kn] y → (0 ≤ bw + offset [w0, w1, w2, w3, w4] y ∧ bw + offset [w0, w1, w2, w3, w4] y < lw.size) ∧
      InRange 8 (lw.get (bw + offset [w0, w1, w2, w3, w4] y)))
    (hob : ∀ y, InShape [1, osy, osx, 1, kn] y → 0 ≤ bo + offset [e0, e1, e2, e3, 1] y ∧ bo + offset [e0, e1, e2, e3, 1] y < lout.size)
    (hoj : ∀ y z, InShape [1, osy, osx, 1, kn] y → InShape [1, osy, osx, 1, kn] z → offset [e0, e1, e2, e3, 1] y = offset [e0, e1, e2, e3, 1] z → y = z)
    (hc : o.tcfg.Typed) (hz : InRange 8 o.zx) (hzw : lz.rd o.bz = some 0) (hh : TcIn isy kh o.tcfg.sh o.tcfg.pt osy)
    (hw : TcIn isx kw o.tcfg.sw o.tcfg.pl osx) (ht : ic * (kh * kw) ≤ 43690) :
    ∃ r1, o.issue lin lw lz lout = some (.ok, r1) ∧ r1.size = lout.size ∧ ∀ y x k, InShape [osy, osx, kn] [y, x, k] →
      r1.get (bo + at5 [e0, e1, e2, e3, 1] y x k) =
        scatterSum isy isx kh kw ic (fun r q c => lin.get (bi + at5 [a0, a1, a2, a3, 1] r q c) - o.zx)
          (fun i j c => lw.get (bw + offset [w0, w1, w2, w3, w4] [0, i, j, c, k])) o.tcfg.sh o.tcfg.sw o.tcfg.pt o.tcfg.pl y x +
        o.zx * kernelSum kh kw ic (fun i j c => lw.get (bw + offset [w0, w1, w2, w3, w4] [0, i, j, c, k])) := by
  have wd : (wtsPart o.tw).dims = [⟨kh, w1⟩, ⟨kw, w2⟩, ⟨ic, w3⟩, ⟨kn, w4⟩] := by unfold wtsPart; rw [htw.1]
  have wsh : (wtsPart o.tw).shape = [kh, kw, ic, kn] := by unfold Tensor.shape; rw [wd]; rfl
  have wa : ∀ i j c k, (wtsPart o.tw).addr [i, j, c, k] = bw + offset [w0, w1, w2, w3, w4] [0, i, j, c, k] := by
    intro i j c k
    unfold wtsPart
    rw [htw.1]
    simp only [Tensor.addr, Tensor.strides, List.map_cons, List.map_nil, offset, htw.2]
    ring
  have w5 : ∀ is, InShape (wtsPart o.tw).shape is → ∃ i j c k, is = [i, j, c, k] ∧ InShape [1, kh, kw, ic, kn] [0, i, j, c, k] := by
    intro is his
    rw [wsh] at his
    obtain ⟨i, j, c, k, rfl⟩ := inShape4 his
    exact ⟨i, j, c, k, rfl, ⟨by omega, by omega⟩, his⟩
  have pw : (wtsPart o.tw).Placed lw := by
    refine ⟨?_, ?_⟩
    · rw [wd]
      simp only [List.mem_cons, List.not_mem_nil, or_false]
      rintro d (rfl | rfl | rfl | rfl)
      exacts [p2.1, p2.2.1, p1, p2.2.2]
    · intro is his
      obtain ⟨i, j, c, k, rfl, h⟩ := w5 is his
      rw [wa]
      exact (hwb _ h).1
  have T : TcT (hwcPart o.tin) (wtsPart o.tw) (hwcPart o.tout) o.tcfg lin lw ⟨isy, a1⟩ ⟨isx, a2⟩ ⟨ic, 1⟩ ⟨kh, w1⟩ ⟨kw, w2⟩ ⟨ic, w3⟩ ⟨kn, w4⟩
      ⟨osy, e1⟩ ⟨osx, e2⟩ ⟨kn, 1⟩ :=
    ⟨hwc_placed hti ⟨hh.n1, hw.n1, p1⟩ fun y hy => (hib y hy).1, pw, hwc_dims hti, wd, rfl, rfl, hwc_dims hto, rfl, rfl, hh, hw⟩
  obtain ⟨r1, h1, h2⟩ := transpose_issue_laid (dst := lout) o.zx T
    (by
      intro is his
      rw [hwc_shape hto] at his
      obtain ⟨r, q, k, rfl⟩ := inShape3' his
      rw [hwc_addr hto]
      exact hob _ (up5 his))
    (fun y z hy hz e => hwc_inj hto hoj y z hy hz e)
    (by
      intro is his
      rw [hwc_shape hti] at his
      obtain ⟨r, q, k, rfl⟩ := inShape3' his
      rw [hwc_addr hti]
      exact (hib _ (up5 his)).2)
    (by
      intro is his
      obtain ⟨i, j, c, k, rfl, h⟩ := w5 is his
      rw [wa]
      exact (hwb _ h).2) hc hz ht
  refine ⟨r1, ?_, h2.size, ?_⟩
  · unfold DcObj.issue
    rw [if_pos hwd, hzw, Option.bind_some, h1]; rfl
  · intro y x k hs
    have := h2.elem [y, x, k] (by rw [hwc_shape hto]; exact hs)
    rw [hwc_addr hto] at this
    rw [this]
    have f1 : ∀ r q c, inElem lin (hwcPart o.tin) r q c = lin.get (bi + at5 [a0, a1, a2, a3, 1] r q c) := by
      intro r q c; unfold inElem; rw [hwc_addr hti]
    have f2 : wtElem lw (wtsPart o.tw) k = fun i j c => lw.get (bw + offset [w0, w1, w2, w3, w4] [0, i, j, c, k]) := by
      funext i j c; unfold wtElem; rw [wa]
    simp only [f1, f2]

/-- A run of the kernel: `nb` batch elements, input of `ih` by `iw` by `ic` in tiles of `t1` by `t2`, output of `oh` by `ow` by `oc` with tiles of `t4`
channels; strides `ls`, `lw`, `lo` and addresses `bi`, `bw`, `bz`, `bo` of the tiles in the local buffers, which have room for input tiles `itiles` and
output tiles `otiles`; tensors `gin`, `gw`, `gz` and `gout` with strides `gos` in global memory. -/
structure DcRun where
  zx : Int
  c : ConvCfg
  nb : Int
  ih : Int
  iw : Int
  ic : Int
  oh : Int
  ow : Int
  oc : Int
  kh : Int
  kw : Int
  t1 : Int
  t2 : Int
  t4 : Int
  itiles : List Int
  otiles : List Int
  ls : List Int
  lw : List Int
  lo : List Int
  bi : Int
  bw : Int
  bz : Int
  bo : Int
  lin : Buf
  lwt : Buf
  lz : Buf
  lout : Buf
  gin : Glob
  gw : Glob
  gz : Buf
  gos : List Int
  gout : Buf

namespace DcRun

def ishape (R : DcRun) : List Int := [R.nb, R.ih, R.iw, 1, R.ic]
def oshape (R : DcRun) : List Int := [R.nb, R.oh, R.ow, 1, R.oc]
def tiles (R : DcRun) : List Int := [1, R.t1, R.t2, 1, R.ic]
def wtile (R : DcRun) (k : Int) : List Int := [1, R.kh, R.kw, R.ic, k]
def k5 (R : DcRun) (d : Nat) : Int := [1, R.kh, R.kw, 1, R.oc].getD d 0
def s5 (R : DcRun) (d : Nat) : Int := [1, R.c.sh, R.c.sw, 1, 1].getD d 0
def p5 (R : DcRun) (d : Nat) : Int := [0, R.c.pt, R.c.pl, 0, 0].getD d 0

/-- The iterators that `GetDeconvTensorIterators` returns. -/
def base (R : DcRun) : List DimCfg := deconvBase R.ishape R.tiles (List.range 5) R.oc R.t4 R.kh R.kw
def inp (R : DcRun) : TIt := TIt.start (deconvIn R.base) R.ishape R.ls
def out (R : DcRun) : TIt := TIt.start (deconvOut R.base R.oshape R.t4 R.k5 R.s5 R.p5) R.oshape R.lo
def wts (R : DcRun) : TIt := TIt.start (deconvWts R.out.cfg (R.wtile R.oc)) (R.wtile R.oc) R.lw

/-- The caller before the first round, with the bits of input, weight and output elements. -/
def start (R : DcRun) (wi ww wo : Nat) : DcHost :=
  ⟨DcObj.new wi ww wo R.zx R.c R.inp R.wts R.out R.bi R.bw R.bz R.bo, R.lin, R.lwt, R.lz, R.lout, R.gout, .ok⟩

/-- Number of rounds. -/
def rounds (R : DcRun) : Nat := (totalCount R.out.cfg).toNat

/-- All rounds. -/
def run (R : DcRun) (wi ww wo : Nat) : Option DcHost := DcHost.run R.gin R.gw R.gz R.gos R.rounds (R.start wi ww wo)

/-- Input element of the whole tensor. -/
def input (R : DcRun) (b r q c : Int) : Int := R.gin.buf.get (offset R.gin.strides [b, r, q, 0, c])

/-- Weight of the whole tensor. -/
def weight (R : DcRun) (i j c k : Int) : Int := R.gw.buf.get (offset R.gw.strides [0, i, j, c, k])

/-- What the output holds at `[b, y, x, 0, k]`. -/
def value (R : DcRun) (b y x k : Int) : Int :=
  scatterSum R.ih R.iw R.kh R.kw R.ic (fun r q c => R.input b r q c - R.zx) (fun i j c => R.weight i j c k) R.c.sh R.c.sw R.c.pt R.c.pl y x +
    R.zx * kernelSum R.kh R.kw R.ic fun i j c => R.weight i j c k

end DcRun

/-- What a run needs. -/
structure DcOk (R : DcRun) : Prop where
  batch : 1 ≤ R.nb ∧ R.nb < 2 ^ 29
  rows : TcSplit R.ih R.t1 R.kh R.c.sh R.c.pt R.c.pb R.oh
  cols : TcSplit R.iw R.t2 R.kw R.c.sw R.c.pl R.c.pr R.ow
  chans : 1 ≤ R.t4 ∧ R.t4 ≤ R.oc ∧ R.oc < 2 ^ 29
  inch : 1 ≤ R.ic ∧ R.ic < 2 ^ 29
  typed : R.c.Typed
  taps : R.ic * (R.kh * R.kw) ≤ 43690
  zin : InRange 8 R.zx
  zuse : ∀ k, 0 ≤ k → k < R.oc → R.gz.get k = 0
  zsize : R.oc ≤ R.gz.size
  ifits : ∀ n d, n < R.rounds → d < 5 → (R.inp.at n).sizes.getD d 0 ≤ R.itiles.getD d 0
  ofits : ∀ n d, n < R.rounds → d < 5 → (R.out.at n).sizes.getD d 0 ≤ R.otiles.getD d 0
  ilen : R.itiles.length = 5
  olen : R.otiles.length = 5
  iplace : Place R.itiles R.ls R.bi R.lin.size
  oplace : Place R.otiles R.lo R.bo R.lout.size
  wlen : R.lw.length = 5
  wbound : ∀ y, InShape (R.wtile R.t4) y → 0 ≤ R.bw + offset R.lw y ∧ R.bw + offset R.lw y < R.lwt.size
  winj : ∀ y z, InShape (R.wtile R.t4) y → InShape (R.wtile R.t4) z → offset R.lw y = offset R.lw z → y = z
  zplace : 0 ≤ R.bz ∧ R.bz + R.t4 ≤ R.lz.size
  inb : ∀ x, InShape R.ishape x → (0 ≤ offset R.gin.strides x ∧ offset R.gin.strides x < R.gin.buf.size) ∧ InRange 8 (R.gin.buf.get (offset R.gin.strides x))
  wb : ∀ x, InShape (R.wtile R.oc) x → (0 ≤ offset R.gw.strides x ∧ offset R.gw.strides x < R.gw.buf.size) ∧ InRange 8 (R.gw.buf.get (offset R.gw.strides x))
  outb : ∀ x, InShape R.oshape x → 0 ≤ offset R.gos x ∧ offset R.gos x < R.gout.size
  outj : ∀ x y, InShape R.oshape x → InShape R.oshape y → offset R.gos x = offset R.gos y → x = y

/-- Round `n`: positions and sizes of the tiles. -/
structure DcCell (R : DcRun) (n : Nat) (b oy osy iy isy pt ox osx ix isx pl k0 kn : Int) : Prop where
  opos : (R.out.at n).getPos = [b, oy, ox, 0, k0]
  osz : (R.out.at n).sizes = [1, osy, osx, 1, kn]
  ipos : (R.inp.at n).getPos = [b, iy, ix, 0, 0]
  isz : (R.inp.at n).sizes = [1, isy, isx, 1, R.ic]
  wpos : (R.wts.at n).getPos = [0, 0, 0, 0, k0]
  wsz : (R.wts.at n).sizes = R.wtile kn
  hb : 0 ≤ b ∧ b < R.nb
  hk : 0 ≤ k0 ∧ 1 ≤ kn ∧ k0 + kn ≤ R.oc ∧ kn ≤ R.t4
  ah : TcAx R.ih R.kh R.c.sh R.c.pt R.oh iy isy oy osy pt
  aw : TcAx R.iw R.kw R.c.sw R.c.pl R.ow ix isx ox osx pl
  pads : padBefore (R.out.at n) 1 R.c.pt = pt ∧ padBefore (R.out.at n) 2 R.c.pl = pl

theorem DcOk.chTile {R : DcRun} (h : DcOk R) : TileOk R.oc R.t4 0 := by
  have := h.chans
  exact ⟨⟨by omega, by omega⟩, ⟨by omega, by omega⟩, by omega⟩

/-- The configurations of the iterators. -/
theorem DcOk.cfgs {R : DcRun} (h : DcOk R) :
    R.base = [tileDim 0 R.nb 1 0, axCfg 1 R.ih R.t1 R.kh, axCfg 2 R.iw R.t2 R.kw, tileDim 3 1 1 0, inCh R.ic (ceilDivU R.oc R.t4)] ∧
    R.out.cfg = [kernelDim (tileDim 0 R.nb 1 0) R.nb 1 1 0, kernelDim (axCfg 1 R.ih R.t1 R.kh) R.oh R.kh R.c.sh R.c.pt,
      kernelDim (axCfg 2 R.iw R.t2 R.kw) R.ow R.kw R.c.sw R.c.pl, kernelDim (tileDim 3 1 1 0) 1 1 1 0, tileDim 4 R.oc R.t4 0] := by
  have e : R.base = _ := deconvBase_eq R.nb R.ih R.iw R.ic R.t1 R.t2 R.oc R.t4 R.kh R.kw
  refine ⟨e, ?_⟩
  show deconvOut R.base [R.nb, R.oh, R.ow, 1, R.oc] R.t4 R.k5 R.s5 R.p5 = _
  rw [e, deconvOut_eq h.chTile _ _ _ _ rfl (by unfold axCfg; simp only; split <;> rfl) (by unfold axCfg; simp only; split <;> rfl) rfl]
  rfl

theorem axCount_pos {n t k s p pe out : Int} (d : Int) (h : TcSplit n t k s p pe out) : 1 ≤ (axCfg d n t k).count := by
  unfold axCfg
  simp only
  split
  · exact Int.le_refl 1
  · obtain ⟨q, r, h1, h2, h3, h4, h5, e1, -⟩ := tileDim_facts d h.tileOk
    omega

/-- The tile of given indices. -/
theorem DcOk.cellAt {R : DcRun} (h : DcOk R) (n : Nat) {j0 j1 j2 j3 j4 : Int}
    (J : Idx5 n (tileDim 0 R.nb 1 0).count (axCfg 1 R.ih R.t1 R.kh).count (axCfg 2 R.iw R.t2 R.kw).count (tileDim 3 1 1 0).count (tileDim 4 R.oc R.t4 0).count
      j0 j1 j2 j3 j4) {e1 e2 : DimCfg} (he1 : e1 = kernelDim (axCfg 1 R.ih R.t1 R.kh) R.oh R.kh R.c.sh R.c.pt)
    (he2 : e2 = kernelDim (axCfg 2 R.iw R.t2 R.kw) R.ow R.kw R.c.sw R.c.pl) :
    DcCell R n (posOf (tileDim 0 R.nb 1 0) j0) (posOf e1 j1) (tileSize R.oh e1 ⟨posOf e1 j1, j1⟩) (posOf (axCfg 1 R.ih R.t1 R.kh) j1)
      (tileSize R.ih (axCfg 1 R.ih R.t1 R.kh) ⟨posOf (axCfg 1 R.ih R.t1 R.kh) j1, j1⟩) (padOf e1 j1 R.c.pt)
      (posOf e2 j2) (tileSize R.ow e2 ⟨posOf e2 j2, j2⟩) (posOf (axCfg 2 R.iw R.t2 R.kw) j2)
      (tileSize R.iw (axCfg 2 R.iw R.t2 R.kw) ⟨posOf (axCfg 2 R.iw R.t2 R.kw) j2, j2⟩) (padOf e2 j2 R.c.pl)
      (posOf (tileDim 4 R.oc R.t4 0) j4) (tileSize R.oc (tileDim 4 R.oc R.t4 0) ⟨posOf (tileDim 4 R.oc R.t4 0) j4, j4⟩) := by
  have hb := h.batch
  have hch := h.chTile
  have hic := h.inch
  obtain ⟨ebase, eout⟩ := h.cfgs
  have kp0 : KernOk R.nb 1 0 R.nb 1 1 0 := kernOk_plain (by omega) hb.1 hb.2
  have kp3 : KernOk 1 1 0 1 1 1 0 := kernOk_plain (by omega) (by omega) (by omega)
  have n0 : 1 ≤ (tileDim 0 R.nb 1 0).count := by obtain ⟨q, r, h1, h2, h3, h4, h5, e1, -⟩ := tileDim_facts 0 kp0.otile; omega
  have n3 : 1 ≤ (tileDim 3 1 1 0).count := by obtain ⟨q, r, h1, h2, h3, h4, h5, e1, -⟩ := tileDim_facts 3 kp3.otile; omega
  have n4 : 1 ≤ (tileDim 4 R.oc R.t4 0).count := by obtain ⟨q, r, h1, h2, h3, h4, h5, e1, -⟩ := tileDim_facts 4 hch; omega
  have n1 := axCount_pos 1 h.rows
  have n2 := axCount_pos 2 h.cols
  obtain ⟨r0, r1, r2, r3, r4⟩ := idx5_range J n0 n1 n2 n3 n4
  have A1 := h.rows.ax 1 j1 r1 rfl he1
  have A2 := h.cols.ax 2 j2 r2 rfl he2
  have W0 := winAt 0 kp0 j0 r0 rfl rfl
  have W3 := winAt 3 kp3 j3 r3 rfl rfl
  obtain ⟨p0, s0⟩ := win_plain W0
  obtain ⟨p3, s3⟩ := win_plain W3
  have C4 := tileDim_spec 4 hch j4 r4
  have L4 := tileSize_le 4 hch ⟨posOf (tileDim 4 R.oc R.t4 0) j4, j4⟩
  simp only at C4
  have o1 : (axCfg 1 R.ih R.t1 R.kh).order = 1 := by unfold axCfg; simp only; split <;> rfl
  have o2 : (axCfg 2 R.iw R.t2 R.kw).order = 2 := by unfold axCfg; simp only; split <;> rfl
  have hout : R.out = TIt.start [kernelDim (tileDim 0 R.nb 1 0) R.nb 1 1 0, e1, e2, kernelDim (tileDim 3 1 1 0) 1 1 1 0, tileDim 4 R.oc R.t4 0]
      [R.nb, R.oh, R.ow, 1, R.oc] R.lo := by
    rw [he1, he2, ← eout]; rfl
  let c4 : DimCfg := { inCh R.ic (ceilDivU R.oc R.t4) with firstInc := 0, inc := 0, lastInc := 0 }
  have hinp : R.inp = TIt.start [tileDim 0 R.nb 1 0, axCfg 1 R.ih R.t1 R.kh, axCfg 2 R.iw R.t2 R.kw, tileDim 3 1 1 0, c4]
      [R.nb, R.ih, R.iw, 1, R.ic] R.ls := by
    unfold DcRun.inp
    rw [ebase]; rfl
  have hwts : R.wts = TIt.start (deconvWts [kernelDim (tileDim 0 R.nb 1 0) R.nb 1 1 0, e1, e2, kernelDim (tileDim 3 1 1 0) 1 1 1 0, tileDim 4 R.oc R.t4 0]
      [1, R.kh, R.kw, R.ic, R.oc]) [1, R.kh, R.kw, R.ic, R.oc] R.lw := by
    unfold DcRun.wts
    rw [eout, he1, he2]; rfl
  have e1c : e1.count = (axCfg 1 R.ih R.t1 R.kh).count := by rw [he1]; rfl
  have e2c : e2.count = (axCfg 2 R.iw R.t2 R.kw).count := by rw [he2]; rfl
  have c4c : c4.count = (tileDim 4 R.oc R.t4 0).count := by
    show wrap 32 (ceilDivU R.oc R.t4) = _
    have := hch.htile
    have := hch.hsmall
    simp only [tileDim]
    rw [Int.add_zero, u32_id (x := R.oc) ⟨by omega, by omega⟩]
  have hposO : ∀ c ∈ [kernelDim (tileDim 0 R.nb 1 0) R.nb 1 1 0, e1, e2, kernelDim (tileDim 3 1 1 0) 1 1 1 0, tileDim 4 R.oc R.t4 0], 1 ≤ c.count := by
    simp only [List.mem_cons, List.not_mem_nil, or_false]
    rintro c (rfl | rfl | rfl | rfl | rfl)
    exacts [n0, by rw [e1c]; exact n1, by rw [e2c]; exact n2, n3, n4]
  have hposI : ∀ c ∈ [tileDim 0 R.nb 1 0, axCfg 1 R.ih R.t1 R.kh, axCfg 2 R.iw R.t2 R.kw, tileDim 3 1 1 0, c4], 1 ≤ c.count := by
    simp only [List.mem_cons, List.not_mem_nil, or_false]
    rintro c (rfl | rfl | rfl | rfl | rfl)
    exacts [n0, n1, n2, n3, by rw [c4c]; exact n4]
  have JO : Idx5 n (kernelDim (tileDim 0 R.nb 1 0) R.nb 1 1 0).count e1.count e2.count (kernelDim (tileDim 3 1 1 0) 1 1 1 0).count (tileDim 4 R.oc R.t4 0).count
      j0 j1 j2 j3 j4 := by rw [e1c, e2c]; exact J
  have q1 : e1.order = 1 := by rw [he1]; exact o1
  have q2 : e2.order = 2 := by rw [he2]; exact o2
  obtain ⟨g1, g2, g3⟩ := five_at (c0 := kernelDim (tileDim 0 R.nb 1 0) R.nb 1 1 0) (c1 := e1) (c2 := e2) (c3 := kernelDim (tileDim 3 1 1 0) 1 1 1 0)
    (c4 := tileDim 4 R.oc R.t4 0) rfl q1 q2 rfl rfl hposO R.nb R.oh R.ow 1 R.oc R.lo n JO
  obtain ⟨i1, i2, -⟩ := five_at (c0 := tileDim 0 R.nb 1 0) (c1 := axCfg 1 R.ih R.t1 R.kh) (c2 := axCfg 2 R.iw R.t2 R.kw) (c3 := tileDim 3 1 1 0)
    (c4 := c4) rfl o1 o2 rfl rfl hposI R.nb R.ih R.iw 1 R.ic R.ls n (by rw [c4c]; exact J)
  have tk := h.taps
  have hkh : 0 ≤ R.kh ∧ R.kh < 2 ^ 32 := by
    have := h.rows.small; have := h.rows.s1; have := h.rows.sk; have := h.rows.tile
    have := Int.mul_nonneg (show 0 ≤ R.ih by omega) (show 0 ≤ R.c.sh by omega)
    omega
  have hkw : 0 ≤ R.kw ∧ R.kw < 2 ^ 32 := by
    have := h.cols.small; have := h.cols.s1; have := h.cols.sk; have := h.cols.tile
    have := Int.mul_nonneg (show 0 ≤ R.iw by omega) (show 0 ≤ R.c.sw by omega)
    omega
  obtain ⟨v1, v2⟩ := deconvWts_at (c0 := kernelDim (tileDim 0 R.nb 1 0) R.nb 1 1 0) (c1 := e1) (c2 := e2) (c3 := kernelDim (tileDim 3 1 1 0) 1 1 1 0)
    (c4 := tileDim 4 R.oc R.t4 0) rfl q1 q2 rfl rfl hposO (kh := R.kh) (kw := R.kw) (ic := R.ic) (oc := R.oc) hkh hkw (by omega) R.lw n JO
  rw [← hout] at g1 g2 g3
  rw [← hinp] at i1 i2
  rw [← hwts] at v1 v2
  have hs0 : tileSize R.nb (tileDim 0 R.nb 1 0) ⟨posOf (tileDim 0 R.nb 1 0) j0, j0⟩ = 1 := by have := W0.o1; have := W0.o2; omega
  have hp3 : posOf (tileDim 3 1 1 0) j3 = 0 := by have := W3.o0; have := W3.o1; have := W3.o3; omega
  have hs3 : tileSize 1 (tileDim 3 1 1 0) ⟨posOf (tileDim 3 1 1 0) j3, j3⟩ = 1 := by have := W3.o1; have := W3.o2; omega
  have p4 : posOf c4 j4 = 0 := posOf_still c4 j4 rfl rfl
  obtain ⟨q, r, f1, f2, f3, f4, f5, m1, m2, m3, m4, m5, m6, m7⟩ := tileDim_facts (n := R.ic) (tile := R.ic) (skew := 0) 4
    ⟨⟨by omega, by omega⟩, ⟨by omega, by omega⟩, by omega⟩
  have hq0 : q = 0 := by
    rcases Int.lt_or_le 0 q with hq | hq
    · have : R.ic * 1 ≤ R.ic * q := Int.mul_le_mul_of_nonneg_left (by omega) (by omega)
      omega
    · omega
  have s4 : tileSize R.ic c4 ⟨0, j4⟩ = R.ic := by
    refine tileSize_all R.ic c4 j4 ?_ ?_ ?_ ⟨by omega, by omega⟩
    · show (tileDim 4 R.ic R.ic 0).firstSize = _
      rw [m5]; omega
    · show (tileDim 4 R.ic R.ic 0).size = _
      rw [m6]
    · show (tileDim 4 R.ic R.ic 0).lastSize = _
      rw [m7]
      rw [hq0] at f1
      omega
  have pads : ∀ (d : Nat) (e : DimCfg) (j p : Int), ((R.out.at n).st.map (·.idx)).getD d 0 = j → ((R.out.at n).cfg.map (·.inc)).getD d 0 = e.inc →
      padBefore (R.out.at n) d p = padOf e j p := by
    intro d e j p x1 x2
    unfold padBefore padOf
    simp only
    rw [x1, x2]
  have ecfg : (R.out.at n).cfg = [kernelDim (tileDim 0 R.nb 1 0) R.nb 1 1 0, e1, e2, kernelDim (tileDim 3 1 1 0) 1 1 1 0, tileDim 4 R.oc R.t4 0] := by
    rw [hout]; rfl
  refine ⟨?_, ?_, ?_, ?_, v1, v2, ?_, ⟨C4.1, C4.2.1, C4.2.2.1, L4⟩, A1, A2, pads 1 e1 j1 _ ?_ ?_, pads 2 e2 j2 _ ?_ ?_⟩
  · rw [g1, p0, p3, hp3]
  · rw [g2, s0, s3, hs0, hs3]
  · rw [i1, hp3, p4]
  · rw [i2, hs0, hs3, p4, s4]
  · have := W0.o0; have := W0.o1; have := W0.o3; omega
  · rw [g3]; rfl
  · rw [ecfg]; rfl
  · rw [g3]; rfl
  · rw [ecfg]; rfl

theorem DcOk.cell {R : DcRun} (h : DcOk R) (n : Nat) : ∃ b oy osy iy isy pt ox osx ix isx pl k0 kn, DcCell R n b oy osy iy isy pt ox osx ix isx pl k0 kn :=
  ⟨_, _, _, _, _, _, _, _, _, _, _, _, _, h.cellAt n ⟨rfl, rfl, rfl, rfl, rfl⟩ rfl rfl⟩

/-- The output tiles cover the output. -/
theorem DcOk.seq {R : DcRun} (h : DcOk R) : TileSeq R.oshape R.oshape R.rounds (fun n => (R.out.at n).getPos) (fun n => (R.out.at n).sizes) := by
  have hb := h.batch
  have kp0 : TileOk R.nb 1 0 := ⟨⟨by omega, by omega⟩, ⟨by omega, by omega⟩, by omega⟩
  have kp3 : TileOk 1 1 0 := ⟨⟨by omega, by omega⟩, ⟨by omega, by omega⟩, by omega⟩
  refine ⟨rfl, ?_, ?_, ?_, ?_⟩
  · intro n
    obtain ⟨b, oy, osy, iy, isy, pt, ox, osx, ix, isx, pl, k0, kn, C⟩ := h.cell n
    simp only [C.opos]; rfl
  · intro n
    obtain ⟨b, oy, osy, iy, isy, pt, ox, osx, ix, isx, pl, k0, kn, C⟩ := h.cell n
    simp only [C.osz]; rfl
  · intro n d hd
    obtain ⟨b, oy, osy, iy, isy, pt, ox, osx, ix, isx, pl, k0, kn, C⟩ := h.cell n
    simp only [C.opos, C.osz]
    have hd' : d < 5 := hd
    have b0 := C.hb
    have b1 := C.ah
    have b2 := C.aw
    have b4 := C.hk
    match d, hd' with
    | 0, _ => show 0 ≤ b ∧ (1 : Int) ≤ 1 ∧ 1 ≤ R.nb ∧ b + 1 ≤ R.nb; omega
    | 1, _ => exact ⟨b1.o0, b1.o1, by show osy ≤ R.oh; have := b1.o0; have := b1.o2; omega, b1.o2⟩
    | 2, _ => exact ⟨b2.o0, b2.o1, by show osx ≤ R.ow; have := b2.o0; have := b2.o2; omega, b2.o2⟩
    | 3, _ => show (0 : Int) ≤ 0 ∧ (1 : Int) ≤ 1 ∧ (1 : Int) ≤ 1 ∧ (0 : Int) + 1 ≤ 1; omega
    | 4, _ => show 0 ≤ k0 ∧ 1 ≤ kn ∧ kn ≤ R.oc ∧ k0 + kn ≤ R.oc; omega
  · intro x hx
    obtain ⟨b, y, q, g, k, rfl⟩ := inShape5 hx
    obtain ⟨x0, x1, x2, x3, x4, -⟩ := hx
    have cov : ∀ (d : Int) {n t : Int} (hk : TileOk n t 0) (x : Int), 0 ≤ x → x < n → ∃ j, (0 ≤ j ∧ j < (tileDim d n t 0).count) ∧
        posOf (tileDim d n t 0) j ≤ x ∧ x < posOf (tileDim d n t 0) j + tileSize n (tileDim d n t 0) ⟨posOf (tileDim d n t 0) j, j⟩ := by
      intro d n t hk x y0 y1
      obtain ⟨q, r, h1, h2, h3, h4, h5, e1, -⟩ := tileDim_facts d hk
      have c0 := (tileDim_spec d hk 0 ⟨by omega, by omega⟩).2.2.2.2 x y0 y1
      exact ⟨_, c0, ((tileDim_spec d hk _ c0).2.2.2.1 x y0 y1).mpr rfl⟩
    obtain ⟨j0, u0, v0⟩ := cov 0 kp0 b x0.1 x0.2
    obtain ⟨j1, u1, v1⟩ := h.rows.cover 1 rfl rfl y x1.1 x1.2
    obtain ⟨j2, u2, v2⟩ := h.cols.cover 2 rfl rfl q x2.1 x2.2
    obtain ⟨j3, u3, v3⟩ := cov 3 kp3 g x3.1 x3.2
    obtain ⟨j4, u4, v4⟩ := cov 4 h.chTile k x4.1 x4.2
    obtain ⟨n, hn, J⟩ := idx5_onto u0 u1 u2 u3 u4
    have C := h.cellAt n J rfl rfl
    refine ⟨n, ?_, ?_⟩
    · unfold DcRun.rounds
      rw [totalCount_eq, h.cfgs.2]
      have e : prod ([kernelDim (tileDim 0 R.nb 1 0) R.nb 1 1 0, kernelDim (axCfg 1 R.ih R.t1 R.kh) R.oh R.kh R.c.sh R.c.pt,
        kernelDim (axCfg 2 R.iw R.t2 R.kw) R.ow R.kw R.c.sw R.c.pl, kernelDim (tileDim 3 1 1 0) 1 1 1 0, tileDim 4 R.oc R.t4 0].map (·.count)) =
        (tileDim 0 R.nb 1 0).count * ((axCfg 1 R.ih R.t1 R.kh).count * ((axCfg 2 R.iw R.t2 R.kw).count * ((tileDim 3 1 1 0).count *
          (tileDim 4 R.oc R.t4 0).count))) := by
        rw [← Int.mul_one (tileDim 4 R.oc R.t4 0).count]
        rfl
      rw [e]
      omega
    · simp only [C.opos, C.osz]
      have hs0 := tileSize_le 0 kp0 ⟨posOf (tileDim 0 R.nb 1 0) j0, j0⟩
      have hb' : b = posOf (tileDim 0 R.nb 1 0) j0 := by omega
      generalize posOf (kernelDim (axCfg 1 R.ih R.t1 R.kh) R.oh R.kh R.c.sh R.c.pt) j1 = a1 at *
      generalize posOf (kernelDim (axCfg 2 R.iw R.t2 R.kw) R.ow R.kw R.c.sw R.c.pl) j2 = a2 at *
      generalize posOf (tileDim 4 R.oc R.t4 0) j4 = a4 at *
      refine ⟨[0, y - a1, q - a2, 0, k - a4], ⟨⟨by omega, by omega⟩, ⟨by omega, by omega⟩, ⟨by omega, by omega⟩, ⟨by omega, by omega⟩,
        ⟨by omega, by omega⟩, trivial⟩, ?_⟩
      show [b, y, q, g, k] = [0 + posOf (tileDim 0 R.nb 1 0) j0, (y - a1) + a1, (q - a2) + a2, 0 + 0, (k - a4) + a4]
      rw [Int.zero_add, ← hb', Int.sub_add_cancel, Int.sub_add_cancel, Int.sub_add_cancel, show g = 0 + 0 by omega]

/-- The object before round `n`. -/
structure DcAt (R : DcRun) (n : Nat) (o : DcObj) : Prop where
  kind : o.wi = 8 ∧ o.ww = 8 ∧ o.wo = 32 ∧ o.zx = R.zx ∧ o.cfg = R.c ∧ o.bz = R.bz
  eIn : o.inp = R.inp.at n
  eW : o.wts = R.wts.at n
  eOut : o.out = R.out.at n
  tin : o.tin.dims = List.zipWith Dim.mk (R.inp.at n).sizes R.ls ∧ o.tin.base = R.bi
  tw : o.tw.dims = List.zipWith Dim.mk (R.wts.at n).sizes R.lw ∧ o.tw.base = R.bw
  tout : o.tout.dims = List.zipWith Dim.mk (R.out.at n).sizes R.lo ∧ o.tout.base = R.bo
  tcfg : o.tcfg = dcPads (R.out.at n) R.c

theorem DcRun.atStart (R : DcRun) : DcAt R 0 (R.start 8 8 32).obj :=
  ⟨⟨rfl, rfl, rfl, rfl, rfl, rfl⟩, rfl, rfl, rfl, ⟨rfl, rfl⟩, ⟨rfl, rfl⟩, ⟨rfl, rfl⟩, rfl⟩

theorem DcAt.next {R : DcRun} (h : DcOk R) {n : Nat} {o : DcObj} (H : DcAt R n o) : DcAt R (n + 1) o.update := by
  obtain ⟨⟨k2, k3, k4, k5, k6, k7⟩, h1, h2, h3, h4, h5, h6, h8⟩ := H
  obtain ⟨b, oy, osy, iy, isy, pt, ox, osx, ix, isx, pl, k0, kn, C⟩ := h.cell n
  obtain ⟨b', oy', osy', iy', isy', pt', ox', osx', ix', isx', pl', k0', kn', C'⟩ := h.cell (n + 1)
  have e1 : o.inp.next = R.inp.at (n + 1) := by rw [h1]; rfl
  have e2 : o.out.next = R.out.at (n + 1) := by rw [h3]; rfl
  have e3 : o.wts.next = R.wts.at (n + 1) := by rw [h2]; rfl
  have il : R.ls.length = 5 := by rw [h.iplace.len, h.ilen]
  have ol : R.lo.length = 5 := by rw [h.oplace.len, h.olen]
  have wl : ∀ k, (R.wtile k).length = R.lw.length := fun k => by rw [h.wlen]; rfl
  refine ⟨⟨k2, k3, k4, k5, k6, k7⟩, e1, e3, e2, ⟨?_, h4.2⟩, ⟨?_, h5.2⟩, ⟨?_, h6.2⟩, ?_⟩
  · show List.zipWith _ o.tin.dims o.inp.next.sizes = _
    rw [h4.1, e1, C'.isz, C.isz, zip_setShape (by rw [il]; rfl) (by rw [il]; rfl)]
  · show List.zipWith _ o.tw.dims o.wts.next.sizes = _
    rw [h5.1, e3, C'.wsz, C.wsz, zip_setShape (wl _) (wl _)]
  · show List.zipWith _ o.tout.dims o.out.next.sizes = _
    rw [h6.1, e2, C'.osz, C.osz, zip_setShape (by rw [ol]; rfl) (by rw [ol]; rfl)]
  · show dcPads o.out.next o.cfg = _
    rw [k6, e2]

theorem dcBehind_range (it : TIt) (d : Nat) (q : Int) {p : Int} (h : 0 ≤ p ∧ p < 256) : 0 ≤ dcBehind it d q p ∧ dcBehind it d q p < 256 := by
  unfold dcBehind
  simp only
  split <;> omega

theorem dcPads_typed {it : TIt} {c : ConvCfg} (h : c.Typed) (h1 : 0 ≤ padBefore it 1 c.pt ∧ padBefore it 1 c.pt ≤ c.pt)
    (h2 : 0 ≤ padBefore it 2 c.pl ∧ padBefore it 2 c.pl ≤ c.pl) : (dcPads it c).Typed := by
  obtain ⟨g1, g2, g3, g4, g5, g6, g7, g8⟩ := h
  exact ⟨g1, g2, ⟨h1.1, lt_of_le_of_lt h1.2 g3.2⟩, dcBehind_range it 1 _ g4, ⟨h2.1, lt_of_le_of_lt h2.2 g5.2⟩, dcBehind_range it 2 _ g6, g7, g8⟩

/-- `Issue` in round `n`, with local buffers that hold the tiles. -/
theorem DcOk.issue {R : DcRun} (h : DcOk R) {n : Nat} {o : DcObj} (H : DcAt R n o) (hn : n < R.rounds)
    {b oy osy iy isy pt ox osx ix isx pl k0 kn : Int} (C : DcCell R n b oy osy iy isy pt ox osx ix isx pl k0 kn) {lin lw lz lout : Buf}
    (hl1 : lin.size = R.lin.size) (hl2 : lw.size = R.lwt.size) (hl3 : lout.size = R.lout.size)
    (vin : ∀ y, InShape [1, isy, isx, 1, R.ic] y → InShape R.ishape (addPos y [b, iy, ix, 0, 0]) ∧
      lin.get (R.bi + offset R.ls y) = R.gin.buf.get (offset R.gin.strides (addPos y [b, iy, ix, 0, 0])))
    (vw : ∀ y, InShape (R.wtile kn) y → InShape (R.wtile R.oc) (addPos y [0, 0, 0, 0, k0]) ∧
      lw.get (R.bw + offset R.lw y) = R.gw.buf.get (offset R.gw.strides (addPos y [0, 0, 0, 0, k0])))
    (vz : lz.rd R.bz = some (R.gz.get k0)) :
    ∃ r1, o.issue lin lw lz lout = some (.ok, r1) ∧ r1.size = lout.size ∧ ∀ y x k, InShape [osy, osx, kn] [y, x, k] →
      r1.get (R.bo + at5 R.lo y x k) = R.value b (y + oy) (x + ox) (k + k0) := by
  obtain ⟨⟨k2, k3, k4, k5, k6, k7⟩, h1, h2, h3, h4, h5, h6, h8⟩ := H
  obtain ⟨a0, a1, a2, a3, els⟩ := strides5 h.iplace h.ilen
  obtain ⟨e0, e1, e2, e3, elo⟩ := strides5 h.oplace h.olen
  obtain ⟨w0, w1, w2, w3, w4, elw⟩ : ∃ w0 w1 w2 w3 w4, R.lw = [w0, w1, w2, w3, w4] := ⟨_, _, _, _, _, list5 h.wlen⟩
  have hti : o.tin.dims = [⟨1, a0⟩, ⟨isy, a1⟩, ⟨isx, a2⟩, ⟨1, a3⟩, ⟨R.ic, 1⟩] ∧ o.tin.base = R.bi := by rw [h4.1, h4.2, C.isz, els]; exact ⟨rfl, rfl⟩
  have hto : o.tout.dims = [⟨1, e0⟩, ⟨osy, e1⟩, ⟨osx, e2⟩, ⟨1, e3⟩, ⟨kn, 1⟩] ∧ o.tout.base = R.bo := by rw [h6.1, h6.2, C.osz, elo]; exact ⟨rfl, rfl⟩
  have htw : o.tw.dims = [⟨1, w0⟩, ⟨R.kh, w1⟩, ⟨R.kw, w2⟩, ⟨R.ic, w3⟩, ⟨kn, w4⟩] ∧ o.tw.base = R.bw := by rw [h5.1, h5.2, C.wsz, elw]; exact ⟨rfl, rfl⟩
  have oloc : ∀ y, InShape [1, osy, osx, 1, kn] y → InShape R.otiles y := fun y hy =>
    inShape_mono (s := (R.out.at n).sizes) (by rw [C.osz, h.olen]; rfl) (fun d hd => h.ofits n d hn (by rw [h.olen] at hd; exact hd)) (by rw [C.osz]; exact hy)
  have iloc : ∀ y, InShape [1, isy, isx, 1, R.ic] y → InShape R.itiles y := fun y hy =>
    inShape_mono (s := (R.inp.at n).sizes) (by rw [C.isz, h.ilen]; rfl) (fun d hd => h.ifits n d hn (by rw [h.ilen] at hd; exact hd)) (by rw [C.isz]; exact hy)
  have wloc : ∀ y, InShape (R.wtile kn) y → InShape (R.wtile R.t4) y := by
    intro y hy
    have := C.hk
    unfold DcRun.wtile at hy ⊢
    obtain ⟨g, i, j, c, k, rfl⟩ := inShape5 hy
    exact ⟨hy.1, hy.2.1, hy.2.2.1, hy.2.2.2.1, ⟨hy.2.2.2.2.1.1, lt_of_lt_of_le hy.2.2.2.2.1.2 this.2.2.2⟩, trivial⟩
  have hib : ∀ y, InShape [1, isy, isx, 1, R.ic] y → (0 ≤ R.bi + offset [a0, a1, a2, a3, 1] y ∧ R.bi + offset [a0, a1, a2, a3, 1] y < lin.size) ∧
      InRange 8 (lin.get (R.bi + offset [a0, a1, a2, a3, 1] y)) := by
    intro y hy
    obtain ⟨v1, v2⟩ := vin y hy
    rw [← els, v2, hl1]
    exact ⟨h.iplace.inb y (iloc y hy), (h.inb _ v1).2⟩
  have hob : ∀ y, InShape [1, osy, osx, 1, kn] y → 0 ≤ R.bo + offset [e0, e1, e2, e3, 1] y ∧ R.bo + offset [e0, e1, e2, e3, 1] y < lout.size := by
    intro y hy
    rw [← elo, hl3]
    exact h.oplace.inb y (oloc y hy)
  have hoj : ∀ y z, InShape [1, osy, osx, 1, kn] y → InShape [1, osy, osx, 1, kn] z → offset [e0, e1, e2, e3, 1] y = offset [e0, e1, e2, e3, 1] z → y = z := by
    intro y z hy hz e
    rw [← elo] at e
    exact h.oplace.inj y z (oloc y hy) (oloc z hz) e
  have hwr : ∀ y, InShape (R.wtile kn) y → (0 ≤ R.bw + offset R.lw y ∧ R.bw + offset R.lw y < lw.size) ∧ InRange 8 (lw.get (R.bw + offset R.lw y)) := by
    intro y hy
    obtain ⟨v1, v2⟩ := vw y hy
    rw [v2, hl2]
    exact ⟨h.wbound y (wloc y hy), (h.wb _ v1).2⟩
  have f1 : o.tcfg.sh = R.c.sh := by rw [h8]; rfl
  have f2 : o.tcfg.sw = R.c.sw := by rw [h8]; rfl
  have f5 : o.tcfg.pt = pt := by rw [h8]; exact C.pads.1
  have f6 : o.tcfg.pl = pl := by rw [h8]; exact C.pads.2
  have htc : o.tcfg.Typed := by
    rw [h8]
    exact dcPads_typed h.typed (by rw [C.pads.1]; exact ⟨C.ah.p0, C.ah.p1⟩) (by rw [C.pads.2]; exact ⟨C.aw.p0, C.aw.p1⟩)
  have hr := h.rows
  have hw := h.cols
  have ck := C.hk
  have hzk := h.zuse k0 ck.1 (by omega)
  have hrd : ∀ r q c, InShape [isy, isx, R.ic] [r, q, c] → lin.get (R.bi + at5 [a0, a1, a2, a3, 1] r q c) = R.input b (r + iy) (q + ix) c := by
    intro r q c hy
    have := (vin _ (up5 hy)).2
    rw [els] at this
    unfold at5
    rw [this]
    unfold DcRun.input
    show R.gin.buf.get (offset R.gin.strides [0 + b, r + iy, q + ix, 0 + 0, c + 0]) = _
    rw [Int.zero_add, Int.zero_add, Int.add_zero]
  obtain ⟨r1, g1, g2, g3⟩ := dc_issue (o := o) (lin := lin) (lw := lw) (lz := lz) (lout := lout) ⟨k2, k3, k4⟩ hti htw hto h.inch.1
    ⟨by have := hr.s1; have := hr.sk; omega, by have := hw.s1; have := hw.sk; omega, ck.2.1⟩ hib
    (fun y hy => by rw [← elw]; exact hwr y hy) hob hoj htc (by rw [k5]; exact h.zin) (by rw [k7, vz, hzk])
    (by
      rw [f1, f5]
      exact ⟨C.ah.i1, C.ah.p0, lt_of_le_of_lt C.ah.p1 hr.hp.2, hr.s1, hr.sk, C.ah.o1, C.ah.len⟩)
    (by
      rw [f2, f6]
      exact ⟨C.aw.i1, C.aw.p0, lt_of_le_of_lt C.aw.p1 hw.hp.2, hw.s1, hw.sk, C.aw.o1, C.aw.len⟩) h.taps
  refine ⟨r1, g1, g2, ?_⟩
  intro y x k hs
  rw [elo, g3 y x k hs, f1, f2, f5, f6, k5]
  unfold DcRun.value
  have hwt : ∀ i j c, (0 ≤ i ∧ i < R.kh) → (0 ≤ j ∧ j < R.kw) → (0 ≤ c ∧ c < R.ic) →
      lw.get (R.bw + offset [w0, w1, w2, w3, w4] [0, i, j, c, k]) = R.weight i j c (k + k0) := by
    intro i j c hi hj hc'
    have := (vw [0, i, j, c, k] ⟨⟨by omega, by omega⟩, hi, hj, hc', hs.2.2⟩).2
    rw [elw] at this
    rw [this]
    unfold DcRun.weight
    show R.gw.buf.get (offset R.gw.strides [0 + 0, i + 0, j + 0, c + 0, k + k0]) = _
    simp only [Int.add_zero]
  rw [← scatterSum_shift C.ah C.aw hs.1 hs.2.1, kernelSum_congr hwt]
  congr 1
  refine scatterSum_congr ?_ hwt
  intro r q c hr' hq' hc'
  rw [hrd r q c ⟨hr', hq', hc', trivial⟩]

/-- The first part of a round: copy the tiles of input, weights and zero points, `Issue`. -/
theorem DcOk.stage {R : DcRun} (h : DcOk R) {n : Nat} {o : DcObj} (H : DcAt R n o) (hn : n < R.rounds)
    {b oy osy iy isy pt ox osx ix isx pl k0 kn : Int} (C : DcCell R n b oy osy iy isy pt ox osx ix isx pl k0 kn) {l0 w0 z0 r0 : Buf}
    (j2 : l0.size = R.lin.size) (j3 : w0.size = R.lwt.size) (j4 : z0.size = R.lz.size) (j5 : r0.size = R.lout.size) :
    ∃ l1 w1 z1 r1,
      copyBox o.tin.shape R.gin.buf 0 R.gin.strides o.inp.getPos o.tin.base o.inp.strides (zeros o.tin.shape) l0 = some l1 ∧
      copyBox o.tw.shape R.gw.buf 0 R.gw.strides o.wts.getPos o.tw.base o.wts.strides (zeros o.tw.shape) w0 = some w1 ∧
      copyBox [o.tw.shape.getLastD 0] R.gz 0 [1] [o.wts.getPos.getLastD 0] o.bz [1] [0] z0 = some z1 ∧
      o.issue l1 w1 z1 r0 = some (.ok, r1) ∧ l1.size = l0.size ∧ w1.size = w0.size ∧ z1.size = z0.size ∧ r1.size = r0.size ∧
      o.tout.shape = [1, osy, osx, 1, kn] ∧
      ∀ y x k, InShape [osy, osx, kn] [y, x, k] → r1.get (R.bo + at5 R.lo y x k) = R.value b (y + oy) (x + ox) (k + k0) := by
  have il : R.ls.length = 5 := by rw [h.iplace.len, h.ilen]
  have ol : R.lo.length = 5 := by rw [h.oplace.len, h.olen]
  have wl : ∀ k, (R.wtile k).length = R.lw.length := fun k => by rw [h.wlen]; rfl
  have ck := C.hk
  have hc := h.chans
  have ez : ∀ (sz y : List Int), InShape sz y → addPos y (zeros sz) = y := fun sz y hy => addPos_zeros (inShape_length _ _ hy).symm
  have iloc : ∀ y, InShape [1, isy, isx, 1, R.ic] y → InShape R.itiles y := fun y hy =>
    inShape_mono (s := (R.inp.at n).sizes) (by rw [C.isz, h.ilen]; rfl) (fun d hd => h.ifits n d hn (by rw [h.ilen] at hd; exact hd)) (by rw [C.isz]; exact hy)
  have wloc : ∀ y, InShape (R.wtile kn) y → InShape (R.wtile R.t4) y ∧ InShape (R.wtile R.oc) (addPos y [0, 0, 0, 0, k0]) := by
    intro y hy
    unfold DcRun.wtile at hy
    unfold DcRun.wtile
    obtain ⟨g, i, j, c, k, rfl⟩ := inShape5 hy
    obtain ⟨y0, y1, y2, y3, y4, -⟩ := hy
    refine ⟨⟨y0, y1, y2, y3, ⟨y4.1, by omega⟩, trivial⟩, ?_⟩
    show InShape [1, R.kh, R.kw, R.ic, R.oc] [g + 0, i + 0, j + 0, c + 0, k + k0]
    exact ⟨⟨by omega, by omega⟩, ⟨by omega, by omega⟩, ⟨by omega, by omega⟩, ⟨by omega, by omega⟩,
      ⟨by omega, by omega⟩, trivial⟩
  have iglob : ∀ y, InShape [1, isy, isx, 1, R.ic] y → InShape R.ishape (addPos y [b, iy, ix, 0, 0]) := by
    intro y hy
    obtain ⟨g, r, q, e, c, rfl⟩ := inShape5 hy
    obtain ⟨y0, y1, y2, y3, y4, -⟩ := hy
    have hb := C.hb
    have a1 := C.ah.i0
    have a2 := C.ah.i2
    have a3 := C.aw.i0
    have a4 := C.aw.i2
    show InShape [R.nb, R.ih, R.iw, 1, R.ic] [g + b, r + iy, q + ix, e + 0, c + 0]
    exact ⟨⟨by omega, by omega⟩, ⟨by omega, by omega⟩, ⟨by omega, by omega⟩, ⟨by omega, by omega⟩, ⟨by omega, by omega⟩, trivial⟩
  have ewl : o.wts.getPos.getLastD 0 = k0 := by rw [H.eW, C.wpos]; rfl
  have wtl : (R.wtile kn).getLastD 0 = kn := rfl
  have esi : o.tin.shape = [1, isy, isx, 1, R.ic] := by
    show o.tin.dims.map (·.shape) = _
    rw [H.tin.1, C.isz, zip_shape (by rw [il]; rfl)]
  have eso : o.tout.shape = [1, osy, osx, 1, kn] := by
    show o.tout.dims.map (·.shape) = _
    rw [H.tout.1, C.osz, zip_shape (by rw [ol]; rfl)]
  have esw : o.tw.shape = R.wtile kn := by
    show o.tw.dims.map (·.shape) = _
    rw [H.tw.1, C.wsz, zip_shape (wl kn)]
  obtain ⟨l1, f1, f2, f3, -⟩ := copyBox_ok (size := [1, isy, isx, 1, R.ic]) (src := R.gin.buf) (sb := 0) (ss := R.gin.strides) (sp := [b, iy, ix, 0, 0])
    (db := R.bi) (ds := R.ls) (dp := zeros [1, isy, isx, 1, R.ic]) (dst := l0)
    (fun y hy => by rw [Int.zero_add]; exact (h.inb _ (iglob y hy)).1)
    (fun y hy => by rw [ez _ y hy, j2]; exact h.iplace.inb y (iloc y hy))
    (fun y z hy hz e => by
      rw [ez _ y hy, ez _ z hz] at e
      exact h.iplace.inj y z (iloc y hy) (iloc z hz) (by omega))
  obtain ⟨w1, p1, p2, p3, -⟩ := copyBox_ok (size := R.wtile kn) (src := R.gw.buf) (sb := 0) (ss := R.gw.strides)
    (sp := [0, 0, 0, 0, k0]) (db := R.bw) (ds := R.lw) (dp := zeros (R.wtile kn)) (dst := w0)
    (fun y hy => by rw [Int.zero_add]; exact (h.wb _ (wloc y hy).2).1)
    (fun y hy => by rw [ez _ y hy, j3]; exact h.wbound y (wloc y hy).1)
    (fun y z hy hz e => by
      rw [ez _ y hy, ez _ z hz] at e
      exact h.winj y z (wloc y hy).1 (wloc z hz).1 (by omega))
  have one : ∀ y, InShape [kn] y → ∃ k, y = [k] ∧ 0 ≤ k ∧ k < kn := by
    intro y hy
    match y, hy with
    | [k], hy => exact ⟨k, rfl, hy.1⟩
  have off1 : ∀ k p : Int, offset [1] (addPos [k] [p]) = k + p := fun k p => by
    show (k + p) * 1 + 0 = k + p
    omega
  have hzs := h.zsize
  have hzp := h.zplace
  obtain ⟨z1, q1, q2, q3, -⟩ := copyBox_ok (size := [kn]) (src := R.gz) (sb := 0) (ss := [1]) (sp := [k0]) (db := R.bz) (ds := [1]) (dp := [0]) (dst := z0)
    (fun y hy => by
      obtain ⟨k, rfl, y0, y1⟩ := one y hy
      rw [off1]; omega)
    (fun y hy => by
      obtain ⟨k, rfl, y0, y1⟩ := one y hy
      rw [off1]; omega)
    (fun y z hy hz e => by
      obtain ⟨k, rfl, y0, y1⟩ := one y hy
      obtain ⟨k', rfl, y0', y1'⟩ := one z hz
      rw [off1, off1] at e
      have : k = k' := by omega
      rw [this])
  have vz : z1.rd R.bz = some (R.gz.get k0) := by
    have := q3 [0] ⟨⟨by omega, by omega⟩, trivial⟩
    rw [off1, off1] at this
    simp only [Int.zero_add, Int.add_zero] at this
    rw [Buf.rd_some (by omega), this]
  obtain ⟨r1, g1, g2, g3⟩ := h.issue H hn C (lin := l1) (lw := w1) (lz := z1) (lout := r0) (by omega) (by omega) (by omega)
    (fun y hy => ⟨iglob y hy, by have := f3 y hy; rwa [ez _ y hy, Int.zero_add] at this⟩)
    (fun y hy => ⟨(wloc y hy).2, by have := p3 y hy; rwa [ez _ y hy, Int.zero_add] at this⟩) vz
  refine ⟨l1, w1, z1, r1, ?_, ?_, ?_, g1, f2, p2, q2, g2, eso, g3⟩
  · rw [esi, H.eIn, H.tin.2, C.ipos]
    exact f1
  · rw [esw, H.eW, H.tw.2, C.wpos]
    exact p1
  · rw [esw, ewl, wtl, H.kind.2.2.2.2.2]
    exact q1

/-- All rounds. -/
theorem dc_run {R : DcRun} (h : DcOk R) :
    ∃ s, R.run 8 8 32 = some s ∧ s.status = .ok ∧ s.gout.size = R.gout.size ∧
      (∀ b y x k, InShape R.oshape [b, y, x, 0, k] → s.gout.get (offset R.gos [b, y, x, 0, k]) = R.value b y x k) ∧
      ∀ a, (∀ x, InShape R.oshape x → offset R.gos x ≠ a) → s.gout.get a = R.gout.get a := by
  have hq := h.seq
  let J : Nat → DcHost → Prop := fun n s => s.status = .ok ∧ s.lin.size = R.lin.size ∧ s.lw.size = R.lwt.size ∧ s.lz.size = R.lz.size ∧
    s.lout.size = R.lout.size ∧ s.gout.size = R.gout.size ∧ DcAt R n s.obj
  obtain ⟨s', k1, k2, k3⟩ := tile_loop hq h.outj (fun x => R.value (x.getD 0 0) (x.getD 1 0) (x.getD 2 0) (x.getD 4 0))
    (fun s => DcHost.round R.gin R.gw R.gz R.gos s) (fun s => s.gout) J (R.start 8 8 32) ⟨rfl, rfl, rfl, rfl, rfl, rfl, R.atStart⟩ (by
    rintro n ⟨o, l0, w0, z0, r0, g0, st⟩ hn ⟨j1, j2, j3, j4, j5, j6, H⟩
    simp only at j1 j2 j3 j4 j5 j6 H
    obtain ⟨b, oy, osy, iy, isy, pt, ox, osx, ix, isx, pl, k0, kn, C⟩ := h.cell n
    obtain ⟨l1, w1, z1, r1, f1, p1, q1, g1, f2, p2, q2, g2, eso, g3⟩ := h.stage H hn C j2 j3 j4 j5
    have ez : ∀ (sz y : List Int), InShape sz y → addPos y (zeros sz) = y := fun sz y hy => addPos_zeros (inShape_length _ _ hy).symm
    have oloc : ∀ y, InShape [1, osy, osx, 1, kn] y → InShape R.otiles y := fun y hy =>
      inShape_mono (s := (R.out.at n).sizes) (by rw [C.osz, h.olen]; rfl) (fun d hd => h.ofits n d hn (by rw [h.olen] at hd; exact hd)) (by rw [C.osz]; exact hy)
    have oglob : ∀ y, InShape [1, osy, osx, 1, kn] y → InShape R.oshape (addPos y [b, oy, ox, 0, k0]) := fun y hy => by
      have := hq.global (n := n) (y := y) (by rw [C.osz]; exact hy)
      rwa [C.opos] at this
    obtain ⟨g', e1, e2, e3, e4⟩ := copyBox_ok (size := [1, osy, osx, 1, kn]) (src := r1) (sb := R.bo) (ss := R.lo) (sp := zeros [1, osy, osx, 1, kn])
      (db := 0) (ds := R.gos) (dp := [b, oy, ox, 0, k0]) (dst := g0)
      (fun y hy => by rw [ez _ y hy, g2, j5]; exact h.oplace.inb y (oloc y hy))
      (fun y hy => by rw [Int.zero_add, j6]; exact h.outb _ (oglob y hy))
      (fun y z hy hz e => by
        rw [Int.zero_add, Int.zero_add] at e
        exact addPos_inj (by rw [← inShape_length _ _ hy]; rfl) (by rw [← inShape_length _ _ hz]; rfl) (h.outj _ _ (oglob y hy) (oglob z hz) e))
    simp only [Int.zero_add] at e3 e4
    refine ⟨⟨o.update, l1, w1, z1, r1, g', .ok⟩, ?_, ⟨rfl, by simp only; omega, by simp only; omega, by simp only; omega, by simp only; omega,
      by simp only; omega, H.next h⟩, e2, ?_, ?_⟩
    · unfold DcHost.round
      simp only
      rw [f1, Option.bind_some, p1, Option.bind_some, q1, Option.bind_some, g1, Option.bind_some]
      rw [eso, H.eOut, H.tout.2, C.opos]
      show (copyBox _ r1 R.bo R.lo _ 0 R.gos _ g0).map _ = _
      rw [e1, j1]
      rfl
    · intro y hy
      rw [C.osz] at hy
      rw [C.opos, e3 y hy, ez _ y hy]
      obtain ⟨g, r, q, e, k, rfl⟩ := inShape5 hy
      obtain ⟨y0, y1, y2, y3, y4, -⟩ := hy
      obtain rfl : g = 0 := by omega
      obtain rfl : e = 0 := by omega
      have := g3 r q k ⟨y1, y2, y4, trivial⟩
      unfold at5 at this
      rw [this]
      show _ = R.value (0 + b) (r + oy) (q + ox) (k + k0)
      rw [Int.zero_add]
    · intro a ha
      refine e4 a fun y hy => ?_
      have := ha y (by rw [C.osz]; exact hy)
      rwa [C.opos] at this)
  exact ⟨s', k1, k2.1, k3.size, fun b y x k hx => k3.elem _ hx, k3.frame⟩

end Mli.Rt
