import Verif.Model.ConvTiles
import Verif.Model.PoolRuntime
import Verif.Model.TransposeConv

/-!
# Model of the run-time transposed convolution on tiles (`lib/src/kernels/convolution/mli_krn_transpose_conv_runtime.cc`,
`lib/src/helpers/src/mli_helpers_30.cc`)

Input and output have the dimensions batch, height, width, group, channel, the weights group, height, width, input channel, output channel.
-/

namespace Mli.Rt
open Mli Mli.Iter Mli.Spec

/-- include/mli_iterator.hpp:449-451, 1173-1175 `SetCount`: nothing but the number of tiles changes. -/
def setCount (n : Int) (d : Nat) (cfg : List DimCfg) : List DimCfg :=
  cfg.mapIdx fun i c => if i = d then { c with count := wrap 32 n } else c

/-- mli_iterator.hpp:402-417 `OverrideIncrements`, for one dimension of the iteration; `n` is the dimension of the tensor.  The signed expression for the last
increment is not checked for overflow. -/
def overrideDim (v n : Int) (c : DimCfg) : DimCfg :=
  if v = -1 then c
  else
    let lastInc := if c.count > 1 then v * (2 - c.count) - v else 0
    let lastSize := u32 (n + lastInc)
    { c with firstInc := v, inc := v, size := u32 v, firstSize := u32 v, lastInc, lastSize, code := calcDiffCode c.count (u32 v) (u32 v) lastSize }

/-- mli_iterator.hpp:402-417 `OverrideIncrements`: dimension `i` of the iteration uses dimension `i` of the tensor. -/
def overrideInc (vs shape : List Int) (cfg : List DimCfg) : List DimCfg :=
  cfg.mapIdx fun i c => overrideDim (vs.getD i (-1)) (shape.getD i 0) c

/-- lib/src/helpers/src/mli_helpers_30.cc:21-25 (height, `d = 1`) and 26-30 (width, `d = 2`): a dimension whose last tile is smaller than the kernel (size
`k`) is not tiled. -/
def wholeIfShort (d : Nat) (k : Int) (ishape : List Int) (cfg : List DimCfg) : List DimCfg :=
  if (cfg.map (·.lastSize)).getD d 0 < k then
    setCount 1 d (disableTiling ishape.length ((List.range ishape.length).map (· == d)) (ishape.map fun _ => 0) ishape cfg)
  else cfg

/-- mli_helpers_30.cc:15-31: configuration of the input iterator when the output iterator is made from it; `oc` output channels in tiles of `toc`, kernel of
`kh` by `kw`. -/
def deconvBase (ishape tiles : List Int) (order : List Nat) (oc toc kh kw : Int) : List DimCfg :=
  wholeIfShort 2 kw ishape (wholeIfShort 1 kh ishape (setCount (ceilDivU oc toc) 4 (tileCfg ishape tiles order 0)))

/-- mli_helpers_30.cc:41-44: configuration of the input iterator. -/
def deconvIn (base : List DimCfg) : List DimCfg := zeroInc [false, false, false, false, true] base

/-- mli_helpers_30.cc:33-38: configuration of the output iterator. -/
def deconvOut (base : List DimCfg) (oshape : List Int) (toc : Int) (k s p : Nat → Int) : List DimCfg :=
  overrideInc [-1, -1, -1, -1, toc] oshape (kernelCfg base oshape k s p)

/-- mli_helpers_30.cc:46-47: configuration of the iterator of the weights. -/
def deconvWts (out : List DimCfg) (wshape : List Int) : List DimCfg := followCfg out wshape none [true, true, true, true, false]

/-- include/api/mli_ref_runtime_api.hpp: the members of `TransposeConv2D`, named as in `ConvObj`.  The iterator of the zero points of the weights is left out:
its tile only sets the size of a buffer, which only an assertion looks at. -/
structure DcObj where
  wi : Nat
  ww : Nat
  wo : Nat
  zx : Int
  cfg : ConvCfg
  tcfg : ConvCfg
  inp : TIt
  wts : TIt
  out : TIt
  tin : Tensor
  tw : Tensor
  tout : Tensor
  bz : Int
deriving Repr

/-- mli_krn_transpose_conv_runtime.cc:173-196: padding behind the output in the current tile of dimension `d`, with the padding `pb` before it. -/
def dcBehind (it : TIt) (d : Nat) (pb p : Int) : Int :=
  let pad := wrap 32 (it.getPos.getD d 0 + (it.cfg.map (·.size)).getD d 0 - (it.shape.getD d 0 + pb))
  if pad > 0 then min pad p else 0

/-- mli_krn_transpose_conv_runtime.cc:138-196 `UpdateTilePaddings`, from the output iterator. -/
def dcPads (it : TIt) (c : ConvCfg) : ConvCfg :=
  { c with
    pt := padBefore it 1 c.pt
    pl := padBefore it 2 c.pl
    pb := dcBehind it 1 (padBefore it 1 c.pt) c.pb
    pr := dcBehind it 2 (padBefore it 2 c.pl) c.pr }

/-- mli_krn_transpose_conv_runtime.cc:25-51: the constructor, from the iterators, configuration and buffer addresses of the private data. -/
def DcObj.new (wi ww wo : Nat) (zx : Int) (c : ConvCfg) (inp wts out : TIt) (bi bw bz bo : Int) : DcObj :=
  { wi, ww, wo, zx, inp, wts, out, bz
    cfg := c
    tcfg := dcPads out c
    tin := convTile inp.sizes inp bi
    tw := convTile wts.sizes wts bw
    tout := convTile out.sizes out bo }

/-- mli_krn_transpose_conv_runtime.cc:53-79 `Issue`, with the tiles in `lin`, `lw`, `lz` and `lout`.  Only the first zero point of the weights is used
(lib/src/bricks/impl/mli_prv_quant_ref.h:682-713). -/
def DcObj.issue (o : DcObj) (lin lw lz lout : Buf) : Option (Status × Buf) :=
  if o.wi = 8 ∧ o.ww = 8 ∧ o.wo = 32 then
    (lz.rd o.bz).bind fun zw => (transposeIssue o.zx zw lin lw (hwcPart o.tin) (wtsPart o.tw) o.tcfg (hwcPart o.tout) lout).map fun d => (.ok, d)
  else some (.notSupported, lout)

/-- mli_krn_transpose_conv_runtime.cc:83-118 `Update`. -/
def DcObj.update (o : DcObj) : DcObj :=
  { o with
    inp := o.inp.next
    wts := o.wts.next
    out := o.out.next
    tin := setShape o.tin o.inp.next.sizes
    tw := setShape o.tw o.wts.next.sizes
    tout := setShape o.tout o.out.next.sizes
    tcfg := dcPads o.out.next o.cfg }

/-- State of the caller: the object, the four local buffers, the output tensor in global memory and the status of the calls so far. -/
structure DcHost where
  obj : DcObj
  lin : Buf
  lw : Buf
  lz : Buf
  lout : Buf
  gout : Buf
  status : Status

/-- user_tests/tests/mli_krn_transpose_conv2d_30/tests_mli_krn_transpose_conv2d_30.cc:1092-1206 with mli_krn_transpose_conv_runtime.cc:122-136
`GetIOSizesAndOffsets`: one round of the caller's loop.  The zero points `gz` of the weights that belong to the channels of the tile are copied.  The
output tile is copied to the output tensor; the test program passes it to another kernel. -/
def DcHost.round (gin gw : Glob) (gz : Buf) (gos : List Int) (s : DcHost) : Option DcHost :=
  let o := s.obj
  (copyBox o.tin.shape gin.buf 0 gin.strides o.inp.getPos o.tin.base o.inp.strides (zeros o.tin.shape) s.lin).bind fun lin =>
  (copyBox o.tw.shape gw.buf 0 gw.strides o.wts.getPos o.tw.base o.wts.strides (zeros o.tw.shape) s.lw).bind fun lw =>
  (copyBox [o.tw.shape.getLastD 0] gz 0 [1] [o.wts.getPos.getLastD 0] o.bz [1] [0] s.lz).bind fun lz =>
  (o.issue lin lw lz s.lout).bind fun r =>
  (copyBox o.tout.shape r.2 o.tout.base o.out.strides (zeros o.tout.shape) 0 gos o.out.getPos s.gout).map fun gout =>
    { obj := o.update, lin, lw, lz, lout := r.2, gout, status := if s.status ≠ .ok then s.status else r.1 }

/-- `n` rounds. -/
def DcHost.run (gin gw : Glob) (gz : Buf) (gos : List Int) (n : Nat) (s : DcHost) : Option DcHost := forRange n (fun _ s => s.round gin gw gz gos) s

end Mli.Rt
