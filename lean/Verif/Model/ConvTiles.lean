import Verif.Model.Batch
import Verif.Model.EltRuntime

/-!
# Model of the run-time convolution kernels (`lib/src/kernels/convolution/mli_krn_{conv2d,depthwise_conv2d}_runtime.cc`)

Input and output have five dimensions: batch, height, width, group, channel.  The weights of `Conv2d` have the dimensions group, height, width, input
channel, output channel, those of `DepthwiseConv2d` height, width, channel.
-/

namespace Mli.Rt
open Mli Mli.Iter Mli.Spec

/-- include/mli_iterator.hpp:373-381 `SetZeroIncrements`: the masked dimensions are not stepped through. -/
def zeroInc (mask : List Bool) (cfg : List DimCfg) : List DimCfg :=
  List.zipWith (fun (m : Bool) c => if m then { c with firstInc := 0, inc := 0, lastInc := 0 } else c) mask cfg

/-- mli_iterator.hpp:383-402 `DisableTiling`: the loop, with the number of iteration dimensions left (the rank of the tensor at the start), the mask, the
iteration order and the dimensions of the tensor that are left. -/
def disableTiling : Nat → List Bool → List Int → List Int → List DimCfg → List DimCfg
  | k + 1, m :: ms, o :: os, d :: ds, c :: cs =>
    if o = -1 then c :: disableTiling k ms os (d :: ds) cs
    else (if m then { c with firstSize := d, size := d, lastSize := d, code := 0 } else c) :: disableTiling k ms os ds cs
  | _, _, _, _, cs => cs

/-- mli_iterator.hpp:361-371 `UpdateOrder`. -/
def updateOrder (order : List Int) (cfg : List DimCfg) : List DimCfg :=
  List.zipWith (fun o c => if o = -1 then { c with order := o, firstSize := 0, size := 0, lastSize := 0, code := 0 } else { c with order := o }) order cfg

/-- mli_iterator.hpp:768-788: configuration of an iterator for a tensor of dimensions `shape` that follows another iterator of configuration `cfg`, with
a mask of the dimensions that are not tiled and, if given, a new order; `-1` is `kSkipIterDim`. -/
def followCfg (cfg : List DimCfg) (shape : List Int) (order : Option (List Int)) (mask : List Bool) : List DimCfg :=
  let c := disableTiling shape.length mask (order.getD (cfg.map (·.order))) shape (zeroInc mask cfg)
  match order with
  | none => c
  | some o => updateOrder o c

/-- user_tests/tests/mli_krn_conv2d_30/tests_mli_krn_conv2d_30.cc:562-563, mli_krn_depthwise_conv_30/tests_mli_krn_depthwise_conv_30.cc:468-471: only the
output channels of the weights are tiled. -/
def weightsCfg (dw : Bool) (cfg : List DimCfg) (shape : List Int) : List DimCfg :=
  followCfg cfg shape (if dw then some [-1, 0, 1, -1, 2] else none) [true, true, true, true, false]

/-- include/api/mli_ref_runtime_api.hpp: the members of `Conv2d` and `DepthwiseConv2d` (`dw`).  `wi`, `ww`, `wo` are the bits of input, weight and output
elements, `zx` is the zero point in `inpzp_buffer`, `tin`, `tw` and `tout` are the tile tensors, `bz` is the address of the weights' zero points, `nb` is
`m_tile_batch_size`.  The iterator of the zero points is left out: its tile only sets the size of a buffer, which only an assertion looks at. -/
structure ConvObj where
  dw : Bool
  wi : Nat
  ww : Nat
  wo : Nat
  zx : Int
  cfg : ConvCfg
  tcfg : ConvCfg
  inp : TIt
  wts : TIt
  out : TIt
  tin : Tensor
  tw : Tensor
  tout : Tensor
  bz : Int
  nb : Int
deriving Repr

/-- mli_iterator.hpp:1165-1167 `is_first_tile`. -/
def TIt.isFirst (t : TIt) (d : Nat) : Bool := (t.st.map (·.idx)).getD d 0 = 0

/-- mli_iterator.hpp:1169-1171 `is_last_tile`. -/
def TIt.isLast (t : TIt) (d : Nat) : Bool := (t.st.map (·.idx)).getD d 0 = (t.cfg.map (·.count)).getD d 0 - 1

/-- mli_krn_depthwise_conv2d_runtime.cc:173-189: padding behind the input in the current tile of dimension `d`. -/
def dwBehind (it : TIt) (d : Nat) (p : Int) : Int :=
  let pad := wrap 32 (it.getPos.getD d 0 + (it.cfg.map (·.size)).getD d 0 - it.shape.getD d 0)
  if pad > 0 then min pad p else 0

/-- mli_krn_conv2d_runtime.cc:123-149 `Conv2d::UpdateTilePaddings`, mli_krn_depthwise_conv2d_runtime.cc:160-190
`DepthwiseConv2d::UpdateTilePaddings`. -/
def convPads (dw : Bool) (it : TIt) (c : ConvCfg) : ConvCfg :=
  { c with
    pt := if it.isFirst 1 then c.pt else 0
    pl := if it.isFirst 2 then c.pl else 0
    pb := if dw then dwBehind it 1 c.pb else if it.isLast 1 then c.pb else 0
    pr := if dw then dwBehind it 2 c.pr else if it.isLast 2 then c.pr else 0 }

/-- mli_krn_depthwise_conv2d_runtime.cc:51, 64, 126, 149: the dimensions of an input or output tile, of which `DepthwiseConv2d` sets the batch to 1. -/
def ioDims (dw : Bool) (sizes : List Int) : List Int := if dw then sizes.set 0 1 else sizes

/-- The tensor of a tile of the given dimensions at address `b`. -/
def convTile (sizes : List Int) (it : TIt) (b : Int) : Tensor := { dims := List.zipWith Dim.mk sizes it.strides, base := b, cap := 0, es := 1 }

/-- mli_krn_conv2d_runtime.cc:24-52, mli_krn_depthwise_conv2d_runtime.cc:25-70: the constructors, from the iterators, configuration and buffer addresses
of the private data. -/
def ConvObj.new (dw : Bool) (wi ww wo : Nat) (zx : Int) (c : ConvCfg) (inp wts out : TIt) (bi bw bz bo : Int) : ConvObj :=
  { dw, wi, ww, wo, zx, inp, wts, out, bz
    cfg := c
    tcfg := convPads dw inp c
    tin := convTile (ioDims dw inp.sizes) inp bi
    tw := convTile wts.sizes wts bw
    tout := convTile (ioDims dw out.sizes) out bo
    nb := inp.sizes.getD 0 0 }

/-- lib/src/private/mli_prv_tensor.h:1015-1046 `mli_prv_get_tensor_hwc` for five dimensions: batch and group are ignored. -/
def hwcPart (t : Tensor) : Tensor :=
  match t.dims with
  | [_, h, w, _, c] => { t with dims := [h, w, c] }
  | _ => t

/-- mli_prv_tensor.h:1048-1076 `mli_prv_get_conv2d_weights_tensor_hwcn` for five dimensions, 1078-1106
`mli_prv_get_conv2d_weights_tensor_hwc` for three: one input channel. -/
def wtsPart (t : Tensor) : Tensor :=
  match t.dims with
  | [_, h, w, c, k] => { t with dims := [h, w, c, k] }
  | [h, w, k] => { t with dims := [h, w, ⟨1, k.shape⟩, k] }
  | _ => t

/-- mli_krn_conv2d_runtime.cc:54-79 `Conv2d::Issue`, mli_krn_depthwise_conv2d_runtime.cc:72-113 `DepthwiseConv2d::Issue`, with the tiles in `lin`, `lw`,
`lz` and `lout`.  Only the first zero point of the weights is used (lib/src/bricks/impl/mli_prv_quant_ref.h:682-713).  Input and output have no common
memory. -/
def ConvObj.issue (o : ConvObj) (lin lw lz lout : Buf) : Option (Status × Buf) :=
  if o.wi = 8 ∧ o.ww = 8 ∧ o.wo = 32 then
    (lz.rd o.bz).bind fun zw =>
      (if o.dw then depthwiseIssueN o.nb.toNat (o.inp.strides.getD 0 0) (o.out.strides.getD 0 0) o.zx zw lin lw (hwcPart o.tin) (wtsPart o.tw) o.tcfg (hwcPart o.tout) lout
        else conv2dIssue o.zx zw lin lw (hwcPart o.tin) (wtsPart o.tw) o.tcfg (hwcPart o.tout) lout).map fun d => (.ok, d)
  else some (.notSupported, lout)

/-- mli_krn_conv2d_runtime.cc:83-121, mli_krn_depthwise_conv2d_runtime.cc:117-158 `Update`; `m_tile_batch_size` stays as it is. -/
def ConvObj.update (o : ConvObj) : ConvObj :=
  { o with
    inp := o.inp.next
    wts := o.wts.next
    out := o.out.next
    tin := setShape o.tin (ioDims o.dw o.inp.next.sizes)
    tw := setShape o.tw o.wts.next.sizes
    tout := setShape o.tout (ioDims o.dw o.out.next.sizes)
    tcfg := convPads o.dw o.inp.next o.cfg }

/-- mli_krn_conv2d_runtime.cc:151-163, mli_krn_depthwise_conv2d_runtime.cc:192-207 `GetIOSizesAndOffsets`: the offsets of the weights; the sizes are the
dimensions of the tile tensors. -/
def ConvObj.wtsPos (o : ConvObj) : List Int :=
  if o.dw then [o.wts.getPos.getD 1 0, o.wts.getPos.getD 2 0, o.wts.getPos.getD 4 0] else o.wts.getPos

/-- State of the caller: the object, the four local buffers, the output tensor in global memory and the status of the calls so far. -/
structure ConvHost where
  obj : ConvObj
  lin : Buf
  lw : Buf
  lz : Buf
  lout : Buf
  gout : Buf
  status : Status

/-- tests_mli_krn_conv2d_30.cc:1101-1166, tests_mli_krn_depthwise_conv_30.cc:858-926: one round of the caller's loop.  The zero points `gz` of the weights
that belong to the channels of the tile are copied; the test programs copy the first ones.  The output tile is copied to the output tensor; the test
programs pass it to another kernel. -/
def ConvHost.round (gin gw : Glob) (gz : Buf) (gos : List Int) (s : ConvHost) : Option ConvHost :=
  let o := s.obj
  (copyBox o.tin.shape gin.buf 0 gin.strides o.inp.getPos o.tin.base o.inp.strides (zeros o.tin.shape) s.lin).bind fun lin =>
  (copyBox o.tw.shape gw.buf 0 gw.strides o.wtsPos o.tw.base o.wts.strides (zeros o.tw.shape) s.lw).bind fun lw =>
  (copyBox [o.tw.shape.getLastD 0] gz 0 [1] [o.wtsPos.getLastD 0] o.bz [1] [0] s.lz).bind fun lz =>
  (o.issue lin lw lz s.lout).bind fun r =>
  (copyBox o.tout.shape r.2 o.tout.base o.out.strides (zeros o.tout.shape) 0 gos o.out.getPos s.gout).map fun gout =>
    { obj := o.update, lin, lw, lz, lout := r.2, gout, status := if s.status ≠ .ok then s.status else r.1 }

/-- `n` rounds. -/
def ConvHost.run (gin gw : Glob) (gz : Buf) (gos : List Int) (n : Nat) (s : ConvHost) : Option ConvHost := forRange n (fun _ s => s.round gin gw gz gos) s

end Mli.Rt
