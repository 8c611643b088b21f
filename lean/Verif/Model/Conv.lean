import Verif.Model.AvePool
import Verif.Model.Quant

/-!
# Model of the convolution kernels
(`lib/src/kernels/convolution/impl/mli_krn_convolution_ref.h`, `lib/src/bricks/impl/mli_krn_dotprod_ref.h`)

As in the pooling model, sizes and positions are not wrapped to `int`, and input, weights, bias and
output are different buffers.  `__builtin_assume` is an assumption the compiler may exploit
(include/mli_config.h:55-70 leaves it to clang and maps it to `__assume` for MSVC): a call that breaks it
has no result.
-/

namespace Mli

open Spec (lo hi InRange Rnd)

/-- private/mli_private_types.h:31-42 `conv2d_weights_tensor_private_t`. -/
structure WPrv where
  ptr : Int
  width : Int
  height : Int
  inCh : Int
  outCh : Int
  col : Int
  row : Int
  inChS : Int
  outChS : Int
deriving DecidableEq, Repr

/-- private/mli_prv_tensor.h:706-736 `mli_prv_get_conv2d_weights_tensor_hwcn` and 739-767
`mli_prv_get_conv2d_weights_tensor_hw1n`; 1050-1105 for run-time tensors, where the stride of the output
channels is that of the tensor (`fix = false`). -/
def prvHwcn (fix : Bool) (t : Tensor) : Option WPrv :=
  match t.dims with
  | [h, w, c, n] =>
    some { ptr := t.base, width := w.shape, height := h.shape, inCh := c.shape, outCh := n.shape,
           col := w.stride, row := h.stride, inChS := c.stride, outChS := if fix then 1 else n.stride }
  | _ => none

/-- One step of a dot product: two loads and a multiply-accumulate. -/
def macStep (aw : Nat) (src wts : Buf) (p q a : Int) : Option Int :=
  (src.rd p).bind fun x => (wts.rd q).bind fun y => macFx aw a x y

/-- mli_krn_dotprod_ref.h:40-63 `dotprod2D` (by value): the pointers are moved along. -/
def dotprod2D (aw : Nat) (src wts : Buf) (p q acc width height ics irs kcs krs : Int) : Option Int :=
  let irs' := irs - width * ics
  let krs' := krs - width * kcs
  (forRange height.toNat (fun _ s =>
    (forRange width.toNat (fun _ (s : (Int × Int) × Int) =>
      (macStep aw src wts s.1.1 s.1.2 s.2).map fun a => ((s.1.1 + ics, s.1.2 + kcs), a)) s).map
    fun s => ((s.1.1 + irs', s.1.2 + krs'), s.2)) ((p, q), acc)).map (·.2)

/-- mli_krn_dotprod_ref.h:94-132 `dotprod3D`. -/
def dotprod3D (aw : Nat) (src wts : Buf) (p q acc width height channels ics irs ichs kcs krs kchs : Int) :
    Option Int :=
  let ichs' := ichs - height * irs
  let kchs' := kchs - height * krs
  let irs' := irs - width * ics
  let krs' := krs - width * kcs
  if height ≤ 0 then none
  else
    (forRange channels.toNat (fun _ s =>
      (forRange height.toNat (fun _ s =>
        (forRange width.toNat (fun _ (s : (Int × Int) × Int) =>
          (macStep aw src wts s.1.1 s.1.2 s.2).map fun a => ((s.1.1 + ics, s.1.2 + kcs), a)) s).map
        fun s => ((s.1.1 + irs', s.1.2 + krs'), s.2)) s).map
      fun s => ((s.1.1 + ichs', s.1.2 + kchs'), s.2)) ((p, q), acc)).map (·.2)

/-- What the additives depend on: accumulator width, input and weights zero point (0 for
fixed-point kernels), and whether the three-dimensional input additive is specialised for the
quantization type (it is for `s8asym`, not for `int`: mli_prv_quant_ref.h:339-361). -/
structure ConvQ where
  aw : Nat
  zx : Int := 0
  zw : Int := 0
  inAdd3 : Bool := true
deriving DecidableEq, Repr

/-- mli_prv_quant_ref.h:305-337 `in_additive`, two-dimensional. -/
def inAdd2D (q : ConvQ) (src : Buf) (p acc width height cs rs : Int) : Option Int :=
  if q.zw ≠ 0 then winAcc q.aw (wrap 16 (-q.zw)) acc src p height width rs cs else some acc

/-- mli_prv_quant_ref.h:339-361 `in_additive`, three-dimensional. -/
def inAdd3D (q : ConvQ) (src : Buf) (p acc width height ch cs rs chs : Int) : Option Int :=
  if q.inAdd3 ∧ q.zw ≠ 0 then
    forRange ch.toNat (fun (c : Nat) acc => winAcc q.aw (wrap 16 (-q.zw)) acc src (p + chs * c) height width rs cs) acc
  else some acc

/-- mli_prv_quant_ref.h:223-256 `weights_additive`, two-dimensional. -/
def wAdd2D (q : ConvQ) (wts : Buf) (p acc width height cs rs : Int) : Option Int :=
  if q.zx ≠ 0 then winAcc q.aw (wrap 16 (-q.zx)) acc wts p height width rs cs else some acc

/-- mli_prv_quant_ref.h:258-298 `weights_additive`, three-dimensional. -/
def wAdd3D (q : ConvQ) (wts : Buf) (p acc width height ch cs rs chs : Int) : Option Int :=
  if q.zx ≠ 0 then
    forRange ch.toNat (fun (c : Nat) acc => winAcc q.aw (wrap 16 (-q.zx)) acc wts (p + chs * c) height width rs cs) acc
  else some acc

/-- mli_prv_quant_ref.h:367-397 `zp_additive` with mli_krn_reduce_sum2d_ref.h:58-71 `reduce_sum`. -/
def zpAdd (q : ConvQ) (acc n : Int) : Option Int :=
  if q.zw ≠ 0 ∨ q.zx ≠ 0 then forRange n.toNat (fun _ a => macFx q.aw a q.zx q.zw) acc else some acc

/-- include/mli_types.h `mli_conv2d_cfg` without the ReLU type (all fields `uint8_t`). -/
structure ConvCfg where
  sh : Int
  sw : Int
  pt : Int := 0
  pb : Int := 0
  pl : Int := 0
  pr : Int := 0
  dh : Int := 1
  dw : Int := 1
deriving DecidableEq, Repr

/-- The clipped window of one output position. -/
structure Win where
  rows : Int
  clmns : Int
  /-- address of the first input element (of channel 0) -/
  inPtr : Int
  /-- address of the first weight (of channel 0) -/
  wPtr : Int
deriving DecidableEq, Repr

/-- mli_krn_convolution_ref.h:80-103 (= 211-240 for depthwise convolution). -/
def convWin (c : ConvCfg) (i : Prv) (w : WPrv) (H W : Int) : Win :=
  let v := validArea H W i.height i.width w.height w.width c.sh c.sw c.pl c.pt c.dh c.dw
  { rows := w.height - v.top - v.bottom, clmns := w.width - v.right - v.left,
    inPtr := i.ptr + i.row * (H * c.sh - c.pt + v.inTop) + i.col * (W * c.sw - c.pl + v.inLeft),
    wPtr := w.ptr + w.row * v.top + w.col * v.left }

/-- mli_krn_convolution_ref.h:105-114: dot product and input additive. -/
def convCore (q : ConvQ) (src wts : Buf) (c : ConvCfg) (i : Prv) (w : WPrv) (v : Win) (oc : Int) : Option Int :=
  (dotprod3D q.aw src wts v.inPtr (v.wPtr + w.outChS * oc) 0 v.clmns v.rows i.ch
    (i.col * c.dw) (i.row * c.dh) 1 w.col w.row w.inChS).bind fun acc =>
  inAdd3D q src v.inPtr acc v.clmns v.rows i.ch i.col i.row 1

/-- mli_krn_convolution_ref.h:118-133, with a bias: `post` is what is done with the bias and the
accumulator for an output channel (bias additive, conversion to the output format, limits). -/
def convBias (q : ConvQ) (post : Int → Int → Int → Int) (src wts bias : Buf) (bptr : Int) (c : ConvCfg)
    (i : Prv) (w : WPrv) (H W oc : Int) : Option Int :=
  let v := convWin c i w H W
  (convCore q src wts c i w v oc).bind fun acc =>
  (wAdd3D q wts (v.wPtr + w.outChS * oc) acc v.clmns v.rows i.ch w.col w.row w.inChS).bind fun acc =>
  (zpAdd q acc (v.clmns * v.rows)).bind fun acc =>
  (bias.rd (bptr + oc)).map fun b => post oc b acc

/-- mli_krn_convolution_ref.h:134-173, without a bias: padding takes part with the value of the
input zero point. -/
def convNoBias (q : ConvQ) (src wts : Buf) (c : ConvCfg) (i : Prv) (w : WPrv) (H W oc : Int) : Option Int :=
  let v := convWin c i w H W
  (convCore q src wts c i w v oc).bind fun acc =>
  if v.rows * v.clmns ≠ w.height * w.width then
    (wAdd3D q wts (w.ptr + w.outChS * oc) (subFx q.aw 0 acc) w.width w.height i.ch w.col w.row w.inChS).bind fun acc =>
    (wAdd3D q wts (v.wPtr + w.outChS * oc) (subFx q.aw 0 acc) v.clmns v.rows i.ch w.col w.row w.inChS).bind fun acc =>
    (zpAdd q (subFx q.aw 0 acc) (w.height * w.width - v.clmns * v.rows)).map fun acc => subFx q.aw 0 acc
  else some acc

/-- mli_krn_convolution_ref.h:255-290: depthwise convolution with a bias. -/
def dwBias (q : ConvQ) (add : Int → Int → Int) (post : Int → Int → Int) (src wts bias : Buf) (bptr : Int) (c : ConvCfg)
    (i : Prv) (w : WPrv) (H W ch : Int) : Option Int :=
  let v := convWin c i w H W
  (dotprod2D q.aw src wts (v.inPtr + ch) (v.wPtr + w.outChS * ch) 0 v.clmns v.rows
    (i.col * c.dw) (i.row * c.dh) w.col w.row).bind fun acc =>
  (inAdd2D q src (v.inPtr + ch) acc v.clmns v.rows (i.col * c.dw) (i.row * c.dh)).bind fun acc =>
  (wAdd2D q wts (v.wPtr + w.outChS * ch) acc v.clmns v.rows w.col w.row).bind fun acc =>
  (bias.rd (bptr + ch)).bind fun b =>
  (zpAdd q (add b acc) (v.clmns * v.rows)).map fun acc => post ch acc

/-- mli_krn_convolution_ref.h:255-263, 291-330: depthwise convolution without a bias. -/
def dwNoBias (q : ConvQ) (src wts : Buf) (c : ConvCfg) (i : Prv) (w : WPrv) (H W ch : Int) : Option Int :=
  let v := convWin c i w H W
  (dotprod2D q.aw src wts (v.inPtr + ch) (v.wPtr + w.outChS * ch) 0 v.clmns v.rows
    (i.col * c.dw) (i.row * c.dh) w.col w.row).bind fun acc =>
  (inAdd2D q src (v.inPtr + ch) acc v.clmns v.rows (i.col * c.dw) (i.row * c.dh)).bind fun acc =>
  if v.rows * v.clmns ≠ w.height * w.width then
    (wAdd2D q wts (w.ptr + w.outChS * ch) (subFx q.aw 0 acc) w.width w.height w.col w.row).bind fun acc =>
    (wAdd2D q wts (v.wPtr + w.outChS * ch) (subFx q.aw 0 acc) v.clmns v.rows w.col w.row).bind fun acc =>
    (zpAdd q (subFx q.aw 0 acc) (w.height * w.width - v.clmns * v.rows)).map fun acc => subFx q.aw 0 acc
  else some acc

/-- private/mli_prv_tensor.h:706-767 with `fix_width = fix_height = ks`: in a kernel specialised for size `ks` the
size of the weights is replaced by `ks`. -/
def prvHwcnFix (ks : Int) (t : Tensor) : Option WPrv :=
  (prvHwcn true t).map fun w => if ks = 0 then w else { w with width := ks, height := ks }

/-- mli_krn_convolution_ref.h:76-78, 104, 175-182 (= 208-210, 231, 331-338): the loops over the output. -/
def convLoop (value : Int → Int → Int → Option Int) (o : Prv) (oc : Int) (d : Buf) : Option Buf :=
  forRange o.height.toNat (fun (H : Nat) => forRange o.width.toNat (fun (W : Nat) => forRange oc.toNat (fun (k : Nat) d =>
    (value H W k).bind fun r => d.wr (o.ptr + o.row * H + o.col * W + k) r))) d

/-- mli_krn_convolution_ref.h:389-414, part of `conv2d_run`: the input is cut to what the output
needs; `no_pad` is for kernels specialised for 1 by 1.  The adjusted right and bottom padding is not
used by the reference implementation. -/
def convAdjust (noPad : Bool) (c : ConvCfg) (i : Prv) (w : WPrv) (o : Prv) : ConvCfg × Prv :=
  let c := if noPad then { c with pt := 0, pb := 0, pl := 0, pr := 0 } else c
  let ekw := (w.width - 1) * c.dw + 1
  let ekh := (w.height - 1) * c.dh + 1
  let pr := (o.width * c.sw + ekw - c.sw) - i.width - c.pl
  let pb := (o.height * c.sh + ekh - c.sh) - i.height - c.pt
  (c, { i with width := if pr < 0 then i.width + pr else i.width,
               height := if pb < 0 then i.height + pb else i.height })

/-- The tensors of a kernel are checked one after the other (e.g. private/src/mli_check.cc:404-411). -/
def chkTensors : List Tensor → Option Status
  | [] => some .ok
  | t :: ts => (checkTensorPrivate t).bind fun s => if s ≠ .ok then some s else chkTensors ts

/-- private/src/mli_check.cc:412-466: shapes, strides and configuration of an accepted set of tensors. -/
def chkConvGeo (dw : Bool) (apart : Bool) (tin tw tb : Tensor) (c : ConvCfg) (tout : Tensor) : Status :=
  match tin.dims, tw.dims, tb.dims, tout.dims with
  | [ih, iw, ic], [kh, kw, kc, kn], [bn], [oh, ow, oc] =>
    let ekw := wrap 32 ((kw.shape - 1) * c.dw + 1)
    let ekh := wrap 32 ((kh.shape - 1) * c.dh + 1)
    let effW := wrap 32 (iw.shape + c.pl + c.pr)
    let effH := wrap 32 (ih.shape + c.pt + c.pb)
    let reqW := wrap 32 (ow.shape * c.sw + ekw - c.sw)
    let reqH := wrap 32 (oh.shape * c.sh + ekh - c.sh)
    if ¬ ((dw = true → kc.shape = 1 ∧ kn.shape = ic.shape) ∧ (dw = false → ic.shape = kc.shape) ∧ oc.shape = kn.shape ∧
      bn.shape = kn.shape) then .shapeMismatch
    else if !(innerOne tin && innerOne tw && innerOne tb && innerOne tout) then .incompatibleTensors
    else if ¬ (c.dh > 0 ∧ c.dw > 0 ∧ c.pl < ekw ∧ c.pr < ekw ∧ c.pt < ekh ∧ c.pb < ekh ∧ c.sh > 0 ∧ c.sw > 0 ∧
      reqH ≤ effH ∧ reqW ≤ effW) then .badFuncCfg
    else if !apart then .incompatibleTensors
    else .ok
  | _, _, _, _ => .shapeMismatch

/-- private/src/mli_check.cc:394-466 `mli_chk_conv2d_hwcn` (`dw = false`) and 559-632
`mli_chk_depthwise_conv2d_hwcn` (`dw = true`), for matching element types and non-null pointers.  `ks` is the size
the kernel is specialised for (0: none); `apart` is the result of the overlap test of input and
output. -/
def chkConv (dw : Bool) (ks : Int) (apart : Bool) (tin tw tb : Tensor) (c : ConvCfg) (tout : Tensor) : Option Status :=
  if ks ≠ 0 ∧ ¬ (tw.shape.getD 0 0 = ks ∧ tw.shape.getD 1 0 = ks) then some .shapeMismatch
  else (chkTensors [tin, tw, tb, tout]).bind fun s =>
    if s ≠ .ok then some s else some (chkConvGeo dw apart tin tw tb c tout)

/-- `MIN(v, max)` then `MAX(v, min)`, mli_krn_convolution_ref.h:131-132. -/
def applyLimits (lim : Int × Int) (v : Int) : Int :=
  let v := if v < lim.2 then v else lim.2
  if v > lim.1 then v else lim.1

/-- mli_prv_quant_ref.h:410-422 `bias_additive` of the fixed-point kernels: 16-bit bias and 64-bit
accumulator, or 8-bit bias and 32-bit accumulator. -/
def biasFx (m : Rnd) (aw : Nat) (biasShift b acc : Int) : Int :=
  if aw = 64 then addFx 64 acc (castFxAcc40 m b (-biasShift)) else addFx 32 acc (asrRndFx m 32 b (-biasShift))

/-- Fractional bits of the tensors of a fixed-point kernel and the built-in ReLU. -/
structure FxQ where
  fi : Int
  fw : Int
  fb : Int
  fo : Int
  relu : ReluType
deriving DecidableEq, Repr

/-- mli_prv_quant_ref.h:443-456 `result_cast` and the limits of the built-in ReLU, with the shift of
`define_quant_params` (91-101). -/
def castLimFx (m : Rnd) (aw : Nat) (f : FxQ) (acc : Int) : Int :=
  applyLimits (reluLimits 16 f.relu 0 1 f.fo) (castFx m aw 16 acc (f.fi + f.fw - f.fo))

/-- private/src/mli_check.cc:513-557 `mli_chk_conv2d_hwcn_fx16`, `_fx16_fx8_fx8` (and 600-660 for depthwise):
fractional bits first (257-269). -/
def chkConvFx (dw : Bool) (ks : Int) (apart : Bool) (f : FxQ) (tin tw tb : Tensor) (c : ConvCfg) (tout : Tensor) :
    Option Status :=
  if ¬ f.fb ≤ f.fi + f.fw then some .incompatibleTensors
  else if ¬ f.fo ≤ f.fi + f.fw then some .incompatibleTensors
  else chkConv dw ks apart tin tw tb c tout

/-- kernels/convolution/mli_krn_conv2d_hwcn.cc `mli_krn_conv2d_hwcn_fx16` (`aw = 64`) and
`mli_krn_conv2d_hwcn_fx16_fx8_fx8` (`aw = 32`) with their specialisations for kernel size `ks`, and
`conv2d_prepare_and_run` (mli_krn_convolution_ref.h:440-482). -/
def krnConvFx (m : Rnd) (aw : Nat) (ks : Int) (apart : Bool) (f : FxQ) (src wts bias : Buf) (tin tw tb : Tensor) (c : ConvCfg)
    (tout : Tensor) (dst : Buf) : Option (Status × Buf) := do
  let s ← chkConvFx false ks apart f tin tw tb c tout
  if s ≠ .ok then return (s, dst)
  let i ← prvHwc tin
  let w ← prvHwcnFix ks tw
  let o ← prvHwc tout
  let a := convAdjust (ks = 1) c i w o
  let dst' ← convLoop (convBias { aw := aw } (fun _ b acc => castLimFx m aw f (biasFx m aw (f.fi + f.fw - f.fb) b acc))
    src wts bias tb.base a.1 a.2 w) o o.ch dst
  return (.ok, dst')

/-- kernels/convolution/mli_krn_depthwise_conv2d_hwcn.cc `mli_krn_depthwise_conv2d_hwcn_fx16`, `_fx16_fx8_fx8`. -/
def krnDwFx (m : Rnd) (aw : Nat) (ks : Int) (apart : Bool) (f : FxQ) (src wts bias : Buf) (tin tw tb : Tensor) (c : ConvCfg)
    (tout : Tensor) (dst : Buf) : Option (Status × Buf) := do
  let s ← chkConvFx true ks apart f tin tw tb c tout
  if s ≠ .ok then return (s, dst)
  let i ← prvHwc tin
  let w ← prvHwcnFix ks tw
  let o ← prvHwc tout
  let a := convAdjust (ks = 1) c i w o
  let dst' ← convLoop (dwBias { aw := aw } (biasFx m aw (f.fi + f.fw - f.fb)) (fun _ acc => castLimFx m aw f acc)
    src wts bias tb.base a.1 a.2 w) o i.ch dst
  return (.ok, dst')

/-- Quantization parameters of the tensors of an 8-bit asymmetric kernel and the built-in ReLU. -/
structure Sa8Q where
  qi : SaQ
  qw : SaQ
  qb : SaQ
  qo : SaQ
  relu : ReluType
deriving DecidableEq, Repr

/-- private/src/mli_check.cc:468-511 `mli_chk_conv2d_hwcn_sa8_sa8_sa32` (661-721 for depthwise, 1444-1475
for fully connected): the quantization parameters; the weights' quantized dimension must be that of the output
channels, `d`. -/
def chkSa8At (d : Nat) (m : Rnd) (q : Sa8Q) (tin tw tb tout : Tensor) : Option Status :=
  let s := chkQuant tin q.qi 7
  if s ≠ .ok then some s else
  let s := chkQuant tout q.qo 7
  if s ≠ .ok then some s else
  let s := chkQuant tw q.qw 0
  if s ≠ .ok then some s else
  let s := chkQuant tb q.qb 0
  if s ≠ .ok then some s else
  if q.qw.dim < 0 ∧ ¬ q.qb.dim < 0 then some .incompatibleTensors
  else if 0 ≤ q.qw.dim ∧ ¬ (q.qw.dim = d ∧ q.qb.dim = 0) then some .incompatibleTensors
  else if ¬ (q.qi.dim < 0 ∧ q.qo.dim < 0) then some .incompatibleTensors
  else chkBiasLoop m q.qi q.qw q.qb (if 0 ≤ q.qw.dim then (tw.shape.getD q.qw.dim.toNat 0).toNat else 1) 0

/-- The same for four-dimensional weights. -/
abbrev chkSa8 := chkSa8At 3

/-- mli_krn_convolution_ref.h:126-132 for `s8asym`: conversion of the accumulator for output
channel `oc`, with `rt` the ratio and shift of `inToOut`. -/
def castLimSa8 (m : Rnd) (full : Bool) (q : Sa8Q) (rt : Int × Int) (oc acc : Int) : Int :=
  let ms := adjustQuant full rt.1 rt.2 (q.qw.scaleAt oc) (q.qw.fracAt oc)
  applyLimits (reluLimits 8 q.relu (q.qo.zpAt 0) (q.qo.scaleAt 0) (q.qo.fracAt 0))
    (resultCastS8 m full ms.1 ms.2 (q.qo.zpAt 0) acc)

/-- kernels/convolution/mli_krn_conv2d_hwcn.cc `mli_krn_conv2d_hwcn_sa8_sa8_sa32` and its specialisations.
The weights zero point is that of the first entry (mli_prv_quant_ref.h:108-118). -/
def krnConvSa8 (m : Rnd) (full : Bool) (ks : Int) (apart : Bool) (q : Sa8Q) (src wts bias : Buf) (tin tw tb : Tensor)
    (c : ConvCfg) (tout : Tensor) (dst : Buf) : Option (Status × Buf) := do
  let s ← chkConv false ks apart tin tw tb c tout
  if s ≠ .ok then return (s, dst)
  let s ← chkSa8 m q tin tw tb tout
  if s ≠ .ok then return (s, dst)
  let i ← prvHwc tin
  let w ← prvHwcnFix ks tw
  let o ← prvHwc tout
  let rt ← inToOut m (q.qi.scaleAt 0) (q.qi.fracAt 0) (q.qo.scaleAt 0) (q.qo.fracAt 0)
  let a := convAdjust (ks = 1) c i w o
  let dst' ← convLoop (convBias { aw := 32, zx := q.qi.zpAt 0, zw := q.qw.zpAt 0 }
    (fun oc b acc => castLimSa8 m full q rt oc (biasS8 full b acc)) src wts bias tb.base a.1 a.2 w) o o.ch dst
  return (.ok, dst')

/-- kernels/convolution/mli_krn_depthwise_conv2d_hwcn.cc `mli_krn_depthwise_conv2d_hwcn_sa8_sa8_sa32`. -/
def krnDwSa8 (m : Rnd) (full : Bool) (ks : Int) (apart : Bool) (q : Sa8Q) (src wts bias : Buf) (tin tw tb : Tensor)
    (c : ConvCfg) (tout : Tensor) (dst : Buf) : Option (Status × Buf) := do
  let s ← chkConv true ks apart tin tw tb c tout
  if s ≠ .ok then return (s, dst)
  let s ← chkSa8 m q tin tw tb tout
  if s ≠ .ok then return (s, dst)
  let i ← prvHwc tin
  let w ← prvHwcnFix ks tw
  let o ← prvHwc tout
  let rt ← inToOut m (q.qi.scaleAt 0) (q.qi.fracAt 0) (q.qo.scaleAt 0) (q.qo.fracAt 0)
  let a := convAdjust (ks = 1) c i w o
  let dst' ← convLoop (dwBias { aw := 32, zx := q.qi.zpAt 0, zw := q.qw.zpAt 0 } (biasS8 full)
    (fun oc acc => castLimSa8 m full q rt oc acc) src wts bias tb.base a.1 a.2 w) o i.ch dst
  return (.ok, dst')

/-- mli_krn_convolution_ref.h:524-534: the run-time configuration is copied into `uint8_t` fields. -/
def ConvCfg.narrow (c : ConvCfg) : ConvCfg :=
  { sh := c.sh % 256, sw := c.sw % 256, pt := c.pt % 256, pb := c.pb % 256, pl := c.pl % 256, pr := c.pr % 256,
    dh := c.dh % 256, dw := c.dw % 256 }

/-- kernels/convolution/mli_krn_conv2d_runtime.cc:53-77 `Conv2d::Issue` with mli_krn_convolution_ref.h:490-540
`conv2d_prepare_and_run` (8-bit input and weights, 32-bit output) for one batch element and one group:
the tensors are without their batch and group dimensions, no check is made.  `zx` is the input zero point, `zw` the
first of the weights' zero points (bricks/impl/mli_prv_quant_ref.h:683-715). -/
def conv2dIssue (zx zw : Int) (src wts : Buf) (tin tw : Tensor) (c : ConvCfg) (tout : Tensor) (dst : Buf) : Option Buf := do
  let i ← prvHwc tin
  let w ← prvHwcn false tw
  let o ← prvHwc tout
  let a := convAdjust false c.narrow i w o
  convLoop (convNoBias { aw := 32, zx := zx, zw := zw, inAdd3 := false } src wts a.1 a.2 w) o o.ch dst

/-- kernels/convolution/mli_krn_depthwise_conv2d_runtime.cc `DepthwiseConv2d::Issue`: as above with three-dimensional
weights (private/mli_prv_tensor.h:1070-1095), here with a channel dimension of 1 in between. -/
def depthwiseIssue (zx zw : Int) (src wts : Buf) (tin tw : Tensor) (c : ConvCfg) (tout : Tensor) (dst : Buf) : Option Buf := do
  let i ← prvHwc tin
  let w ← prvHwcn false tw
  let o ← prvHwc tout
  let a := convAdjust false c.narrow i w o
  convLoop (dwNoBias { aw := 32, zx := zx, zw := zw } src wts a.1 a.2 w) o i.ch dst

end Mli
