import Verif.Model.Conv

/-!
# Model of the transposed convolution kernels
(`lib/src/kernels/convolution/impl/mli_krn_transpose_conv_ref.h`)

Simplifications as in the convolution model; sizes and positions are not wrapped to `int`, except in the check.
The code handles height and width alike, one after the other; here both go through `tcAxis`.
-/

namespace Mli

open Spec (lo hi InRange Rnd)

/-- mli_krn_transpose_conv_ref.h:59-75 `get_mirrored_weights_full_tensor_hwcn`. -/
def mirrorW (w : WPrv) : WPrv :=
  { w with ptr := w.ptr + (w.row * (w.height - 1) + w.col * (w.width - 1)), col := -w.col, row := -w.row }

/-- mli_krn_transpose_conv_ref.h:29-57 `get_mirrored_weights_subtensor_hwcn`. -/
def subW (w : WPrv) (sw sh left top : Int) : WPrv :=
  { w with height := ceilDiv (w.height - top) sh, width := ceilDiv (w.width - left) sw,
           ptr := w.ptr + (w.row * top + w.col * left), col := w.col * sw, row := w.row * sh }

/-- The parameters of one sub-convolution along one axis. -/
structure TcAxis where
  outOff : Int
  outSize : Int
  pad : Int
  inOff : Int
  inSize : Int
deriving DecidableEq, Repr

/-- mli_krn_transpose_conv_ref.h:119-120, 143-146, 169-180 along one axis, for input size `n`, kernel size `k`, stride `s`,
padding `p` before the output, output size `out`, sub-kernel size `sk` and sub-kernel offset `off`. -/
def tcAxis (n k s p out sk off : Int) : TcAxis :=
  let effPad := k - p - 1
  let outOff := (s - off + effPad).tmod s
  let outSize := ceilDiv (out - outOff) s
  let percept := outSize + (sk - 1)
  let pad := ceilDiv (max 0 (effPad - outOff - off)) s
  let inOff := ceilDiv (max 0 (outOff - effPad)) s
  { outOff := outOff, outSize := outSize, pad := pad, inOff := inOff, inSize := min (percept - pad) (n - inOff) }

/-- One sub-convolution: configuration, input, weights and output views. -/
structure TcSub where
  c : ConvCfg
  i : Prv
  w : WPrv
  o : Prv
deriving DecidableEq, Repr

/-- mli_krn_transpose_conv_ref.h:131-184: the views for sub-kernel `(a, b)`, and the stride and dilation of
`transpose_convolution2D` (79-104).  The right and bottom padding is not used by the reference convolution. -/
def tcSub (c : ConvCfg) (i : Prv) (w : WPrv) (o : Prv) (a b : Int) : TcSub :=
  let ws := subW (mirrorW w) c.sw c.sh b a
  let h := tcAxis i.height w.height c.sh c.pt o.height ws.height a
  let v := tcAxis i.width w.width c.sw c.pl o.width ws.width b
  { c := { sh := 1, sw := 1, pt := h.pad, pl := v.pad },
    i := { i with width := v.inSize, height := h.inSize, ptr := i.ptr + (i.row * h.inOff + i.col * v.inOff) },
    w := ws,
    o := { o with height := h.outSize, width := v.outSize, col := o.col * c.sw, row := o.row * c.sh,
                  ptr := o.ptr + o.row * h.outOff + o.col * v.outOff } }

/-- mli_krn_transpose_conv_ref.h:106-206 `transpose_conv2d_run`, with `value` the computation of one output element of a
convolution (mli_krn_convolution_ref.h:79-173). -/
def tcRun (value : ConvCfg → Prv → WPrv → Int → Int → Int → Option Int) (c : ConvCfg) (i : Prv) (w : WPrv) (o : Prv) (d : Buf) :
    Option Buf :=
  forRange c.sh.toNat (fun (a : Nat) => forRange c.sw.toNat (fun (b : Nat) =>
    let s := tcSub c i w o a b
    convLoop (value s.c s.i s.w) s.o o.ch)) d

/-- private/src/mli_check.cc:945-954: the output size along one axis, computed in `int` and converted to `unsigned`. -/
def tcOutSize (n s k pb pe : Int) : Option Int :=
  (ckd 32 ((n - 1) * s)).bind fun e =>
  (ckd 32 (e + 1)).bind fun e =>
  (ckd 32 (e + (k - pb - 1))).bind fun e =>
  (ckd 32 (e + (k - pe - 1))).bind fun e =>
  (ckd 32 (e - k)).bind fun e =>
  (ckd 32 (e + 1)).map fun e => e % 2 ^ 32

/-- private/src/mli_check.cc:920-967: shapes, strides and configuration of an accepted set of tensors. -/
def chkTcGeo (apart : Bool) (tin tw tb : Tensor) (c : ConvCfg) (tout : Tensor) : Option Status :=
  match tin.dims, tw.dims, tb.dims, tout.dims with
  | [ih, iw, ic], [kh, kw, kc, kn], [bn], [oh, ow, oc] =>
    if ¬ (ic.shape = kc.shape ∧ oc.shape = kn.shape ∧ bn.shape = kn.shape) then some .shapeMismatch
    else if !(innerOne tin && innerOne tw && innerOne tb && innerOne tout) then some .incompatibleTensors
    else if ¬ (c.dh = 1 ∧ c.dw = 1 ∧ c.pl < kw.shape ∧ c.pr < kw.shape ∧ c.pt < kh.shape ∧ c.pb < kh.shape ∧ c.sh > 0 ∧ c.sw > 0 ∧
      c.sw ≤ kw.shape ∧ c.sh ≤ kh.shape) then some .badFuncCfg
    else (tcOutSize ih.shape c.sh kh.shape c.pt c.pb).bind fun eh =>
      (tcOutSize iw.shape c.sw kw.shape c.pl c.pr).bind fun ew =>
      if ¬ (ow.shape = ew ∧ oh.shape = eh ∧ oc.shape = kn.shape) then some .badFuncCfg
      else if !apart then some .incompatibleTensors
      else some .ok
  | _, _, _, _ => some .shapeMismatch

/-- private/src/mli_check.cc:892-970 `mli_chk_transpose_conv2d_hwcn` for matching element types and non-null pointers; the
kernel size is never passed (mli_krn_transpose_conv2d_hwcn.cc). -/
def chkTc (apart : Bool) (tin tw tb : Tensor) (c : ConvCfg) (tout : Tensor) : Option Status :=
  (chkTensors [tin, tw, tb, tout]).bind fun s => if s ≠ .ok then some s else chkTcGeo apart tin tw tb c tout

/-- private/src/mli_check.cc:1067-1088 `mli_chk_transpose_conv2d_hwcn_k2x2_str2` and 1090-1113 `_k4x4_str2`; `ks` is the kernel
size the function is specialised for (0: none). -/
def chkTcSpec (ks : Int) (tw : Tensor) (c : ConvCfg) : Status :=
  if ks = 0 then .ok
  else if ¬ (c.sw = 2 ∧ c.sh = 2) then .badFuncCfg
  else if ¬ (tw.shape.getD 1 0 = ks ∧ tw.shape.getD 0 0 = ks) then .incompatibleTensors
  else .ok

/-- private/src/mli_check.cc:972-1018 `mli_chk_transpose_conv2d_hwcn_fx16`, `_fx16_fx8_fx8`, followed by the check of the
specialisation. -/
def chkTcFx (ks : Int) (apart : Bool) (f : FxQ) (tin tw tb : Tensor) (c : ConvCfg) (tout : Tensor) : Option Status :=
  if ¬ f.fb ≤ f.fi + f.fw then some .incompatibleTensors
  else if ¬ f.fo ≤ f.fi + f.fw then some .incompatibleTensors
  else (chkTc apart tin tw tb c tout).bind fun s => if s ≠ .ok then some s else some (chkTcSpec ks tw c)

/-- kernels/convolution/mli_krn_transpose_conv2d_hwcn.cc `mli_krn_transpose_conv2d_hwcn_fx16` (`aw = 64`),
`_fx16_fx8_fx8` (`aw = 32`) and their specialisations `_k2x2_str2` and `_k4x4_str2`, with
mli_krn_transpose_conv_ref.h:213-242 `transpose_conv2d_prepare_and_run`. -/
def krnTcFx (m : Rnd) (aw : Nat) (ks : Int) (apart : Bool) (f : FxQ) (src wts bias : Buf) (tin tw tb : Tensor) (c : ConvCfg)
    (tout : Tensor) (dst : Buf) : Option (Status × Buf) := do
  let s ← chkTcFx ks apart f tin tw tb c tout
  if s ≠ .ok then return (s, dst)
  let i ← prvHwc tin
  let w ← prvHwcn true tw
  let o ← prvHwc tout
  let dst' ← tcRun (convBias { aw := aw } (fun _ b acc => castLimFx m aw f (biasFx m aw (f.fi + f.fw - f.fb) b acc))
    src wts bias tb.base) c i w o dst
  return (.ok, dst')

/-- kernels/convolution/mli_krn_transpose_conv2d_hwcn.cc `mli_krn_transpose_conv2d_hwcn_sa8_sa8_sa32` and its specialisations;
private/src/mli_check.cc:1020-1065 for the check. -/
def krnTcSa8 (m : Rnd) (full : Bool) (ks : Int) (apart : Bool) (q : Sa8Q) (src wts bias : Buf) (tin tw tb : Tensor)
    (c : ConvCfg) (tout : Tensor) (dst : Buf) : Option (Status × Buf) := do
  let s ← chkTc apart tin tw tb c tout
  if s ≠ .ok then return (s, dst)
  let s ← chkSa8 m q tin tw tb tout
  if s ≠ .ok then return (s, dst)
  if chkTcSpec ks tw c ≠ .ok then return (chkTcSpec ks tw c, dst)
  let i ← prvHwc tin
  let w ← prvHwcn true tw
  let o ← prvHwc tout
  let rt ← inToOut m (q.qi.scaleAt 0) (q.qi.fracAt 0) (q.qo.scaleAt 0) (q.qo.fracAt 0)
  let dst' ← tcRun (convBias { aw := 32, zx := q.qi.zpAt 0, zw := q.qw.zpAt 0 }
    (fun oc b acc => castLimSa8 m full q rt oc (biasS8 full b acc)) src wts bias tb.base) c i w o dst
  return (.ok, dst')

/-- mli_krn_convolution_ref.h:134-173: `convNoBias` with the whole kernel `wf` different from the weights `w` used in
the dot product. -/
def convNoBiasFull (q : ConvQ) (src wts : Buf) (wf : WPrv) (c : ConvCfg) (i : Prv) (w : WPrv) (H W oc : Int) : Option Int :=
  let v := convWin c i w H W
  (convCore q src wts c i w v oc).bind fun acc =>
  if v.rows * v.clmns ≠ wf.height * wf.width then
    (wAdd3D q wts (wf.ptr + wf.outChS * oc) (subFx q.aw 0 acc) wf.width wf.height i.ch wf.col wf.row wf.inChS).bind fun acc =>
    (wAdd3D q wts (v.wPtr + w.outChS * oc) (subFx q.aw 0 acc) v.clmns v.rows i.ch w.col w.row w.inChS).bind fun acc =>
    (zpAdd q (subFx q.aw 0 acc) (wf.height * wf.width - v.clmns * v.rows)).map fun acc => subFx q.aw 0 acc
  else some acc

theorem convNoBiasFull_self (q : ConvQ) (src wts : Buf) (c : ConvCfg) (i : Prv) (w : WPrv) (H W oc : Int) :
    convNoBiasFull q src wts w c i w H W oc = convNoBias q src wts c i w H W oc := rfl

/-- kernels/convolution/mli_krn_transpose_conv_runtime.cc:55-80 `TransposeConv2D::Issue` with
mli_krn_transpose_conv_ref.h:255-303 `transpose_conv2d_prepare_and_run` (8-bit input and weights, 32-bit output): the tensors
are without their batch and group dimensions, no check is made. -/
def transposeIssue (zx zw : Int) (src wts : Buf) (tin tw : Tensor) (c : ConvCfg) (tout : Tensor) (dst : Buf) : Option Buf := do
  let i ← prvHwc tin
  let w ← prvHwcn false tw
  let o ← prvHwc tout
  tcRun (convNoBiasFull { aw := 32, zx := zx, zw := zw, inAdd3 := false } src wts (mirrorW w)) c.narrow i w o dst

end Mli
