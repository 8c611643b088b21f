import Verif.Model.Conv

/-!
# Model of group convolution
(`lib/src/kernels/convolution/impl/mli_krn_group_conv2d_ref.h`, `lib/src/kernels/convolution/mli_krn_group_conv2d_hwcn.cc`)

As in the convolution model, input, weights, bias and output are different buffers.
-/

namespace Mli

open Spec (Rnd)

/-- mli_krn_group_conv2d_ref.h:52-109, one output element: `group_count` and `filters_per_group` (52-53), the window (59-68), the
channels of the group (75-79), then the dot product (88-92), the additives (94-101) and `post` (bias additive, conversion, limits, 103-108). -/
def groupBias (q : ConvQ) (post : Int → Int → Int → Int) (src wts bias : Buf) (bptr : Int) (c : ConvCfg)
    (i : Prv) (w : WPrv) (H W oc : Int) : Option Int :=
  let v := convWin c i w H W
  let groups := i.ch / w.inCh
  let perGroup := w.outCh / groups
  let p := v.inPtr + w.inCh * (oc / perGroup)
  let k := v.wPtr + w.outChS * oc
  (dotprod3D q.aw src wts p k 0 v.clmns v.rows w.inCh
    (i.col * c.dw) (i.row * c.dh) 1 w.col w.row w.inChS).bind fun acc =>
  (wAdd3D q wts k acc v.clmns v.rows w.inCh w.col w.row w.inChS).bind fun acc =>
  (inAdd3D q src p acc v.clmns v.rows w.inCh i.col i.row 1).bind fun acc =>
  (zpAdd q acc (v.clmns * v.rows)).bind fun acc =>
  (bias.rd (bptr + oc)).map fun b => post oc b acc

/-- private/src/mli_check.cc:751-798: shapes, strides and configuration of accepted tensors.  `none`: line 759 takes the remainder
of a division by `group_count`, which is 0 if the input has fewer channels than the weights.  For wrong ranks
the code goes on to read shapes past the rank before it returns; here it returns at once. -/
def chkGroupGeo (apart : Bool) (tin tw tb : Tensor) (c : ConvCfg) (tout : Tensor) : Option Status :=
  match tin.dims, tw.dims, tb.dims, tout.dims with
  | [ih, iw, ic], [kh, kw, kc, kn], [bn], [oh, ow, oc] =>
    let groups := ic.shape / kc.shape
    let ekw := wrap 32 ((kw.shape - 1) * c.dw + 1)
    let ekh := wrap 32 ((kh.shape - 1) * c.dh + 1)
    let effW := wrap 32 (iw.shape + c.pl + c.pr)
    let effH := wrap 32 (ih.shape + c.pt + c.pb)
    let reqW := wrap 32 (ow.shape * c.sw + ekw - c.sw)
    let reqH := wrap 32 (oh.shape * c.sh + ekh - c.sh)
    if groups = 0 then none
    else if ¬ (bn.shape = kn.shape ∧ ic.shape % kc.shape = 0 ∧ kn.shape % groups = 0 ∧ oc.shape = kn.shape) then some .shapeMismatch
    else if !(innerOne tin && innerOne tw && innerOne tb && innerOne tout) then some .incompatibleTensors
    else if ¬ (c.dh > 0 ∧ c.dw > 0 ∧ c.pl < ekw ∧ c.pr < ekw ∧ c.pt < ekh ∧ c.pb < ekh ∧ c.sh > 0 ∧ c.sw > 0 ∧
      reqH ≤ effH ∧ reqW ≤ effW) then some .badFuncCfg
    else if !apart then some .incompatibleTensors
    else some .ok
  | _, _, _, _ => some .shapeMismatch

/-- private/src/mli_check.cc:723-798 `mli_chk_group_conv2d_hwcn`, for matching element types and non-null pointers. -/
def chkGroup (ks : Int) (apart : Bool) (tin tw tb : Tensor) (c : ConvCfg) (tout : Tensor) : Option Status :=
  if ks ≠ 0 ∧ ¬ (tw.shape.getD 0 0 = ks ∧ tw.shape.getD 1 0 = ks) then some .shapeMismatch
  else (chkTensors [tin, tw, tb, tout]).bind fun s =>
    if s ≠ .ok then some s else chkGroupGeo apart tin tw tb c tout

/-- private/src/mli_check.cc:800-846 `mli_chk_group_conv2d_hwcn_fx16`, `_fx16_fx8_fx8`: fractional bits first. -/
def chkGroupFx (ks : Int) (apart : Bool) (f : FxQ) (tin tw tb : Tensor) (c : ConvCfg) (tout : Tensor) : Option Status :=
  if ¬ f.fb ≤ f.fi + f.fw then some .incompatibleTensors
  else if ¬ f.fo ≤ f.fi + f.fw then some .incompatibleTensors
  else chkGroup ks apart tin tw tb c tout

/-- kernels/convolution/mli_krn_group_conv2d_hwcn.cc `mli_krn_group_conv2d_hwcn_fx16` (`aw = 64`) and `_fx16_fx8_fx8` (`aw = 32`) with their
specialisations for kernel size `ks`, and `group_conv2d_prepare_and_run` (mli_krn_group_conv2d_ref.h:118-193).  The adjustment
of the input size (161-177) is that of `conv2d_run`. -/
def krnGroupFx (m : Rnd) (aw : Nat) (ks : Int) (apart : Bool) (f : FxQ) (src wts bias : Buf) (tin tw tb : Tensor) (c : ConvCfg)
    (tout : Tensor) (dst : Buf) : Option (Status × Buf) := do
  let s ← chkGroupFx ks apart f tin tw tb c tout
  if s ≠ .ok then return (s, dst)
  let i ← prvHwc tin
  let w ← prvHwcnFix ks tw
  let o ← prvHwc tout
  let a := convAdjust (ks = 1) c i w o
  let dst' ← convLoop (groupBias { aw := aw } (fun _ b acc => castLimFx m aw f (biasFx m aw (f.fi + f.fw - f.fb) b acc))
    src wts bias tb.base a.1 a.2 w) o o.ch dst
  return (.ok, dst')

/-- kernels/convolution/mli_krn_group_conv2d_hwcn.cc `mli_krn_group_conv2d_hwcn_sa8_sa8_sa32` and its specialisations, with
private/src/mli_check.cc:848-890 `mli_chk_group_conv2d_hwcn_sa8_sa8_sa32`. -/
def krnGroupSa8 (m : Rnd) (full : Bool) (ks : Int) (apart : Bool) (q : Sa8Q) (src wts bias : Buf) (tin tw tb : Tensor)
    (c : ConvCfg) (tout : Tensor) (dst : Buf) : Option (Status × Buf) := do
  let s ← chkGroup ks apart tin tw tb c tout
  if s ≠ .ok then return (s, dst)
  let s ← chkSa8 m q tin tw tb tout
  if s ≠ .ok then return (s, dst)
  let i ← prvHwc tin
  let w ← prvHwcnFix ks tw
  let o ← prvHwc tout
  let rt ← inToOut m (q.qi.scaleAt 0) (q.qi.fracAt 0) (q.qo.scaleAt 0) (q.qo.fracAt 0)
  let a := convAdjust (ks = 1) c i w o
  let dst' ← convLoop (groupBias { aw := 32, zx := q.qi.zpAt 0, zw := q.qw.zpAt 0 }
    (fun oc b acc => castLimSa8 m full q rt oc (biasS8 full b acc)) src wts bias tb.base a.1 a.2 w) o o.ch dst
  return (.ok, dst')

end Mli
