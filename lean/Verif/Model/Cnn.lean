import Verif.Model.AvePool
import Verif.Model.Fc

/-!
# A convolutional network

The sequence of calls an application makes, as in examples/example_cifar10_caffe/cifar10_model_hwcn.c of /repo: each layer is one call of a kernel, its
output tensor is the input tensor of the next layer, and the application stops at the first status that is not `MLI_STATUS_OK`.  16-bit fixed point.
-/

namespace Mli

open Spec

/-- The arguments of a layer with weights, apart from input and output: fractional bits, kernel size the specialisation is for (0 for the general
kernel), configuration, weights and bias, and the verdict on overlapping buffers. -/
structure WtPar where
  f : FxQ
  ks : Int
  c : ConvCfg
  tw : Tensor
  tb : Tensor
  wts : Buf
  bias : Buf
  apart : Bool

/-- The kernels a layer can call: mli_krn_conv2d_hwcn_fx16, mli_krn_depthwise_conv2d_hwcn_fx16, mli_krn_maxpool_hwc_fx16, mli_krn_avepool_hwc_fx16
(with the fractional bits of its output) and mli_krn_fully_connected_fx16 (which has no geometry). -/
inductive CnnOp where
  | conv (p : WtPar)
  | depthwise (p : WtPar)
  | maxpool (g : Geo)
  | avepool (fo : Int) (g : Geo)
  | dense (p : WtPar)

/-- A layer: the kernel, the output tensor and the buffer it is in. -/
structure CnnLayer where
  op : CnnOp
  tout : Tensor
  dst : Buf

/-- One call, for an input with `fi` fractional bits. -/
def CnnLayer.run (m : Rnd) (fi : Int) (tin : Tensor) (src : Buf) (l : CnnLayer) : Option (Status × Buf) :=
  match l.op with
  | .conv p => krnConvFx m 64 p.ks p.apart p.f src p.wts p.bias tin p.tw p.tb p.c l.tout l.dst
  | .depthwise p => krnDwFx m 64 p.ks p.apart p.f src p.wts p.bias tin p.tw p.tb p.c l.tout l.dst
  | .maxpool g => krnMaxpool src tin g l.tout l.dst
  | .avepool fo g => krnAvepoolFx m 16 fi fo src tin g l.tout l.dst
  | .dense p => krnFcFx m 16 64 p.apart p.f src p.wts p.bias tin p.tw p.tb l.tout l.dst

/-- The fractional bits of the output: maximum pooling keeps those of the input
(kernels/pooling/mli_krn_pool_hwc.h:516). -/
def CnnOp.frac (fi : Int) : CnnOp → Int
  | .conv p => p.f.fo
  | .depthwise p => p.f.fo
  | .maxpool _ => fi
  | .avepool fo _ => fo
  | .dense p => p.f.fo

/-- The calls of a network. -/
def runCnn (m : Rnd) : Int → List CnnLayer → Tensor → Buf → Option (Tensor × Buf)
  | _, [], t, src => some (t, src)
  | fi, l :: ls, t, src =>
    (l.run m fi t src).bind fun p => if p.1 = .ok then runCnn m (l.op.frac fi) ls l.tout p.2 else none

end Mli
