import Verif.Model.Cnn

/-!
# A convolutional network with 8-bit weights

The sequence of calls of examples/example_cifar10_caffe/cifar10_model_hwcn.c of /repo configured for 16-bit data with 8-bit weights and biases
(`MODEL_FX_8W16D`): the kernels with weights are those with the suffix `_fx16_fx8_fx8`, which accumulate in 32 bits; pooling is as in `Model/Cnn.lean`.
-/

namespace Mli

open Spec

/-- One call, for an input with `fi` fractional bits: mli_krn_conv2d_hwcn_fx16_fx8_fx8, mli_krn_depthwise_conv2d_hwcn_fx16_fx8_fx8,
mli_krn_maxpool_hwc_fx16, mli_krn_avepool_hwc_fx16 and mli_krn_fully_connected_fx16_fx8_fx8 (kernels/convolution/mli_krn_conv2d_hwcn.cc,
mli_krn_depthwise_conv2d_hwcn.cc, kernels/pooling, kernels/common/mli_krn_fully_connected.cc). -/
def CnnLayer.runW (m : Rnd) (fi : Int) (tin : Tensor) (src : Buf) (l : CnnLayer) : Option (Status × Buf) :=
  match l.op with
  | .conv p => krnConvFx m 32 p.ks p.apart p.f src p.wts p.bias tin p.tw p.tb p.c l.tout l.dst
  | .depthwise p => krnDwFx m 32 p.ks p.apart p.f src p.wts p.bias tin p.tw p.tb p.c l.tout l.dst
  | .maxpool g => krnMaxpool src tin g l.tout l.dst
  | .avepool fo g => krnAvepoolFx m 16 fi fo src tin g l.tout l.dst
  | .dense p => krnFcFx m 16 32 p.apart p.f src p.wts p.bias tin p.tw p.tb l.tout l.dst

/-- The calls of a network, up to the first status that is not `MLI_STATUS_OK`. -/
def runCnnW (m : Rnd) : Int → List CnnLayer → Tensor → Buf → Option (Tensor × Buf)
  | _, [], t, src => some (t, src)
  | fi, l :: ls, t, src =>
    (l.runW m fi t src).bind fun p => if p.1 = .ok then runCnnW m (l.op.frac fi) ls l.tout p.2 else none

end Mli
