import Verif.Model.Cifar
import Verif.Model.CnnW

/-!
# The CIFAR-10 example network with 8-bit weights

examples/example_cifar10_caffe/cifar10_model_hwcn.c of /repo, configured for 16-bit data with 8-bit weights and biases (`MODEL_FX_8W16D`).
-/

namespace Mli

open Spec

/-- `runPing` with the kernels for 8-bit weights. -/
def runPingW (m : Rnd) : Int → List CnnLayer → Tensor → Buf → Buf → Option (Tensor × Buf × Buf)
  | _, [], t, cur, other => some (t, cur, other)
  | fi, l :: ls, t, cur, other =>
    (CnnLayer.runW m fi t cur { l with dst := other }).bind fun p =>
      if p.1 = .ok then runPingW m (l.op.frac fi) ls l.tout p.2 cur else none

/-- cifar10_constants.h:228-390 the weights of a convolution with `ic` input and `oc` output channels, and a bias, of type int8_t. -/
def cifarWtW (ic oc : Int) : Tensor := { dims := [⟨5, 5 * ic * oc⟩, ⟨5, ic * oc⟩, ⟨ic, oc⟩, ⟨oc, 1⟩], cap := 5 * 5 * ic * oc, es := 1 }
def cifarBiasW (oc : Int) : Tensor := { dims := [⟨oc, 1⟩], cap := oc, es := 1 }

/-- cifar10_constants.h:367-370 the weights of the fully connected layer. -/
def cifarFcWtW : Tensor := { dims := [⟨32 * 16, 10⟩, ⟨10, 1⟩], cap := 32 * 16 * 10, es := 1 }

/-- A convolution of the network, mli_krn_conv2d_hwcn_fx16_fx8_fx8 (cifar10_model_hwcn.c:690-698; not specialised for the kernel size).  The weights have 8
fractional bits (cifar10_constants.h:202-216 with `FRQ_BITS` of :128). -/
def cifarConvW (fi fb fo ic oc : Int) (wts bias : Buf) : CnnOp :=
  .conv ⟨{ fi := fi, fw := 8, fb := fb, fo := fo, relu := .gen }, 0, cifarConvCfg, cifarWtW ic oc, cifarBiasW oc, wts, bias, true⟩

/-- cifar10_model_hwcn.c:420-473 the calls up to the fully connected layer.  The biases have 7, 8, 9 and 9 fractional bits. -/
def cifarLayersW (W : CifarWts) : List CnnLayer :=
  [⟨cifarConvW 7 7 12 3 32 W.w1 W.b1, cifarShape3 (2 * cifarX) 32 32 32, ⟨0, fun _ => 0⟩⟩,
    ⟨.maxpool cifarPool, cifarShape3 (2 * cifarY) 16 16 32, ⟨0, fun _ => 0⟩⟩,
    ⟨cifarConvW 12 8 10 32 16 W.w2 W.b2, cifarShape3 (2 * cifarX) 16 16 16, ⟨0, fun _ => 0⟩⟩,
    ⟨.avepool 12 cifarPool, cifarShape3 (2 * cifarY) 8 8 16, ⟨0, fun _ => 0⟩⟩,
    ⟨cifarConvW 12 9 10 16 32 W.w3 W.b3, cifarShape3 (2 * cifarX) 8 8 32, ⟨0, fun _ => 0⟩⟩,
    ⟨.avepool 12 cifarPool, cifarShape3 (2 * cifarY) 4 4 32, ⟨0, fun _ => 0⟩⟩,
    ⟨.dense ⟨{ fi := 12, fw := 8, fb := 9, fo := 10, relu := .none }, 0, { sh := 1, sw := 1 }, cifarFcWtW, cifarBiasW 10, W.w4, W.b4, true⟩,
      cifarShape1 (2 * cifarX) 10, ⟨0, fun _ => 0⟩⟩]

/-- cifar10_model_hwcn.c:416-478 `cifar10_cf_net(NULL)`, as `cifarNet`. -/
def cifarNetW (m : Rnd) (W : CifarWts) (X Y : Buf) : Option Buf :=
  (runPingW m 7 (cifarLayersW W) cifarIn Y X).bind fun p =>
    (krnSoftmaxFx m expnegLut 16 10 (-1) p.1 cifarOut p.2.1).bind fun q => if q.1 = .ok then some q.2 else none

end Mli
