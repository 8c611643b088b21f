import Verif.Model.Cnn
import Verif.Model.Softmax

/-!
# The CIFAR-10 example network

examples/example_cifar10_caffe/cifar10_model_hwcn.c of /repo, configured for 16-bit fixed point (`MODEL_FX_16`).  Two intermediate buffers take turns: a
layer reads one and writes the other.
-/

namespace Mli

open Spec

/-- The calls of a network whose layers read one of two buffers and write the other (`l.dst` is not used).  The application does not look at the status
(cifar10_model_hwcn.c:417-478 "Version A"); a status that is not `MLI_STATUS_OK` ends the run here. -/
def runPing (m : Rnd) : Int → List CnnLayer → Tensor → Buf → Buf → Option (Tensor × Buf × Buf)
  | _, [], t, cur, other => some (t, cur, other)
  | fi, l :: ls, t, cur, other =>
    (CnnLayer.run m fi t cur { l with dst := other }).bind fun p =>
      if p.1 = .ok then runPing m (l.op.frac fi) ls l.tout p.2 cur else none

/-- The contents of L1_conv_wt_buf, L1_conv_bias_buf, …, L4_fc_bias_buf. -/
structure CifarWts where
  w1 : Buf
  b1 : Buf
  w2 : Buf
  b2 : Buf
  w3 : Buf
  b3 : Buf
  w4 : Buf
  b4 : Buf

/-- cifar10_model_hwcn.c:50-58 `set_mli_tensor_shape3` for a tensor with `cap` bytes. -/
def cifarShape3 (cap a b c : Int) : Tensor := { dims := [⟨a, c * b⟩, ⟨b, c⟩, ⟨c, 1⟩], cap := cap, es := 2 }

/-- cifar10_model_hwcn.c:44-48 `set_mli_tensor_shape1`. -/
def cifarShape1 (cap a : Int) : Tensor := { dims := [⟨a, 1⟩], cap := cap, es := 2 }

/-- cifar10_model_hwcn.c:62-66 the sizes of x_mem_buf and y_mem_buf, in elements. -/
def cifarX : Int := 32 * 32 * 32
def cifarY : Int := 32 * 16 * 16

/-- cifar10_model_hwcn.c:70-90 `input`, in y_mem_buf. -/
def cifarIn : Tensor := { dims := [⟨32, 96⟩, ⟨32, 3⟩, ⟨3, 1⟩], cap := 2 * (32 * 32 * 3), es := 2 }

/-- cifar10_model_hwcn.c:91-110 `output`, in x_mem_buf. -/
def cifarOut : Tensor := { dims := [⟨10, 1⟩], cap := 2 * 10, es := 2 }

/-- cifar10_constants.h:228-390 the weights of a convolution with `ic` input and `oc` output channels, and a bias. -/
def cifarWt (ic oc : Int) : Tensor := { dims := [⟨5, 5 * ic * oc⟩, ⟨5, ic * oc⟩, ⟨ic, oc⟩, ⟨oc, 1⟩], cap := 2 * (5 * 5 * ic * oc), es := 2 }
def cifarBias (oc : Int) : Tensor := { dims := [⟨oc, 1⟩], cap := 2 * oc, es := 2 }

/-- cifar10_constants.h:367-370 the weights of the fully connected layer. -/
def cifarFcWt : Tensor := { dims := [⟨32 * 16, 10⟩, ⟨10, 1⟩], cap := 2 * (32 * 16 * 10), es := 2 }

/-- cifar10_model_hwcn.c:133-139 `shared_conv_cfg`. -/
def cifarConvCfg : ConvCfg := { sh := 1, sw := 1, pt := 2, pb := 2, pl := 2, pr := 2, dh := 1, dw := 1 }

/-- cifar10_model_hwcn.c:141-146 `shared_pool_cfg`. -/
def cifarPool : Geo := { kh := 3, kw := 3, sh := 2, sw := 2, pt := 0, pb := 1, pl := 0, pr := 1 }

/-- A convolution of the network, mli_krn_conv2d_hwcn_fx16_k5x5 (cifar10_model_hwcn.c:669-676).  The weights have 16 fractional bits
(cifar10_constants.h:202-216 with `FRQ_BITS` of :128). -/
def cifarConv (fi fb fo ic oc : Int) (wts bias : Buf) : CnnOp :=
  .conv ⟨{ fi := fi, fw := 16, fb := fb, fo := fo, relu := .gen }, 5, cifarConvCfg, cifarWt ic oc, cifarBias oc, wts, bias, true⟩

/-- cifar10_model_hwcn.c:420-473 the calls up to the fully connected layer.  The format of the output of both average poolings is the one maximum pooling
has left in `ir_tensor_Y` (12 fractional bits, mli_krn_pool_hwc.h:516): the 16-bit version does not set it. -/
def cifarLayers (W : CifarWts) : List CnnLayer :=
  [⟨cifarConv 7 15 12 3 32 W.w1 W.b1, cifarShape3 (2 * cifarX) 32 32 32, ⟨0, fun _ => 0⟩⟩,
    ⟨.maxpool cifarPool, cifarShape3 (2 * cifarY) 16 16 32, ⟨0, fun _ => 0⟩⟩,
    ⟨cifarConv 12 16 10 32 16 W.w2 W.b2, cifarShape3 (2 * cifarX) 16 16 16, ⟨0, fun _ => 0⟩⟩,
    ⟨.avepool 12 cifarPool, cifarShape3 (2 * cifarY) 8 8 16, ⟨0, fun _ => 0⟩⟩,
    ⟨cifarConv 12 17 10 16 32 W.w3 W.b3, cifarShape3 (2 * cifarX) 8 8 32, ⟨0, fun _ => 0⟩⟩,
    ⟨.avepool 12 cifarPool, cifarShape3 (2 * cifarY) 4 4 32, ⟨0, fun _ => 0⟩⟩,
    ⟨.dense ⟨{ fi := 12, fw := 16, fb := 17, fo := 10, relu := .none }, 0, { sh := 1, sw := 1 }, cifarFcWt, cifarBias 10, W.w4, W.b4, true⟩,
      cifarShape1 (2 * cifarX) 10, ⟨0, fun _ => 0⟩⟩]

/-- cifar10_model_hwcn.c:416-478 `cifar10_cf_net(NULL)` for the contents `X` and `Y` of the buffers (`Y` holds the image): the contents of x_mem_buf, which
`output` is in.  The softmax (cifar10_model_hwcn.c:622-626, over the whole tensor) works in place; its table is the one `cifar10_cf_init` (:402-408)
fills, see C82. -/
def cifarNet (m : Rnd) (W : CifarWts) (X Y : Buf) : Option Buf :=
  (runPing m 7 (cifarLayers W) cifarIn Y X).bind fun p =>
    (krnSoftmaxFx m expnegLut 16 10 (-1) p.1 cifarOut p.2.1).bind fun q => if q.1 = .ok then some q.2 else none

end Mli
