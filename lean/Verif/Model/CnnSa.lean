import Verif.Model.AvePool
import Verif.Model.Fc

/-!
# A convolutional network of 8-bit asymmetric layers

The sequence of calls an application makes (as in Model/Cnn.lean), with the kernels for 8-bit asymmetric elements.
-/

namespace Mli

open Spec

/-- The arguments of a layer with weights, apart from input and output: quantization parameters, kernel size the specialisation is for (0 for the general
kernel), configuration, weights and bias, and the verdict on overlapping buffers. -/
structure SaPar where
  q : Sa8Q
  ks : Int
  c : ConvCfg
  tw : Tensor
  tb : Tensor
  wts : Buf
  bias : Buf
  apart : Bool

/-- The kernels a layer can call: mli_krn_conv2d_hwcn_sa8_sa8_sa32, mli_krn_depthwise_conv2d_hwcn_sa8_sa8_sa32, mli_krn_maxpool_hwc_sa8,
mli_krn_avepool_hwc_sa8 (with the quantization parameters of its output) and mli_krn_fully_connected_sa8_sa8_sa32 (which has no geometry). -/
inductive SaOp where
  | conv (p : SaPar)
  | depthwise (p : SaPar)
  | maxpool (g : Geo)
  | avepool (qo : SaQ) (g : Geo)
  | dense (p : SaPar)

/-- A layer: the kernel, the output tensor and the buffer it is in. -/
structure SaLayer where
  op : SaOp
  tout : Tensor
  dst : Buf

/-- One call, for an input with the quantization parameters `qi`.  `full`: `FULL_ACCU`; `b`: bits of the multiplier of average pooling
(`AVEPOOL_16BIT_MUL`). -/
def SaLayer.run (m : Rnd) (full : Bool) (b : Nat) (qi : SaQ) (tin : Tensor) (src : Buf) (l : SaLayer) : Option (Status × Buf) :=
  match l.op with
  | .conv p => krnConvSa8 m full p.ks p.apart p.q src p.wts p.bias tin p.tw p.tb p.c l.tout l.dst
  | .depthwise p => krnDwSa8 m full p.ks p.apart p.q src p.wts p.bias tin p.tw p.tb p.c l.tout l.dst
  | .maxpool g => krnMaxpool src tin g l.tout l.dst
  | .avepool qo g => krnAvepoolSa8 m b qi qo src tin g l.tout l.dst
  | .dense p => krnFcSa8 m full false p.apart p.q src p.wts p.bias tin p.tw p.tb l.tout l.dst

/-- The quantization parameters of the output: maximum pooling keeps those of the input (kernels/pooling/mli_krn_pool_hwc.h:516). -/
def SaOp.quant (qi : SaQ) : SaOp → SaQ
  | .conv p => p.q.qo
  | .depthwise p => p.q.qo
  | .maxpool _ => qi
  | .avepool qo _ => qo
  | .dense p => p.q.qo

/-- The calls of a network. -/
def runCnnSa (m : Rnd) (full : Bool) (b : Nat) : SaQ → List SaLayer → Tensor → Buf → Option (Tensor × Buf)
  | _, [], t, src => some (t, src)
  | qi, l :: ls, t, src =>
    (l.run m full b qi t src).bind fun p => if p.1 = .ok then runCnnSa m full b (l.op.quant qi) ls l.tout p.2 else none

end Mli
