import Verif.Model.AvePool
import Verif.Model.Conv

/-!
# Run-time kernels on batches

The run-time objects keep three-dimensional tensors of one batch element and go through the batch in `Issue`.
-/

namespace Mli

/-- The tensor with its data pointer advanced by `n` elements. -/
def Tensor.shift (t : Tensor) (n : Int) : Tensor := { t with base := t.base + n }

/-- kernels/pooling/mli_krn_maxpool_runtime.cc:100-123 `MaxPool2D::Issue`: `n` is the batch size of the
tile, `si` and `so` the batch strides; no check is made at run time. -/
def maxpoolIssueN (n : Nat) (si so : Int) (src : Buf) (tin : Tensor) (g : Geo) (tout : Tensor) (dst : Buf) : Option Buf :=
  forRange n (fun b d => poolHwc reduceMax src g (tin.shift (b * si)) (tout.shift (b * so)) d) dst

/-- kernels/pooling/mli_krn_sumpool_runtime.cc:96-112 `SumPool2D::Issue`. -/
def sumpoolIssueN (n : Nat) (si so : Int) (src : Buf) (tin : Tensor) (g : Geo) (tout : Tensor) (dst : Buf) : Option Buf :=
  forRange n (fun b d => poolHwc sumOp src g (tin.shift (b * si)) (tout.shift (b * so)) d) dst

/-- kernels/convolution/mli_krn_depthwise_conv2d_runtime.cc:72-112 `DepthwiseConv2d::Issue`: the local buffer objects
`curr_inp_buf` and `curr_out_buf` are advanced after each batch element, but the tensors hold copies of them
(lines 86-89, include/mli_types.hpp 682-684 `Tensor::set_buf`) and keep pointing to batch element 0.  The batch strides
`si` and `so` have no influence. -/
def depthwiseIssueN (n : Nat) (_si _so : Int) (zx zw : Int) (src wts : Buf) (tin tw : Tensor) (c : ConvCfg) (tout : Tensor) (dst : Buf) :
    Option Buf :=
  forRange n (fun _ d => depthwiseIssue zx zw src wts tin tw c tout d) dst

end Mli
