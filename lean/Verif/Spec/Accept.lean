import Verif.Spec.Arith
import Verif.Spec.Tensor
import Verif.Model.Conv
import Verif.Model.Pool
import Verif.Model.Rnn
import Verif.Model.RnnCell
import Verif.Model.Convert

/-!
# Which arguments a kernel accepts

The conditions, in the words of the API documentation.  All arithmetic is exact.  The structures for the arguments (`Tensor`, `ConvCfg`, `Geo`,
`SaQ`, …) are those of the model; of its functions only `checkTensorPrivate`, the check of a tensor by itself, is used (what it decides is C10).
-/

namespace Mli.Spec

/-- The tensor passes the check of a tensor by itself (C10). -/
def TensorOk (t : Tensor) : Prop := checkTensorPrivate t = some .ok

/-- The elements of the innermost dimension are next to each other. -/
def InnerOne (t : Tensor) : Prop := ∀ s, t.strides.getLast? = some s → s = 1

/-- Strides of a row-major layout without gaps. -/
def denseStrides : List Int → List Int
  | [] => []
  | _ :: ns => prod ns :: denseStrides ns

/-- The tensor is stored without gaps. -/
def Dense (t : Tensor) : Prop := t.strides = denseStrides t.shape

/-- One element only: rank 0, or all sizes 1. -/
def OneElement (t : Tensor) : Prop := t.dims = [] ∨ prod t.shape = 1

/-- Sizes for which the 32-bit arithmetic of the checks is exact. -/
def Moderate (t : Tensor) : Prop := (∀ n ∈ t.shape, 0 ≤ n ∧ n < 2 ^ 22) ∧ prod t.shape < 2 ^ 31

/-- Number of entries of the quantization parameters: one for the whole tensor, or one for each index of the quantized dimension. -/
def entries (t : Tensor) (q : SaQ) : Int := if q.dim < 0 then 1 else t.shape.getD q.dim.toNat 0

/-- The quantization parameters are complete, the scales are positive and the zero points between `zlo` and `zhi`. -/
def QuantOk (t : Tensor) (q : SaQ) (zlo zhi : Int) : Prop :=
  (q.dim < 0 → q.scale.length = 1 ∧ q.zp.length = 1 ∧ q.frac.length = 1) ∧
  (0 ≤ q.dim → q.dim < t.dims.length ∧ entries t q ≤ q.scale.length ∧ entries t q ≤ q.zp.length ∧ entries t q ≤ q.frac.length) ∧
  ∀ k : Nat, (k : Int) < entries t q → 0 < q.scale.getD k 0 ∧ zlo ≤ q.zp.getD k 0 ∧ q.zp.getD k 0 ≤ zhi

/-- The scale of the bias (`sB * 2^-fB`) is the product of the scales of input and weights, rounded to the format of the bias, up to one unit. -/
def BiasScaleOk (m : Rnd) (sIn fIn sW fW sB fB : Int) : Prop := ∃ e, Scaled m (sIn * sW) (fIn + fW - fB) e ∧ -1 ≤ e - sB ∧ e - sB ≤ 1

/-- The bias scales fit those of input and weights, for `n` channels. -/
def BiasOk (m : Rnd) (qi qw qb : SaQ) (n : Nat) : Prop :=
  ∀ k < n, BiasScaleOk m (qi.scaleAt 0) (qi.fracAt 0) (qw.scaleAt k) (qw.fracAt k) (qb.scaleAt k) (qb.fracAt k)

/-- The bias has not more fractional bits than the product, nor has the output. -/
def FormatsOk (f : FxQ) : Prop := f.fb ≤ f.fi + f.fw ∧ f.fo ≤ f.fi + f.fw

/-- Shapes of same-shape kernels (activations, ReLU, …). -/
def MapCall (tin tout : Tensor) : Prop := TensorOk tin ∧ TensorOk tout ∧ tin.shape = tout.shape ∧ InnerOne tin ∧ InnerOne tout

/-- Elements covered by a kernel of `k` elements with dilation `d`. -/
def covered (k d : Int) : Int := (k - 1) * d + 1

/-- The window of `e` elements moved `o` times by `s` stays inside the `n` elements and the padding; the padding is smaller than the window. -/
def WindowFits (n pb pe e s o : Int) : Prop := pb < e ∧ pe < e ∧ 0 < s ∧ (o - 1) * s + e ≤ n + pb + pe

/-- Arguments of a convolution (`dw`: depthwise). -/
def ConvCall (dw : Bool) (ks : Int) (apart : Bool) (tin tw tb : Tensor) (c : ConvCfg) (tout : Tensor) : Prop :=
  TensorOk tin ∧ TensorOk tw ∧ TensorOk tb ∧ TensorOk tout ∧ InnerOne tin ∧ InnerOne tw ∧ InnerOne tb ∧ InnerOne tout ∧ apart = true ∧
  ∃ ih iw ic kh kw kc kn oh ow, tin.shape = [ih, iw, ic] ∧ tw.shape = [kh, kw, kc, kn] ∧ tb.shape = [kn] ∧ tout.shape = [oh, ow, kn] ∧
    (if dw then kc = 1 ∧ kn = ic else kc = ic) ∧ (ks ≠ 0 → kh = ks ∧ kw = ks) ∧ 0 < c.dh ∧ 0 < c.dw ∧
    WindowFits ih c.pt c.pb (covered kh c.dh) c.sh oh ∧ WindowFits iw c.pl c.pr (covered kw c.dw) c.sw ow

/-- Arguments of a group convolution: the weights have the input channels of one group. -/
def GroupCall (ks : Int) (apart : Bool) (tin tw tb : Tensor) (c : ConvCfg) (tout : Tensor) : Prop :=
  TensorOk tin ∧ TensorOk tw ∧ TensorOk tb ∧ TensorOk tout ∧ InnerOne tin ∧ InnerOne tw ∧ InnerOne tb ∧ InnerOne tout ∧ apart = true ∧
  ∃ ih iw ic kh kw kc kn oh ow groups, tin.shape = [ih, iw, ic] ∧ tw.shape = [kh, kw, kc, kn] ∧ tb.shape = [kn] ∧ tout.shape = [oh, ow, kn] ∧
    ic = groups * kc ∧ groups ∣ kn ∧ (ks ≠ 0 → kh = ks ∧ kw = ks) ∧ 0 < c.dh ∧ 0 < c.dw ∧
    WindowFits ih c.pt c.pb (covered kh c.dh) c.sh oh ∧ WindowFits iw c.pl c.pr (covered kw c.dw) c.sw ow

/-- One axis of a transposed convolution: the output has exactly the elements that the kernels reach, without the padding. -/
def TransposeFits (n pb pe k s o : Int) : Prop := pb < k ∧ pe < k ∧ 0 < s ∧ s ≤ k ∧ o = (n - 1) * s + k - pb - pe

/-- Arguments of a transposed convolution. -/
def TransposeCall (apart : Bool) (tin tw tb : Tensor) (c : ConvCfg) (tout : Tensor) : Prop :=
  TensorOk tin ∧ TensorOk tw ∧ TensorOk tb ∧ TensorOk tout ∧ InnerOne tin ∧ InnerOne tw ∧ InnerOne tb ∧ InnerOne tout ∧ apart = true ∧ c.dh = 1 ∧ c.dw = 1 ∧
  ∃ ih iw ic kh kw kn oh ow, tin.shape = [ih, iw, ic] ∧ tw.shape = [kh, kw, ic, kn] ∧ tb.shape = [kn] ∧ tout.shape = [oh, ow, kn] ∧
    TransposeFits ih c.pt c.pb kh c.sh oh ∧ TransposeFits iw c.pl c.pr kw c.sw ow

/-- Arguments of a specialised transposed convolution: stride 2 and kernel size `ks` (0: not specialised). -/
def TransposeSpecial (ks : Int) (tw : Tensor) (c : ConvCfg) : Prop :=
  ks ≠ 0 → c.sh = 2 ∧ c.sw = 2 ∧ tw.shape.getD 0 0 = ks ∧ tw.shape.getD 1 0 = ks

/-- Quantization of a kernel with weights: `d` is the dimension of the output channels of the weights. -/
def WeightsQuant (d : Nat) (m : Rnd) (q : Sa8Q) (tin tw tb tout : Tensor) : Prop :=
  QuantOk tin q.qi (-128) 127 ∧ QuantOk tout q.qo (-128) 127 ∧ QuantOk tw q.qw 0 0 ∧ QuantOk tb q.qb 0 0 ∧ q.qi.dim < 0 ∧ q.qo.dim < 0 ∧
  ((q.qw.dim < 0 ∧ q.qb.dim < 0) ∨ (q.qw.dim = d ∧ q.qb.dim = 0)) ∧ BiasOk m q.qi q.qw q.qb (entries tw q.qw).toNat

/-- Arguments of a fully connected kernel. -/
def FcCall (apart : Bool) (tin tw tb tout : Tensor) : Prop :=
  TensorOk tin ∧ TensorOk tw ∧ TensorOk tb ∧ TensorOk tout ∧ Dense tin ∧ InnerOne tw ∧ InnerOne tb ∧ InnerOne tout ∧ apart = true ∧
  ∃ n, tw.shape = [prod tin.shape, n] ∧ tb.shape = [n] ∧ tout.shape = [n]

/-- Arguments of a pooling kernel specialised for the size `ks` (0: not specialised). -/
def PoolCall (ks : Int) (tin : Tensor) (g : Geo) (tout : Tensor) : Prop :=
  TensorOk tin ∧ TensorOk tout ∧ InnerOne tin ∧ InnerOne tout ∧ (ks ≠ 0 → g.kh = ks ∧ g.kw = ks) ∧
  ∃ ih iw ch oh ow, tin.shape = [ih, iw, ch] ∧ tout.shape = [oh, ow, ch] ∧
    WindowFits ih g.pt g.pb g.kh g.sh oh ∧ WindowFits iw g.pl g.pr g.kw g.sw ow

/-- An element-wise operand: a value, or an accepted tensor. -/
def OperandOk (t : Tensor) : Prop := t.dims = [] ∨ TensorOk t

/-- Arguments of an element-wise kernel. -/
def EltCall (t1 t2 out : Tensor) : Prop :=
  OperandOk t1 ∧ OperandOk t2 ∧ TensorOk out ∧ InnerOne out ∧ ¬ (t1.dims = [] ∧ t2.dims = []) ∧
  (¬ OneElement t1 → InnerOne t1 ∧ t1.shape = out.shape) ∧ (¬ OneElement t2 → InnerOne t2 ∧ (t2.shape = out.shape)) ∧
  (OneElement t1 → t2.shape = out.shape)

/-- Quantization of an element-wise kernel. -/
def EltQuant (t1 t2 out : Tensor) (q1 q2 qo : SaQ) : Prop :=
  QuantOk t1 q1 (-128) 127 ∧ QuantOk t2 q2 (-128) 127 ∧ QuantOk out qo (-128) 127 ∧ q1.dim < 0 ∧ q2.dim < 0 ∧ qo.dim < 0

/-- The parameters of two tensors with one set of parameters each are equal. -/
def SameFormat (q1 q2 : SaQ) : Prop := q1.dim = q2.dim ∧ q1.zpAt 0 = q2.zpAt 0 ∧ q1.scaleAt 0 = q2.scaleAt 0 ∧ q1.fracAt 0 = q2.fracAt 0

/-- One slope: a value, or an accepted tensor of one element. -/
def OneSlope (t : Tensor) : Prop := t.dims = [] ∨ TensorOk t ∧ prod t.shape = 1

/-- Slopes of a parametric ReLU: one for each index of dimension `axis` of the input, with size 1 in all other dimensions. -/
def SlopesOk (axis : Int) (tin slope : Tensor) : Prop :=
  TensorOk slope ∧ InnerOne slope ∧ axis < tin.dims.length ∧
  ∀ i < tin.dims.length, slope.shape.getD i 0 = if (i : Int) = axis then tin.shape.getD i 0 else 1

/-- Quantization of a leaky or parametric ReLU; the zero point of the slope may have 15 bits. -/
def SlopeQuant (tin slope tout : Tensor) (qi qs qo : SaQ) : Prop :=
  QuantOk tin qi (-128) 127 ∧ QuantOk tout qo (-128) 127 ∧ QuantOk slope qs (-2 ^ 14) (2 ^ 14 - 1) ∧ qi.dim < 0 ∧ qo.dim < 0 ∧ qs.dim < 0

/-- Arguments of the argmax kernel: `topk` positions for each index of `axis` (for the whole input if it is negative). -/
def ArgmaxCall (tin tout : Tensor) (axis topk : Int) : Prop :=
  TensorOk tin ∧ TensorOk tout ∧ Dense tout ∧ InnerOne tin ∧ axis < tin.dims.length ∧
  ∃ n, n = (if axis ≥ 0 then tin.shape.getD axis.toNat 0 else 1) ∧ tout.shape = [n, topk] ∧ topk ≤ prod tin.shape / n

/-- Arguments of the permutation kernel: output dimension `k` is input dimension `perm[k]`. -/
def PermuteCall (inT outT : Tensor) (perm : List Nat) (apart : Bool) : Prop :=
  TensorOk inT ∧ TensorOk outT ∧ apart = true ∧ (∀ k < inT.dims.length, perm.getD k 0 < inT.dims.length) ∧
  (∀ j k, j < k → k < inT.dims.length → perm.getD j 0 ≠ perm.getD k 0) ∧
  ∀ k < inT.dims.length, outT.shape.getD k 1 = inT.shape.getD (perm.getD k 0) 1

/-- Inputs of the dense recurrent kernel, all with weights for `n` outputs. -/
def RnnInput (n : Int) (a : RnnArg) : Prop :=
  TensorOk a.tin ∧ TensorOk a.tw ∧ Dense a.tin ∧ InnerOne a.tw ∧ a.tw.shape = [prod a.tin.shape, n] ∧ a.apart = true

/-- Arguments of the dense recurrent kernel. -/
def RnnCall (as : List RnnArg) (tb tout : Tensor) : Prop :=
  1 ≤ as.length ∧ as.length ≤ 4 ∧ TensorOk tb ∧ TensorOk tout ∧ InnerOne tb ∧ Dense tout ∧
  ∃ n, tb.shape = [n] ∧ tout.shape = [n] ∧ ∀ a ∈ as, RnnInput n a

/-- Formats of the dense recurrent kernel: neither the output nor the bias has more fractional bits than the products. -/
def RnnFormats (f : RnnFxQ) (inputs : Nat) : Prop :=
  (∀ k < inputs, f.fo ≤ f.fi.getD k 0 + f.fw.getD k 0) ∧ f.fb ≤ f.fi.getD 0 0 + f.fw.getD 0 0

/-- Quantization of the dense recurrent kernel. -/
def RnnQuant (m : Rnd) (q : RnnSaQ) (as : List RnnArg) (tb tout : Tensor) : Prop :=
  (∀ k (a : RnnArg), as[k]? = some a → QuantOk a.tin (q.qiAt k) (-128) 127 ∧ QuantOk a.tw (q.qwAt k) 0 0 ∧ (q.qiAt k).dim < 0 ∧ (q.qwAt k).dim < 0) ∧
  QuantOk tout q.qo (-128) 127 ∧ QuantOk tb q.qb 0 0 ∧ q.qo.dim < 0 ∧ q.qb.dim < 0 ∧ BiasOk m (q.qiAt 0) (q.qwAt 0) q.qb 1

/-- Arguments of a recurrent cell with `G` gates; `cell` is the cell state, if there is one. -/
def CellOk (G : Int) (a : CellArgs) (cell : List Tensor) : Prop :=
  (∀ t ∈ a.tin :: a.tprev :: a.twi :: a.two :: a.tb :: a.tout :: cell, TensorOk t) ∧
  Dense a.tin ∧ InnerOne a.tprev ∧ InnerOne a.twi ∧ InnerOne a.two ∧ InnerOne a.tb ∧ Dense a.tout ∧ (∀ c ∈ cell, InnerOne c) ∧
  ∃ steps k n, a.tin.shape = [steps, k] ∧ a.tprev.shape = [n] ∧ a.twi.shape = [G, k, n] ∧ a.two.shape = [G, n, n] ∧ a.tb.shape = [G, n] ∧
    (∀ c ∈ cell, c.shape = [n]) ∧ (if a.all then steps else 1) * n * a.tout.es ≤ a.tout.cap ∧ G * n * a.tin.es ≤ a.scrCap ∧
    (a.tin.base * a.tin.es + a.tin.cap ≤ a.scr * a.tin.es ∨ a.scr * a.tin.es + a.scrCap ≤ a.tin.base * a.tin.es)

/-- Quantization of a recurrent cell. -/
def CellQuant (m : Rnd) (q : CellSa) (a : CellArgs) (cell : List Tensor) : Prop :=
  QuantOk a.tin q.qi (-128) 127 ∧ QuantOk a.tout q.qo (-128) 127 ∧ QuantOk a.tprev q.qh (-128) 127 ∧ (∀ c ∈ cell, QuantOk c q.qc (-128) 127) ∧
  QuantOk a.twi q.qwi 0 0 ∧ QuantOk a.two q.qwo 0 0 ∧ QuantOk a.tb q.qb 0 0 ∧
  q.qi.dim < 0 ∧ q.qo.dim < 0 ∧ q.qh.dim < 0 ∧ (cell ≠ [] → q.qc.dim < 0) ∧
  ((q.qwi.dim < 0 ∧ q.qwo.dim < 0 ∧ q.qb.dim < 0) ∨ (q.qwi.dim = 0 ∧ q.qwo.dim = 0 ∧ q.qb.dim = 0)) ∧
  BiasOk m q.qi q.qwi q.qb (entries a.twi q.qwi).toNat

/-- An accepted tensor with its number format. -/
def QTensorOk (a : QTensor) : Prop := TensorOk a.t ∧ (a.ty.isSa = true → QuantOk a.t a.q (-2 ^ 15) (2 ^ 15 - 1))

/-- Arguments of a conversion; in one memory, tensors at the same place must have the same strides. -/
def ConvertCall (oneMem : Bool) (src dst : QTensor) : Prop :=
  QTensorOk src ∧ QTensorOk dst ∧ src.t.shape = dst.t.shape ∧ InnerOne src.t ∧ InnerOne dst.t ∧
  (oneMem = true → src.ty = dst.ty → src.t.dims ≠ [] → dst.t.dims ≠ [] → src.t.base = dst.t.base → src.t.strides.dropLast = dst.t.strides.dropLast) ∧
  (src.ty.isSa = true → dst.ty.isSa = true → src.q.dim = dst.q.dim ∨ src.q.dim < 0 ∨ dst.q.dim < 0)

/-- A call which returns reports success exactly if `cond` holds, and if it reports anything else the memory is as before. -/
def Decides {β : Type} (cond : Prop) (before : β) (r : Option (Status × β)) : Prop :=
  ∀ s after, r = some (s, after) → (s = .ok ↔ cond) ∧ (s ≠ .ok → after = before)

end Mli.Spec
