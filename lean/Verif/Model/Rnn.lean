import Verif.Model.Fc

/-!
# Model of the RNN dense kernels (`lib/src/kernels/common/mli_krn_rnn_dense.h`, `lib/src/bricks/impl/mli_krn_rnn_dense_op_ref.h`)

Inputs, weights, bias and output are different buffers; sizes and positions are not wrapped to `int`.
-/

namespace Mli

open Spec (lo hi InRange Rnd)

/-- One input of `rnn_dense_op`: `n` elements at `p`, weights at `wp` with `ws` elements from one input to the next, zero points, and the
requantization of its accumulator. -/
structure RnnIn where
  src : Buf
  p : Int
  n : Int
  wts : Buf
  wp : Int
  ws : Int
  zx : Int := 0
  zw : Int := 0
  req : Int → Int

/-- The zero points as the functions of the convolution kernels take them. -/
def RnnIn.q (aw : Nat) (i : RnnIn) : ConvQ := { aw := aw, zx := i.zx, zw := i.zw }

/-- mli_krn_rnn_dense_op_ref.h:139-145: the part of an accumulator that does not depend on the output. -/
def rnnAdditive (aw : Nat) (i : RnnIn) : Option Int :=
  (inAdd2D (i.q aw) i.src i.p 0 i.n 1 1 1).bind fun a => zpAdd (i.q aw) a i.n

/-- mli_krn_rnn_dense_op_ref.h:156-167: the contribution of one input to output `o`, for the accumulator `accu` and the additive `other`. -/
def rnnTerm (aw : Nat) (o : Int) (accu other : Int) (i : RnnIn) : Option Int :=
  (dotprod1D aw i.src i.wts i.p (i.wp + o) accu i.n 1 i.ws).bind fun acc =>
  (wAdd3D (i.q aw) i.wts (i.wp + o) acc i.n 1 1 i.ws 1 1).map fun acc => i.req (addFx aw acc other)

/-- mli_krn_rnn_dense_op_ref.h:155-170: the loop over the inputs; the accumulator is 0 again after the first one. -/
def rnnSum (aw : Nat) (o : Int) : List (RnnIn × Int) → Int → Int → Option Int
  | [], _, res => some res
  | (i, other) :: is, accu, res => (rnnTerm aw o accu other i).bind fun ir => rnnSum aw o is 0 (addFx aw res ir)

/-- mli_krn_rnn_dense_op_ref.h:124-175 `rnn_dense_op`: `m` outputs at `op`; `biasAdd` adds a bias to an accumulator of 0 with the parameters of
the first input, `store` converts the sum to the output type. -/
def rnnDenseOp (aw : Nat) (ins : List RnnIn) (biasAdd store : Int → Int) (bias : Buf) (bp op m : Int) (d : Buf) : Option Buf :=
  (ins.mapM (rnnAdditive aw)).bind fun others =>
  forRange m.toNat (fun (o : Nat) d =>
    (bias.rd (bp + o)).bind fun b =>
    (rnnSum aw o (ins.zip others) (biasAdd b) 0).bind fun r => d.wr (op + o) (store r)) d

/-- mli_prv_quant_ref.h:594-612 `ir_rnn_result_requantize` of the fixed-point kernels, with `mli_math_acc_ashift_fx` (mli_math.h:250-258). -/
def rnnReqFx (m : Rnd) (aw : Nat) (shift acc : Int) : Int :=
  if aw = 64 then asrRndFx m 64 acc (minFx shift 39) else asrRndFx m aw acc shift

/-- mli_prv_quant_ref.h:614-628 `ir_rnn_result_requantize` for `s8asym`, after `adjust_quant_params`. -/
def rnnReqSa (m : Rnd) (full : Bool) (rt : Int × Int) (sW fW acc : Int) : Int :=
  let ms := adjustQuant full rt.1 rt.2 sW fW
  castFx m 64 32 (acc * ms.1) (minFx ms.2 63)

/-- mli_prv_quant_ref.h:553-575 `ir_result_cast_relu_store` of the fixed-point kernels, without a ReLU. -/
def rnnStoreFx (aw : Nat) (fo acc : Int) : Int := applyLimits (reluLimits 16 .none 0 1 fo) (castFx0 aw 16 acc)

/-- mli_prv_quant_ref.h:577-592 `ir_result_cast_relu_store` for `s8asym`, without a ReLU. -/
def rnnStoreSa (m : Rnd) (qo : SaQ) (acc : Int) : Int :=
  applyLimits (reluLimits 8 .none (qo.zpAt 0) (qo.scaleAt 0) (qo.fracAt 0)) (castFx m 16 8 (addFx 16 (castFx0 32 16 acc) (qo.zpAt 0)) 0)

/-- An input tensor of `mli_krn_rnn_dense` and its weights; `apart` is the result of the overlap check with the output. -/
structure RnnArg where
  src : Buf
  tin : Tensor
  wts : Buf
  tw : Tensor
  apart : Bool

/-- mli_krn_rnn_dense.h:48-52, 69-77: pointers, size and stride of an input and its weights. -/
def RnnArg.toIn (a : RnnArg) (zx zw : Int) (req : Int → Int) : RnnIn :=
  { src := a.src, p := a.tin.base, n := countElemNum a.tin, wts := a.wts, wp := a.tw.base,
    ws := if a.tw.strides.getD 0 0 ≠ 0 then a.tw.strides.getD 0 0 else a.tw.shape.getD 1 0, zx := zx, zw := zw, req := req }

/-- private/src/mli_check.cc:2056-2080: one input and its weights. -/
def chkRnnIn (m0 : Int) (a : RnnArg) : Option Status :=
  (chkTensors [a.tin, a.tw]).bind fun s =>
    if s ≠ .ok then some s
    else match a.tw.dims with
    | [wi, wo] =>
      if ¬ (countElemNum a.tin = wi.shape ∧ wo.shape = m0) then some .shapeMismatch
      else if !(isContig a.tin && innerOne a.tw) then some .incompatibleTensors
      else if !a.apart then some .incompatibleTensors
      else some .ok
    | _ => some .shapeMismatch

/-- private/src/mli_check.cc:2056-2081: the loop over the inputs. -/
def chkRnnIns (m0 : Int) : List RnnArg → Option Status
  | [] => some .ok
  | a :: as => (chkRnnIn m0 a).bind fun s => if s ≠ .ok then some s else chkRnnIns m0 as

/-- private/src/mli_check.cc:2083-2106: bias and output. -/
def chkRnnOut (m0 : Int) (tb tout : Tensor) : Option Status :=
  (chkTensors [tb]).bind fun s =>
    if s ≠ .ok then some s
    else match tb.dims with
    | [bn] =>
      if ¬ m0 = bn.shape then some .shapeMismatch
      else (chkTensors [tout]).bind fun s =>
        if s ≠ .ok then some s
        else match tout.dims with
        | [on] =>
          if ¬ on.shape = bn.shape then some .shapeMismatch
          else if !(innerOne tb && isContig tout) then some .incompatibleTensors
          else some .ok
        | _ => some .shapeMismatch
    | _ => some .shapeMismatch

/-- Number of outputs: `weights[0]->shape[1]`. -/
def rnnOuts (as : List RnnArg) : Int := ((as.map fun a => a.tw.shape.getD 1 0).head?).getD 0

/-- private/src/mli_check.cc:2038-2109 `mli_chk_rnn_dense`, for matching element types and non-null pointers; `MLI_RNN_MAX_INPUT` is 4. -/
def chkRnn (as : List RnnArg) (tb tout : Tensor) : Option Status :=
  if ¬ (0 < as.length ∧ as.length ≤ 4) then some .badFuncCfg
  else (chkRnnIns (rnnOuts as) as).bind fun s => if s ≠ .ok then some s else chkRnnOut (rnnOuts as) tb tout

/-- Fractional bits of the fixed-point kernels: of the inputs, of their weights, of bias and output. -/
structure RnnFxQ where
  fi : List Int
  fw : List Int
  fb : Int
  fo : Int
deriving DecidableEq, Repr

/-- private/src/mli_check.cc:2111-2175 `mli_chk_rnn_dense_fx16`, `_fx16_fx8_fx8`. -/
def chkRnnFx (f : RnnFxQ) (as : List RnnArg) (tb tout : Tensor) : Option Status :=
  (chkRnn as tb tout).bind fun s =>
    if s ≠ .ok then some s
    else if ¬ ∀ k < as.length, f.fo ≤ f.fi.getD k 0 + f.fw.getD k 0 then some .incompatibleTensors
    else if ¬ f.fb ≤ f.fi.getD 0 0 + f.fw.getD 0 0 then some .incompatibleTensors
    else some .ok

/-- kernels/common/mli_krn_rnn_dense.cc:43-76 `mli_krn_rnn_dense_fx16` (`aw = 64`) and `_fx16_fx8_fx8` (`aw = 32`) with
`rnn_dense_prepare_and_run` (mli_krn_rnn_dense.h:29-87). -/
def krnRnnFx (m : Rnd) (aw : Nat) (f : RnnFxQ) (as : List RnnArg) (bias : Buf) (tb tout : Tensor) (dst : Buf) : Option (Status × Buf) :=
  (chkRnnFx f as tb tout).bind fun s =>
    if s ≠ .ok then some (s, dst)
    else
      (rnnDenseOp aw (as.mapIdx fun k a => a.toIn 0 0 (rnnReqFx m aw (f.fi.getD k 0 + f.fw.getD k 0 - f.fo)))
        (fun b => biasFx m aw (f.fi.getD 0 0 + f.fw.getD 0 0 - f.fb) b 0) (rnnStoreFx aw f.fo) bias tb.base tout.base (countElemNum tb) dst).map
        fun dst' => (.ok, dst')

/-- Quantization of the 8-bit kernel: of the inputs, of their weights, of bias and output. -/
structure RnnSaQ where
  qi : List SaQ
  qw : List SaQ
  qb : SaQ
  qo : SaQ
deriving DecidableEq, Repr

/-- Parameters of input `k` (of the first one when there are fewer entries; the number of entries is that of the inputs). -/
def RnnSaQ.qiAt (q : RnnSaQ) (k : Nat) : SaQ := q.qi.getD k q.qo
/-- Parameters of the weights of input `k`. -/
def RnnSaQ.qwAt (q : RnnSaQ) (k : Nat) : SaQ := q.qw.getD k q.qo

/-- private/src/mli_check.cc:2195-2204: the loop over the inputs; the quantized dimensions are looked at after it. -/
def chkRnnQuant (q : RnnSaQ) : Nat → List RnnArg → Status
  | _, [] => .ok
  | k, a :: as =>
    if chkQuant a.tin (q.qiAt k) 7 ≠ .ok then chkQuant a.tin (q.qiAt k) 7
    else if chkQuant a.tw (q.qwAt k) 0 ≠ .ok then chkQuant a.tw (q.qwAt k) 0
    else chkRnnQuant q (k + 1) as

/-- private/src/mli_check.cc:2177-2218 `mli_chk_rnn_dense_sa8_sa8_sa32`. -/
def chkRnnSa (m : Rnd) (q : RnnSaQ) (as : List RnnArg) (tb tout : Tensor) : Option Status :=
  (chkRnn as tb tout).bind fun s =>
    if s ≠ .ok then some s
    else if chkRnnQuant q 0 as ≠ .ok then some (chkRnnQuant q 0 as)
    else if chkQuant tout q.qo 7 ≠ .ok then some (chkQuant tout q.qo 7)
    else if chkQuant tb q.qb 0 ≠ .ok then some (chkQuant tb q.qb 0)
    else if ¬ ((∀ k < as.length, (q.qiAt k).dim < 0 ∧ (q.qwAt k).dim < 0) ∧ q.qo.dim < 0 ∧ q.qb.dim < 0) then some .incompatibleTensors
    else chkBiasLoop m (q.qiAt 0) (q.qwAt 0) q.qb 1 0

/-- `define_quant_params` (mli_prv_quant_ref.h:103-153) for each input: ratio of the scales and its shift. -/
def rnnRatio (m : Rnd) (q : RnnSaQ) (k : Nat) : Option (Int × Int) :=
  inToOut m ((q.qiAt k).scaleAt 0) ((q.qiAt k).fracAt 0) (q.qo.scaleAt 0) (q.qo.fracAt 0)

/-- kernels/common/mli_krn_rnn_dense.cc:78-93 `mli_krn_rnn_dense_sa8_sa8_sa32`. -/
def krnRnnSa (m : Rnd) (full : Bool) (q : RnnSaQ) (as : List RnnArg) (bias : Buf) (tb tout : Tensor) (dst : Buf) : Option (Status × Buf) :=
  (chkRnnSa m q as tb tout).bind fun s =>
    if s ≠ .ok then some (s, dst)
    else
      ((List.range as.length).mapM (rnnRatio m q)).bind fun rts =>
      (rnnDenseOp 32 (as.mapIdx fun k a => a.toIn ((q.qiAt k).zpAt 0) ((q.qwAt k).zpAt 0)
          (rnnReqSa m full (rts.getD k (0, 0)) ((q.qwAt k).scaleAt 0) ((q.qwAt k).fracAt 0)))
        (fun b => biasS8 full b 0) (rnnStoreSa m q.qo) bias tb.base tout.base (countElemNum tb) dst).map fun dst' => (.ok, dst')

end Mli
