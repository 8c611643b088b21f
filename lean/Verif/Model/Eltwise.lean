import Verif.Model.Quant

/-!
# Model of the element-wise kernels (`lib/src/kernels/eltwise/impl/mli_krn_eltwise_ref.h`)
-/

namespace Mli

open Spec (lo hi InRange Rnd)

/-- kernels/eltwise/mli_krn_eltwise_decl.h `mli_eltwise_type`. -/
inductive EltOp
  | add | sub | mul | max | min
deriving DecidableEq, Repr

/-- mli_krn_eltwise_ref.h:243-254 `convert_params`, without the scalar flags. -/
structure EltParams where
  pre1 : Int := 0
  pre2 : Int := 0
  post : Int := 0
  scale1 : Int := 1
  scale2 : Int := 1
  off1 : Int := 0
  off2 : Int := 0
  offOut : Int := 0
deriving DecidableEq, Repr

/-- mli_krn_eltwise_ref.h:38-104 `eltwise_perform_operation` with `convert = false` for elements of
`w` bits.  The accumulator has 64 bits, or the width of the elements for MAX and MIN. -/
def eltFx (m : Rnd) (w : Nat) (op : EltOp) (p : EltParams) (a b : Int) : Int :=
  let in1 := asrRndFx m 32 a p.pre1
  let in2 := asrRndFx m 32 b p.pre2
  match op with
  | .add => castFx m 64 w (addFx 32 in1 in2) p.post
  | .sub => castFx m 64 w (subFx 32 in1 in2) p.post
  | .mul => castFx m 64 w (in1 * in2) p.post
  | .max => castFxSame m w (wrap w (maxFx in1 in2)) p.post
  | .min => castFxSame m w (wrap w (minFx in1 in2)) p.post

/-- mli_krn_eltwise_ref.h:96-99, 134-136: the zero point of the output is added in 16 bits. -/
def eltSaOut (m : Rnd) (tmp offOut : Int) : Int := castFx m 16 8 (addFx 16 tmp offOut) 0

/-- mli_krn_eltwise_ref.h:38-104 with `convert = true` and 107-139 (specialisation for MUL): SA8
elements. -/
def eltSa (m : Rnd) (op : EltOp) (p : EltParams) (a b : Int) : Int :=
  let d1 := subFx 16 a p.off1
  let d2 := subFx 16 b p.off2
  match op with
  | .mul =>
    let acc := wrap 32 (d1 * d2)
    let target := 32 - 8 - 3
    let preshift := minFx (maxFx (p.post - target) 0) 3
    let shift := p.post - preshift
    let r := castFx m 32 16 acc preshift
    eltSaOut m (castFx m 32 16 (r * p.scale1) shift) p.offOut
  | .add =>
    let in1 := asrRndFx m 32 (d1 * p.scale1) p.pre1
    let in2 := asrRndFx m 32 (d2 * p.scale2) p.pre2
    eltSaOut m (castFx m 64 16 (addFx 32 in1 in2) p.post) p.offOut
  | .sub =>
    let in1 := asrRndFx m 32 (d1 * p.scale1) p.pre1
    let in2 := asrRndFx m 32 (d2 * p.scale2) p.pre2
    eltSaOut m (castFx m 64 16 (subFx 32 in1 in2) p.post) p.offOut
  | .max => eltSaOut m (castFx m 32 16 (maxFx (d1 * p.scale1) (d2 * p.scale2)) p.post) p.offOut
  | .min => eltSaOut m (castFx m 32 16 (minFx (d1 * p.scale1) (d2 * p.scale2)) p.post) p.offOut

/-- mli_krn_eltwise_ref.h:316-340 `calc_convert_params` with `convert = false`: fractional bits of
the operands and the result. -/
def eltParamsFx (w : Nat) (op : EltOp) (f1 f2 fo : Int) : EltParams :=
  match op with
  | .mul => { post := min (f1 + f2 - fo) (2 * w - 1) }
  | .max | .min => { post := min (f1 - fo) (w - 1) }
  | .add | .sub =>
    { pre1 := min (f1 - f2) 0, pre2 := min (f2 - f1) 0, post := min (max f1 f2 - fo) (2 * w - 1) }

/-- Zero point, scale and scale fraction bits of an SA8 tensor with per-tensor quantisation. -/
structure SaParams where
  zp : Int
  scale : Int
  frac : Int
deriving DecidableEq, Repr

/-- mli_krn_eltwise_ref.h:257-315 `calc_convert_params` with `convert = true`. -/
def eltParamsSa (m : Rnd) (op : EltOp) (q1 q2 qo : SaParams) : EltParams :=
  match op with
  | .max | .min =>
    let n1 := normCastFx m 32 32 q1.scale
    let f := n1.1.tdiv qo.scale
    let post := q1.frac - qo.frac - n1.2
    let n2 := normCastFx m 32 16 f
    let post := post - n2.2
    let shift := max (post - 23) 0 + min (31 + post) 0
    let sc := asrRndFx m 16 n2.1 shift
    { post := post - shift, scale1 := sc, scale2 := sc, off1 := q1.zp, off2 := q2.zp, offOut := qo.zp }
  | .mul =>
    let n1 := normCastFx m 32 32 (q1.scale * q2.scale)
    let f := n1.1.tdiv qo.scale
    let post := q1.frac + q2.frac - qo.frac - n1.2
    let n2 := normCastFx m 32 16 f
    let post := post - n2.2
    let shift := max (post - 31) 0 + min (31 + post) 0
    { post := post - shift, scale1 := asrRndFx m 16 n2.1 shift, off1 := q1.zp, off2 := q2.zp, offOut := qo.zp }
  | .add | .sub =>
    let n1 := normCastFx m 32 32 q1.scale
    let n2 := normCastFx m 32 32 q2.scale
    let f1 := n1.1.tdiv qo.scale
    let f2 := n2.1.tdiv qo.scale
    let pre1 := -n1.2 + q1.frac - qo.frac
    let pre2 := -n2.2 + q2.frac - qo.frac
    let k1 := normCastFx m 32 16 f1
    let k2 := normCastFx m 32 16 f2
    let pre1 := pre1 - k1.2
    let pre2 := pre2 - k2.2
    let s1 := max (pre1 - 23) 0 + min (31 + pre1) 0
    let s2 := max (pre2 - 23) 0 + min (31 + pre2) 0
    { pre1 := pre1 - s1, pre2 := pre2 - s2, scale1 := asrRndFx m 16 k1.1 s1, scale2 := asrRndFx m 16 k2.1 s2,
      off1 := q1.zp, off2 := q2.zp, offOut := qo.zp }

/-- An input tensor; a tensor of rank 0 holds its value `imm` in place of the data pointer. -/
structure Operand where
  t : Tensor
  imm : Int := 0
deriving DecidableEq, Repr

/-- private/mli_prv_tensor.h:263-309 `mli_prv_tensor_data_val`. -/
def Operand.val (o : Operand) (mem : Buf) : Option Int :=
  if o.t.dims.length = 0 then some o.imm else mem.rd o.t.base

/-- private/src/mli_check.cc:238-243 `mli_tensor_is_scalar`. -/
def isScalar (t : Tensor) : Bool := t.dims.length = 0 || countElemNum t = 1

/-- private/src/mli_check.cc:211-236 `mli_chk_scalar_tensor` (quantisation parameters in order). -/
def chkScalarTensor (t : Tensor) : Option Status := do
  if t.dims.length = 0 then return .ok
  let s ← checkTensorPrivate t
  if s ≠ .ok then return s
  if countElemNum t = 1 then return .ok else return .shapeMismatch

/-- private/src/mli_check.cc:1541-1552: check of one operand. -/
def chkOperand (t : Tensor) : Option Status := if isScalar t then chkScalarTensor t else checkTensorPrivate t

/-- private/src/mli_check.cc:1530-1591 `mli_chk_eltwise`, for equal element types and non-null
pointers. -/
def chkEltwise (t1 t2 out : Tensor) : Option Status := do
  let s ← chkOperand t1
  if s ≠ .ok then return s
  let s ← chkOperand t2
  if s ≠ .ok then return s
  let s ← checkTensorPrivate out
  if s ≠ .ok then return s
  if ¬ (t1.dims.length > 0 ∨ t2.dims.length > 0) then return .notSupported
  if (!isScalar t1 && !innerOne t1) || (!isScalar t2 && !innerOne t2) || !innerOne out then
    return .incompatibleTensors
  if (!isScalar t1 && !isScalar t2 && !sameShape t1 t2) ||
      (if !isScalar t1 then !sameShape t1 out else !sameShape t2 out) then
    return .shapeMismatch
  return .ok

/-- mli_krn_eltwise_ref.h:343-474 `eltwise_prepare_and_run` (without the MLI 3.0 template flags),
eltwise_innerloop 141-172 and eltwise_op_basic 174-239: `g` is the operation on elements.
`mem` holds the elements of all tensors. -/
def eltwiseRun (g : Int → Int → Int) (o1 o2 : Operand) (out : Tensor) (mem : Buf) : Option Buf := do
  let s1 : Bool := countElemNum o1.t = 1
  let s2 : Bool := countElemNum o2.t = 1
  let v1 ← o1.val mem
  let v2 ← o2.val mem
  if s1 && !s2 then
    traverse (joint2 o2.t.dims out.dims) (fun a d =>
      (d.rd (o2.t.base + a 0)).bind fun y => d.wr (out.base + a 1) (g v1 y)) mem
  else if !s1 && s2 then
    traverse (joint2 o1.t.dims out.dims) (fun a d =>
      (d.rd (o1.t.base + a 0)).bind fun x => d.wr (out.base + a 1) (g x v2)) mem
  else if !s1 && !s2 then
    traverse (joint3 o1.t.dims o2.t.dims out.dims) (fun a d =>
      (d.rd (o1.t.base + a 0)).bind fun x =>
      (d.rd (o2.t.base + a 1)).bind fun y => d.wr (out.base + a 2) (g x y)) mem
  else mem.wr out.base (g v1 v2)

/-- kernels/eltwise/mli_krn_eltwise_{add,sub,mul,max,min}_fx.cc:28-47: the fx8/fx16 kernels (`w` is the
element width); MAX and MIN require one format for both inputs (mli_check.cc:1593-1641). -/
def krnEltwiseFx (m : Rnd) (w : Nat) (op : EltOp) (f1 f2 fo : Int) (o1 o2 : Operand) (out : Tensor) (mem : Buf) :
    Option (Status × Buf) := do
  let s ← chkEltwise o1.t o2.t out
  if s ≠ .ok then return (s, mem)
  if (op = .max ∨ op = .min) ∧ f1 ≠ f2 then return (.incompatibleTensors, mem)
  let mem' ← eltwiseRun (eltFx m w op (eltParamsFx w op f1 f2 fo)) o1 o2 out mem
  return (.ok, mem')

/-- private/src/mli_check.cc:1605-1614 `check_same_data_format` for SA tensors; for parameters per axis the code compares
pointers, here their first entries are compared (such tensors are refused either way). -/
def sameFormatSa (q1 q2 : SaQ) : Bool :=
  q1.dim = q2.dim && q1.zpAt 0 = q2.zpAt 0 && q1.scaleAt 0 = q2.scaleAt 0 && q1.fracAt 0 = q2.fracAt 0

/-- private/src/mli_check.cc:1653-1664, 1696-1707: the quantisation parameters of the tensors, in this order. -/
def chkEltQuant (t1 t2 out : Tensor) (q1 q2 qo : SaQ) : Status :=
  if chkQuant t1 q1 7 ≠ .ok then chkQuant t1 q1 7
  else if chkQuant t2 q2 7 ≠ .ok then chkQuant t2 q2 7
  else if chkQuant out qo 7 ≠ .ok then chkQuant out qo 7
  else if ¬ (q1.dim < 0 ∧ q2.dim < 0 ∧ qo.dim < 0) then .incompatibleTensors
  else .ok

/-- The parameters of the whole tensor. -/
def SaQ.params (q : SaQ) : SaParams := { zp := q.zpAt 0, scale := q.scaleAt 0, frac := q.fracAt 0 }

/-- kernels/eltwise/mli_krn_eltwise_{add,sub,mul,max,min}_fx.cc:49-56: the sa8 kernels with the
checks mli_check.cc:1642-1666 (MAX and MIN) and 1687-1710 (ADD, SUB and MUL). -/
def krnEltwiseSa (m : Rnd) (op : EltOp) (q1 q2 qo : SaQ) (o1 o2 : Operand) (out : Tensor) (mem : Buf) :
    Option (Status × Buf) :=
  (chkEltwise o1.t o2.t out).bind fun s =>
  if s ≠ .ok then some (s, mem)
  else if (op = .max ∨ op = .min) ∧ sameFormatSa q1 q2 = false then some (.incompatibleTensors, mem)
  else if chkEltQuant o1.t o2.t out q1 q2 qo ≠ .ok then some (chkEltQuant o1.t o2.t out q1 q2 qo, mem)
  else (eltwiseRun (eltSa m op (eltParamsSa m op q1.params q2.params qo.params)) o1 o2 out mem).map fun mem' => (.ok, mem')

end Mli
