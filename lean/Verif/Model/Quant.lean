import Verif.Model.Relu

/-!
# Model of `lib/src/bricks/impl/mli_prv_quant_ref.h`: quantization parameters of kernels with weights
-/

namespace Mli

open Spec (lo hi InRange Rnd)

/-- include/mli_types.h:120-136 `el_params.sa`: quantized dimension (negative: per tensor), zero
points, scales and fractional bits (one entry per tensor, or one per index of the dimension). -/
structure SaQ where
  dim : Int
  zp : List Int
  scale : List Int
  frac : List Int
deriving DecidableEq, Repr

/-- Index of the entry used for index `k` of the quantized dimension
(mli_prv_quant_ref.h:163-165). -/
def SaQ.idx (q : SaQ) (k : Int) : Nat := if q.dim < 0 then 0 else k.toNat

def SaQ.zpAt (q : SaQ) (k : Int) : Int := q.zp.getD (q.idx k) 0
def SaQ.scaleAt (q : SaQ) (k : Int) : Int := q.scale.getD (q.idx k) 0
def SaQ.fracAt (q : SaQ) (k : Int) : Int := q.frac.getD (q.idx k) 0

/-- private/src/mli_check.cc:170-179: the loop over the entries from `k` on, `n` to go. -/
def chkQuantLoop (q : SaQ) (bits : Nat) : Nat → Nat → Status
  | 0, _ => .ok
  | n + 1, k =>
    if ¬ 0 < q.scale.getD k 0 then .badTensor
    else if ¬ ((if bits = 0 then 0 else -(2 ^ bits : Int)) ≤ q.zp.getD k 0 ∧
        q.zp.getD k 0 ≤ (if bits = 0 then 0 else (2 ^ bits : Int) - 1)) then .incompatibleTensors
    else chkQuantLoop q bits n (k + 1)

/-- private/src/mli_check.cc:131-186 `mli_chk_tensor_quant_params` for SA tensors; list lengths stand
for the capacities (a per-tensor parameter has exactly one entry, and capacity 0 in the code). -/
def chkQuant (t : Tensor) (q : SaQ) (bits : Nat) : Status :=
  if 0 ≤ q.dim ∧ ¬ q.dim < t.dims.length then .badTensor
  else
    let n := if 0 ≤ q.dim then (t.shape.getD q.dim.toNat 0).toNat else 1
    if ¬ (n ≤ q.scale.length ∧ n ≤ q.zp.length ∧ n ≤ q.frac.length) then .badTensor
    else if q.dim < 0 ∧ ¬ (q.scale.length = 1 ∧ q.zp.length = 1 ∧ q.frac.length = 1) then .badTensor
    else chkQuantLoop q bits n 0

/-- private/src/mli_check.cc:308-320: one entry of `mli_chk_bias_scale_asym`; the left shift by 32 or more
and the overflow of the difference are undefined. -/
def chkBiasScale (m : Rnd) (sIn fIn sW fW sB fB : Int) : Option Bool := do
  let e := sIn * sW
  let sh := fIn + fW - fB
  let e ← if sh > 0 then some (asrRndFx m 32 e sh) else if -sh ≥ 32 then none else some (wrap 32 (e * 2 ^ (-sh).toNat))
  let d ← ckd 32 (e - sB)
  return d ≤ 1 && -1 ≤ d

/-- private/src/mli_check.cc:296-322 `mli_chk_bias_scale_asym`: the loop from entry `k`, `n` to go. -/
def chkBiasLoop (m : Rnd) (qi qw qb : SaQ) : Nat → Nat → Option Status
  | 0, _ => some .ok
  | n + 1, k => do
    let ok ← chkBiasScale m (qi.scaleAt 0) (qi.fracAt 0) (qw.scaleAt k) (qw.fracAt k) (qb.scaleAt k) (qb.fracAt k)
    if ok then chkBiasLoop m qi qw qb n (k + 1) else return .incompatibleTensors

/-- mli_prv_quant_ref.h:119-131, part of `define_quant_params` for `s8asym`: 16-bit ratio of the
input and output scales and the shift that goes with it; division by 0 is undefined. -/
def inToOut (m : Rnd) (sIn fIn sOut fOut : Int) : Option (Int × Int) :=
  if sOut = 0 then none
  else
    let nc := normCastFx m 32 32 sIn
    let su := nc.1.tdiv sOut
    let norm := normFx 32 su
    some (castFx m 32 16 su (16 - norm), fIn + (-nc.2 - fOut) - (16 - norm))

/-- mli_prv_quant_ref.h:41-89 `define_requant_params`: mantissa, shift and offset; a left shift by a
negative amount or out of the 32-bit range and the division by 0 are undefined. -/
def requantParams (m : Rnd) (sIn fIn zIn sOut fOut zOut : Int) : Option (Int × Int × Int) := do
  let k := normFx 32 sIn - normFx 16 sOut
  let n ← if k < 0 ∨ 32 ≤ k then none else ckd 32 (sIn * 2 ^ k.toNat)
  let q ← if sOut = 0 then none else some (n.tdiv sOut)
  let nc := normCastFx m 32 16 q
  let shift := k + (fIn - fOut) - nc.2
  return (nc.1, shift, subFx 16 zOut (castFx m 32 16 (nc.1 * zIn) shift))

/-- mli_prv_quant_ref.h:161-181 `adjust_quant_params` for `s8asym`; `full` is the build option
`FULL_ACCU`.  Result: `out_mul`, `out_shift`. -/
def adjustQuant (full : Bool) (ratio shift sW fW : Int) : Int × Int :=
  let mul := ratio * sW
  let sh := shift + fW
  if full then (mul, sh)
  else
    let norm := normFx 32 mul
    (wrap 32 (mul * 2 ^ norm.toNat), sh + norm)

/-- mli_prv_quant_ref.h:424-438 `bias_additive` for `s8asym`. -/
def biasS8 (full : Bool) (bias acc : Int) : Int :=
  let b := if full then bias else
    let shift := maxFx (16 - normFx 32 bias) 0
    aslFx 32 (bias >>> shift.toNat) shift
  addFx 32 acc b

/-- mli_prv_quant_ref.h:458-499 `result_cast<int8_t, mli_acc32_t>` for `s8asym`. -/
def resultCastS8 (m : Rnd) (full : Bool) (outMul outShift zo acc : Int) : Int :=
  let mul := if full then outMul else asrRndFx m 32 outMul 16
  let sh := if full then outShift else outShift - 16
  let pre := if full then 0 else minFx (maxFx (sh - 21) 0) 8
  let a := if full then acc else satFx 32 (asrRndFx m 32 acc pre) 16
  let noOff := castFx m 64 16 (a * mul) (min (sh - pre) 63)
  castFx m 16 8 (addFx 16 noOff zo) 0

end Mli
