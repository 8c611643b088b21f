import Verif.Model.Pool
import Verif.Model.Quant

/-!
# Model of the average and sum pooling kernels
(`lib/src/kernels/pooling/impl/mli_krn_avepool_hwc_ref.h`, `mli_krn_pool_hwc.h`)
-/

namespace Mli

open Spec (Rnd)

/-- mli_krn_avepool_hwc_ref.h:25-58 `multiplier_lut`. -/
def multiplierLut : List Int := [
  0, 0x4000, 0x4000, 0x5555, 0x4000, 0x6666, 0x5555, 0x4924,
  0x4000, 0x71c7, 0x6666, 0x5d17, 0x5555, 0x4ec4, 0x4924, 0x4444,
  0x4000, 0x7878, 0x71c7, 0x6bca, 0x6666, 0x6186, 0x5d17, 0x590b,
  0x5555, 0x51eb, 0x4ec4, 0x4bda, 0x4924, 0x469e, 0x4444, 0x4210]

/-- mli_krn_avepool_hwc_ref.h:60-93 `shift_lut`. -/
def shiftLut : List Int := [
  0, 14, 15, 16, 16, 17, 17, 17, 17, 18, 18, 18, 18, 18, 18, 18,
  18, 19, 19, 19, 19, 19, 19, 19, 19, 19, 19, 19, 19, 19, 19, 19]

/-- mli_krn_avepool_hwc_ref.h:99-111 `calc_mul`: multiplier and the shift it adds. -/
def calcMul (d : Int) : Int × Int :=
  let val := (2 ^ 31 : Int) / d
  let n := if d > 1 then normFx 32 (wrap 32 val) + 1 else 0
  let val := if d > 1 then (val * 2 ^ n.toNat) % 2 ^ 32 else val
  (wrap 16 (val / 2 ^ 17), 14 + n)

/-- mli_krn_avepool_hwc_ref.h:113-122 `get_mul_shift_value`: multiplier and the shift it adds. -/
def mulShift (d : Int) : Int × Int :=
  if d < 32 then (multiplierLut.getD d.toNat 0, shiftLut.getD d.toNat 0) else calcMul d

/-- bricks/impl/mli_krn_reduce_sum2d_ref.h:22-41 `reduce_sum2D_v` with an accumulator of `aw` bits. -/
def winAcc (aw : Nat) (mul acc : Int) : WinOp := fun src p rows clmns rs cs =>
  forRange rows.toNat (fun (r : Nat) => forRange clmns.toNat (fun (c : Nat) acc =>
    (src.rd (p + (rs * r + cs * c))).bind fun x => macFx aw acc mul x)) acc

/-- mli_krn_avepool_hwc_ref.h:124-157 `compute_avepool_func` for elements of `w` bits and an
accumulator of `aw` bits: initial value (pal/ref/mli_prv_dsp.h:252-270), sum, and
`mli_prv_clip_and_store_output_v` (78-117).  `ms` gives multiplier and total shift for the number of
elements in the window (mli_krn_pool_hwc.h:62-83 and 191-214). -/
def avgOp (m : Rnd) (w aw : Nat) (zp : Int) (ms : Int → Int × Int) : WinOp := fun src p rows clmns rs cs =>
  let mul := (ms (rows * clmns)).1
  let shift := (ms (rows * clmns)).2
  (winAcc aw mul (aslFx aw (wrap 16 zp) shift) src p rows clmns rs cs).bind fun acc =>
  some (wrap w (satFx aw (asrRndFx m aw acc shift) (aw - w)))

/-- mli_krn_pool_hwc.h:506-510 and 62-64: multiplier and shift of the fixed-point kernels. -/
def msFx (inFrac outFrac : Int) (d : Int) : Int × Int :=
  ((mulShift d).1, inFrac - outFrac + (mulShift d).2)

/-- kernels/pooling/mli_krn_avepool_hwc_fx8.cc:46-53 (`w = 8`, 32-bit accumulator) and
mli_krn_avepool_hwc_fx16.cc (`w = 16`, 64-bit accumulator).  `private/src/mli_check.cc:1214-1268`
checks the same as for max pooling. -/
def krnAvepoolFx (m : Rnd) (w : Nat) (inFrac outFrac : Int) (src : Buf) (tin : Tensor) (g : Geo) (tout : Tensor)
    (dst : Buf) : Option (Status × Buf) := do
  let s ← chkPool tin g tout
  if s ≠ .ok then return (s, dst)
  let dst' ← poolHwc (avgOp m w (if w = 8 then 32 else 64) 0 (msFx inFrac outFrac)) src g tin tout dst
  return (.ok, dst')

/-- mli_krn_pool_hwc.h:62-83 and 191-214 with `convert`: multiplier and shift of the SA8 kernels for requantization parameters `scale`, `shift`.
`b` is 8, or 16 in builds with `AVEPOOL_16BIT_MUL` (mli_lib.cmake:216-250). -/
def msSa (m : Rnd) (b : Nat) (scale shift : Int) (d : Int) : Int × Int :=
  let nc := normCastFx m 32 b (scale * (mulShift d).1)
  (nc.1, shift + (mulShift d).2 - nc.2)

/-- private/src/mli_check.cc:1303-1317 (after `mli_chk_avepool_hwc` and the element type). -/
def chkAveQuant (tin tout : Tensor) (qi qo : SaQ) : Status :=
  if ¬ (qi.dim < 0 ∧ qo.dim < 0) then .incompatibleTensors
  else if chkQuant tin qi 7 ≠ .ok then chkQuant tin qi 7
  else chkQuant tout qo 7

/-- kernels/pooling/mli_krn_avepool_hwc_sa8.cc `mli_krn_avepool_hwc_sa8` and mli_krn_pool_hwc.h:504-508 (requantization parameters). -/
def krnAvepoolSa8 (m : Rnd) (b : Nat) (qi qo : SaQ) (src : Buf) (tin : Tensor) (g : Geo) (tout : Tensor)
    (dst : Buf) : Option (Status × Buf) :=
  (chkPool tin g tout).bind fun s =>
  if s ≠ .ok then some (s, dst)
  else if chkAveQuant tin tout qi qo ≠ .ok then some (chkAveQuant tin tout qi qo, dst)
  else
    (requantParams m (qi.scaleAt 0) (qi.fracAt 0) (qi.zpAt 0) (qo.scaleAt 0) (qo.fracAt 0) (qo.zpAt 0)).bind fun p =>
    (poolHwc (avgOp m 8 32 p.2.2 (msSa m b p.1 p.2.1)) src g tin tout dst).map fun dst' => (.ok, dst')

/-- mli_krn_avepool_hwc_ref.h:159-174 with multiplier 1, zero point 0 and shift 0
(mli_krn_pool_hwc.h:124-133, 240-246): the accumulator is stored as it is. -/
def sumOp : WinOp := fun src p rows clmns rs cs => winAcc 32 1 (aslFx 32 0 0) src p rows clmns rs cs

/-- kernels/pooling/mli_krn_sumpool_runtime.cc:94-114 `SumPool2D::Issue` for one batch element: no
check is made at run time. -/
def sumpoolIssue (src : Buf) (tin : Tensor) (g : Geo) (tout : Tensor) (dst : Buf) : Option Buf :=
  poolHwc sumOp src g tin tout dst

end Mli
