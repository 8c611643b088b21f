import Verif.Spec.Arith

/-!
# Model of `lib/src/pal/ref/mli_math.h`

A C++ signed integer type is represented by its width `w` in bits; a value of
that type is an `Int` which is in range for `w`.  `int8_t`, `int16_t`,
`int32_t`/`mli_acc32_t`, `int64_t`/`mli_acc40_t` are the widths 8, 16, 32, 64.
-/

namespace Mli

open Spec (lo hi InRange Rnd)

/-- Conversion to a signed `w`-bit type (two's complement; what gcc and clang do for
narrowing conversions and what C++20 prescribes). -/
def wrap (w : Nat) (x : Int) : Int := (BitVec.ofInt w x).toInt

/-- `x & y` on signed `w`-bit operands. -/
def cand (w : Nat) (x y : Int) : Int := (BitVec.ofInt w x &&& BitVec.ofInt w y).toInt

/-- A signed `w`-bit arithmetic result: `none` is signed overflow (undefined behaviour). -/
def ckd (w : Nat) (x : Int) : Option Int := if InRange w x then some x else none

/-- mli_math.h:23-26 `mli_math_limit_fx`. -/
def limitFx (w : Nat) (sign : Int) : Int := if sign < 0 then lo w else hi w

/-- mli_math.h:28-37 `mli_math_asr_pos_nbits_fx`. -/
def asrPosFx (w : Nat) (x nbits : Int) : Int :=
  if nbits > (w : Int) - 1 then (if x < 0 then -1 else 0) else x >>> nbits.toNat

/-- mli_math.h:51-68 `mli_math_asl_fx`.  `x << nbits` is computed as a multiplication and
converted back to the type, which is what gcc/clang (and C++20) do for negative `x` too.
`-nbits` is not checked for `nbits = INT_MIN`. -/
def aslFx (w : Nat) (x nbits : Int) : Int :=
  if nbits < 0 then asrPosFx w x (-nbits)
  else if nbits > (w : Int) - 1 then (if x ≠ 0 then limitFx w x else 0)
  else
    let h := x >>> (((w : Int) - 1) - nbits).toNat
    if h = 0 ∨ h = -1 then wrap w (x * 2 ^ nbits.toNat)
    else limitFx w h

/-- mli_math.h:39-49 `mli_math_asr_fx`. -/
def asrFx (w : Nat) (x nbits : Int) : Int :=
  if nbits > (w : Int) - 1 then (if x < 0 then -1 else 0)
  else if nbits < 0 then aslFx w x (-nbits)
  else x >>> nbits.toNat

/-- mli_math.h:157-166 `mli_math_add_fx`, with every intermediate result checked for overflow. -/
def addFx? (w : Nat) (L R : Int) : Option Int := do
  if R > 0 then
    let t ← ckd w (hi w - R)
    if L > t then return hi w
  if R < 0 then
    let t ← ckd w (lo w - R)
    if L < t then return lo w
  ckd w (L + R)

/-- mli_math.h:168-177 `mli_math_sub_fx`, with every intermediate result checked for overflow. -/
def subFx? (w : Nat) (L R : Int) : Option Int := do
  if R < 0 then
    let t ← ckd w (hi w + R)
    if L > t then return hi w
  if R > 0 then
    let t ← ckd w (lo w + R)
    if L < t then return lo w
  ckd w (L - R)

/-- mli_math.h:157-166 `mli_math_add_fx` as a total function (`c01_add_exact` shows that the
checked version never overflows and returns this value). -/
def addFx (w : Nat) (L R : Int) : Int :=
  if R > 0 ∧ L > hi w - R then hi w
  else if R < 0 ∧ L < lo w - R then lo w
  else L + R

/-- mli_math.h:168-177 `mli_math_sub_fx` as a total function. -/
def subFx (w : Nat) (L R : Int) : Int :=
  if R < 0 ∧ L > hi w + R then hi w
  else if R > 0 ∧ L < lo w + R then lo w
  else L - R

/-- mli_math.h:70-109 `mli_math_asr_rnd_fx`.  The mask `(T)((one << nbits) >> 1)` is
`2^(nbits-1)` for the amounts which reach that line. -/
def asrRndFx (m : Rnd) (w : Nat) (x nbits : Int) : Int :=
  if nbits < 0 then aslFx w x (-nbits)
  else if nbits = 0 then x
  else if nbits > (w : Int) - 1 then 0
  else
    let half : Int := 2 ^ (nbits.toNat - 1)
    match m with
    | .up => asrFx w (addFx w x half) nbits
    | .convergent =>
      let r := asrFx w x nbits
      if cand w x half ≠ 0 ∧ (cand w r 1 ≠ 0 ∨ cand w x (half - 1) ≠ 0) then addFx w r 1
      else r

/-- mli_math.h:111-115 `mli_math_asl_rnd_fx`. -/
def aslRndFx (m : Rnd) (w : Nat) (x nbits : Int) : Int := asrRndFx m w x (-nbits)

/-- mli_math.h:117-120 `mli_math_neg_fx`. -/
def negFx (w : Nat) (x : Int) : Int := if x = lo w then hi w else -x

/-- mli_math.h:122-126 `mli_math_sat_fx`. -/
def satFx (w : Nat) (x : Int) (nbits : Nat) : Int := asrFx w (aslFx w x nbits) nbits

/-- mli_math.h:128-132 `mli_math_abs_fx`. -/
def absFx (w : Nat) (x : Int) : Int := if x ≥ 0 then x else negFx w x

/-- mli_math.h:144-145, the search loop of `mli_math_norm_fx`; `fuel` bounds the number of
iterations, `none` means the loop did not stop within it (a shift by `r ≥ w` would be
undefined behaviour, so `w` iterations are all that is allowed). -/
def normLoop (x h : Int) : (fuel : Nat) → (r : Nat) → Option Nat
  | 0, _ => none
  | fuel + 1, r => if x >>> r ≠ h then normLoop x h fuel (r + 1) else some r

/-- mli_math.h:134-147 `mli_math_norm_fx`. -/
def normFx? (w : Nat) (x : Int) : Option Int :=
  let h : Int := if x < 0 then -1 else 0
  if x = 0 then some ((w : Int) - 1)
  else do
    let r ← normLoop x h w 0
    return ((w : Int) - 1) - r

/-- `mli_math_norm_fx` with the undefined outcome (excluded by `c07_norm_defined`) mapped to 0. -/
def normFx (w : Nat) (x : Int) : Int := (normFx? w x).getD 0

/-- mli_math.h:181-189 `mli_math_max_fx`. -/
def maxFx (L R : Int) : Int := if L > R then L else R

/-- mli_math.h:193-196 `mli_math_min_fx`. -/
def minFx (L R : Int) : Int := if L < R then L else R

/-- mli_math.h:415-421 `mli_math_bound_range_fx`. -/
def boundRangeFx (x L R : Int) : Int := minFx (maxFx x L) R

/-- mli_math.h:205-210 `mli_math_mul_fx_high`: `(L*R + 2^30) >> 31` in 64 bits, then
converted to 32 bits. -/
def mulFxHigh (L R : Int) : Int := wrap 32 ((L * R + 2 ^ 30) >>> 31)

/-- mli_math.h:313-388: the integer `mli_math_cast_fx<in_T, out_T>(in_val, shift_right)`
instances with a narrower result: `mli_math_asr_rnd_fx` in the source width `wi`, then
`mli_math_sat_fx` by `wi - wo` bits, then a conversion to the destination width `wo`.
(int16→int8 314-316, int32→int8 334-337, int32→int16 347-350, int64→int8 368-371,
int64→int16 374-377, int64→int32 385-388.) -/
def castFx (m : Rnd) (wi wo : Nat) (x shift : Int) : Int :=
  wrap wo (satFx wi (asrRndFx m wi x shift) (wi - wo))

/-- mli_math.h:318-331, 357-360: instances whose destination is as wide as the source
(int8→int8, int16→int16, int32→int32) or wider (int8→int16, evaluated in int16). -/
def castFxSame (m : Rnd) (w : Nat) (x shift : Int) : Int := asrRndFx m w x shift

/-- mli_math.h:362-365 `mli_math_cast_fx<int16_t, mli_acc40_t>`: the 64-bit result is
converted through `int32_t`. -/
def castFxAcc40 (m : Rnd) (x shift : Int) : Int := wrap 32 (asrRndFx m 64 x shift)

/-- mli_math.h:352-355, 379-382: casts without a shift. -/
def castFx0 (wi wo : Nat) (x : Int) : Int := wrap wo (satFx wi x (wi - wo))

/-- mli_math.h:293-298 `mli_math_acc_cast_fx<int8_t, mli_acc32_t>`. -/
def accCast8 (m : Rnd) (acc shift : Int) : Int :=
  let temp := asrRndFx m 32 acc shift
  let temp := aslFx 32 temp 24
  wrap 8 (temp >>> 24)

/-- mli_math.h:300-305 `mli_math_acc_cast_fx<int16_t, mli_acc32_t>`. -/
def accCast16 (m : Rnd) (acc shift : Int) : Int :=
  let temp := asrRndFx m 32 acc shift
  let temp := aslFx 32 temp 16
  wrap 16 (satFx 32 (asrFx 32 temp 16) 16)

/-- mli_math.h:307-309 `mli_math_acc_cast_fx<mli_acc32_t, mli_acc32_t>`. -/
def accCast32 (m : Rnd) (acc shift : Int) : Int := asrRndFx m 32 acc shift

/-- mli_math.h:149-155 `mli_math_norm_cast_fx<in_T, out_T>`: returns (mantissa, norm_shift). -/
def normCastFx (m : Rnd) (wi wo : Nat) (x : Int) : Int × Int :=
  let castShift : Int := (wi : Int) - wo
  let norm := normFx wi x
  let s := castShift - norm
  (if wi = wo then castFxSame m wi x s else castFx m wi wo x s, s)

/-- mli_math.h:426-449 `mli_math_mac_fx`: the accumulator addition is plain signed arithmetic
of width `w` (32 or 64); overflow is undefined behaviour. -/
def macFx (w : Nat) (acc L R : Int) : Option Int := ckd w (acc + L * R)

end Mli
