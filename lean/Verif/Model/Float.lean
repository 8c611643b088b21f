import Verif.Spec.Float
import Verif.Model.Math

/-!
# Model of the single-precision arithmetic that the code uses

The C++ types `float` and `double` are taken to be IEEE 754 binary32 and binary64 with rounding to nearest, ties to even, and without
excess precision or contraction.  A `float` is its bit pattern; the payload of a NaN is not modelled.
-/

namespace Mli

open Spec (f32neg f32mag f32val lo hi)

/-- Rounding to the nearest integer, ties to even. -/
def rne (x : ℚ) : Int :=
  let f := ⌊x⌋
  if x - f < 1 / 2 then f else if 1 / 2 < x - f then f + 1 else if f % 2 = 0 then f else f + 1

/-- The exponent of a positive number: the largest `e` with `2^e ≤ q`. -/
def flog (q : ℚ) : Int :=
  let e : Int := (Nat.log2 q.num.toNat : Int) - (Nat.log2 q.den : Int)
  if (2 : ℚ) ^ e ≤ q then e else e - 1

/-- Exponent and mantissa of a number `q ≥ 0` rounded to single precision (infinity from `2^128` on): the mantissa has 24 bits, fewer for
numbers below `2^-126`. -/
def encMag (q : ℚ) : Int :=
  if q ≤ 0 then 0 else
  let k := max (flog q) (-126)
  min (255 * 2 ^ 23) ((k + 126) * 2 ^ 23 + rne (q * 2 ^ (23 - k)))

/-- A number rounded to single precision, with the given sign. -/
def ofRat (neg : Bool) (q : ℚ) : Int := (if neg then 2 ^ 31 else 0) + encMag |q|

def fnan : Int := 0x7fc00000

def finf (neg : Bool) : Int := (if neg then 2 ^ 31 else 0) + 255 * 2 ^ 23

def fisNan (a : Int) : Bool := decide (255 * 2 ^ 23 < f32mag a)

/-- mli_math.h:289 `value * scale` for floats. -/
def fmul (a b : Int) : Int :=
  if fisNan a || fisNan b then fnan
  else match f32val a, f32val b with
    | some x, some y => ofRat (f32neg a != f32neg b) (x * y)
    | some x, none => if x = 0 then fnan else finf (f32neg a != f32neg b)
    | none, some y => if y = 0 then fnan else finf (f32neg a != f32neg b)
    | none, none => finf (f32neg a != f32neg b)

/-- mli_math.h:289 `+ round_val` for floats. -/
def fadd (a b : Int) : Int :=
  if fisNan a || fisNan b then fnan
  else match f32val a, f32val b with
    | some x, some y => if x + y = 0 then ofRat (f32neg a && f32neg b) 0 else ofRat (decide (x + y < 0)) (x + y)
    | some _, none => b
    | none, some _ => a
    | none, none => if f32neg a = f32neg b then a else fnan

/-- mli_hlp_convert_tensor_ref.h:206 `1.0f / scale`. -/
def fdiv (a b : Int) : Int :=
  if fisNan a || fisNan b then fnan
  else match f32val a, f32val b with
    | some x, some y => if y = 0 then (if x = 0 then fnan else finf (f32neg a != f32neg b)) else ofRat (f32neg a != f32neg b) (x / y)
    | some _, none => ofRat (f32neg a != f32neg b) 0
    | none, some _ => finf (f32neg a != f32neg b)
    | none, none => fnan

/-- mli_hlp_convert_tensor_ref.h:207, 209 `(float)ldexp(a, n)`: the product is exact in double precision for `|n| ≤ 128`. -/
def fldexp (a n : Int) : Int :=
  match f32val a with
  | some x => ofRat (f32neg a) (x * 2 ^ n)
  | none => a

/-- Conversion of an integer to `float`. -/
def fofInt (i : Int) : Int := ofRat (decide (i < 0)) i

/-- Conversion of a `float` to `int32_t`: rounds towards zero; undefined if the result does not fit (C++ [conv.fpint]). -/
def ftoInt32 (a : Int) : Option Int :=
  (f32val a).bind fun x =>
  let i := if 0 ≤ x then ⌊x⌋ else -⌊-x⌋
  if lo 32 ≤ i ∧ i ≤ hi 32 then some i else none

/-- mli_math.h:288 `value > 0`. -/
def fgt0 (a : Int) : Bool := !fisNan a && !f32neg a && decide (f32mag a ≠ 0)

/-- The bit patterns of `0.5f` and `-0.5f`. -/
def fhalf (neg : Bool) : Int := (if neg then 2 ^ 31 else 0) + 126 * 2 ^ 23

/-- pal/ref/mli_math.h:287-290 `mli_math_float_scale`. -/
def floatScale (v s : Int) : Option Int := ftoInt32 (fadd (fmul v s) (fhalf (!fgt0 v)))

end Mli
