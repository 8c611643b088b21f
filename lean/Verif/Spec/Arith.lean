/-!
# Arithmetic specification

Independent of the model: ranges of two's complement integers of `w` bits,
clamping, and the two rounding rules documented for the library
(README, option `ROUND_MODE`).
-/

namespace Mli.Spec

/-- Smallest value of a signed `w`-bit integer. -/
def lo (w : Nat) : Int := -(2 ^ (w - 1) : Int)

/-- Largest value of a signed `w`-bit integer. -/
def hi (w : Nat) : Int := (2 ^ (w - 1) : Int) - 1

/-- `x` is representable as a signed `w`-bit integer. -/
def InRange (w : Nat) (x : Int) : Prop := lo w ≤ x ∧ x ≤ hi w

instance (w : Nat) (x : Int) : Decidable (InRange w x) := by
  unfold InRange; infer_instance

/-- Nearest representable value: the exact value when it is representable, the
nearest end of the range otherwise. -/
def clamp (w : Nat) (x : Int) : Int :=
  if x < lo w then lo w else if hi w < x then hi w else x

/-- `r` is `x / d` rounded to the nearest integer, ties to the even integer. -/
def RoundHalfEven (x d r : Int) : Prop :=
  -d ≤ 2 * (x - r * d) ∧ 2 * (x - r * d) ≤ d ∧
    (2 * (x - r * d) = d ∨ 2 * (x - r * d) = -d → r % 2 = 0)

/-- `r` is `x / d` rounded to the nearest integer, ties upwards. -/
def RoundHalfUp (x d r : Int) : Prop :=
  -d ≤ 2 * (x - r * d) ∧ 2 * (x - r * d) < d

/-- Rounding mode the library is built with (README, option `ROUND_MODE`). -/
inductive Rnd where
  | up
  | convergent
deriving DecidableEq, Repr

/-- `r` is `x / 2^n`, rounded to the nearest integer by the rule of the mode when `n ≥ 0`
and exact when `n < 0`. -/
def Scaled (m : Rnd) (x n r : Int) : Prop :=
  if 0 ≤ n then
    match m with
    | .up => RoundHalfUp x (2 ^ n.toNat) r
    | .convergent => RoundHalfEven x (2 ^ n.toNat) r
  else r = x * 2 ^ (-n).toNat

/-- `r` is the floor of `x / d`. -/
def IsFloorDiv (x d r : Int) : Prop := r * d ≤ x ∧ x < (r + 1) * d

end Mli.Spec
