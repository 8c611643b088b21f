import Verif.Spec.Scale

/-!
# Element-wise arithmetic on quantised (SA8) numbers

The element `a` of a tensor with zero point `z`, scale `s` and `f` fractional bits of the scale stands for the real number
`(a - z) * s * 2 ^ -f`.
-/

namespace Mli.Spec

/-- The real number an element stands for. -/
def saReal (z s f a : Int) : ℚ := (a - z : Int) * scaleVal s f

/-- `r` is the result `y` of a real operation, in the format of the output, up to `e` steps of the output. -/
def SaClose (e : ℚ) (zo so fo : Int) (y : ℚ) (r : Int) : Prop :=
  |(r : ℚ) - limitQ (-128) 127 (zo + y / scaleVal so fo)| ≤ e

end Mli.Spec
