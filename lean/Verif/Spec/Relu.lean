import Verif.Spec.Arith
import Mathlib.Algebra.Order.Group.Unbundled.Int

/-!
# Specification of ReLU

An element `x` of a tensor with zero point `z`, scale `s` and `b` fractional bits stands for the
real number `(x - z) * s / 2^b` (`b` may be negative).  Comparisons with integers are written
without fractions.
-/

namespace Mli.Spec

/-- The real value of `x` is at most `c`. -/
def RealLe (z s b x c : Int) : Prop := (x - z) * s * 2 ^ (-b).toNat ≤ c * 2 ^ b.toNat

/-- The real value of `x` is at least `c`. -/
def RealGe (z s b x c : Int) : Prop := c * 2 ^ b.toNat ≤ (x - z) * s * 2 ^ (-b).toNat

/-- `y` is the element nearest to `x` among those satisfying `S`. -/
def NearestIn (S : Int → Prop) (x y : Int) : Prop := S y ∧ ∀ z, S z → |x - y| ≤ |x - z|

end Mli.Spec
