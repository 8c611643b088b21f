import Verif.Spec.Arith

/-!
# Specification of rescaling and clipping
-/

namespace Mli.Spec

/-- `y` is `(x - b) * s / 2^k`, rounded, plus `bo`, limited to `wo` bits. -/
def Rescaled (m : Rnd) (wo : Nat) (x b s k bo y : Int) : Prop :=
  ∃ r, Scaled m ((x - b) * s) k r ∧ y = clamp wo (r + bo)

/-- Index of the parameters of the element at position `is`: its coordinate in dimension `axis`, 0 if `axis` is negative. -/
def paramIdx (axis : Int) (is : List Int) : Int := if axis < 0 then 0 else is.getD axis.toNat 0

/-- Number of parameter sets of a tensor. -/
def paramCount (axis : Int) (shape : List Int) : Int := if axis < 0 then 1 else shape.getD axis.toNat 0

end Mli.Spec
