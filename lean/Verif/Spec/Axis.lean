import Verif.Spec.Traverse

/-!
# Slices of a tensor along an axis

An operation "along an axis" treats together all elements whose positions differ only in that
coordinate; a negative axis stands for the whole tensor.
-/

namespace Mli.Spec

/-- Two positions are in one slice along `axis`: they agree in every other coordinate. -/
def sameSlice (axis : Int) (is js : List Int) : Bool :=
  decide (axis < 0) || decide (is.eraseIdx axis.toNat = js.eraseIdx axis.toNat)

/-- The positions of the slice along `axis` that `is` is in. -/
def slice (axis : Int) (shape is : List Int) : List (List Int) := (rowMajor shape).filter (sameSlice axis is)

end Mli.Spec
