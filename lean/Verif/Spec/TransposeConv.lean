import Mathlib.Algebra.BigOperators.Group.Finset.Basic
import Mathlib.Algebra.Ring.Int.Defs

/-!
# Transposed convolution

Every input pixel `(iy, ix)` adds its value times the weight of tap `(ky, kx)` to the output pixel
`(iy*sh + ky - pt, ix*sw + kx - pl)`.  Output pixel `(y, x)` is the sum of what the pairs of
an input pixel and a tap that meet there add to it.
-/

namespace Mli.Spec

def scatterSum (ih iw kh kw ic : Int) (X W : Int → Int → Int → Int) (sh sw pt pl y x : Int) : Int :=
  ∑ iy ∈ Finset.range ih.toNat, ∑ ky ∈ Finset.range kh.toNat, ∑ ix ∈ Finset.range iw.toNat, ∑ kx ∈ Finset.range kw.toNat,
    if iy * sh + ky - pt = y ∧ ix * sw + kx - pl = x then ∑ c ∈ Finset.range ic.toNat, X iy ix c * W ky kx c else 0

/-- The sum of all weights of a kernel. -/
def kernelSum (kh kw ic : Int) (W : Int → Int → Int → Int) : Int :=
  ∑ ky ∈ Finset.range kh.toNat, ∑ kx ∈ Finset.range kw.toNat, ∑ c ∈ Finset.range ic.toNat, W ky kx c

end Mli.Spec
