import Verif.Spec.Window
import Mathlib.Algebra.BigOperators.Group.Finset.Basic
import Mathlib.Algebra.Ring.Int.Defs

/-!
# Convolution

Output position `(oy, ox)` of a convolution with a `kh` by `kw` kernel over `ic` input channels,
with stride, padding before the input and dilation: tap `(i, j)` reads row `oy*sh - pt + i*dh` and
column `ox*sw - pl + j*dw` of the input; what the input holds outside of its bounds is given by
the input function `X` itself (see `padded`).
-/

namespace Mli.Spec

/-- An `ih` by `iw` input, extended with `z` outside of it. -/
def padded (ih iw z : Int) (x : Int → Int → Int → Int) (r q c : Int) : Int :=
  if 0 ≤ r ∧ r < ih ∧ 0 ≤ q ∧ q < iw then x r q c else z

/-- `∑ X[row of tap i][column of tap j][c] * W[i][j][c]`. -/
def convSum (kh kw ic : Int) (X W : Int → Int → Int → Int) (sh sw pt pl dh dw oy ox : Int) : Int :=
  ∑ i ∈ Finset.range kh.toNat, ∑ j ∈ Finset.range kw.toNat, ∑ c ∈ Finset.range ic.toNat,
    X (tapCoord sh pt dh oy i) (tapCoord sw pl dw ox j) c * W i j c

/-- `v`, limited to `[l, h]`. -/
def limit (l h v : Int) : Int := max l (min h v)

end Mli.Spec
