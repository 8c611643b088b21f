import Verif.Model.Quant
import Verif.Model.Relu
import Verif.Spec.Scale
import Verif.Spec.Conv
import Mathlib.Algebra.BigOperators.Group.Finset.Basic

/-!
# The layers in real numbers

What a network designer writes down: sums of products of real numbers, a bias and a ReLU.  The elements of tensors stand for numbers:
`x * 2^-frac_bits` in fixed point, `(x - zero_point) * scale * 2^-scale_frac_bits` in the asymmetric format.
-/

namespace Mli.Spec

/-- The number a fixed-point element with `f` fractional bits stands for. -/
def fxNum (f x : Int) : ℚ := x * (2 : ℚ) ^ (-f)

/-- The number an asymmetric element of channel `k` stands for. -/
def saNum (q : SaQ) (k x : Int) : ℚ := (x - q.zpAt k) * scaleVal (q.scaleAt k) (q.fracAt k)

/-- The ReLU functions. -/
def reluQ (ty : ReluType) (r : ℚ) : ℚ :=
  match ty with
  | .none => r
  | .gen => max 0 r
  | .six => limitQ 0 6 r
  | .one => limitQ (-1) 1 r

/-- The limits 6, -1 and 1 need not be multiples of the output step; then the next multiple inside is used, which costs less than one step.
Otherwise the error is that of the rounding, `e` steps. -/
def reluErr (e : ℚ) (ty : ReluType) : ℚ :=
  match ty with
  | .none => e
  | .gen => e
  | .six => 1
  | .one => 1

/-- An image with zeros around it. -/
def paddedQ (ih iw : Int) (x : Int → Int → Int → ℚ) (r q c : Int) : ℚ :=
  if 0 ≤ r ∧ r < ih ∧ 0 ≤ q ∧ q < iw then x r q c else 0

/-- The convolution of an image with a kernel, at output position `(oy, ox)`. -/
def convSumQ (kh kw ic : Int) (X W : Int → Int → Int → ℚ) (sh sw pt pl dh dw oy ox : Int) : ℚ :=
  ∑ i ∈ Finset.range kh.toNat, ∑ j ∈ Finset.range kw.toNat, ∑ c ∈ Finset.range ic.toNat,
    X (tapCoord sh pt dh oy i) (tapCoord sw pl dw ox j) c * W i j c

/-- The transposed convolution at output position `(y, x)`: each input pixel adds its multiple of the kernel. -/
def scatterSumQ (ih iw kh kw ic : Int) (X W : Int → Int → Int → ℚ) (sh sw pt pl y x : Int) : ℚ :=
  ∑ iy ∈ Finset.range ih.toNat, ∑ ky ∈ Finset.range kh.toNat, ∑ ix ∈ Finset.range iw.toNat, ∑ kx ∈ Finset.range kw.toNat,
    if iy * sh + ky - pt = y ∧ ix * sw + kx - pl = x then ∑ c ∈ Finset.range ic.toNat, X iy ix c * W ky kx c else 0

/-- The inner product. -/
def dotSumQ (n : Int) (X W : Int → ℚ) : ℚ := ∑ i ∈ Finset.range n.toNat, X i * W i

end Mli.Spec
