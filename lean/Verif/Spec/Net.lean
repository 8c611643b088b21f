import Verif.Spec.RealLayer

/-!
# A network of fully connected layers in real numbers

Vectors are functions from the position to the number.
-/

namespace Mli.Spec

/-- A fully connected layer with `n` inputs: the inner product with row `o` of the weights plus the bias, limited to the range of the output type and
by the ReLU. -/
def denseQ (n : Int) (W : Int → Int → ℚ) (b : Int → ℚ) (ty : ReluType) (low high : ℚ) (x : Int → ℚ) (o : Int) : ℚ :=
  reluQ ty (limitQ low high (dotSumQ n x (W o) + b o))

/-- A network: the layers one after the other. -/
def netQ : List ((Int → ℚ) → Int → ℚ) → (Int → ℚ) → Int → ℚ
  | [], x => x
  | l :: ls, x => netQ ls (l x)

/-- The error of a network whose layers amplify an error by `g` and add `d`, from an error `e` of the input: `g * e + d` after the first layer, and
so on. -/
def netErr : List (ℚ × ℚ) → ℚ → ℚ
  | [], e => e
  | (g, d) :: ls, e => netErr ls (g * e + d)

end Mli.Spec
