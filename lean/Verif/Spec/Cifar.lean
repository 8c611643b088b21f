import Verif.Spec.Cnn
import Verif.Spec.Real

/-!
# The network of the CIFAR-10 example in real numbers

Three times a convolution (kernel of 5 by 5, padding of 2, ReLU) and a pooling (windows of 3 by 3, step 2), then a fully connected layer.  Numbers are
limited to the range of the 16-bit format of each layer's output.
-/

namespace Mli.Spec

/-- Weights (row, column, input channel, output channel; input, output for the fully connected layer) and biases. -/
structure CifarReal where
  w1 : Int → Int → Int → Int → ℚ
  b1 : Int → ℚ
  w2 : Int → Int → Int → Int → ℚ
  b2 : Int → ℚ
  w3 : Int → Int → Int → Int → ℚ
  b3 : Int → ℚ
  w4 : Int → Int → ℚ
  b4 : Int → ℚ

/-- Limited to what 16 bits can hold of which `f` are fractional. -/
def limit16 (f : Int) (r : ℚ) : ℚ := limitQ (fxNum f (lo 16)) (fxNum f (hi 16)) r

/-- Convolution of an image of `n` by `n` with `ic` channels, with ReLU. -/
def cifarConvQ (n ic f : Int) (w : Int → Int → Int → Int → ℚ) (b : Int → ℚ) (x : List Int → ℚ) (is : List Int) : ℚ :=
  max 0 (limit16 f (convSumQ 5 5 ic (paddedQ n n fun r q c => x [r, q, c]) (fun i j c => w i j c (is.getD 2 0)) 1 1 2 2 1 1 (is.getD 0 0) (is.getD 1 0) +
    b (is.getD 2 0)))

def cifarMaxQ (n : Int) (x : List Int → ℚ) (is : List Int) : ℚ :=
  maxQ (fun r q => x [r, q, is.getD 2 0]) n n 3 3 2 2 0 0 (is.getD 0 0) (is.getD 1 0)

def cifarMeanQ (n : Int) (x : List Int → ℚ) (is : List Int) : ℚ :=
  limit16 12 (meanQ (fun r q => x [r, q, is.getD 2 0]) n n 3 3 2 2 0 0 (is.getD 0 0) (is.getD 1 0))

/-- What goes into the fully connected layer, for the image `x` of 32 by 32 with 3 channels. -/
def cifarFeatures (N : CifarReal) (x : List Int → ℚ) : List Int → ℚ :=
  cifarMeanQ 8 (cifarConvQ 8 16 10 N.w3 N.b3 (cifarMeanQ 16 (cifarConvQ 16 32 10 N.w2 N.b2 (cifarMaxQ 32 (cifarConvQ 32 3 12 N.w1 N.b1 x)))))

/-- The score of class `k`. -/
def cifarScore (N : CifarReal) (x : List Int → ℚ) (k : Int) : ℚ :=
  limit16 10 (dotSumQ 512 (fun i => cifarFeatures N x (unflat [4, 4, 32] i)) (fun i => N.w4 i k) + N.b4 k)

/-- The probability of class `k` among ten scores. -/
noncomputable def cifarProb (s : Int → ℝ) (k : Int) : ℝ := Real.exp (s k) / ∑ j ∈ Finset.range 10, Real.exp (s j)

/-- How far the scores can be off when the image is off by `e`, for gains `g1`, …, `g4` of the layers with weights: each adds half a step of its output (12,
10, 10, 10 fractional bits), each average pooling half a step of its output (12 fractional bits) and two steps of its input (10). -/
def cifarErr (g1 g2 g3 g4 e : ℚ) : ℚ :=
  g4 * (g3 * (g2 * (g1 * e + 1 / 2 ^ 13) + 1 / 2 ^ 11 + (1 / 2 ^ 13 + 2 / 2 ^ 10)) + 1 / 2 ^ 11 + (1 / 2 ^ 13 + 2 / 2 ^ 10)) + 1 / 2 ^ 11

end Mli.Spec
