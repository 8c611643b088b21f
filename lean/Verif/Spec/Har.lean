import Verif.Spec.Rnn

/-! # What the human activity recognition network computes -/

namespace Mli.Spec

/-- `v` is the output of a fully connected layer with 16-bit elements: the exact sum of `n` products and the bias `b` (shifted by `sb`), scaled down by
`so` bits, rounded, limited to 16 bits and, with `relu`, to numbers that are not negative. -/
def DenseFx (m : Rnd) (n : Int) (X w : Int → Int) (b : Int) (sb : Nat) (so : Int) (relu : Bool) (v : Int) : Prop :=
  ∃ r, Scaled m (dotSum n X w + b * 2 ^ sb) so r ∧ v = if relu then max 0 (clamp 16 r) else clamp 16 r

/-- 128 steps of an LSTM layer of 32 cells from a cell and an output of zeros: `H (t + 1)` and `C (t + 1)` are output and cell after step `t` with the
input `X t`.  The gates have `fr` fractional bits before their activation. -/
def LstmRun (m : Rnd) (f : CellFx) (fr : Int) (W : CellW) (X H C : Nat → Int → Int) : Prop :=
  (∀ i, 0 ≤ i → i < 32 → H 0 i = 0 ∧ C 0 i = 0) ∧
  ∀ t, t < 128 → LstmFxStep m f fr 15 .tanh 32 32 W (X t) (H t) (C t) (H (t + 1)) (C (t + 1))

end Mli.Spec
