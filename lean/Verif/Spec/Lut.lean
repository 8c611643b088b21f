/-!
# Specification of table interpolation
-/

namespace Mli.Spec

/-- `r` is an integer nearest to `x / d`. -/
def Nearest (x d r : Int) : Prop := -d ≤ 2 * (x - r * d) ∧ 2 * (x - r * d) ≤ d

/-- `r` lies between `a` and `b`, whichever is larger. -/
def Between (a b r : Int) : Prop := (a ≤ r ∧ r ≤ b) ∨ (b ≤ r ∧ r ≤ a)

/-- `r` is the value at position `x / 2^s` of the piecewise linear function through the `n` table
entries `T 0 .. T (n-1)`, entry `off` being at position 0: the position selects a cell of the table
(the first or the last one outside of the table), and `r` is the linear interpolation between the
two ends of the cell, rounded to a nearest integer; exact at the cell boundary. -/
def TableValue (T : Int → Int) (n off : Int) (s : Nat) (x r : Int) : Prop :=
  ∃ i, i = max 0 (min (n - 2) (x / 2 ^ s + off)) ∧
    Nearest (T i * 2 ^ s + (T (i + 1) - T i) * (x % 2 ^ s)) (2 ^ s) r ∧
    Between (T i) (T (i + 1)) r ∧ (x % 2 ^ s = 0 → r = T i)

end Mli.Spec
