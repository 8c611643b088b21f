import Verif.Spec.Net
import Verif.Spec.Window
import Verif.Spec.Fc
import Mathlib.Data.Finset.Lattice.Fold
import Mathlib.Data.Finset.Prod

/-!
# A convolutional network in real numbers

An image, a feature map or a vector is a function from the position (row, column and channel, or one index) to the number.
-/

namespace Mli.Spec

/-- The taps of a window that are inside of the input. -/
def windowTaps (ih iw kh kw sh sw pt pl oy ox : Int) : Finset (ℕ × ℕ) :=
  (Finset.range kh.toNat ×ˢ Finset.range kw.toNat).filter fun p =>
    (0 ≤ tapCoord sh pt 1 oy p.1 ∧ tapCoord sh pt 1 oy p.1 < ih) ∧ (0 ≤ tapCoord sw pl 1 ox p.2 ∧ tapCoord sw pl 1 ox p.2 < iw)

/-- The largest number in the window of output position `(oy, ox)` (0 if the window is empty). -/
def maxQ (x : Int → Int → ℚ) (ih iw kh kw sh sw pt pl oy ox : Int) : ℚ :=
  if h : (windowTaps ih iw kh kw sh sw pt pl oy ox).Nonempty then
    (windowTaps ih iw kh kw sh sw pt pl oy ox).sup' h fun p => x (tapCoord sh pt 1 oy p.1) (tapCoord sw pl 1 ox p.2)
  else 0

/-- The mean of the numbers in the window of output position `(oy, ox)`. -/
def meanQ (x : Int → Int → ℚ) (ih iw kh kw sh sw pt pl oy ox : Int) : ℚ :=
  (∑ p ∈ windowTaps ih iw kh kw sh sw pt pl oy ox, x (tapCoord sh pt 1 oy p.1) (tapCoord sw pl 1 ox p.2)) /
    (windowTaps ih iw kh kw sh sw pt pl oy ox).card

/-- The position of element `i` when the elements of a shape are counted with the last index first. -/
def unflat : (shape : List Int) → Int → List Int
  | [], _ => []
  | _ :: ns, i => i / prod ns :: unflat ns (i % prod ns)

end Mli.Spec
