/-!
# Sliding windows

Output position `o` of a window of `k` taps with the given stride, padding before the input and
dilation: tap `j` reads input coordinate `o * stride - pad + j * dil`; taps outside of the input
`[0, n)` are skipped.
-/

namespace Mli.Spec

/-- The input coordinate of tap `j` for output position `o`. -/
def tapCoord (stride pad dil o j : Int) : Int := o * stride - pad + j * dil

/-- `v` is the largest of the input elements `x r c` that the `kh` by `kw` window of output position
`(oy, ox)` covers inside an `ih` by `iw` input, and there is one. -/
def IsWindowMax (x : Int → Int → Int) (ih iw kh kw sh sw pt pl oy ox v : Int) : Prop :=
  (∀ i j, 0 ≤ i → i < kh → 0 ≤ j → j < kw →
    0 ≤ tapCoord sh pt 1 oy i → tapCoord sh pt 1 oy i < ih →
    0 ≤ tapCoord sw pl 1 ox j → tapCoord sw pl 1 ox j < iw →
    x (tapCoord sh pt 1 oy i) (tapCoord sw pl 1 ox j) ≤ v) ∧
  ∃ i j, (0 ≤ i ∧ i < kh) ∧ (0 ≤ j ∧ j < kw) ∧
    (0 ≤ tapCoord sh pt 1 oy i ∧ tapCoord sh pt 1 oy i < ih) ∧
    (0 ≤ tapCoord sw pl 1 ox j ∧ tapCoord sw pl 1 ox j < iw) ∧
    x (tapCoord sh pt 1 oy i) (tapCoord sw pl 1 ox j) = v

/-- Sum over the taps `0, …, k-1` of one axis of those inside of the input `[0, n)`. -/
def tapSum (n k stride pad o : Int) (f : Int → Int) : Int :=
  ((List.range k.toNat).map fun (j : Nat) =>
    if 0 ≤ tapCoord stride pad 1 o j ∧ tapCoord stride pad 1 o j < n then f (tapCoord stride pad 1 o j) else 0).sum

/-- Sum of the input elements in the window of output position `(oy, ox)`. -/
def windowSum (x : Int → Int → Int) (ih iw kh kw sh sw pt pl oy ox : Int) : Int :=
  tapSum ih kh sh pt oy fun r => tapSum iw kw sw pl ox fun c => x r c

/-- Number of input elements in the window of output position `(oy, ox)`. -/
def windowCount (ih iw kh kw sh sw pt pl oy ox : Int) : Int :=
  windowSum (fun _ _ => 1) ih iw kh kw sh sw pt pl oy ox

/-- `mul / 2 ^ s` is `1 / d` with 14 bits of precision, rounded down. -/
def IsRecip (d mul : Int) (s : Nat) : Prop :=
  2 ^ 14 ≤ mul ∧ mul < 2 ^ 15 ∧ d * mul ≤ 2 ^ s ∧ 2 ^ s < d * (mul + 1)

end Mli.Spec
