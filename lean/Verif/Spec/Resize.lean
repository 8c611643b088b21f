import Verif.Spec.Tensor

/-!
# Specification of bilinear resizing

Output row `h` lies at the input row `y / 2^s`, where `y = h * stride + offset`.  Its value is interpolated between the rows
`floor (y / 2^s)` and the next one, with weights in units of `2^-s`; rows outside the image are replaced by the nearest row of the
image.  Likewise for columns.
-/

namespace Mli.Spec

/-- The row (column) of an image of `n` rows that is nearest to `i`. -/
def nearIdx (n i : Int) : Int := max 0 (min i (n - 1))

/-- Value at row `y / 2^s` and column `x / 2^s` of the image `v` with `H` rows and `W` columns, times `2^(2s)`. -/
def bilinear (s : Nat) (H W : Int) (v : Int → Int → Int) (y x : Int) : Int :=
  let r := y / 2 ^ s
  let c := x / 2 ^ s
  let dr := y % 2 ^ s
  let dc := x % 2 ^ s
  v (nearIdx H r) (nearIdx W c) * ((2 ^ s - dr) * (2 ^ s - dc)) + v (nearIdx H r) (nearIdx W (c + 1)) * ((2 ^ s - dr) * dc) +
    v (nearIdx H (r + 1)) (nearIdx W c) * (dr * (2 ^ s - dc)) + v (nearIdx H (r + 1)) (nearIdx W (c + 1)) * (dr * dc)

/-- `y` is a combination of elements of `H` by `W` image `v` with four weights that are not negative and add up to `total`. -/
def Convex4 (total : Int) (H W : Int) (v : Int → Int → Int) (y : Int) : Prop :=
  ∃ (r c : Fin 4 → Int) (wt : Fin 4 → Int), (∀ k, 0 ≤ r k ∧ r k < H ∧ 0 ≤ c k ∧ c k < W ∧ 0 ≤ wt k) ∧
    wt 0 + wt 1 + wt 2 + wt 3 = total ∧
    y = v (r 0) (c 0) * wt 0 + v (r 1) (c 1) * wt 1 + v (r 2) (c 2) * wt 2 + v (r 3) (c 3) * wt 3

end Mli.Spec
