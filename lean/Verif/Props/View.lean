import Verif.Spec.View
import Verif.Model.View
import Verif.Lemmas.Contig
import Verif.Props.Mov
import Verif.Props.Iter

/-!
# C26, C27: tensor views

The cell of the element at position `pos` is `u32 (offset + Σ pos_i * stride_i)`; every statement below is
exact modulo `2^32`, the width of the offset computation.
-/

namespace Mli.Cs
open Mli Mli.Spec Mli.Iter

/-- Buffer cell of the element at `pos`. -/
def View.cell (v : View) (pos : List Int) : Int := u32 (v.offs + offset (v.dims.map (·.2)) pos)

/-- Well formed descriptor: the rank fits the arrays, members are in the range of their types. -/
structure View.Ok (v : View) : Prop where
  rank : v.rank ≤ v.dims.length
  offs : 0 ≤ v.offs ∧ v.offs < 2 ^ 32
  shape : ∀ d ∈ v.dims, 0 ≤ d.1 ∧ d.1 < 2 ^ 32
  stride : ∀ d ∈ v.dims, -2 ^ 31 ≤ d.2 ∧ d.2 < 2 ^ 31

theorem u32_wrap (x : Int) : u32 (wrap 32 x) = u32 x := by
  have := wrap_emod 32 x
  unfold u32; exact_mod_cast this

theorem u32_congr {a b : Int} (k : Int) (h : a = b + 2 ^ 32 * k) : u32 a = u32 b := by
  unfold u32; rw [h]; exact Int.add_mul_emod_self_left ..

theorem u32_u32 (a : Int) : u32 (u32 a) = u32 a := by unfold u32; exact Int.emod_emod_of_dvd _ (Int.dvd_refl _)

theorem u32_add_right (a b : Int) : u32 (a + u32 b) = u32 (a + b) := Int.add_emod_emod ..

theorem wrap_decomp (x : Int) : ∃ k : Int, wrap 32 (u32 x) = x + 2 ^ 32 * k := by
  have h1 : u32 (wrap 32 (u32 x)) = u32 x := by rw [u32_wrap, u32_u32]
  have h2 := Int.emod_add_mul_ediv (wrap 32 (u32 x)) (2 ^ 32)
  have h3 := Int.emod_add_mul_ediv x (2 ^ 32)
  unfold u32 at *
  exact ⟨wrap 32 (x % 2 ^ 32) / 2 ^ 32 - x / 2 ^ 32, by
    rw [mul_sub]; omega⟩

theorem offset_take (ss : List Int) : ∀ (is : List Int), offset ss is = offset (ss.take is.length) is := by
  induction ss with
  | nil => intro is; cases is <;> rfl
  | cons s ss ih =>
    intro is
    cases is with
    | nil => rfl
    | cons i is => simp only [List.length_cons, List.take_succ_cons, offset]; rw [ih is]

theorem foldl_u32_sum (f : Nat → Int) : ∀ (l : List Nat) (a : Int),
    u32 (l.foldl (fun acc i => u32 (acc + u32 (f i))) a) = u32 (a + (l.map f).sum) := by
  intro l
  induction l with
  | nil => intro a; simp
  | cons i l ih =>
    intro a
    rw [List.foldl_cons, ih, u32_add_left, List.map_cons, List.sum_cons]
    rw [show a + u32 (f i) + (l.map f).sum = (a + (l.map f).sum) + u32 (f i) by ring, u32_add_right]
    congr 1; ring

theorem offset_sum : ∀ (ss is : List Int), is.length ≤ ss.length →
    offset ss is = ((List.range is.length).map fun k => is.getD k 0 * ss.getD k 0).sum := by
  intro ss
  induction ss with
  | nil => intro is h; cases is <;> simp_all [offset]
  | cons s ss ih =>
    intro is h
    cases is with
    | nil => rfl
    | cons i is =>
      simp only [List.length_cons] at h ⊢
      rw [offset, ih is (by omega), List.range_succ_eq_map, List.map_cons, List.sum_cons, List.map_map]
      rfl

theorem getD_map_snd (ds : List (Int × Int)) (i : Nat) : (ds.getD i (0, 0)).2 = (ds.map (·.2)).getD i 0 := by
  rw [List.getD_eq_getElem?_getD, List.getD_eq_getElem?_getD, List.getElem?_map]
  cases ds[i]? <;> rfl

/-- `get_offset` is the offset of the position. -/
theorem getOffset_eq (v : View) (h : v.rank ≤ v.dims.length) (pos : List Int) (hp : pos.length = v.rank) :
    u32 (v.getOffset pos) = u32 (offset (v.dims.map (·.2)) pos) := by
  unfold View.getOffset
  rw [foldl_u32_sum (fun i => pos.getD i 0 * (v.dims.getD i (0, 0)).2), zero_add,
    offset_sum _ _ (by simp; omega), hp]
  simp only [getD_map_snd]

/-- Reading with the element type reads the cell of the position, as long as the byte offset of the
view fits in 32 bits. -/
theorem access_cell (v : View) (h : v.Ok) (es : Int) (hes : 1 ≤ es) (hb : v.offs * es < 2 ^ 32) (pos : List Int)
    (hp : pos.length = v.rank) : v.access es es (v.getOffset pos) = v.cell pos := by
  unfold View.access View.cell
  have h0 := h.offs.1
  rw [u32_id (x := v.offs * es) ⟨Int.mul_nonneg h0 (by omega), hb⟩, Int.mul_ediv_cancel _ (by omega),
    ← u32_add_left, getOffset_eq v h.rank pos hp, u32_add_left, add_comm]

theorem offset_addPos (ss : List Int) : ∀ (p q : List Int), p.length = q.length →
    offset ss (addPos p q) = offset ss p + offset ss q := by
  unfold addPos
  induction ss with
  | nil => intro p q _; cases p <;> cases q <;> simp [offset]
  | cons s ss ih =>
    intro p q h
    cases p with
    | nil => cases q <;> simp_all [offset]
    | cons a p =>
      cases q with
      | nil => simp at h
      | cons b q =>
        simp only [List.zipWith_cons_cons, offset]
        rw [ih p q (by simpa using h)]; ring

theorem mkView_offset (maxRank : Nat) (o : Int) (size ss : List Int) (rank : Nat) (hs : ss.length = maxRank)
    (hr : rank ≤ maxRank) (x : List Int) (hx : x.length = rank) :
    offset ((mkView maxRank o size ss rank).dims.map (·.2)) x = offset ss x := by
  rw [offset_sum _ _ (by simp [mkView]; omega), offset_sum _ _ (by omega)]
  congr 1
  apply List.map_congr_left
  intro k hk
  rw [List.mem_range] at hk
  congr 1
  simp only [mkView, List.map_map]
  rw [getD_map_range _ (by omega)]
  simp [hx ▸ hk]

theorem mkView_shape (maxRank : Nat) (o : Int) (size ss : List Int) (rank : Nat) (hr : rank ≤ maxRank)
    (hz : size.length = rank) : (mkView maxRank o size ss rank).shape = size := by
  unfold View.shape mkView
  apply List.ext_getElem?
  intro k
  by_cases hk : k < rank
  · rw [List.getElem?_map, List.getElem?_take, if_pos hk, List.getElem?_map, List.getElem?_range (by omega)]
    simp [hk, List.getElem?_eq_getElem (hz ▸ hk)]
  · rw [List.getElem?_map, List.getElem?_take, if_neg hk, List.getElem?_eq_none (by omega)]; rfl

/-- C26, slicing: the element of the slice at `x` is the element of the tensor at `pos + x`, and the slice
has the requested shape. -/
theorem c26_slice (v : View) (h : v.Ok) (pos size : List Int) (hp : pos.length = v.rank) (hz : size.length = v.rank) :
    (v.slice pos size).shape = size ∧
    ∀ x, x.length = v.rank → (v.slice pos size).cell x = v.cell (addPos pos x) := by
  refine ⟨mkView_shape _ _ _ _ _ h.rank hz, fun x hx => ?_⟩
  unfold View.cell
  have hd : offset ((v.slice pos size).dims.map (·.2)) x = offset (v.dims.map (·.2)) x :=
    mkView_offset _ _ _ _ _ (by simp) h.rank x hx
  rw [hd, offset_addPos _ _ _ (by omega)]
  show u32 (u32 (v.offs + v.getOffset pos) + _) = _
  rw [u32_add_left, show v.offs + v.getOffset pos + offset (v.dims.map (·.2)) x
    = (v.offs + offset (v.dims.map (·.2)) x) + v.getOffset pos by ring, ← u32_add_right, getOffset_eq v h.rank pos hp,
    u32_add_right]
  congr 1; ring

theorem inShape_addPos : ∀ (shape pos size x : List Int), pos.length = shape.length →
    (∀ k, k < shape.length → 0 ≤ pos.getD k 0 ∧ pos.getD k 0 + size.getD k 0 ≤ shape.getD k 0) →
    size.length = shape.length → InShape size x → InShape shape (addPos pos x) := by
  unfold addPos
  intro shape
  induction shape with
  | nil => intro pos size x h1 _ h3 h4; cases size <;> cases pos <;> cases x <;> simp_all [InShape]
  | cons n shape ih =>
    intro pos size x h1 h2 h3 h4
    cases pos with
    | nil => simp at h1
    | cons p pos =>
      cases size with
      | nil => simp at h3
      | cons s size =>
        cases x with
        | nil => exact h4.elim
        | cons a x =>
          have := h2 0 (by simp)
          simp only [List.getD_cons_zero] at this
          refine ⟨by have := h4.1; simp only; omega, ih pos size x (by simpa using h1) ?_ (by simpa using h3) h4.2⟩
          intro k hk
          have := h2 (k + 1) (by simpa using hk)
          simpa using this

/-- C26, slicing: a slice that fits reaches only elements of the tensor, and slices compose. -/
theorem c26_slice_inside (v : View) (h : v.Ok) (pos size : List Int) (hp : pos.length = v.rank)
    (hz : size.length = v.rank)
    (hw : ∀ k, k < v.rank → 0 ≤ pos.getD k 0 ∧ pos.getD k 0 + size.getD k 0 ≤ v.shape.getD k 0)
    (x : List Int) (hx : InShape (v.slice pos size).shape x) :
    ∃ y, InShape v.shape y ∧ (v.slice pos size).cell x = v.cell y := by
  have hl : v.shape.length = v.rank := by unfold View.shape; simp; exact h.rank
  rw [(c26_slice v h pos size hp hz).1] at hx
  have hxl := inShape_length _ _ hx
  exact ⟨addPos pos x, inShape_addPos _ _ _ _ (by omega) (by rw [hl]; exact hw) (by omega) hx,
    (c26_slice v h pos size hp hz).2 x (by omega)⟩

theorem c26_slice_offset (v : View) (h : v.Ok) (o : Int) (size : List Int) (x : List Int) (hx : x.length = v.rank) :
    (v.sliceOffset o size).cell x = u32 (o + v.cell x) := by
  unfold View.cell
  have hd : offset ((v.sliceOffset o size).dims.map (·.2)) x = offset (v.dims.map (·.2)) x :=
    mkView_offset _ _ _ _ _ (by simp) h.rank x hx
  rw [hd, u32_add_right]
  show u32 (u32 (v.offs + o) + _) = _
  rw [u32_add_left]; congr 1; ring

/-- C26, `slice(size)`: correct for a tensor which is not itself a view with an offset. -/
theorem c26_slice_size_partial (v : View) (h : v.Ok) (h0 : v.offs = 0) (size : List Int) (hz : size.length = v.rank) :
    (v.sliceSize size).shape = size ∧ ∀ x, x.length = v.rank → (v.sliceSize size).cell x = v.cell x := by
  refine ⟨mkView_shape _ _ _ _ _ h.rank hz, fun x hx => ?_⟩
  unfold View.cell
  have hd : offset ((v.sliceSize size).dims.map (·.2)) x = offset (v.dims.map (·.2)) x :=
    mkView_offset _ _ _ _ _ (by simp) h.rank x hx
  rw [hd, h0]; rfl

/-- The code violates C26 for `slice(size)`: the offset of the sliced view is lost, the first element of
the new view is not the first element of the sliced one. -/
theorem c26_slice_size_violated :
    let v : View := (contiguous 2 [4, 4]).slice [2, 1] [2, 3]
    v.Ok ∧ v.cell [0, 0] = 9 ∧ (v.sliceSize [1, 1]).cell [0, 0] = 0 := by
  refine ⟨⟨by decide, by decide, by decide, by decide⟩, by decide, by decide⟩

/-! ### transpose -/

/-- C26, transposing by an order that permutes the dimensions in use: the element at `x` is the element of
the tensor at the position `y` with `y[order[i]] = x[i]`, and shapes correspond. -/
theorem c26_transpose (v : View) (h : v.Ok) (order : List Nat) (ho : order.length = v.dims.length)
    (h1 : ∀ i, i < v.rank → order.getD i 0 < v.rank)
    (h2 : ∀ i j, i < v.rank → j < v.rank → order.getD i 0 = order.getD j 0 → i = j)
    (x y : List Int) (hx : x.length = v.rank) (hy : y.length = v.rank)
    (hxy : ∀ i, i < v.rank → y.getD (order.getD i 0) 0 = x.getD i 0) :
    (v.transpose order).cell x = v.cell y ∧ (InShape (v.transpose order).shape x ↔ InShape v.shape y) := by
  have hr := h.rank
  have hdim : ∀ i, i < v.rank → (v.transpose order).dims.getD i (0, 0) = v.dims.getD (order.getD i 0) (0, 0) := by
    intro i hi
    simp only [View.transpose]
    rw [List.getD_eq_getElem?_getD, List.getElem?_map, List.getElem?_eq_getElem (by omega : i < order.length)]
    simp only [Option.map_some, Option.getD_some]
    rw [List.getD_eq_getElem?_getD (l := order), List.getElem?_eq_getElem (by omega : i < order.length)]; rfl
  constructor
  · unfold View.cell
    congr 2
    have hl : ((v.transpose order).dims.map (·.2)).length = v.dims.length := by simp [View.transpose, ho]
    rw [offset_sum _ _ (by omega), offset_sum _ _ (by simp; omega), hx, hy,
      ← permFn_sum (P := fun i => order.getD i 0) h1 h2 (fun k => y.getD k 0 * (v.dims.map (·.2)).getD k 0)]
    congr 1
    apply List.map_congr_left
    intro k hk
    rw [List.mem_range] at hk
    rw [hxy k hk, ← getD_map_snd, ← getD_map_snd, hdim k hk]
  · have hs : ∀ (w : View), w.rank ≤ w.dims.length → w.shape.length = w.rank ∧
        ∀ i, i < w.rank → w.shape.getD i 0 = (w.dims.getD i (0, 0)).1 := by
      intro w hw
      unfold View.shape
      refine ⟨by simp; exact hw, fun i hi => ?_⟩
      rw [List.getD_eq_getElem?_getD, List.getD_eq_getElem?_getD, List.getElem?_map, List.getElem?_take, if_pos hi]
      cases w.dims[i]? <;> rfl
    have hst := hs (v.transpose order) (by show v.rank ≤ _; simp [View.transpose, ho, hr])
    have hsv := hs v hr
    rw [inShape_iff, inShape_iff]
    have hrt : (v.transpose order).rank = v.rank := rfl
    constructor
    · rintro ⟨_, ha⟩
      refine ⟨by omega, fun m hm => ?_⟩
      obtain ⟨k, hk, rfl⟩ := permFn_surj (P := fun i => order.getD i 0) h1 h2 (show m < v.rank by omega)
      have := ha k (by omega)
      rw [hst.2 k hk, hdim k hk, ← hxy k hk] at this
      rw [hsv.2 _ (h1 k hk)]; exact this
    · rintro ⟨_, ha⟩
      refine ⟨by omega, fun k hk => ?_⟩
      have hk' : k < v.rank := by omega
      have := ha (order.getD k 0) (by have := h1 k hk'; omega)
      rw [hsv.2 _ (h1 k hk'), hxy k hk'] at this
      rw [hst.2 k hk', hdim k hk']; exact this

/-- C26: transposing by an order and then by its inverse gives back the tensor. -/
theorem c26_transpose_inverse (v : View) (order inv : List Nat)
    (hi : inv.length = v.dims.length) (ho : order.length = v.dims.length)
    (h : ∀ j, j < v.dims.length → inv.getD j 0 < v.dims.length ∧ order.getD (inv.getD j 0) 0 = j) :
    (v.transpose order).transpose inv = v := by
  have hd : ((v.transpose order).transpose inv).dims = v.dims := by
    simp only [View.transpose]
    apply List.ext_getElem?
    intro j
    by_cases hj : j < v.dims.length
    · obtain ⟨a, b⟩ := h j hj
      have hinv : inv[j]? = some (inv.getD j 0) := by
        rw [List.getD_eq_getElem?_getD, List.getElem?_eq_getElem (by omega : j < inv.length)]; rfl
      have hord : order[inv.getD j 0]? = some j := by
        rw [List.getD_eq_getElem?_getD, List.getElem?_eq_getElem (by omega : inv.getD j 0 < order.length)] at b
        rw [List.getElem?_eq_getElem (by omega : inv.getD j 0 < order.length)]
        exact congrArg some b
      rw [List.getElem?_map, hinv, Option.map_some, List.getD_eq_getElem?_getD, List.getElem?_map, hord,
        Option.map_some, Option.getD_some, List.getD_eq_getElem?_getD, List.getElem?_eq_getElem hj]; rfl
    · rw [List.getElem?_eq_none (by simp; omega), List.getElem?_eq_none (by omega)]
  cases v
  simp only [View.transpose] at hd ⊢
  rw [hd]

example : ((contiguous 4 [2, 3, 4, 5]).transpose [2, 0, 3, 1]).cell [3, 1, 4, 2] =
    (contiguous 4 [2, 3, 4, 5]).cell [1, 2, 3, 4] := by decide

/-! ### split and combine -/

theorem splitDims_length (c : Int) (l : Bool) : ∀ (a : Nat) (ds : List (Int × Int)), a < ds.length →
    (splitDims c l a ds).length = ds.length + 1 := by
  intro a
  induction a with
  | zero => intro ds h; cases ds with
    | nil => simp at h
    | cons d ds => obtain ⟨n, st⟩ := d; unfold splitDims; cases l <;> simp
  | succ a ih => intro ds h; cases ds with
    | nil => simp at h
    | cons d ds => unfold splitDims; simp [ih ds (by simpa using h)]

/-- Coordinate of the split dimension from the coordinates of its two halves. -/
def splitCoord (left : Bool) (m : Int) (a b : Int) : Int := if left then a * m + b else a + b * m

theorem split_offset (c : Int) (l : Bool) : ∀ (a : Nat) (ds : List (Int × Int)) (p : List Int),
    a < ds.length → a + 1 < p.length →
    ∃ k, offset ((splitDims c l a ds).map (·.2)) p =
      offset (ds.map (·.2)) (mergeAt (splitCoord l ((ds.getD a (0, 0)).1 / c)) a p) + 2 ^ 32 * k := by
  intro a
  induction a with
  | zero =>
    intro ds p hd hp
    match ds, p with
    | [], _ => simp at hd
    | _, [] => simp at hp
    | _, [_] => simp at hp
    | (n, st) :: ds, x :: y :: p =>
      obtain ⟨k, hk⟩ := wrap_decomp (n / c * st)
      cases l
      · refine ⟨y * k, ?_⟩
        simp only [splitDims, mergeAt, splitCoord, offset, List.map_cons, List.getD_cons_zero, hk]
        simp only [Bool.false_eq_true, if_false, List.map_cons, offset]; ring
      · refine ⟨x * k, ?_⟩
        simp only [splitDims, mergeAt, splitCoord, offset, List.map_cons, List.getD_cons_zero, hk, if_true]; ring
  | succ a ih =>
    intro ds p hd hp
    match ds, p with
    | [], _ => simp at hd
    | _, [] => simp at hp
    | d :: ds, x :: p =>
      obtain ⟨k, hk⟩ := ih ds p (by simpa using hd) (by simpa using hp)
      refine ⟨k, ?_⟩
      simp only [splitDims, mergeAt, offset, List.map_cons, List.getD_cons_succ, hk]; ring

theorem split_shape_take (c : Int) (l : Bool) : ∀ (a r : Nat) (ds : List (Int × Int)), a < r → a < ds.length →
    (splitDims c l a ds).take (r + 1) = splitDims c l a (ds.take r) := by
  intro a
  induction a with
  | zero =>
    intro r ds hr hd
    match ds, r with
    | [], _ => simp at hd
    | _, 0 => omega
    | (n, st) :: ds, r + 1 => cases l <;> simp [splitDims]
  | succ a ih =>
    intro r ds hr hd
    match ds, r with
    | [], _ => simp at hd
    | _, 0 => omega
    | d :: ds, r + 1 =>
      simp only [splitDims, List.take_succ_cons]
      rw [ih r ds (by omega) (by simpa using hd)]

/-- Division with remainder in the two coordinates of a split dimension. -/
theorem splitCoord_bij (l : Bool) {c m : Int} (hm : 0 ≤ m) (q : Int) :
    (∀ a b, (0 ≤ a ∧ a < if l then c else m) → (0 ≤ b ∧ b < if l then m else c) →
      0 ≤ splitCoord l m a b ∧ splitCoord l m a b < c * m) ∧
    (0 ≤ q → q < c * m → ∃ a b, (0 ≤ a ∧ a < if l then c else m) ∧ (0 ≤ b ∧ b < if l then m else c) ∧
      splitCoord l m a b = q) ∧
    (∀ a b a' b', (0 ≤ a ∧ a < if l then c else m) → (0 ≤ b ∧ b < if l then m else c) →
      (0 ≤ a' ∧ a' < if l then c else m) → (0 ≤ b' ∧ b' < if l then m else c) →
      splitCoord l m a b = splitCoord l m a' b' → a = a' ∧ b = b') := by
  have key : ∀ a b : Int, 0 ≤ a ∧ a < c → 0 ≤ b ∧ b < m → 0 ≤ a * m + b ∧ a * m + b < c * m := by
    intro a b ha hb
    have h1 : (a + 1) * m ≤ c * m := Int.mul_le_mul_of_nonneg_right (by omega) hm
    have h2 : 0 ≤ a * m := Int.mul_nonneg ha.1 hm
    rw [add_mul, one_mul] at h1
    omega
  have inj : ∀ a b a' b' : Int, 0 ≤ b ∧ b < m → 0 ≤ b' ∧ b' < m → a * m + b = a' * m + b' → a = a' ∧ b = b' := by
    intro a b a' b' hb hb' h
    have e1 : (a * m + b) % m = b := by rw [Int.add_comm, Int.add_mul_emod_self_right, Int.emod_eq_of_lt hb.1 hb.2]
    have e2 : (a' * m + b') % m = b' := by
      rw [Int.add_comm, Int.add_mul_emod_self_right, Int.emod_eq_of_lt hb'.1 hb'.2]
    have hbb : b = b' := by rw [← e1, h, e2]
    refine ⟨?_, hbb⟩
    have : a * m = a' * m := by omega
    exact Int.eq_of_mul_eq_mul_right (by omega) this
  have onto : 0 ≤ q → q < c * m → ∃ a b : Int, (0 ≤ a ∧ a < c) ∧ (0 ≤ b ∧ b < m) ∧ a * m + b = q := by
    intro h0 h1
    have hm1 : 0 < m := by
      rcases lt_or_eq_of_le hm with h | h
      · exact h
      · rw [← h] at h1; omega
    refine ⟨q / m, q % m, ⟨Int.ediv_nonneg h0 hm, Int.ediv_lt_of_lt_mul hm1 h1⟩,
      ⟨Int.emod_nonneg _ (by omega), Int.emod_lt_of_pos _ hm1⟩, ?_⟩
    have := Int.emod_add_mul_ediv q m
    rw [mul_comm] at this; omega
  cases l
  · simp only [splitCoord, Bool.false_eq_true, if_false]
    refine ⟨fun a b ha hb => by have := key b a hb ha; omega, fun h0 h1 => ?_, fun a b a' b' ha hb ha' hb' h => ?_⟩
    · obtain ⟨a, b, h2, h3, h4⟩ := onto h0 h1
      exact ⟨b, a, h3, h2, by omega⟩
    · have := inj b a b' a' ha ha' (by omega); exact ⟨this.2, this.1⟩
  · simp only [splitCoord, if_true]
    exact ⟨key, onto, fun a b a' b' _ hb _ hb' h => inj a b a' b' hb hb' h⟩

/-- Merging two coordinates is a bijection of multi-indices when it is one on the two coordinates. -/
theorem mergeAt_bij (f : Int → Int → Int) (n0 n1 n : Int)
    (h1 : ∀ a b, (0 ≤ a ∧ a < n0) → (0 ≤ b ∧ b < n1) → 0 ≤ f a b ∧ f a b < n)
    (h2 : ∀ q, 0 ≤ q → q < n → ∃ a b, (0 ≤ a ∧ a < n0) ∧ (0 ≤ b ∧ b < n1) ∧ f a b = q)
    (h3 : ∀ a b a' b', (0 ≤ a ∧ a < n0) → (0 ≤ b ∧ b < n1) → (0 ≤ a' ∧ a' < n0) → (0 ≤ b' ∧ b' < n1) →
      f a b = f a' b' → a = a' ∧ b = b') (pre post : List Int) :
    (∀ p, InShape (pre ++ n0 :: n1 :: post) p → InShape (pre ++ n :: post) (mergeAt f pre.length p)) ∧
    (∀ q, InShape (pre ++ n :: post) q → ∃ p, InShape (pre ++ n0 :: n1 :: post) p ∧ mergeAt f pre.length p = q) ∧
    (∀ p p', InShape (pre ++ n0 :: n1 :: post) p → InShape (pre ++ n0 :: n1 :: post) p' →
      mergeAt f pre.length p = mergeAt f pre.length p' → p = p') := by
  induction pre with
  | nil =>
    refine ⟨?_, ?_, ?_⟩
    · intro p hp
      match p, hp with
      | a :: b :: p, ⟨ha, hb, hp⟩ => exact ⟨h1 a b ha hb, hp⟩
    · intro q hq
      match q, hq with
      | c :: q, ⟨hc, hq⟩ =>
        obtain ⟨a, b, ha, hb, hab⟩ := h2 c hc.1 hc.2
        exact ⟨a :: b :: q, ⟨ha, hb, hq⟩, by simp [mergeAt, hab]⟩
    · intro p p' hp hp' h
      match p, p', hp, hp' with
      | a :: b :: p, a' :: b' :: p', ⟨ha, hb, hp⟩, ⟨ha', hb', hp'⟩ =>
        simp only [List.length_nil, mergeAt, List.cons.injEq] at h
        obtain ⟨e1, e2⟩ := h3 a b a' b' ha hb ha' hb' h.1
        rw [e1, e2, h.2]
  | cons n' pre ih =>
    obtain ⟨i1, i2, i3⟩ := ih
    refine ⟨?_, ?_, ?_⟩
    · intro p hp
      match p, hp with
      | a :: p, ⟨ha, hp⟩ => exact ⟨ha, i1 p hp⟩
    · intro q hq
      match q, hq with
      | c :: q, ⟨hc, hq⟩ =>
        obtain ⟨p, hp, he⟩ := i2 q hq
        exact ⟨c :: p, ⟨hc, hp⟩, by simp [mergeAt, he]⟩
    · intro p p' hp hp' h
      match p, p', hp, hp' with
      | a :: p, a' :: p', ⟨ha, hp⟩, ⟨ha', hp'⟩ =>
        simp only [List.length_cons, mergeAt, List.cons.injEq] at h
        rw [h.1, i3 p p' hp hp' h.2]

theorem splitDims_app (c : Int) (l : Bool) (pre post : List (Int × Int)) (n st : Int) :
    (splitDims c l pre.length (pre ++ (n, st) :: post)).map (·.1) =
      pre.map (·.1) ++ (if l then c else n / c) :: (if l then n / c else c) :: post.map (·.1) := by
  induction pre with
  | nil => cases l <;> simp [splitDims]
  | cons d pre ih => simp only [List.length_cons, List.cons_append, splitDims, List.map_cons, ih]

theorem split_at {ds : List (Int × Int)} {a : Nat} (h : a < ds.length) :
    ds = ds.take a ++ ds.getD a (0, 0) :: ds.drop (a + 1) := by
  rw [List.getD_eq_getElem?_getD, List.getElem?_eq_getElem h, Option.getD_some, List.getElem_cons_drop,
    List.take_append_drop]

/-- C26, splitting a dimension of `n = chunks * m` elements: the element of the split view at `p` is the
element of the tensor at the position in which the two coordinates are joined, and joining is a one-to-one
correspondence between the positions of both. -/
theorem c26_split (v : View) (h : v.Ok) (axis : Nat) (ha : axis < v.rank) (chunks m : Int) (left : Bool)
    (hc : 1 ≤ chunks) (hn : (v.dims.getD axis (0, 0)).1 = chunks * m) :
    let w := v.split axis chunks left
    let join := mergeAt (splitCoord left m) axis
    (∀ p, p.length = v.rank + 1 → w.cell p = v.cell (join p)) ∧
    (∀ p, InShape w.shape p → InShape v.shape (join p)) ∧
    (∀ q, InShape v.shape q → ∃ p, InShape w.shape p ∧ join p = q) ∧
    (∀ p p', InShape w.shape p → InShape w.shape p' → join p = join p' → p = p') := by
  intro w join
  have hr := h.rank
  have hm : (v.dims.getD axis (0, 0)).1 / chunks = m := by
    rw [hn]; exact Int.mul_ediv_cancel_left _ (by omega)
  have hm0 : 0 ≤ m := by
    have hmem : v.dims.getD axis (0, 0) ∈ v.dims := by
      rw [List.getD_eq_getElem?_getD, List.getElem?_eq_getElem (by omega : axis < v.dims.length)]
      exact List.getElem_mem _
    have := (h.shape _ hmem).1
    rw [hn] at this
    by_contra hlt
    have : chunks * m < 0 := Int.mul_neg_of_pos_of_neg (by omega) (by omega)
    omega
  refine ⟨fun p hp => ?_, ?_⟩
  · obtain ⟨k, hk⟩ := split_offset chunks left axis v.dims p (by omega) (by omega)
    rw [hm] at hk
    unfold View.cell
    show u32 (v.offs + offset ((splitDims chunks left axis v.dims).map (·.2)) p) = _
    rw [hk]
    exact u32_congr k (by ring)
  · have hat : axis < (v.dims.take v.rank).length := by simp; omega
    have hsp := split_at hat
    have hget : (v.dims.take v.rank).getD axis (0, 0) = v.dims.getD axis (0, 0) := by
      rw [List.getD_eq_getElem?_getD, List.getD_eq_getElem?_getD, List.getElem?_take, if_pos ha]
    have hlen : ((v.dims.take v.rank).take axis).length = axis := by simp; omega
    have hvs : v.shape = ((v.dims.take v.rank).take axis).map (·.1) ++
        (chunks * m) :: ((v.dims.take v.rank).drop (axis + 1)).map (·.1) := by
      unfold View.shape
      conv_lhs => rw [hsp]
      rw [List.map_append, List.map_cons, hget, hn]
    have hws : w.shape = ((v.dims.take v.rank).take axis).map (·.1) ++ (if left then chunks else m) ::
        (if left then m else chunks) :: ((v.dims.take v.rank).drop (axis + 1)).map (·.1) := by
      show ((splitDims chunks left axis v.dims).take (v.rank + 1)).map (·.1) = _
      rw [split_shape_take _ _ _ _ _ ha (by omega)]
      conv_lhs => rw [hsp, hget]
      have := splitDims_app chunks left ((v.dims.take v.rank).take axis) ((v.dims.take v.rank).drop (axis + 1))
        (v.dims.getD axis (0, 0)).1 (v.dims.getD axis (0, 0)).2
      rw [hlen, hm] at this
      exact this
    have hb := splitCoord_bij left (c := chunks) hm0
    have := mergeAt_bij (splitCoord left m) (if left then chunks else m) (if left then m else chunks) (chunks * m)
      (hb 0).1 (fun q => (hb q).2.1) (hb 0).2.2 (((v.dims.take v.rank).take axis).map (·.1))
      (((v.dims.take v.rank).drop (axis + 1)).map (·.1))
    rw [← hvs, ← hws, List.length_map, hlen] at this
    exact this

theorem combine_offset (n0 : Int) : ∀ (a : Nat) (ds : List (Int × Int)) (p : List Int), a + 1 < ds.length →
    a + 1 < p.length → (ds.getD (a + 1) (0, 0)).2 = n0 * (ds.getD a (0, 0)).2 →
    offset ((combineDims a ds).map (·.2)) (mergeAt (fun x y => x + y * n0) a p) = offset (ds.map (·.2)) p := by
  intro a
  induction a with
  | zero =>
    intro ds p hd hp h
    match ds, p with
    | [], _ => simp at hd
    | [_], _ => simp at hd
    | _, [] => simp at hp
    | _, [_] => simp at hp
    | (m0, s0) :: (m1, s1) :: ds, x :: y :: p =>
      simp only [zero_add, List.getD_cons_succ, List.getD_cons_zero] at h
      simp only [combineDims, mergeAt, offset, List.map_cons, h]; ring
  | succ a ih =>
    intro ds p hd hp h
    match ds, p with
    | [], _ => simp at hd
    | _, [] => simp at hp
    | d :: ds, x :: p =>
      simp only [combineDims, mergeAt, offset, List.map_cons]
      rw [ih ds p (by simpa using hd) (by simpa using hp) (by simpa using h)]

theorem combineDims_app (pre post : List (Int × Int)) (n0 s0 n1 s1 : Int) :
    (combineDims pre.length (pre ++ (n0, s0) :: (n1, s1) :: post)) =
      pre ++ (u32 (n0 * n1), s0) :: post := by
  induction pre with
  | nil => simp [combineDims]
  | cons d pre ih => simp only [List.length_cons, List.cons_append, combineDims, ih]

/-- C26, combining two dimensions of which the first runs faster (`reverse_order = true`, the default):
the elements of the combined view are those of the tensor, in one-to-one correspondence. -/
theorem c26_combine_reverse (v : View) (h : v.Ok) (axis : Nat) (ha : axis + 1 < v.rank) (n0 n1 : Int)
    (hn0 : (v.dims.getD axis (0, 0)).1 = n0) (hn1 : (v.dims.getD (axis + 1) (0, 0)).1 = n1)
    (hs : (v.dims.getD (axis + 1) (0, 0)).2 = n0 * (v.dims.getD axis (0, 0)).2) (hf : n0 * n1 < 2 ^ 32) :
    let w := v.combine axis
    let join := mergeAt (fun x y => x + y * n0) axis
    (∀ p, p.length = v.rank → w.cell (join p) = v.cell p) ∧
    (∀ p, InShape v.shape p → InShape w.shape (join p)) ∧
    (∀ q, InShape w.shape q → ∃ p, InShape v.shape p ∧ join p = q) ∧
    (∀ p p', InShape v.shape p → InShape v.shape p' → join p = join p' → p = p') := by
  intro w join
  have hr := h.rank
  refine ⟨fun p hp => ?_, ?_⟩
  · unfold View.cell
    show u32 (v.offs + offset ((combineDims axis v.dims).map (·.2)) _) = _
    rw [combine_offset n0 axis v.dims p (by omega) (by omega) hs]
  · have hmem : ∀ k, k < v.dims.length → v.dims.getD k (0, 0) ∈ v.dims := by
      intro k hk
      rw [List.getD_eq_getElem?_getD, List.getElem?_eq_getElem hk]
      exact List.getElem_mem _
    have p0 := (h.shape _ (hmem axis (by omega))).1
    have p1 := (h.shape _ (hmem (axis + 1) (by omega))).1
    rw [hn0] at p0; rw [hn1] at p1
    have hfull : v.dims = v.dims.take axis ++ (n0, (v.dims.getD axis (0, 0)).2) ::
        (n1, (v.dims.getD (axis + 1) (0, 0)).2) :: v.dims.drop (axis + 2) := by
      conv_lhs => rw [split_at (show axis < v.dims.length by omega)]
      congr 1
      rw [List.cons.injEq]
      refine ⟨by rw [← hn0], ?_⟩
      have hd : (v.dims.drop (axis + 1)) = v.dims.getD (axis + 1) (0, 0) :: v.dims.drop (axis + 2) := by
        rw [List.getD_eq_getElem?_getD, List.getElem?_eq_getElem (by omega : axis + 1 < v.dims.length), Option.getD_some,
          List.getElem_cons_drop]
      rw [hd, ← hn1]
    have hlen : (v.dims.take axis).length = axis := by simp; omega
    have hcd : combineDims axis v.dims = v.dims.take axis ++ (u32 (n0 * n1), (v.dims.getD axis (0, 0)).2) ::
        v.dims.drop (axis + 2) := by
      have := combineDims_app (v.dims.take axis) (v.dims.drop (axis + 2)) n0 (v.dims.getD axis (0, 0)).2 n1
        (v.dims.getD (axis + 1) (0, 0)).2
      rw [hlen, ← hfull] at this
      exact this
    obtain ⟨r, hre⟩ : ∃ r, v.rank = axis + 2 + r := ⟨v.rank - (axis + 2), by omega⟩
    have hvs : v.shape = (v.dims.take axis).map (·.1) ++ n0 :: n1 :: ((v.dims.drop (axis + 2)).take r).map (·.1) := by
      unfold View.shape
      conv_lhs => rw [hfull]
      rw [List.take_append, hlen, hre, List.take_of_length_le (by rw [hlen]; omega),
        show axis + 2 + r - axis = r + 1 + 1 by omega]
      simp
    have hws : w.shape = (v.dims.take axis).map (·.1) ++ (n1 * n0) :: ((v.dims.drop (axis + 2)).take r).map (·.1) := by
      show ((combineDims axis v.dims).take (v.rank - 1)).map (·.1) = _
      rw [hcd, List.take_append, hlen, hre, List.take_of_length_le (by rw [hlen]; omega),
        show axis + 2 + r - 1 - axis = r + 1 by omega, u32_id ⟨Int.mul_nonneg p0 p1, hf⟩, mul_comm n0 n1]
      simp
    have hb := splitCoord_bij false (c := n1) (m := n0) p0
    simp only [splitCoord, Bool.false_eq_true, if_false] at hb
    have := mergeAt_bij (fun x y => x + y * n0) n0 n1 (n1 * n0)
      (hb 0).1 (fun q => (hb q).2.1) (hb 0).2.2 ((v.dims.take axis).map (·.1))
      (((v.dims.drop (axis + 2)).take r).map (·.1))
    rw [← hvs, ← hws, List.length_map, hlen] at this
    exact this

/-- Combining after splitting (right order) gives back the tensor's elements. -/
example :
    let v := contiguous 3 [2, 6, 5]
    (v.split 1 2 false).dims = [(2, 30), (3, 5), (2, 15), (5, 1)] ∧
    ((v.split 1 2 false).combine 1).dims = v.dims := by decide

/-- The code violates C26 for `combine(axis, reverse_order = false)`: the asserted condition
(`stride[axis] = shape[axis+1] * stride[axis+1]`) holds, but the combined dimension gets the stride of the
outer dimension: position 1 of the combined view of a contiguous 2x3 tensor is element 3, position 5 is
outside of the buffer. -/
theorem c26_combine_violated :
    let v := contiguous 2 [2, 3]
    v.Ok ∧ (v.dims.getD 0 (0, 0)).2 = (v.dims.getD 1 (0, 0)).1 * (v.dims.getD 1 (0, 0)).2 ∧
    (v.combine 0).shape = [6] ∧ (v.combine 0).cell [1] = 3 ∧ (v.combine 0).cell [5] = 15 ∧ v.cell [1, 2] = 5 := by
  refine ⟨⟨by decide, by decide, by decide, by decide⟩, by decide, by decide, by decide, by decide, by decide⟩

/-! ### C27 -/

theorem contigStrides_eq : ∀ (ns : List Int), (∀ n ∈ ns, 1 ≤ n) → prod ns < 2 ^ 31 →
    contigStrides ns = (prod ns, cstr ns) := by
  intro ns
  induction ns with
  | nil => intro _ _; rfl
  | cons n ns ih =>
    intro hp hs
    have h1 : 1 ≤ n := hp n (by simp)
    have h2 : 1 ≤ prod ns := prod_pos (fun m hm => hp m (by simp [hm]))
    have h3 : prod ns ≤ n * prod ns := by nlinarith
    have hpr : prod (n :: ns) = n * prod ns := rfl
    have hi := ih (fun m hm => hp m (by simp [hm])) (by omega)
    simp only [contigStrides, hi, cstr]
    rw [if_pos (by omega), mul_comm (prod ns) n, wrap_u32 ⟨by omega, by omega⟩, hpr]

/-- C27: the contiguous constructor maps the multi-indices one-to-one onto `0 .. n-1`. -/
theorem c27_contiguous (maxRank : Nat) (shape : List Int) (_hr : shape.length ≤ maxRank) (hp : ∀ n ∈ shape, 1 ≤ n)
    (hs : prod shape < 2 ^ 31) :
    let v := contiguous maxRank shape
    v.shape = shape ∧
    (∀ is, InShape shape is → 0 ≤ v.cell is ∧ v.cell is < prod shape) ∧
    (∀ is js, InShape shape is → InShape shape js → v.cell is = v.cell js → is = js) ∧
    (∀ a, 0 ≤ a → a < prod shape → ∃ is, InShape shape is ∧ v.cell is = a) := by
  intro v
  have hz : (contigStrides shape).2 = cstr shape := by rw [contigStrides_eq shape hp hs]
  have hdims : v.dims.take v.rank = shape.zip (cstr shape) := by
    show (shape.zip (contigStrides shape).2 ++ _).take shape.length = _
    rw [hz, List.take_append, List.take_of_length_le (by simp)]
    simp [cstr_length]
  have hshape : v.shape = shape := by
    unfold View.shape
    rw [hdims]
    exact List.map_fst_zip (by rw [cstr_length])
  have hcell : ∀ is, InShape shape is → v.cell is = offset (cstr shape) is := by
    intro is hi
    have hl := inShape_length _ _ hi
    obtain ⟨a, b⟩ := contig_offset_range shape is hi
    unfold View.cell
    have he : offset (v.dims.map (·.2)) is = offset (cstr shape) is := by
      rw [offset_take, offset_take (cstr shape), ← hl, ← List.map_take, show v.dims.take shape.length =
        shape.zip (cstr shape) from hdims, List.map_snd_zip (by rw [cstr_length]),
        List.take_of_length_le (by rw [cstr_length])]
    rw [he]
    show u32 (0 + _) = _
    rw [zero_add, u32_id ⟨a, by omega⟩]
  refine ⟨hshape, ?_, ?_, ?_⟩
  · intro is hi; rw [hcell is hi]; exact contig_offset_range shape is hi
  · intro is js hi hj he
    rw [hcell is hi, hcell js hj] at he
    exact contig_offset_inj shape is js hi hj he
  · intro a h0 h1
    obtain ⟨is, hi, he⟩ := contig_offset_onto shape hp a h0 h1
    exact ⟨is, hi, by rw [hcell is hi, he]⟩

example : (contiguous 4 [2, 3, 4, 5]).cell [1, 2, 3, 4] = 119 := by decide

theorem setMemStrides_eq : ∀ ns : List Int, setMemStrides ns = cstr ns := by
  intro ns
  induction ns with
  | nil => rfl
  | cons n ns ih =>
    cases ns with
    | nil => rfl
    | cons m ns =>
      simp only [setMemStrides, ih, cstr]
      rw [mul_comm]; rfl

/-- C27, strides set by `mli_hlp_set_tensor_mem_strides`. -/
theorem c27_set_mem_strides (shape : List Int) (hp : ∀ n ∈ shape, 1 ≤ n) :
    (∀ is, InShape shape is → 0 ≤ offset (setMemStrides shape) is ∧ offset (setMemStrides shape) is < prod shape) ∧
    (∀ is js, InShape shape is → InShape shape js →
      offset (setMemStrides shape) is = offset (setMemStrides shape) js → is = js) ∧
    (∀ a, 0 ≤ a → a < prod shape → ∃ is, InShape shape is ∧ offset (setMemStrides shape) is = a) := by
  rw [setMemStrides_eq]
  exact ⟨contig_offset_range shape, contig_offset_inj shape, contig_offset_onto shape hp⟩

example : setMemStrides [2, 3, 4, 5] = [60, 20, 5, 1] := by decide

end Mli.Cs
