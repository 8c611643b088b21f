import Verif.Model.Mov
import Verif.Lemmas.Contig

/-! # C15, C16, C17: data movement -/

namespace Mli

open Spec

/-! ## Specification -/

/-- Number of (padded) source coordinates selected along source dimension `m`. -/
def movLen (src : Tensor) (c : MovCfg) (m : Nat) : Int :=
  if c.size m > 0 then c.size m else src.gShape m - c.offset m + c.padPre m + c.padPost m

/-- A meaningful configuration: `perm` is a permutation of the dimensions, steps are positive, the
selected range is not empty and lies inside the padded source, and nothing is near 2^31. -/
structure MovCfg.Sane (src : Tensor) (c : MovCfg) : Prop where
  permLt : ∀ k, k < src.dims.length → c.perm k < src.dims.length
  permInj : ∀ i j, i < src.dims.length → j < src.dims.length → c.perm i = c.perm j → i = j
  offset : ∀ m, 0 ≤ c.offset m
  size : ∀ m, 0 ≤ c.size m
  sub : ∀ m, 1 ≤ c.sub m ∧ c.sub m < 2 ^ 31
  dstOffset : ∀ m, 0 ≤ c.dstOffset m ∧ c.dstOffset m < 2 ^ 31
  padPre : ∀ m, 0 ≤ c.padPre m
  padPost : ∀ m, 0 ≤ c.padPost m
  window : ∀ m, m < src.dims.length → 1 ≤ movLen src c m ∧
    c.offset m + movLen src c m ≤ src.gShape m + c.padPre m + c.padPost m
  small : ∀ m, m < src.dims.length → src.gShape m + c.padPre m + c.padPost m < 2 ^ 31

/-- The positions written (before `dst_offset` is added): every `sub`-th selected coordinate. -/
def MovPos (src : Tensor) (c : MovCfg) (js : List Int) : Prop :=
  js.length = src.dims.length ∧
  ∀ k, k < src.dims.length → 0 ≤ js.getD k 0 ∧ js.getD k 0 * c.sub (c.perm k) < movLen src c (c.perm k)

/-- The coordinate along source dimension `perm k` for a written position. -/
def movSpecCoord (c : MovCfg) (js : List Int) (k : Nat) : Int :=
  js.getD k 0 * c.sub (c.perm k) + c.offset (c.perm k) - c.padPre (c.perm k)

/-- Destination multi-index of a written position. -/
def movTarget (r : Nat) (c : MovCfg) (js : List Int) : List Int :=
  (List.range r).map fun k => js.getD k 0 + c.dstOffset k

/-- What a data movement has to achieve on the destination buffer. -/
structure MovDone (src dstT : Tensor) (c : MovCfg) (sb db db' : Buf) : Prop where
  size : db'.size = db.size
  /-- a position whose source coordinates are inside the source gets that source element -/
  copied : ∀ js is, MovPos src c js → InShape src.shape is →
    (∀ k, k < src.dims.length → is.getD (c.perm k) 0 = movSpecCoord c js k) →
    db'.get (dstT.base + Spec.offset dstT.strides (movTarget src.dims.length c js)) =
      sb.get (src.base + Spec.offset src.strides is)
  /-- a position with a source coordinate in the padding gets zero -/
  padded : ∀ js, MovPos src c js →
    (∃ k, k < src.dims.length ∧ (movSpecCoord c js k < 0 ∨ src.shape.getD (c.perm k) 0 ≤ movSpecCoord c js k)) →
    db'.get (dstT.base + Spec.offset dstT.strides (movTarget src.dims.length c js)) = 0
  /-- nothing else changes -/
  frame : ∀ a, (∀ js, MovPos src c js →
      a ≠ dstT.base + Spec.offset dstT.strides (movTarget src.dims.length c js)) → db'.get a = db.get a

/-! ## Lemmas -/

theorem movDst_length (src dst : Tensor) (c : MovCfg) : (movDst src c dst).dims.length = src.dims.length := by
  simp [movDst]

theorem movDst_gShape (src dst : Tensor) (c : MovCfg) (k : Nat) (h : k < src.dims.length) :
    (movDst src c dst).gShape k = movDstShape src c k := by
  unfold Tensor.gShape movDst
  simp only
  rw [List.getElem?_map, List.getElem?_range h]; rfl

theorem u32_id {x : Int} (h : 0 ≤ x ∧ x < 2 ^ 32) : u32 x = x := Int.emod_eq_of_lt h.1 h.2

theorem movCpySize_eq {src : Tensor} {c : MovCfg} (hs : c.Sane src) {k : Nat} (hk : k < src.dims.length) :
    movCpySize src c k = movLen src c (c.perm k) ∧ movLen src c (c.perm k) < 2 ^ 31 := by
  have h1 := hs.window _ (hs.permLt k hk)
  have h2 := hs.small _ (hs.permLt k hk)
  have h3 := hs.offset (c.perm k)
  refine ⟨?_, by omega⟩
  unfold movCpySize movLen at *
  simp only
  split
  · rfl
  · rename_i hz
    rw [if_neg hz] at h1
    exact u32_id ⟨by omega, by omega⟩

theorem movWriteSize_lt {src : Tensor} {c : MovCfg} (hs : c.Sane src) {k : Nat} (hk : k < src.dims.length)
    {j : Int} (hj : 0 ≤ j) :
    (j < movWriteSize src c k ↔ j * c.sub (c.perm k) < movLen src c (c.perm k)) := by
  obtain ⟨e, h31⟩ := movCpySize_eq hs hk
  have hw := (hs.window _ (hs.permLt k hk)).1
  obtain ⟨s1, s2⟩ := hs.sub (c.perm k)
  unfold movWriteSize
  rw [e, u32_id ⟨by omega, by omega⟩]
  rw [Int.lt_iff_add_one_le, Int.le_ediv_iff_mul_le (by omega)]
  constructor
  · intro h; nlinarith
  · intro h; nlinarith

theorem movWriteSize_pos {src : Tensor} {c : MovCfg} (hs : c.Sane src) {k : Nat} (hk : k < src.dims.length) :
    1 ≤ movWriteSize src c k ∧ movWriteSize src c k < 2 ^ 31 := by
  have h0 := (movWriteSize_lt hs hk (j := 0) (by omega)).mpr (by
    have := (hs.window _ (hs.permLt k hk)).1; omega)
  refine ⟨by omega, ?_⟩
  obtain ⟨e, h31⟩ := movCpySize_eq hs hk
  obtain ⟨s1, s2⟩ := hs.sub (c.perm k)
  by_contra hc
  have := (movWriteSize_lt hs hk (j := 2 ^ 31 - 1) (by decide)).mp (by omega)
  nlinarith

theorem movDstShape_eq {src : Tensor} {c : MovCfg} (hs : c.Sane src) {k : Nat} (hk : k < src.dims.length) :
    movDstShape src c k = movWriteSize src c k + c.dstOffset k := by
  have h1 := movWriteSize_pos hs hk
  have h2 := hs.dstOffset k
  unfold movDstShape
  exact u32_id ⟨by omega, by omega⟩

/-- Loop points of the right-aligned view. -/
def movPts (src : Tensor) (c : MovCfg) : List (Nat × Nat × Nat × Nat) :=
  let n : Nat → Nat := fun i => (ord src.dims.length 1 (movWriteSize src c) i).toNat
  pts4 (n 0) (n 1) (n 2) (n 3)

/-- Multi-index of a loop point of the right-aligned view. -/
def idxR (r : Nat) (p : Nat × Nat × Nat × Nat) : List Int :=
  (List.range r).map fun k => ((pget p (k + (4 - r)) : Nat) : Int)

theorem mem_movPts {src : Tensor} {c : MovCfg} {p : Nat × Nat × Nat × Nat} :
    p ∈ movPts src c ↔ ∀ i, i < 4 → pget p i < (ord src.dims.length 1 (movWriteSize src c) i).toNat := by
  unfold movPts
  rw [mem_pts4]
  constructor
  · rintro ⟨a, b, d, e⟩ i hi
    have : i = 0 ∨ i = 1 ∨ i = 2 ∨ i = 3 := by omega
    rcases this with rfl | rfl | rfl | rfl
    · exact a
    · exact b
    · exact d
    · exact e
  · intro h
    exact ⟨h 0 (by decide), h 1 (by decide), h 2 (by decide), h 3 (by decide)⟩

theorem ord_hi {α : Type} {r k : Nat} (d : α) (f : Nat → α) : ord r d f (k + (4 - r)) = f k := by
  unfold ord; rw [if_neg (by omega)]; congr 1; omega

theorem ord_lo {α : Type} {r i : Nat} (h : i < 4 - r) (d : α) (f : Nat → α) : ord r d f i = d := by
  unfold ord; rw [if_pos h]

theorem ordPdim_hi {r k : Nat} (P : Nat → Nat) : ordPdim r P (k + (4 - r)) = P k + (4 - r) := by
  unfold ordPdim; rw [if_neg (by omega)]; congr 2; omega

theorem ordPdim_lo {r i : Nat} (h : i < 4 - r) (P : Nat → Nat) : ordPdim r P i = i := by
  unfold ordPdim; rw [if_pos h]

theorem movPts_pos {src : Tensor} {c : MovCfg} (hs : c.Sane src) (hr : src.dims.length ≤ 4)
    {p : Nat × Nat × Nat × Nat} (hp : p ∈ movPts src c) :
    MovPos src c (idxR src.dims.length p) ∧ ∀ i, i < 4 - src.dims.length → pget p i = 0 := by
  rw [mem_movPts] at hp
  refine ⟨⟨by simp [idxR], ?_⟩, ?_⟩
  · intro k hk
    have h := hp (k + (4 - src.dims.length)) (by omega)
    rw [ord_hi] at h
    unfold idxR
    rw [getD_map_range _ hk]
    have h1 := movWriteSize_pos hs hk
    exact ⟨by omega, (movWriteSize_lt hs hk (by omega)).mp (by omega)⟩
  · intro i hi
    have h := hp i (by omega)
    rw [ord_lo hi] at h
    have : ((1 : Int).toNat) = 1 := rfl
    omega

theorem movPts_onto {src : Tensor} {c : MovCfg} (hs : c.Sane src) (hr : src.dims.length ≤ 4)
    {js : List Int} (hj : MovPos src c js) : ∃ p ∈ movPts src c, idxR src.dims.length p = js := by
  obtain ⟨hl, hj⟩ := hj
  let q : Nat → Nat := fun i => if i < 4 - src.dims.length then 0 else (js.getD (i - (4 - src.dims.length)) 0).toNat
  have hq : ∀ i, i < 4 → pget (q 0, q 1, q 2, q 3) i = q i := by
    intro i hi
    have : i = 0 ∨ i = 1 ∨ i = 2 ∨ i = 3 := by omega
    rcases this with rfl | rfl | rfl | rfl <;> rfl
  refine ⟨(q 0, q 1, q 2, q 3), ?_, ?_⟩
  · rw [mem_movPts]
    intro i hi
    rw [hq i hi]
    by_cases h : i < 4 - src.dims.length
    · rw [ord_lo h]; simp only [q, if_pos h]; decide
    · obtain ⟨k, rfl⟩ : ∃ k, i = k + (4 - src.dims.length) := ⟨i - (4 - src.dims.length), by omega⟩
      rw [ord_hi]
      simp only [q, if_neg h, Nat.add_sub_cancel]
      have hk : k < src.dims.length := by omega
      obtain ⟨a, b⟩ := hj k hk
      have := (movWriteSize_lt hs hk a).mpr b
      omega
  · apply List.ext_getElem?
    intro k
    unfold idxR
    by_cases hk : k < src.dims.length
    · rw [List.getElem?_map, List.getElem?_range hk]
      simp only [Option.map_some]
      rw [hq _ (by omega)]
      simp only [q]
      rw [if_neg (by omega), Nat.add_sub_cancel]
      have h1 := (hj k hk).1
      rw [List.getD_eq_getElem?_getD] at *
      rw [List.getElem?_eq_getElem (by omega)] at *
      simp only [Option.getD_some] at *
      congr 1; omega
    · rw [List.getElem?_eq_none (by simp; omega), List.getElem?_eq_none (by omega)]

/-- Destination address of a loop point. -/
theorem movDstPos_eq {dstT : Tensor} {c : MovCfg} {r : Nat} (hr : r ≤ 4) (hd : dstT.dims.length = r)
    {p : Nat × Nat × Nat × Nat} :
    movDstPos r dstT c p.1 p.2.1 p.2.2.1 p.2.2.2 = Spec.offset dstT.strides (movTarget r c (idxR r p)) := by
  have hls : dstT.strides.length = r := by simp [Tensor.strides, hd]
  rw [offset_eq_sum _ _ (by rw [hls]; simp [movTarget]), hls]
  have h := sum4R r hr (fun i => ((pget p i : Nat) + ord r 0 c.dstOffset i) * ord r 0 dstT.gStride i) (by
    intro i hi; rw [ord_lo hi (0 : Int) dstT.gStride]; simp)
  have e : movDstPos r dstT c p.1 p.2.1 p.2.2.1 p.2.2.2 =
      ((pget p 0 : Nat) + ord r 0 c.dstOffset 0) * ord r 0 dstT.gStride 0
      + ((pget p 1 : Nat) + ord r 0 c.dstOffset 1) * ord r 0 dstT.gStride 1
      + ((pget p 2 : Nat) + ord r 0 c.dstOffset 2) * ord r 0 dstT.gStride 2
      + ((pget p 3 : Nat) + ord r 0 c.dstOffset 3) * ord r 0 dstT.gStride 3 := rfl
  rw [e, h]
  congr 1
  apply List.map_congr_left
  intro k hk
  rw [List.mem_range] at hk
  unfold movTarget idxR
  rw [getD_map_range _ hk, getD_map_range _ hk, ord_hi, ord_hi, gStride_lt (by omega)]

/-- The model's coordinate is the specified one. -/
theorem movCoord_eq {c : MovCfg} {r k : Nat} (hk : k < r) (p : Nat × Nat × Nat × Nat) :
    movCoord r c (k + (4 - r)) (pget p (k + (4 - r))) = movSpecCoord c (idxR r p) k := by
  unfold movCoord movSpecCoord idxR
  simp only
  rw [ordPdim_hi, ord_hi, ord_hi, ord_hi, getD_map_range _ hk]

/-- Source address of a loop point with source multi-index `is`. -/
theorem movSrcPos_eq {src : Tensor} {c : MovCfg} (hs : c.Sane src) (hr : src.dims.length ≤ 4)
    {p : Nat × Nat × Nat × Nat} {is : List Int} (hl : is.length = src.dims.length)
    (hrel : ∀ k, k < src.dims.length → is.getD (c.perm k) 0 = movSpecCoord c (idxR src.dims.length p) k) :
    movSrcPos src.dims.length src c p.1 p.2.1 p.2.2.1 p.2.2.2 = Spec.offset src.strides is := by
  have hls : src.strides.length = src.dims.length := by simp [Tensor.strides]
  rw [offset_eq_sum _ _ (by rw [hls, hl]), hls]
  have h := sum4R src.dims.length hr (fun i => movCoord src.dims.length c i (pget p i) *
    ord src.dims.length 0 src.gStride (ordPdim src.dims.length c.perm i)) (by
    intro i hi; rw [ordPdim_lo hi, ord_lo hi (0 : Int) src.gStride]; simp)
  have e : movSrcPos src.dims.length src c p.1 p.2.1 p.2.2.1 p.2.2.2 =
      movCoord src.dims.length c 0 (pget p 0) * ord src.dims.length 0 src.gStride (ordPdim src.dims.length c.perm 0)
      + movCoord src.dims.length c 1 (pget p 1) * ord src.dims.length 0 src.gStride (ordPdim src.dims.length c.perm 1)
      + movCoord src.dims.length c 2 (pget p 2) * ord src.dims.length 0 src.gStride (ordPdim src.dims.length c.perm 2)
      + movCoord src.dims.length c 3 (pget p 3) * ord src.dims.length 0 src.gStride (ordPdim src.dims.length c.perm 3) :=
    rfl
  rw [e, h, ← permFn_sum hs.permLt hs.permInj (fun m => is.getD m 0 * src.strides.getD m 0)]
  congr 1
  apply List.map_congr_left
  intro k hk
  rw [List.mem_range] at hk
  rw [movCoord_eq hk, hrel k hk, ordPdim_hi, ord_hi, gStride_lt (hs.permLt k hk)]

/-- The target multi-index is inside the destination. -/
theorem movTarget_inShape {src dst : Tensor} {c : MovCfg} (hs : c.Sane src) {js : List Int} (hj : MovPos src c js) :
    InShape (movDst src c dst).shape (movTarget src.dims.length c js) := by
  have hl : (movDst src c dst).shape.length = src.dims.length := by simp [Tensor.shape, movDst_length]
  rw [inShape_iff, hl]
  refine ⟨by simp [movTarget], ?_⟩
  intro m hm
  unfold movTarget
  rw [getD_map_range _ hm, ← gShape_lt (by rw [movDst_length]; exact hm), movDst_gShape _ _ _ _ hm,
    movDstShape_eq hs hm]
  obtain ⟨a, b⟩ := hj.2 m hm
  have := (movWriteSize_lt hs hm a).mpr b
  have := hs.dstOffset m
  omega

theorem movTarget_inj {r : Nat} {c : MovCfg} {js js' : List Int} (h1 : js.length = r) (h2 : js'.length = r)
    (h : movTarget r c js = movTarget r c js') : js = js' := by
  apply List.ext_getElem (by omega)
  intro k hk hk'
  have := congrArg (fun l => l.getD k 0) h
  simp only [movTarget] at this
  rw [getD_map_range _ (by omega), getD_map_range _ (by omega)] at this
  rw [List.getD_eq_getElem?_getD, List.getElem?_eq_getElem hk, List.getD_eq_getElem?_getD,
    List.getElem?_eq_getElem hk'] at this
  simp only [Option.getD_some] at this
  omega

/-- Some source coordinate of the loop point is in the padding. -/
def movPad (src : Tensor) (c : MovCfg) (p : Nat × Nat × Nat × Nat) : Bool :=
  movOutside src.dims.length src c 0 p.1 || movOutside src.dims.length src c 1 p.2.1
    || movOutside src.dims.length src c 2 p.2.2.1 || movOutside src.dims.length src c 3 p.2.2.2

theorem movPad_iff {src : Tensor} {c : MovCfg} (hs : c.Sane src) (hr : src.dims.length ≤ 4)
    {p : Nat × Nat × Nat × Nat} (hp : p ∈ movPts src c) :
    movPad src c p = true ↔ ∃ k, k < src.dims.length ∧ (movSpecCoord c (idxR src.dims.length p) k < 0 ∨
      src.shape.getD (c.perm k) 0 ≤ movSpecCoord c (idxR src.dims.length p) k) := by
  obtain ⟨_, h0⟩ := movPts_pos hs hr hp
  have hout : ∀ i, i < 4 → (movOutside src.dims.length src c i (pget p i) = true ↔
      ∃ k, k < src.dims.length ∧ i = k + (4 - src.dims.length) ∧
        (movSpecCoord c (idxR src.dims.length p) k < 0 ∨
          src.shape.getD (c.perm k) 0 ≤ movSpecCoord c (idxR src.dims.length p) k)) := by
    intro i hi
    unfold movOutside
    rw [Bool.or_eq_true, decide_eq_true_eq, decide_eq_true_eq]
    by_cases h : i < 4 - src.dims.length
    · have hc : movCoord src.dims.length c i (pget p i) = 0 := by
        unfold movCoord
        simp only
        rw [ordPdim_lo h, ord_lo h, ord_lo h, ord_lo h, h0 i h]; rfl
      rw [hc, ordPdim_lo h, ord_lo h]
      constructor
      · intro h'; omega
      · rintro ⟨k, hk, he, _⟩; omega
    · obtain ⟨k, rfl⟩ : ∃ k, i = k + (4 - src.dims.length) := ⟨i - (4 - src.dims.length), by omega⟩
      have hk : k < src.dims.length := by omega
      rw [movCoord_eq hk, ordPdim_hi, ord_hi, gShape_lt (hs.permLt k hk)]
      constructor
      · intro h'; exact ⟨k, hk, rfl, h'⟩
      · rintro ⟨k', hk', he, h'⟩
        have : k' = k := by omega
        subst this; exact h'
  have e : movPad src c p = (movOutside src.dims.length src c 0 (pget p 0) || movOutside src.dims.length src c 1 (pget p 1)
    || movOutside src.dims.length src c 2 (pget p 2) || movOutside src.dims.length src c 3 (pget p 3)) := rfl
  rw [e]
  simp only [Bool.or_eq_true]
  rw [hout 0 (by decide), hout 1 (by decide), hout 2 (by decide), hout 3 (by decide)]
  constructor
  · rintro (((⟨k, a, _, b⟩ | ⟨k, a, _, b⟩) | ⟨k, a, _, b⟩) | ⟨k, a, _, b⟩) <;> exact ⟨k, a, b⟩
  · rintro ⟨k, hk, h⟩
    have : k + (4 - src.dims.length) = 0 ∨ k + (4 - src.dims.length) = 1 ∨ k + (4 - src.dims.length) = 2
      ∨ k + (4 - src.dims.length) = 3 := by omega
    rcases this with h' | h' | h' | h'
    · exact Or.inl (Or.inl (Or.inl ⟨k, hk, h'.symm, h⟩))
    · exact Or.inl (Or.inl (Or.inr ⟨k, hk, h'.symm, h⟩))
    · exact Or.inl (Or.inr ⟨k, hk, h'.symm, h⟩)
    · exact Or.inr ⟨k, hk, h'.symm, h⟩

/-- A loop point outside the padding has a source multi-index. -/
theorem movSrc_exists {src : Tensor} {c : MovCfg} (hs : c.Sane src) (js : List Int)
    (h : ¬ ∃ k, k < src.dims.length ∧ (movSpecCoord c js k < 0 ∨ src.shape.getD (c.perm k) 0 ≤ movSpecCoord c js k)) :
    ∃ is, InShape src.shape is ∧ ∀ k, k < src.dims.length → is.getD (c.perm k) 0 = movSpecCoord c js k := by
  obtain ⟨is, hl, hi⟩ := permFn_lift hs.permLt hs.permInj (movSpecCoord c js)
  refine ⟨is, ?_, hi⟩
  have hls : src.shape.length = src.dims.length := by simp [Tensor.shape]
  rw [inShape_iff, hls]
  refine ⟨hl.symm, ?_⟩
  intro m hm
  obtain ⟨k, hk, rfl⟩ := permFn_surj hs.permLt hs.permInj hm
  rw [hi k hk]
  by_contra hc
  exact h ⟨k, hk, by omega⟩

theorem movNoPadding_zero {r : Nat} {c : MovCfg} (h : movNoPadding r c = true) :
    ∀ k, k < r → c.padPre k = 0 ∧ c.padPost k = 0 := by
  intro k hk
  unfold movNoPadding at h
  rw [List.all_eq_true] at h
  have := h k (by simpa using hk)
  simpa using this

/-- Without padding, every selected coordinate is inside the source. -/
theorem movNoPadding_inside {src : Tensor} {c : MovCfg} (hs : c.Sane src)
    (h : movNoPadding src.dims.length c = true) {js : List Int} (hj : MovPos src c js) :
    ¬ ∃ k, k < src.dims.length ∧ (movSpecCoord c js k < 0 ∨ src.shape.getD (c.perm k) 0 ≤ movSpecCoord c js k) := by
  rintro ⟨k, hk, hc⟩
  have hp := movNoPadding_zero h (c.perm k) (hs.permLt k hk)
  obtain ⟨a, b⟩ := hj.2 k hk
  have hw := (hs.window _ (hs.permLt k hk)).2
  have ho := hs.offset (c.perm k)
  have hsub := (hs.sub (c.perm k)).1
  rw [gShape_lt (hs.permLt k hk)] at hw
  unfold movSpecCoord at hc
  have : 0 ≤ js.getD k 0 * c.sub (c.perm k) := Int.mul_nonneg a (by omega)
  omega

/-- The nested loops achieve the movement. -/
theorem movLoops_done {src dst : Tensor} {c : MovCfg} {sb db : Buf} (hs : c.Sane src) (hv : src.Valid sb)
    (hd : (movDst src c dst).Valid db) :
    ∃ db', movLoops src.dims.length src (movDst src c dst) c (movWriteSize src c)
      (movNoPadding src.dims.length c) sb db = some db' ∧ MovDone src (movDst src c dst) c sb db db' := by
  have hr : src.dims.length ≤ 4 := hv.rank
  have hdl := movDst_length src dst c
  let addr : Nat × Nat × Nat × Nat → Int := fun p =>
    (movDst src c dst).base + movDstPos src.dims.length (movDst src c dst) c p.1 p.2.1 p.2.2.1 p.2.2.2
  let val : Nat × Nat × Nat × Nat → Int := fun p =>
    if movPad src c p then 0 else sb.get (src.base + movSrcPos src.dims.length src c p.1 p.2.1 p.2.2.1 p.2.2.2)
  have haddr : ∀ p ∈ movPts src c, 0 ≤ addr p ∧ addr p < db.size := by
    intro p hp
    simp only [addr]
    rw [movDstPos_eq hr hdl]
    exact hd.inBounds (movTarget_inShape hs (movPts_pos hs hr hp).1)
  have hinj : ∀ p ∈ movPts src c, ∀ q ∈ movPts src c, addr p = addr q → val p = val q := by
    intro p hp q hq he
    simp only [addr] at he
    rw [movDstPos_eq hr hdl, movDstPos_eq hr hdl] at he
    have h1 := movPts_pos hs hr hp
    have h2 := movPts_pos hs hr hq
    have ht := c09_accepted_no_alias _ hd.accepted _ _ (movTarget_inShape (dst := dst) hs h1.1)
      (movTarget_inShape (dst := dst) hs h2.1) (by omega)
    have hidx := movTarget_inj h1.1.1 h2.1.1 ht
    have hpq : ∀ i, i < 4 → pget p i = pget q i := by
      intro i hi
      by_cases h : i < 4 - src.dims.length
      · rw [h1.2 i h, h2.2 i h]
      · obtain ⟨k, rfl⟩ : ∃ k, i = k + (4 - src.dims.length) := ⟨i - (4 - src.dims.length), by omega⟩
        have := congrArg (fun l => l.getD k 0) hidx
        simp only [idxR] at this
        rw [getD_map_range _ (by omega), getD_map_range _ (by omega)] at this
        omega
    have : p = q := by
      obtain ⟨a, b, d, e⟩ := p
      obtain ⟨a', b', d', e'⟩ := q
      have e0 : a = a' := hpq 0 (by decide)
      have e1 : b = b' := hpq 1 (by decide)
      have e2 : d = d' := hpq 2 (by decide)
      have e3 : e = e' := hpq 3 (by decide)
      rw [e0, e1, e2, e3]
    rw [this]
  have hread : ∀ p ∈ movPts src c, movPad src c p = false →
      sb.rd (src.base + movSrcPos src.dims.length src c p.1 p.2.1 p.2.2.1 p.2.2.2) =
        some (sb.get (src.base + movSrcPos src.dims.length src c p.1 p.2.1 p.2.2.1 p.2.2.2)) := by
    intro p hp hnp
    have hno : ¬ ∃ k, k < src.dims.length ∧ (movSpecCoord c (idxR src.dims.length p) k < 0 ∨
        src.shape.getD (c.perm k) 0 ≤ movSpecCoord c (idxR src.dims.length p) k) := by
      rw [← movPad_iff hs hr hp, hnp]; decide
    obtain ⟨is, hi, hrel⟩ := movSrc_exists hs _ hno
    have hl := inShape_length _ _ hi
    apply Buf.rd_some
    rw [movSrcPos_eq hs hr (by rw [← hl]; simp [Tensor.shape]) hrel]
    exact hv.inBounds hi
  have main : ∃ db', movLoops src.dims.length src (movDst src c dst) c (movWriteSize src c)
      (movNoPadding src.dims.length c) sb db = some db' ∧ Stored (movPts src c) addr val db db' := by
    unfold movLoops
    by_cases hnp : movNoPadding src.dims.length c = true
    · rw [if_pos hnp]
      apply nest4_stores _ _ _ _ (fun p0 p1 p2 p3 d => do
        let v ← sb.rd (src.base + movSrcPos src.dims.length src c p0 p1 p2 p3)
        d.wr ((movDst src c dst).base + movDstPos src.dims.length (movDst src c dst) c p0 p1 p2 p3) v) addr val db
        _ haddr hinj
      intro p hp d _
      have hpad : movPad src c p = false := by
        rw [Bool.eq_false_iff]
        intro h
        exact movNoPadding_inside hs hnp (movPts_pos hs hr hp).1 ((movPad_iff hs hr hp).mp h)
      simp only [hread p hp hpad, Option.bind_eq_bind, Option.bind_some, val, hpad, addr]
      rfl
    · rw [if_neg hnp]
      apply nest4_stores _ _ _ _ (fun p0 p1 p2 p3 d =>
        if (movOutside src.dims.length src c 0 p0 || movOutside src.dims.length src c 1 p1
            || movOutside src.dims.length src c 2 p2) = true then
          d.wr ((movDst src c dst).base + movDstPos src.dims.length (movDst src c dst) c p0 p1 p2 p3) 0
        else if movOutside src.dims.length src c 3 p3 = true then
          d.wr ((movDst src c dst).base + movDstPos src.dims.length (movDst src c dst) c p0 p1 p2 p3) 0
        else do
          let v ← sb.rd (src.base + movSrcPos src.dims.length src c p0 p1 p2 p3)
          d.wr ((movDst src c dst).base + movDstPos src.dims.length (movDst src c dst) c p0 p1 p2 p3) v) addr val db
        _ haddr hinj
      intro p hp d _
      simp only [val, addr]
      by_cases h1 : (movOutside src.dims.length src c 0 p.1 || movOutside src.dims.length src c 1 p.2.1
            || movOutside src.dims.length src c 2 p.2.2.1) = true
      · have hpad : movPad src c p = true := by unfold movPad; rw [h1]; rfl
        rw [if_pos h1, if_pos hpad]
      · rw [if_neg h1]
        by_cases h2 : movOutside src.dims.length src c 3 p.2.2.2 = true
        · have hpad : movPad src c p = true := by unfold movPad; rw [h2, Bool.or_true]
          rw [if_pos h2, if_pos hpad]
        · have hpad : movPad src c p = false := by
            rw [Bool.not_eq_true] at h1 h2
            unfold movPad; rw [h1, h2]; rfl
          rw [if_neg h2, hpad, hread p hp hpad]
          rfl
  obtain ⟨db', hrun, hst⟩ := main
  refine ⟨db', hrun, hst.size, ?_, ?_, ?_⟩
  · intro js is hj hi hrel
    obtain ⟨p, hp, rfl⟩ := movPts_onto hs hr hj
    have hhit := hst.hit p hp
    simp only [addr] at hhit
    rw [movDstPos_eq hr hdl] at hhit
    rw [hhit]
    have hpad : movPad src c p = false := by
      rw [Bool.eq_false_iff]
      intro h
      obtain ⟨k, hk, hc⟩ := (movPad_iff hs hr hp).mp h
      rw [inShape_iff] at hi
      have := hi.2 (c.perm k) (by simpa [Tensor.shape] using hs.permLt k hk)
      rw [hrel k hk] at this
      omega
    have hl := inShape_length _ _ hi
    simp only [val, hpad]
    rw [movSrcPos_eq hs hr (by rw [← hl]; simp [Tensor.shape]) hrel]
    rfl
  · intro js hj hc
    obtain ⟨p, hp, rfl⟩ := movPts_onto hs hr hj
    have hhit := hst.hit p hp
    simp only [addr] at hhit
    rw [movDstPos_eq hr hdl] at hhit
    rw [hhit]
    simp only [val]
    rw [if_pos ((movPad_iff hs hr hp).mpr hc)]
  · intro a ha
    apply hst.frame
    intro p hp
    simp only [addr]
    rw [movDstPos_eq hr hdl]
    exact fun he => ha _ (movPts_pos hs hr hp).1 he.symm

/-! ## the flat transfer -/

theorem movIs1d_facts {src dstT : Tensor} {c : MovCfg} (hns : ∀ n ∈ src.shape, 1 ≤ n)
    (hprod : prod src.shape ≤ int32Max) :
    ∀ (i : Nat) (stride : Int), i ≤ src.dims.length → stride = prod (src.shape.drop i) →
    movIs1d src dstT c i stride = true → ∀ k, k < i →
      src.gStride k = prod (src.shape.drop (k + 1)) ∧ dstT.gStride k = prod (src.shape.drop (k + 1)) ∧
      src.gShape k = dstT.gShape k ∧ c.padPre k = 0 ∧ c.padPost k = 0 ∧ c.perm k = k ∧ c.sub k = 1 := by
  intro i
  induction i with
  | zero => intro _ _ _ _ k hk; omega
  | succ i ih =>
    intro stride hi hst h k hk
    unfold movIs1d at h
    simp only [Bool.and_eq_true, beq_iff_eq] at h
    obtain ⟨⟨⟨⟨⟨⟨h1, h2⟩, h3⟩, h4, h5⟩, h6⟩, h7⟩, h8⟩ := h
    by_cases hki : k = i
    · subst hki
      exact ⟨by rw [h1, hst], by rw [h2, hst], h3, h4, h5, h6, h7⟩
    · have hil : i < src.shape.length := by simp [Tensor.shape]; omega
      have hdrop : src.shape.drop i = src.shape[i] :: src.shape.drop (i + 1) := List.drop_eq_getElem_cons hil
      have hg : src.gShape i = src.shape[i] := by
        rw [gShape_lt (by omega), List.getD_eq_getElem?_getD, List.getElem?_eq_getElem hil]; rfl
      have hmul : stride * src.gShape i = prod (src.shape.drop i) := by
        rw [hst, hg, hdrop, prod]; ring
      refine ih _ (by omega) ?_ h8 k (by omega)
      rw [hmul]
      apply wrap_of_inRange (by decide)
      have h1 := prod_drop_le src.shape hns i
      have h2 : 1 ≤ prod (src.shape.drop i) := prod_pos (fun n hn => hns n (List.mem_of_mem_drop hn))
      refine ⟨?_, by unfold int32Max at hprod; rw [show Spec.hi 32 = 2147483647 by decide]; omega⟩
      rw [show lo 32 = -2147483648 by decide]; omega

theorem strides_eq_cstr {t : Tensor} {ns : List Int} (hl : ns.length = t.dims.length)
    (h : ∀ k, k < t.dims.length → t.gStride k = prod (ns.drop (k + 1))) : t.strides = cstr ns := by
  apply List.ext_getElem?
  intro k
  by_cases hk : k < t.dims.length
  · rw [cstr_getElem? _ _ (by omega), ← h k hk]
    unfold Tensor.strides Tensor.gStride
    rw [List.getElem?_map, List.getElem?_eq_getElem hk]; rfl
  · rw [List.getElem?_eq_none (by simp [Tensor.strides]; omega),
      List.getElem?_eq_none (by rw [cstr_length]; omega)]

/-- The flat transfer achieves the movement when there are no offsets. -/
theorem movMemcpy_done {src dst : Tensor} {c : MovCfg} {sb db : Buf} (hs : c.Sane src) (hv : src.Valid sb)
    (hd : (movDst src c dst).Valid db) (hr0 : 0 < src.dims.length)
    (h1d : movIs1d src (movDst src c dst) c src.dims.length 1 = true)
    (hoff : ∀ k, k < src.dims.length → c.offset k = 0 ∧ c.dstOffset k = 0) :
    ∃ db', movMemcpy src (movDst src c dst) (hlpCountElemNum src 0).toNat sb db = some db' ∧
      MovDone src (movDst src c dst) c sb db db' := by
  have hns : ∀ n ∈ src.shape, 1 ≤ n := by
    intro n hn
    unfold Tensor.shape at hn
    rw [List.mem_map] at hn
    obtain ⟨d, hd', rfl⟩ := hn
    exact hv.shape_pos d hd'
  obtain ⟨_, _, hdims, hnest, hin, _⟩ := checkTensorPrivate_ok hv.accepted
  have hprod : prod src.shape ≤ int32Max := by
    have := prod_le_extent src.dims (fun d hd => ⟨(hdims d hd).1, (hdims d hd).2.1⟩) hnest
    unfold Tensor.shape
    have h2 := hin.2
    rw [show Spec.hi 32 = 2147483647 by decide] at h2
    unfold int32Max; omega
  have hlen : src.shape.length = src.dims.length := by simp [Tensor.shape]
  have hf := movIs1d_facts (dstT := movDst src c dst) (c := c) hns hprod src.dims.length 1 (Nat.le_refl _)
    (by rw [List.drop_of_length_le (by omega)]; rfl) h1d
  have hcount : hlpCountElemNum src 0 = prod src.shape := by
    rw [c11_accepted_count src 0 hv.accepted (Or.inl hr0), List.drop_zero]
  have hss : src.strides = cstr src.shape := strides_eq_cstr hlen (fun k hk => (hf k hk).1)
  have hds : (movDst src c dst).strides = cstr src.shape :=
    strides_eq_cstr (by rw [movDst_length, hlen]) (fun k hk => (hf k (by rw [movDst_length] at hk; exact hk)).2.1)
  have hpp : 1 ≤ prod src.shape := prod_pos hns
  have hcn : ((prod src.shape).toNat : Int) = prod src.shape := by omega
  -- every position is its own source
  have hpos : ∀ js, MovPos src c js ↔ InShape src.shape js := by
    intro js
    unfold MovPos
    rw [inShape_iff, hlen]
    constructor
    · rintro ⟨hl, h⟩
      refine ⟨hl.symm, fun m hm => ?_⟩
      obtain ⟨a, b⟩ := h m hm
      obtain ⟨f1, f2, f3, f4, f5, f6, f7⟩ := hf m hm
      obtain ⟨o1, o2⟩ := hoff m hm
      have hw := hs.window m hm
      rw [f6, f7] at b
      rw [o1, f4, f5] at hw
      rw [gShape_lt hm] at hw
      omega
    · rintro ⟨hl, h⟩
      refine ⟨hl.symm, fun m hm => ?_⟩
      have h' := h m hm
      obtain ⟨f1, f2, f3, f4, f5, f6, f7⟩ := hf m hm
      obtain ⟨o1, o2⟩ := hoff m hm
      rw [f6, f7]
      refine ⟨h'.1, ?_⟩
      -- the written size equals the shape
      have hsh := f3
      rw [movDst_gShape _ _ _ _ hm, movDstShape_eq hs hm, o2] at hsh
      have := (movWriteSize_lt hs hm h'.1).mp (by rw [gShape_lt hm] at hsh; omega)
      rw [f6, f7] at this
      exact this
  have htarget : ∀ js, InShape src.shape js → movTarget src.dims.length c js = js := by
    intro js hj
    have hl := inShape_length _ _ hj
    apply List.ext_getElem?
    intro k
    by_cases hk : k < src.dims.length
    · unfold movTarget
      rw [List.getElem?_map, List.getElem?_range hk]
      simp only [Option.map_some]
      rw [(hoff k hk).2, List.getD_eq_getElem?_getD, List.getElem?_eq_getElem (by omega)]
      simp
    · rw [List.getElem?_eq_none (by simp [movTarget]; omega), List.getElem?_eq_none (by omega)]
  have hsrcaddr : ∀ k : Nat, k < (prod src.shape).toNat → 0 ≤ src.base + k ∧ src.base + k < sb.size := by
    intro k hk
    obtain ⟨is, hi, ho⟩ := contig_offset_onto src.shape hns k (by omega) (by omega)
    have := hv.inBounds hi
    rw [hss, ho] at this
    exact this
  have hdstaddr : ∀ k : Nat, k < (prod src.shape).toNat →
      0 ≤ (movDst src c dst).base + k ∧ (movDst src c dst).base + k < db.size := by
    intro k hk
    obtain ⟨is, hi, ho⟩ := contig_offset_onto src.shape hns k (by omega) (by omega)
    have := hd.inBounds (movTarget_inShape (dst := dst) hs ((hpos is).mpr hi))
    rw [hds, htarget is hi, ho] at this
    exact this
  obtain ⟨db', hrun, hst⟩ := foldlM_stores (fun k : Nat => (movDst src c dst).base + k)
    (fun k : Nat => sb.get (src.base + k)) (List.range (prod src.shape).toNat)
    (fun d k => do
      let v ← sb.rd (src.base + k)
      d.wr ((movDst src c dst).base + k) v) db
    (by
      intro k hk d _
      rw [List.mem_range] at hk
      simp only [Buf.rd_some (hsrcaddr k hk), Option.bind_eq_bind, Option.bind_some])
    (by intro k hk; rw [List.mem_range] at hk; exact hdstaddr k hk)
    (by intro k _ k' _ h; have : (k : Int) = k' := by omega
        rw [this])
  refine ⟨db', ?_, hst.size, ?_, ?_, ?_⟩
  · unfold movMemcpy
    rw [hcount, forRange_eq_foldlM]
    exact hrun
  · intro js is hj hi hrel
    have hj' := (hpos js).mp hj
    have hl := inShape_length _ _ hj'
    have hl2 := inShape_length _ _ hi
    have hji : is = js := by
      apply List.ext_getElem (by omega)
      intro k hk hk'
      have hk'' : k < src.dims.length := by omega
      have h := hrel k hk''
      obtain ⟨f1, f2, f3, f4, f5, f6, f7⟩ := hf k hk''
      unfold movSpecCoord at h
      rw [f6, f7, f4, (hoff k hk'').1, List.getD_eq_getElem?_getD, List.getElem?_eq_getElem hk,
        List.getD_eq_getElem?_getD, List.getElem?_eq_getElem hk'] at h
      simp only [Option.getD_some] at h
      omega
    subst hji
    rw [htarget is hi, hds, hss]
    obtain ⟨a, b⟩ := contig_offset_range src.shape is hi
    have := hst.hit (Spec.offset (cstr src.shape) is).toNat (by rw [List.mem_range]; omega)
    have hc : (((Spec.offset (cstr src.shape) is).toNat : Nat) : Int) = Spec.offset (cstr src.shape) is := by omega
    rw [hc] at this
    exact this
  · rintro js hj ⟨k, hk, hc⟩
    exfalso
    have hj' := (hpos js).mp hj
    obtain ⟨f1, f2, f3, f4, f5, f6, f7⟩ := hf k hk
    rw [inShape_iff, hlen] at hj'
    have := hj'.2 k hk
    unfold movSpecCoord at hc
    rw [f6, f7, f4, (hoff k hk).1] at hc
    omega
  · intro a ha
    apply hst.frame
    intro k hk
    rw [List.mem_range] at hk
    obtain ⟨is, hi, ho⟩ := contig_offset_onto src.shape hns k (by omega) (by omega)
    intro he
    apply ha is ((hpos is).mpr hi)
    rw [hds, htarget is hi, ho]; exact he.symm

/-! ## C15, C16 -/

theorem mov_main {src dst : Tensor} {c : MovCfg} {sb db : Buf} (hs : c.Sane src) (hv : src.Valid sb)
    (hd : (movDst src c dst).Valid db) (hr0 : 0 < src.dims.length)
    (hfast : movIs1d src (movDst src c dst) c src.dims.length 1 = true →
      ∀ k, k < src.dims.length → c.offset k = 0 ∧ c.dstOffset k = 0) :
    ∃ db', movPrepare src dst c true sb db = some (.ok, movDst src c dst, db') ∧
      MovDone src (movDst src c dst) c sb db db' := by
  have hsub : ((List.range src.dims.length).any fun i => c.sub (c.perm i) == 0) = false := by
    rw [Bool.eq_false_iff]
    intro h
    rw [List.any_eq_true] at h
    obtain ⟨k, _, h⟩ := h
    rw [beq_iff_eq] at h
    have := (hs.sub (c.perm k)).1
    omega
  have hr : src.dims.length ≠ 0 := by omega
  by_cases h1d : movIs1d src (movDst src c dst) c src.dims.length 1 = true
  · obtain ⟨db', h1, h2⟩ := movMemcpy_done hs hv hd hr0 h1d (hfast h1d)
    refine ⟨db', ?_, h2⟩
    unfold movPrepare
    simp [hv.accepted, hr, hsub, hd.accepted, h1d, h1]
  · obtain ⟨db', h1, h2⟩ := movLoops_done (dst := dst) (db := db) hs hv hd
    refine ⟨db', ?_, h2⟩
    unfold movPrepare
    simp [hv.accepted, hr, hsub, hd.accepted, h1d, h1]

/-- Every copy / sub-sampling / permutation / padding (no source or destination offset; sizes may be
given) is performed exactly, and nothing else is changed.  Missing: configurations with offsets,
see `c15_with_offsets_partial` and the violation `c17_flat_transfer_violated`. -/
theorem c15_no_offsets_partial {src dst : Tensor} {c : MovCfg} {sb db : Buf} (hs : c.Sane src) (hv : src.Valid sb)
    (hd : (movDst src c dst).Valid db) (hr0 : 0 < src.dims.length)
    (hoff : ∀ k, k < src.dims.length → c.offset k = 0 ∧ c.dstOffset k = 0) :
    ∃ db', movPrepare src dst c true sb db = some (.ok, movDst src c dst, db') ∧
      MovDone src (movDst src c dst) c sb db db' :=
  mov_main hs hv hd hr0 (fun _ => hoff)

/-- With offsets, the movement is exact whenever the transfer cannot be mistaken for a flat copy:
some dimension is permuted, sub-sampled, padded, strided, or has a different size in source and
destination. -/
theorem c15_with_offsets_partial {src dst : Tensor} {c : MovCfg} {sb db : Buf} (hs : c.Sane src) (hv : src.Valid sb)
    (hd : (movDst src c dst).Valid db)
    (hne : ∃ k, k < src.dims.length ∧ (c.perm k ≠ k ∨ c.sub k ≠ 1 ∨ c.padPre k ≠ 0 ∨ c.padPost k ≠ 0 ∨
      src.shape.getD k 0 ≠ (movDst src c dst).shape.getD k 0 ∨
      src.strides.getD k 0 ≠ prod (src.shape.drop (k + 1)) ∨
      (movDst src c dst).strides.getD k 0 ≠ prod (src.shape.drop (k + 1)))) :
    ∃ db', movPrepare src dst c true sb db = some (.ok, movDst src c dst, db') ∧
      MovDone src (movDst src c dst) c sb db db' := by
  obtain ⟨k, hk, hne⟩ := hne
  apply mov_main hs hv hd (by omega)
  intro h1d
  exfalso
  have hns : ∀ n ∈ src.shape, 1 ≤ n := by
    intro n hn
    unfold Tensor.shape at hn
    rw [List.mem_map] at hn
    obtain ⟨d, hd', rfl⟩ := hn
    exact hv.shape_pos d hd'
  obtain ⟨_, _, hdims, hnest, hin, _⟩ := checkTensorPrivate_ok hv.accepted
  have hprod : prod src.shape ≤ int32Max := by
    have := prod_le_extent src.dims (fun d hd => ⟨(hdims d hd).1, (hdims d hd).2.1⟩) hnest
    unfold Tensor.shape
    have h2 := hin.2
    rw [show Spec.hi 32 = 2147483647 by decide] at h2
    unfold int32Max; omega
  have hlen : src.shape.length = src.dims.length := by simp [Tensor.shape]
  obtain ⟨f1, f2, f3, f4, f5, f6, f7⟩ := movIs1d_facts (dstT := movDst src c dst) (c := c) hns hprod
    src.dims.length 1 (Nat.le_refl _) (by rw [List.drop_of_length_le (by omega)]; rfl) h1d k hk
  rw [gStride_lt hk] at f1
  rw [gStride_lt (by rw [movDst_length]; exact hk)] at f2
  rw [gShape_lt hk, gShape_lt (by rw [movDst_length]; exact hk)] at f3
  rcases hne with h | h | h | h | h | h | h
  · exact h f6
  · exact h f7
  · exact h f4
  · exact h f5
  · exact h f3
  · exact h f1
  · exact h f2

/-- C16: whatever a movement changes belongs to the window `[dst_offset, dst_offset + size)` of the
destination tensor (same domain as C15; the run being `some` also means that no access left the
buffers). -/
theorem c16_window_only_partial {src dst : Tensor} {c : MovCfg} {sb db : Buf} (hs : c.Sane src) (hv : src.Valid sb)
    (hd : (movDst src c dst).Valid db) (hr0 : 0 < src.dims.length)
    (hoff : ∀ k, k < src.dims.length → c.offset k = 0 ∧ c.dstOffset k = 0) :
    ∃ db', movPrepare src dst c true sb db = some (.ok, movDst src c dst, db') ∧
      ∀ a, db'.get a ≠ db.get a → ∃ is, InShape (movDst src c dst).shape is ∧
        a = (movDst src c dst).base + Spec.offset (movDst src c dst).strides is ∧
        ∀ k, k < src.dims.length → c.dstOffset k ≤ is.getD k 0 := by
  obtain ⟨db', h1, h2⟩ := mov_main (dst := dst) (db := db) hs hv hd hr0 (fun _ => hoff)
  refine ⟨db', h1, ?_⟩
  intro a ha
  by_contra hc
  apply ha
  apply h2.frame
  intro js hj he
  apply hc
  refine ⟨_, movTarget_inShape hs hj, he, ?_⟩
  intro k hk
  unfold movTarget
  rw [getD_map_range _ hk]
  have := (hj.2 k hk).1
  omega

/-! ## C17 -/

/-- The configuration of the violations below: copy the first 3 of 4 elements to position 1. -/
def exMovCfg : MovCfg :=
  { offset := fun _ => 0, size := fun k => if k = 0 then 3 else 0, sub := fun _ => 1,
    dstOffset := fun k => if k = 0 then 1 else 0, dstStride := fun _ => 0, perm := fun k => k,
    padPre := fun _ => 0, padPost := fun _ => 0 }

/-- **Violation**: a contiguous copy of the first 3 of 4 elements to position 1 is performed as a
flat copy of all 4 elements to position 0: wrong values in the window and a changed element outside. -/
theorem c17_flat_transfer_violated :
    let src : Tensor := { dims := [⟨4, 1⟩], cap := 4, es := 1 }
    let dst : Tensor := { dims := [], cap := 4, es := 1 }
    (movPrepare src dst exMovCfg true (Buf.ofList [1, 2, 3, 4]) (Buf.ofList [0, 0, 0, 0])).map
      (fun r => (r.1, r.2.2.toList)) = some (.ok, [1, 2, 3, 4]) ∧
    -- the configuration asks for [0, 1, 2, 3]
    MovPos src exMovCfg [0] ∧ movTarget 1 exMovCfg [0] = [1] ∧ movSpecCoord exMovCfg [0] 0 = 0 := by
  refine ⟨by decide, ⟨rfl, ?_⟩, by decide, by decide⟩
  intro k hk
  have : k = 0 := by simpa using hk
  subst this
  decide

/-- The same movement with a destination that is one element longer is not flat and correct. -/
example :
    let src : Tensor := { dims := [⟨4, 2⟩], cap := 7, es := 1 }
    let dst : Tensor := { dims := [], cap := 4, es := 1 }
    (movPrepare src dst exMovCfg true (Buf.ofList [1, 0, 2, 0, 3, 0, 4]) (Buf.ofList [9, 0, 0, 0])).map
      (fun r => (r.1, r.2.2.toList)) = some (.ok, [9, 1, 2, 3]) := by decide

/-- C17: whether the flat path is taken or not cannot be seen from the result, when no offsets
are configured: both candidate implementations produce the same buffer content. -/
theorem c17_flat_path_invisible_partial {src dst : Tensor} {c : MovCfg} {sb db d1 d2 : Buf} (hs : c.Sane src)
    (hv : src.Valid sb) (hd : (movDst src c dst).Valid db) (hr0 : 0 < src.dims.length)
    (hoff : ∀ k, k < src.dims.length → c.offset k = 0 ∧ c.dstOffset k = 0)
    (h1d : movIs1d src (movDst src c dst) c src.dims.length 1 = true)
    (h1 : movMemcpy src (movDst src c dst) (hlpCountElemNum src 0).toNat sb db = some d1)
    (h2 : movLoops src.dims.length src (movDst src c dst) c (movWriteSize src c)
      (movNoPadding src.dims.length c) sb db = some d2) : d1.size = d2.size ∧ ∀ a, d1.get a = d2.get a := by
  obtain ⟨e1, r1, m1⟩ := movMemcpy_done hs hv hd hr0 h1d hoff
  obtain ⟨e2, r2, m2⟩ := movLoops_done (dst := dst) (db := db) hs hv hd
  rw [h1] at r1
  rw [h2] at r2
  simp only [Option.some.injEq] at r1 r2
  subst r1; subst r2
  refine ⟨by rw [m1.size, m2.size], ?_⟩
  intro a
  by_cases h : ∃ js, MovPos src c js ∧
      a = (movDst src c dst).base + Spec.offset (movDst src c dst).strides (movTarget src.dims.length c js)
  · obtain ⟨js, hj, rfl⟩ := h
    by_cases hc : ∃ k, k < src.dims.length ∧ (movSpecCoord c js k < 0 ∨ src.shape.getD (c.perm k) 0 ≤ movSpecCoord c js k)
    · rw [m1.padded js hj hc, m2.padded js hj hc]
    · obtain ⟨is, hi, hrel⟩ := movSrc_exists hs js hc
      rw [m1.copied js is hj hi hrel, m2.copied js is hj hi hrel]
  · have hn : ∀ js, MovPos src c js →
        a ≠ (movDst src c dst).base + Spec.offset (movDst src c dst).strides (movTarget src.dims.length c js) :=
      fun js hj he => h ⟨js, hj, he⟩
    rw [m1.frame a hn, m2.frame a hn]

/-- A padded, sub-sampled transposition meets the hypotheses of C15/C16. -/
def exMovCfg2 : MovCfg :=
  { offset := fun _ => 0, size := fun _ => 0, sub := fun k => if k = 1 then 2 else 1,
    dstOffset := fun _ => 0, dstStride := fun _ => 0, perm := fun k => if k = 0 then 1 else if k = 1 then 0 else k,
    padPre := fun k => if k = 0 then 1 else 0, padPost := fun _ => 0 }

example : MovCfg.Sane { dims := [⟨2, 3⟩, ⟨3, 1⟩], cap := 6, es := 1 } exMovCfg2 := by
  constructor <;> try (intro m; simp only [exMovCfg2]; (repeat' split) <;> omega)
  · intro k hk; have : k = 0 ∨ k = 1 := by simp at hk; omega
    rcases this with rfl | rfl <;> decide
  · intro i j hi hj; have h1 : i = 0 ∨ i = 1 := by simp at hi; omega
    have h2 : j = 0 ∨ j = 1 := by simp at hj; omega
    rcases h1 with rfl | rfl <;> rcases h2 with rfl | rfl <;> decide
  · intro m hm; have : m = 0 ∨ m = 1 := by simp at hm; omega
    rcases this with rfl | rfl <;> decide
  · intro m hm; have : m = 0 ∨ m = 1 := by simp at hm; omega
    rcases this with rfl | rfl <;> decide

example :
    (movPrepare { dims := [⟨2, 3⟩, ⟨3, 1⟩], cap := 6, es := 1 } { dims := [], cap := 6, es := 1 } exMovCfg2 true
      (Buf.ofList [1, 2, 3, 4, 5, 6]) (Buf.ofList [9, 9, 9, 9, 9, 9])).map
      (fun r => (r.1, r.2.1.shape, r.2.2.toList)) = some (.ok, [2, 3], [0, 1, 4, 0, 3, 6]) := by decide

end Mli
