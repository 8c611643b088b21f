import Verif.Model.MovCfg
import Verif.Props.Mov
import Verif.Props.Conv

/-! # C81: the configuration helpers of the data movement produce the documented movements -/

namespace Mli

open Spec

/-! ## Specification -/

/-- Component-wise sum of two multi-indices (the longer one is cut). -/
def vadd (is js : List Int) : List Int := List.zipWith (· + ·) is js

/-- Component-wise product of two multi-indices (the longer one is cut). -/
def vmul (is js : List Int) : List Int := List.zipWith (· * ·) is js

/-- `db'` is `db` with the elements of `t` in `area` set to `val`, and nothing else changed. -/
structure Filled (t : Tensor) (area : List Int → Prop) (val : List Int → Int) (db db' : Buf) : Prop where
  size : db'.size = db.size
  set : ∀ js, area js → db'.get (t.addr js) = val js
  frame : ∀ a, (∀ js, area js → a ≠ t.addr js) → db'.get a = db.get a

/-! ## Lemmas -/

theorem getD_zipWith (f : Int → Int → Int) : ∀ (k : Nat) (l m : List Int), k < l.length → k < m.length →
    (List.zipWith f l m).getD k 0 = f (l.getD k 0) (m.getD k 0) := by
  intro k l m h1 h2
  rw [List.getD_eq_getElem?_getD, List.getElem?_zipWith, List.getD_eq_getElem?_getD, List.getD_eq_getElem?_getD,
    List.getElem?_eq_getElem h1, List.getElem?_eq_getElem h2]
  rfl

theorem list_ext_getD {l m : List Int} (h : l.length = m.length) (he : ∀ k, k < l.length → l.getD k 0 = m.getD k 0) :
    l = m := by
  apply List.ext_getElem h
  intro k h1 h2
  have := he k h1
  rw [List.getD_eq_getElem?_getD, List.getD_eq_getElem?_getD, List.getElem?_eq_getElem h1,
    List.getElem?_eq_getElem h2] at this
  simpa using this

theorem valid_gShape {t : Tensor} {b : Buf} (h : t.Valid b) {m : Nat} (hm : m < t.dims.length) :
    1 ≤ t.gShape m ∧ t.gShape m < 2 ^ 31 := by
  have h1 := (checkTensorPrivate_ok h.accepted).2.2.1 (t.dims[m]) (List.getElem_mem hm)
  unfold Tensor.gShape
  rw [List.getElem?_eq_getElem hm]
  show 1 ≤ t.dims[m].shape ∧ t.dims[m].shape < 2 ^ 31
  have h2 := h1.2.2
  have : int32Max = 2147483647 := rfl
  omega

theorem arr4_some {l : List Int} {f : Nat → Int} (h : arr4 l = some f) :
    4 ≤ l.length ∧ (∀ k, k < 4 → f k = l.getD k 0) ∧ ∀ k, 4 ≤ k → f k = 0 := by
  unfold arr4 at h
  split at h
  · rename_i hl
    injection h with h
    subst h
    exact ⟨hl, fun k hk => if_pos hk, fun k hk => if_neg (by omega)⟩
  · exact absurd h (by simp)

theorem getD_mem_or {l : List Int} {P : Int → Prop} (h : ∀ x ∈ l, P x) {k : Nat} (hk : k < l.length) :
    P (l.getD k 0) := by
  rw [List.getD_eq_getElem?_getD, List.getElem?_eq_getElem hk]
  exact h _ (List.getElem_mem hk)

theorem mov_filled {src d : Tensor} {c : MovCfg} {sb db db' : Buf} (hs : c.Sane src)
    (hm : MovDone src d c sb db db') {area : List Int → Prop} {val : List Int → Int}
    (ha : ∀ js, area js ↔ ∃ j0, MovPos src c j0 ∧ js = movTarget src.dims.length c j0)
    (hc : ∀ j0 is, MovPos src c j0 → InShape src.shape is →
      (∀ k, k < src.dims.length → is.getD (c.perm k) 0 = movSpecCoord c j0 k) →
      val (movTarget src.dims.length c j0) = sb.get (src.addr is))
    (hp : ∀ j0, MovPos src c j0 →
      (∃ k, k < src.dims.length ∧ (movSpecCoord c j0 k < 0 ∨ src.shape.getD (c.perm k) 0 ≤ movSpecCoord c j0 k)) →
      val (movTarget src.dims.length c j0) = 0) : Filled d area val db db' := by
  refine ⟨hm.size, ?_, ?_⟩
  · intro js h
    obtain ⟨j0, h0, rfl⟩ := (ha js).mp h
    unfold Tensor.addr
    by_cases hx : ∃ k, k < src.dims.length ∧ (movSpecCoord c j0 k < 0 ∨ src.shape.getD (c.perm k) 0 ≤ movSpecCoord c j0 k)
    · rw [hm.padded j0 h0 hx, hp j0 h0 hx]
    · obtain ⟨is, hi, hrel⟩ := movSrc_exists hs j0 hx
      rw [hm.copied j0 is h0 hi hrel, hc j0 is h0 hi hrel]
      rfl
  · intro a h
    apply hm.frame
    intro j0 h0
    exact h _ ((ha _).mpr ⟨j0, h0, rfl⟩)

/-- Without destination offsets the target is the position itself. -/
theorem movTarget_zero {r : Nat} {c : MovCfg} (h : ∀ k, k < r → c.dstOffset k = 0) {js : List Int} (hj : js.length = r) :
    movTarget r c js = js := by
  apply list_ext_getD (by simp [movTarget, hj])
  intro k hk
  have hk' : k < r := by simpa [movTarget] using hk
  unfold movTarget
  rw [getD_map_range _ hk', h k hk']; omega

theorem movDst_shape_length (src dst : Tensor) (c : MovCfg) : (movDst src c dst).shape.length = src.dims.length := by
  simp [Tensor.shape, movDst_length]

theorem movDst_shape_getD {src dst : Tensor} {c : MovCfg} (hs : c.Sane src) {k : Nat} (hk : k < src.dims.length) :
    (movDst src c dst).shape.getD k 0 = movWriteSize src c k + c.dstOffset k := by
  rw [← gShape_lt (by rw [movDst_length]; exact hk), movDst_gShape _ _ _ _ hk, movDstShape_eq hs hk]

/-- The written positions are the multi-indices of the destination, shifted by `dst_offset`. -/
theorem movPos_iff {src : Tensor} {c : MovCfg} (hs : c.Sane src) (js : List Int) :
    MovPos src c js ↔ js.length = src.dims.length ∧
      ∀ k, k < src.dims.length → 0 ≤ js.getD k 0 ∧ js.getD k 0 < movWriteSize src c k := by
  unfold MovPos
  constructor
  · rintro ⟨h1, h2⟩
    exact ⟨h1, fun k hk => ⟨(h2 k hk).1, (movWriteSize_lt hs hk (h2 k hk).1).mpr (h2 k hk).2⟩⟩
  · rintro ⟨h1, h2⟩
    exact ⟨h1, fun k hk => ⟨(h2 k hk).1, (movWriteSize_lt hs hk (h2 k hk).1).mp (h2 k hk).2⟩⟩

theorem movPos_dst {src dst : Tensor} {c : MovCfg} (hs : c.Sane src) (h : ∀ k, k < src.dims.length → c.dstOffset k = 0)
    (js : List Int) :
    InShape (movDst src c dst).shape js ↔ ∃ j0, MovPos src c j0 ∧ js = movTarget src.dims.length c j0 := by
  have e : MovPos src c js ↔ InShape (movDst src c dst).shape js := by
    rw [movPos_iff hs, inShape_iff, movDst_shape_length]
    constructor
    · rintro ⟨h1, h2⟩
      refine ⟨h1.symm, fun k hk => ?_⟩
      rw [movDst_shape_getD hs hk, h k hk]
      have := h2 k hk
      omega
    · rintro ⟨h1, h2⟩
      refine ⟨h1.symm, fun k hk => ?_⟩
      have := h2 k hk
      rw [movDst_shape_getD hs hk, h k hk] at this
      omega
  rw [← e]
  constructor
  · intro hj
    exact ⟨js, hj, (movTarget_zero h hj.1).symm⟩
  · rintro ⟨j0, h0, rfl⟩
    rwa [movTarget_zero h h0.1]

theorem movWriteSize_one {src : Tensor} {c : MovCfg} (hs : c.Sane src) {k : Nat} (hk : k < src.dims.length)
    (h1 : c.sub (c.perm k) = 1) : movWriteSize src c k = movLen src c (c.perm k) := by
  obtain ⟨e, h31⟩ := movCpySize_eq hs hk
  have hw := (hs.window _ (hs.permLt k hk)).1
  unfold movWriteSize
  rw [e, h1, u32_id ⟨by omega, by omega⟩]
  omega

/-! ## Copy -/

theorem sane_copy {src : Tensor} {sb : Buf} (hv : src.Valid sb) {t : Nat → Int} :
    MovCfg.Sane src { cfgForCopy with dstStride := t } := by
  constructor
  · intro k hk; exact hk
  · intro i j _ _ h; exact h
  · intro m; show (0 : Int) ≤ 0; omega
  · intro m; show (0 : Int) ≤ 0; omega
  · intro m; show (1 : Int) ≤ 1 ∧ (1 : Int) < 2 ^ 31; omega
  · intro m; show (0 : Int) ≤ 0 ∧ (0 : Int) < 2 ^ 31; omega
  · intro m; show (0 : Int) ≤ 0; omega
  · intro m; show (0 : Int) ≤ 0; omega
  · intro m hm
    have := valid_gShape hv hm
    have e : movLen src { cfgForCopy with dstStride := t } m = src.gShape m := by
      unfold movLen cfgForCopy; simp
    rw [e]
    show 1 ≤ src.gShape m ∧ 0 + src.gShape m ≤ src.gShape m + 0 + 0
    omega
  · intro m hm
    have := valid_gShape hv hm
    show src.gShape m + 0 + 0 < 2 ^ 31
    omega

/-- `mli_mov_cfg_for_copy` followed by the movement copies the whole tensor: the destination gets the
shape of the source, every element is the source's element at the same position, nothing else in
the destination buffer changes. -/
theorem c81_copy {src dst : Tensor} {sb db : Buf} (hv : src.Valid sb)
    (hd : (movDst src cfgForCopy dst).Valid db) (hr0 : 0 < src.dims.length) :
    ∃ d db', movPrepare src dst cfgForCopy true sb db = some (.ok, d, db') ∧ d.shape = src.shape ∧
      Filled d (InShape d.shape) (fun js => sb.get (src.addr js)) db db' := by
  have hs : cfgForCopy.Sane src := sane_copy (t := fun _ => 0) hv
  obtain ⟨db', h1, h2⟩ := c15_no_offsets_partial (dst := dst) (db := db) hs hv hd hr0 (fun k _ => ⟨rfl, rfl⟩)
  have hlen : src.shape.length = src.dims.length := by simp [Tensor.shape]
  refine ⟨_, db', h1, ?_, mov_filled hs h2 (movPos_dst hs (fun _ _ => rfl)) ?_ ?_⟩
  · apply list_ext_getD (by rw [movDst_shape_length, hlen])
    intro k hk
    rw [movDst_shape_length] at hk
    rw [movDst_shape_getD hs hk, movWriteSize_one hs hk rfl, ← gShape_lt hk]
    show (if (0 : Int) > 0 then 0 else src.gShape k - 0 + 0 + 0) + 0 = src.gShape k
    rw [if_neg (by omega)]; omega
  · intro j0 is h0 hi hrel
    rw [movTarget_zero (fun _ _ => rfl) h0.1]
    have : j0 = is := by
      apply list_ext_getD (by rw [h0.1, ← hlen, inShape_length _ _ hi])
      intro k hk
      have := hrel k (by rw [← h0.1]; exact hk)
      rw [show cfgForCopy.perm k = k from rfl] at this
      rw [this]
      show j0.getD k 0 = j0.getD k 0 * 1 + 0 - 0
      omega
    rw [this]
  · intro j0 h0 hx
    exfalso
    obtain ⟨k, hk, hx⟩ := hx
    have h3 := h0.2 k hk
    have e : movLen src cfgForCopy k = src.gShape k := by unfold movLen cfgForCopy; simp
    have e2 : movSpecCoord cfgForCopy j0 k = j0.getD k 0 := by unfold movSpecCoord cfgForCopy; simp
    rw [e2, show cfgForCopy.perm k = k from rfl, ← gShape_lt hk] at hx
    rw [show cfgForCopy.perm k = k from rfl, e, show cfgForCopy.sub k = 1 from rfl] at h3
    omega

/-! ## Slice, concatenation, sub-sampling -/

/-- A movement without permutation and padding reads the source at `position * step + offset`. -/
theorem mov_plain {src d : Tensor} {c : MovCfg} {sb db db' : Buf} (hs : c.Sane src)
    (hm : MovDone src d c sb db db') (hperm : ∀ k, k < src.dims.length → c.perm k = k)
    (hpad : ∀ k, k < src.dims.length → c.padPre k = 0 ∧ c.padPost k = 0)
    {area : List Int → Prop} {val : List Int → Int}
    (ha : ∀ js, area js ↔ ∃ j0, MovPos src c j0 ∧ js = movTarget src.dims.length c j0)
    (hval : ∀ j0, MovPos src c j0 → val (movTarget src.dims.length c j0) =
      sb.get (src.addr ((List.range src.dims.length).map fun k => j0.getD k 0 * c.sub k + c.offset k))) :
    Filled d area val db db' := by
  have hlen : src.shape.length = src.dims.length := by simp [Tensor.shape]
  refine mov_filled hs hm ha ?_ ?_
  · intro j0 is h0 hi hrel
    rw [hval j0 h0]
    congr 2
    apply list_ext_getD (by simp [← hlen, inShape_length _ _ hi])
    intro k hk
    have hk' : k < src.dims.length := by simpa using hk
    rw [getD_map_range _ hk']
    have := hrel k hk'
    unfold movSpecCoord at this
    rw [hperm k hk', (hpad k hk').1] at this
    omega
  · intro j0 h0 hx
    exfalso
    obtain ⟨k, hk, hx⟩ := hx
    have h3 := h0.2 k hk
    have h4 := hs.window k hk
    have h5 := hs.offset k
    unfold movSpecCoord at hx
    rw [hperm k hk] at hx h3
    rw [(hpad k hk).1, (hpad k hk).2] at h4
    rw [(hpad k hk).1, ← gShape_lt hk] at hx
    have h6 := (hs.sub k).1
    have h7 : 0 ≤ j0.getD k 0 * c.sub k := Int.mul_nonneg h3.1 (by omega)
    omega

theorem u32_nonneg (x : Int) : 0 ≤ u32 x := Int.emod_nonneg _ (by decide)

/-- Size of the slice along dimension `k`: the requested size, or everything from the offset on when
the requested size is 0. -/
def sliceLen (src : Tensor) (offsets sizes : List Int) (k : Nat) : Int :=
  if sizes.getD k 0 = 0 then src.shape.getD k 0 - offsets.getD k 0 else sizes.getD k 0

/-- `mli_mov_cfg_for_slice` followed by the movement extracts the slice: the destination has the
requested sizes, its element at `js` is the source element at `js + offsets`, nothing else in the
destination buffer changes.  The slice must not be empty and must lie inside the source. -/
theorem c81_slice {src dst : Tensor} {sb db : Buf} {offsets sizes strides : List Int} {c : MovCfg}
    (hv : src.Valid sb) (hc : cfgForSlice offsets sizes strides = some c)
    (hd : (movDst src c dst).Valid db) (hr0 : 0 < src.dims.length)
    (ho : ∀ x ∈ offsets, 0 ≤ x ∧ x < 2 ^ 31) (hz : ∀ x ∈ sizes, 0 ≤ x ∧ x < 2 ^ 31)
    (hin : ∀ k, k < src.dims.length → 1 ≤ sliceLen src offsets sizes k ∧
      offsets.getD k 0 + sliceLen src offsets sizes k ≤ src.shape.getD k 0) :
    ∃ d db', movPrepare src dst c true sb db = some (.ok, d, db') ∧
      d.shape = (List.range src.dims.length).map (sliceLen src offsets sizes) ∧
      Filled d (InShape d.shape) (fun js => sb.get (src.addr (vadd js offsets))) db db' := by
  unfold cfgForSlice at hc
  simp only [Option.bind_eq_bind, Option.bind_eq_some_iff, Option.pure_def, Option.some.injEq] at hc
  obtain ⟨o, e1, z, e2, t, e3, rfl⟩ := hc
  obtain ⟨lo, o1, o2⟩ := arr4_some e1
  obtain ⟨lz, z1, z2⟩ := arr4_some e2
  have hr4 := hv.rank
  have eo : ∀ k, k < src.dims.length → u32 (o k) = offsets.getD k 0 := by
    intro k hk
    rw [o1 k (by omega)]
    have := getD_mem_or ho (k := k) (by omega)
    exact u32_id ⟨this.1, by omega⟩
  have ez : ∀ k, k < src.dims.length → u32 (z k) = sizes.getD k 0 := by
    intro k hk
    rw [z1 k (by omega)]
    have := getD_mem_or hz (k := k) (by omega)
    exact u32_id ⟨this.1, by omega⟩
  generalize hcc : ({ cfgForCopy with offset := fun k => u32 (o k), size := fun k => u32 (z k), dstStride := t } : MovCfg) = c at *
  have c1 : ∀ k, c.offset k = u32 (o k) := by subst hcc; exact fun _ => rfl
  have c2 : ∀ k, c.size k = u32 (z k) := by subst hcc; exact fun _ => rfl
  have c3 : ∀ k, c.sub k = 1 := by subst hcc; exact fun _ => rfl
  have c4 : ∀ k, c.dstOffset k = 0 := by subst hcc; exact fun _ => rfl
  have c5 : ∀ k, c.perm k = k := by subst hcc; exact fun _ => rfl
  have c6 : ∀ k, c.padPre k = 0 := by subst hcc; exact fun _ => rfl
  have c7 : ∀ k, c.padPost k = 0 := by subst hcc; exact fun _ => rfl
  have el : ∀ k, k < src.dims.length → movLen src c k = sliceLen src offsets sizes k := by
    intro k hk
    unfold movLen sliceLen
    rw [c1, c2, c6, c7, eo k hk, ez k hk, gShape_lt hk]
    have := getD_mem_or hz (k := k) (by omega)
    split_ifs <;> omega
  have hs : c.Sane src := by
    constructor
    · intro k hk; rw [c5]; exact hk
    · intro i j _ _ h; rwa [c5, c5] at h
    · intro m; rw [c1]; exact u32_nonneg _
    · intro m; rw [c2]; exact u32_nonneg _
    · intro m; rw [c3]; decide
    · intro m; rw [c4]; decide
    · intro m; rw [c6]
    · intro m; rw [c7]
    · intro m hm
      rw [el m hm, c1, c6, c7, eo m hm, gShape_lt hm]
      have := hin m hm
      omega
    · intro m hm
      have := valid_gShape hv hm
      rw [c6, c7]
      omega
  have hsh : ∀ k, k < src.dims.length → (movDst src c dst).shape.getD k 0 = sliceLen src offsets sizes k := by
    intro k hk
    rw [movDst_shape_getD hs hk, movWriteSize_one hs hk (c3 _), c5, el k hk, c4]; omega
  have hrun : ∃ db', movPrepare src dst c true sb db = some (.ok, movDst src c dst, db') ∧
      MovDone src (movDst src c dst) c sb db db' := by
    by_cases hall : ∀ k, k < src.dims.length → offsets.getD k 0 = 0
    · exact c15_no_offsets_partial hs hv hd hr0 (fun k hk => ⟨by rw [c1, eo k hk, hall k hk], c4 k⟩)
    · push Not at hall
      obtain ⟨k, hk, hne⟩ := hall
      refine c15_with_offsets_partial hs hv hd ⟨k, hk, Or.inr (Or.inr (Or.inr (Or.inr (Or.inl ?_))))⟩
      rw [hsh k hk]
      have := hin k hk
      have := getD_mem_or ho (k := k) (by omega)
      omega
  obtain ⟨db', h1, h2⟩ := hrun
  refine ⟨_, db', h1, ?_, mov_plain hs h2 (fun k _ => c5 k) (fun k _ => ⟨c6 k, c7 k⟩) (movPos_dst hs (fun k _ => c4 k)) ?_⟩
  · apply list_ext_getD (by simp [movDst_shape_length])
    intro k hk
    rw [movDst_shape_length] at hk
    rw [hsh k hk, getD_map_range _ hk]
  · intro j0 h0
    rw [movTarget_zero (fun k _ => c4 k) h0.1]
    show sb.get (src.addr (vadd j0 offsets)) = _
    congr 2
    have h00 := h0.1
    apply list_ext_getD (by simp [vadd]; omega)
    intro k hk
    have hk' : k < src.dims.length := by simp [vadd] at hk; omega
    unfold vadd
    rw [getD_zipWith _ _ _ _ (by omega) (by omega), getD_map_range _ hk', c3, c1, eo k hk']
    omega

/-- The movement of a concatenation, with the resulting descriptor named. -/
theorem mov_concat {src dst : Tensor} {sb db : Buf} {offsets strides : List Int} {c : MovCfg}
    (hv : src.Valid sb) (hc : cfgForConcat offsets strides = some c)
    (hd : (movDst src c dst).Valid db) (hr0 : 0 < src.dims.length)
    (ho : ∀ x ∈ offsets, 0 ≤ x ∧ x < 2 ^ 31) :
    ∃ db', movPrepare src dst c true sb db = some (.ok, movDst src c dst, db') ∧ (movDst src c dst).shape = vadd src.shape offsets ∧
      db'.size = db.size ∧
      (∀ is, InShape src.shape is → db'.get ((movDst src c dst).addr (vadd is offsets)) = sb.get (src.addr is)) ∧
      (∀ a, (∀ is, InShape src.shape is → a ≠ (movDst src c dst).addr (vadd is offsets)) → db'.get a = db.get a) := by
  unfold cfgForConcat at hc
  simp only [Option.bind_eq_bind, Option.bind_eq_some_iff, Option.pure_def, Option.some.injEq] at hc
  obtain ⟨o, e1, t, e3, rfl⟩ := hc
  obtain ⟨lo, o1, o2⟩ := arr4_some e1
  have hr4 := hv.rank
  have hlen : src.shape.length = src.dims.length := by simp [Tensor.shape]
  have eo : ∀ k, k < src.dims.length → u32 (o k) = offsets.getD k 0 := by
    intro k hk
    rw [o1 k (by omega)]
    have := getD_mem_or ho (k := k) (by omega)
    exact u32_id ⟨this.1, by omega⟩
  generalize hcc : ({ cfgForCopy with dstOffset := fun k => u32 (o k), dstStride := t } : MovCfg) = c at *
  have c1 : ∀ k, c.offset k = 0 := by subst hcc; exact fun _ => rfl
  have c2 : ∀ k, c.size k = 0 := by subst hcc; exact fun _ => rfl
  have c3 : ∀ k, c.sub k = 1 := by subst hcc; exact fun _ => rfl
  have c4 : ∀ k, c.dstOffset k = u32 (o k) := by subst hcc; exact fun _ => rfl
  have c5 : ∀ k, c.perm k = k := by subst hcc; exact fun _ => rfl
  have c6 : ∀ k, c.padPre k = 0 := by subst hcc; exact fun _ => rfl
  have c7 : ∀ k, c.padPost k = 0 := by subst hcc; exact fun _ => rfl
  have el : ∀ k, movLen src c k = src.gShape k := by
    intro k
    unfold movLen
    rw [c1, c2, c6, c7, if_neg (by omega)]; omega
  have hs : c.Sane src := by
    constructor
    · intro k hk; rw [c5]; exact hk
    · intro i j _ _ h; rwa [c5, c5] at h
    · intro m; rw [c1]
    · intro m; rw [c2]
    · intro m; rw [c3]; decide
    · intro m
      rw [c4]
      refine ⟨u32_nonneg _, ?_⟩
      by_cases hm : m < 4
      · rw [o1 m hm]
        have := getD_mem_or ho (k := m) (by omega)
        rw [u32_id ⟨this.1, by omega⟩]; exact this.2
      · rw [o2 m (by omega)]; decide
    · intro m; rw [c6]
    · intro m; rw [c7]
    · intro m hm
      rw [el m, c1, c6, c7]
      have := valid_gShape hv hm
      omega
    · intro m hm
      have := valid_gShape hv hm
      rw [c6, c7]
      omega
  have hsh : ∀ k, k < src.dims.length → (movDst src c dst).shape.getD k 0 = src.shape.getD k 0 + offsets.getD k 0 := by
    intro k hk
    rw [movDst_shape_getD hs hk, movWriteSize_one hs hk (c3 _), c5, el k, c4, eo k hk, gShape_lt hk]
  have hrun : ∃ db', movPrepare src dst c true sb db = some (.ok, movDst src c dst, db') ∧
      MovDone src (movDst src c dst) c sb db db' := by
    by_cases hall : ∀ k, k < src.dims.length → offsets.getD k 0 = 0
    · exact c15_no_offsets_partial hs hv hd hr0 (fun k hk => ⟨c1 k, by rw [c4, eo k hk, hall k hk]⟩)
    · push Not at hall
      obtain ⟨k, hk, hne⟩ := hall
      refine c15_with_offsets_partial hs hv hd ⟨k, hk, Or.inr (Or.inr (Or.inr (Or.inr (Or.inl ?_))))⟩
      rw [hsh k hk]
      omega
  have htgt : ∀ js : List Int, js.length = src.dims.length → movTarget src.dims.length c js = vadd js offsets := by
    intro js hj
    apply list_ext_getD (by simp [vadd, movTarget]; omega)
    intro k hk
    have hk' : k < src.dims.length := by simpa [movTarget] using hk
    unfold movTarget vadd
    rw [getD_zipWith _ _ _ _ (by omega) (by omega), getD_map_range _ hk', c4, eo k hk']
  have hpos : ∀ js, MovPos src c js ↔ InShape src.shape js := by
    intro js
    rw [inShape_iff, hlen]
    unfold MovPos
    constructor
    · rintro ⟨a, b⟩
      refine ⟨a.symm, fun k hk => ?_⟩
      have := b k hk
      rw [c5, c3, el, gShape_lt hk] at this
      omega
    · rintro ⟨a, b⟩
      refine ⟨a.symm, fun k hk => ?_⟩
      have := b k hk
      rw [c5, c3, el, gShape_lt hk]
      omega
  obtain ⟨db', h1, h2⟩ := hrun
  refine ⟨db', h1, ?_, h2.size, ?_, ?_⟩
  · apply list_ext_getD (by simp [movDst_shape_length, vadd, hlen]; omega)
    intro k hk
    rw [movDst_shape_length] at hk
    unfold vadd
    rw [hsh k hk, getD_zipWith _ _ _ _ (by omega) (by omega)]
  · intro is hi
    have hl : is.length = src.dims.length := by rw [← inShape_length _ _ hi, hlen]
    have := h2.copied is is ((hpos is).mpr hi) hi (by
      intro k hk
      unfold movSpecCoord
      rw [c5, c3, c1, c6]; omega)
    rw [htgt is hl] at this
    exact this
  · intro a h
    apply h2.frame
    intro js hj
    rw [htgt js hj.1]
    exact h js ((hpos js).mp hj)

/-- `mli_mov_cfg_for_concat` followed by the movement places the whole source at position
`dst_offsets` of the destination: the element at `is + dst_offsets` is the source element `is`, nothing
else in the destination buffer changes. -/
theorem c81_concat {src dst : Tensor} {sb db : Buf} {offsets strides : List Int} {c : MovCfg}
    (hv : src.Valid sb) (hc : cfgForConcat offsets strides = some c)
    (hd : (movDst src c dst).Valid db) (hr0 : 0 < src.dims.length)
    (ho : ∀ x ∈ offsets, 0 ≤ x ∧ x < 2 ^ 31) :
    ∃ d db', movPrepare src dst c true sb db = some (.ok, d, db') ∧ d.shape = vadd src.shape offsets ∧
      db'.size = db.size ∧
      (∀ is, InShape src.shape is → db'.get (d.addr (vadd is offsets)) = sb.get (src.addr is)) ∧
      (∀ a, (∀ is, InShape src.shape is → a ≠ d.addr (vadd is offsets)) → db'.get a = db.get a) := by
  obtain ⟨db', h⟩ := mov_concat (dst := dst) (db := db) hv hc hd hr0 ho
  exact ⟨_, db', h⟩

/-- `mli_mov_cfg_for_subsample` followed by the movement keeps every `step`-th element: the
destination has `ceil(shape / step)` elements per dimension, its element at `js` is the source
element at `js * step`, nothing else in the destination buffer changes. -/
theorem c81_subsample {src dst : Tensor} {sb db : Buf} {steps strides : List Int} {c : MovCfg}
    (hv : src.Valid sb) (hc : cfgForSubsample steps strides = some c)
    (hd : (movDst src c dst).Valid db) (hr0 : 0 < src.dims.length)
    (ho : ∀ x ∈ steps, 1 ≤ x ∧ x < 2 ^ 31) :
    ∃ d db', movPrepare src dst c true sb db = some (.ok, d, db') ∧
      d.shape = (List.range src.dims.length).map (fun k => (src.shape.getD k 0 + steps.getD k 0 - 1) / steps.getD k 0) ∧
      Filled d (InShape d.shape) (fun js => sb.get (src.addr (vmul js steps))) db db' := by
  unfold cfgForSubsample at hc
  simp only [Option.bind_eq_bind, Option.bind_eq_some_iff, Option.pure_def, Option.some.injEq] at hc
  obtain ⟨o, e1, t, e3, rfl⟩ := hc
  obtain ⟨lo, o1, o2⟩ := arr4_some e1
  have hr4 := hv.rank
  have hlen : src.shape.length = src.dims.length := by simp [Tensor.shape]
  generalize hcc : ({ cfgForCopy with sub := fun k => if k < 4 then u32 (o k) else 1, dstStride := t } : MovCfg) = c at *
  have c1 : ∀ k, c.offset k = 0 := by subst hcc; exact fun _ => rfl
  have c2 : ∀ k, c.size k = 0 := by subst hcc; exact fun _ => rfl
  have c3 : ∀ k, c.sub k = if k < 4 then u32 (o k) else 1 := by subst hcc; exact fun _ => rfl
  have c4 : ∀ k, c.dstOffset k = 0 := by subst hcc; exact fun _ => rfl
  have c5 : ∀ k, c.perm k = k := by subst hcc; exact fun _ => rfl
  have c6 : ∀ k, c.padPre k = 0 := by subst hcc; exact fun _ => rfl
  have c7 : ∀ k, c.padPost k = 0 := by subst hcc; exact fun _ => rfl
  have cs : ∀ k, k < 4 → c.sub k = steps.getD k 0 ∧ 1 ≤ steps.getD k 0 ∧ steps.getD k 0 < 2 ^ 31 := by
    intro k hk
    have := getD_mem_or ho (k := k) (by omega)
    refine ⟨?_, this⟩
    rw [c3, if_pos hk, o1 k hk]
    exact u32_id ⟨by omega, by omega⟩
  have el : ∀ k, movLen src c k = src.gShape k := by
    intro k
    unfold movLen
    rw [c1, c2, c6, c7, if_neg (by omega)]; omega
  have hs : c.Sane src := by
    constructor
    · intro k hk; rw [c5]; exact hk
    · intro i j _ _ h; rwa [c5, c5] at h
    · intro m; rw [c1]
    · intro m; rw [c2]
    · intro m
      by_cases hm : m < 4
      · rw [(cs m hm).1]; exact (cs m hm).2
      · rw [c3, if_neg hm]; decide
    · intro m; rw [c4]; decide
    · intro m; rw [c6]
    · intro m; rw [c7]
    · intro m hm
      rw [el m, c1, c6, c7]
      have := valid_gShape hv hm
      omega
    · intro m hm
      have := valid_gShape hv hm
      rw [c6, c7]
      omega
  obtain ⟨db', h1, h2⟩ := c15_no_offsets_partial (dst := dst) (db := db) hs hv hd hr0 (fun k _ => ⟨c1 k, c4 k⟩)
  refine ⟨_, db', h1, ?_, mov_plain hs h2 (fun k _ => c5 k) (fun k _ => ⟨c6 k, c7 k⟩) (movPos_dst hs (fun k _ => c4 k)) ?_⟩
  · apply list_ext_getD (by simp [movDst_shape_length])
    intro k hk
    rw [movDst_shape_length] at hk
    rw [movDst_shape_getD hs hk, getD_map_range _ hk, c4]
    unfold movWriteSize
    rw [(movCpySize_eq hs hk).1, c5, el, gShape_lt hk, (cs k (by omega)).1]
    have h3 := valid_gShape hv hk
    rw [gShape_lt hk] at h3
    have h4 := (cs k (by omega)).2
    rw [u32_id ⟨by omega, by omega⟩]; omega
  · intro j0 h0
    rw [movTarget_zero (fun k _ => c4 k) h0.1]
    show sb.get (src.addr (vmul j0 steps)) = _
    congr 2
    have h00 := h0.1
    apply list_ext_getD (by simp [vmul]; omega)
    intro k hk
    have hk' : k < src.dims.length := by simp [vmul] at hk; omega
    unfold vmul
    rw [getD_zipWith _ _ _ _ (by omega) (by omega), getD_map_range _ hk', c1, (cs k (by omega)).1]
    omega

/-! ## Permutation -/

/-- `mli_mov_cfg_for_permute` followed by the movement permutes the dimensions: dimension `k` of the
destination is dimension `perm[k]` of the source, for every source element; nothing else in the
destination buffer changes.  `perm` must be a permutation of the source's dimensions. -/
theorem c81_permute {src dst : Tensor} {sb db : Buf} {perm : List Int} {c : MovCfg}
    (hv : src.Valid sb) (hc : cfgForPermute perm = some c)
    (hd : (movDst src c dst).Valid db) (hr0 : 0 < src.dims.length)
    (hp : ∀ k, k < src.dims.length → 0 ≤ perm.getD k 0 ∧ perm.getD k 0 < src.dims.length)
    (hinj : ∀ i j, i < src.dims.length → j < src.dims.length → perm.getD i 0 = perm.getD j 0 → i = j) :
    ∃ d db', movPrepare src dst c true sb db = some (.ok, d, db') ∧
      d.shape = (List.range src.dims.length).map (fun k => src.shape.getD (perm.getD k 0).toNat 0) ∧
      db'.size = db.size ∧
      (∀ is js, InShape src.shape is → InShape d.shape js →
        (∀ k, k < src.dims.length → js.getD k 0 = is.getD (perm.getD k 0).toNat 0) →
        db'.get (d.addr js) = sb.get (src.addr is)) ∧
      (∀ a, (∀ js, InShape d.shape js → a ≠ d.addr js) → db'.get a = db.get a) := by
  unfold cfgForPermute at hc
  simp only [Option.bind_eq_bind, Option.bind_eq_some_iff, Option.pure_def, Option.some.injEq] at hc
  obtain ⟨o, e1, rfl⟩ := hc
  obtain ⟨lo, o1, o2⟩ := arr4_some e1
  have hr4 := hv.rank
  have hlen : src.shape.length = src.dims.length := by simp [Tensor.shape]
  generalize hcc : ({ cfgForCopy with perm := fun k => if k < 4 then (o k).toNat else k } : MovCfg) = c at *
  have c1 : ∀ k, c.offset k = 0 := by subst hcc; exact fun _ => rfl
  have c2 : ∀ k, c.size k = 0 := by subst hcc; exact fun _ => rfl
  have c3 : ∀ k, c.sub k = 1 := by subst hcc; exact fun _ => rfl
  have c4 : ∀ k, c.dstOffset k = 0 := by subst hcc; exact fun _ => rfl
  have c5 : ∀ k, c.perm k = if k < 4 then (o k).toNat else k := by subst hcc; exact fun _ => rfl
  have c6 : ∀ k, c.padPre k = 0 := by subst hcc; exact fun _ => rfl
  have c7 : ∀ k, c.padPost k = 0 := by subst hcc; exact fun _ => rfl
  have cp : ∀ k, k < src.dims.length → c.perm k = (perm.getD k 0).toNat := by
    intro k hk
    rw [c5, if_pos (by omega), o1 k (by omega)]
  have el : ∀ k, movLen src c k = src.gShape k := by
    intro k
    unfold movLen
    rw [c1, c2, c6, c7, if_neg (by omega)]; omega
  have hs : c.Sane src := by
    constructor
    · intro k hk; rw [cp k hk]; have := hp k hk; omega
    · intro i j hi hj h
      rw [cp i hi, cp j hj] at h
      have h1 := hp i hi
      have h2 := hp j hj
      exact hinj i j hi hj (by omega)
    · intro m; rw [c1]
    · intro m; rw [c2]
    · intro m; rw [c3]; decide
    · intro m; rw [c4]; decide
    · intro m; rw [c6]
    · intro m; rw [c7]
    · intro m hm
      rw [el m, c1, c6, c7]
      have := valid_gShape hv hm
      omega
    · intro m hm
      have := valid_gShape hv hm
      rw [c6, c7]
      omega
  obtain ⟨db', h1, h2⟩ := c15_no_offsets_partial (dst := dst) (db := db) hs hv hd hr0 (fun k _ => ⟨c1 k, c4 k⟩)
  refine ⟨_, db', h1, ?_, h2.size, ?_, ?_⟩
  · apply list_ext_getD (by simp [movDst_shape_length])
    intro k hk
    rw [movDst_shape_length] at hk
    rw [movDst_shape_getD hs hk, getD_map_range _ hk, movWriteSize_one hs hk (c3 _), el, c4,
      gShape_lt (hs.permLt k hk), cp k hk]
    omega
  · intro is js hi hj hrel
    obtain ⟨j0, h0, rfl⟩ := (movPos_dst hs (fun k _ => c4 k) js).mp hj
    refine h2.copied j0 is h0 hi ?_
    intro k hk
    have := hrel k hk
    rw [movTarget_zero (fun k _ => c4 k) h0.1] at this
    unfold movSpecCoord
    rw [c3, c1, c6, cp k hk]
    omega
  · intro a h
    apply h2.frame
    intro j0 h0
    exact h _ ((movPos_dst hs (fun k _ => c4 k) _).mpr ⟨j0, h0, rfl⟩)

/-! ## Padding -/

/-- Common part of the two padding functions: `pre k` and `post k` zeros around dimension `k`. -/
theorem mov_padded {src dst : Tensor} {sb db : Buf} {c : MovCfg} (hv : src.Valid sb)
    (hd : (movDst src c dst).Valid db) (hr0 : 0 < src.dims.length)
    (c1 : ∀ k, c.offset k = 0) (c2 : ∀ k, c.size k = 0) (c3 : ∀ k, c.sub k = 1) (c4 : ∀ k, c.dstOffset k = 0)
    (c5 : ∀ k, c.perm k = k) (c6 : ∀ k, 0 ≤ c.padPre k) (c7 : ∀ k, 0 ≤ c.padPost k)
    (hsm : ∀ m, m < src.dims.length → src.gShape m + c.padPre m + c.padPost m < 2 ^ 31) :
    ∃ d db', movPrepare src dst c true sb db = some (.ok, d, db') ∧
      d.shape = (List.range src.dims.length).map (fun k => src.shape.getD k 0 + c.padPre k + c.padPost k) ∧
      db'.size = db.size ∧
      (∀ js, InShape d.shape js → (∀ k, k < src.dims.length →
          c.padPre k ≤ js.getD k 0 ∧ js.getD k 0 < c.padPre k + src.shape.getD k 0) →
        db'.get (d.addr js) = sb.get (src.addr ((List.range src.dims.length).map fun k => js.getD k 0 - c.padPre k))) ∧
      (∀ js, InShape d.shape js → (∃ k, k < src.dims.length ∧
          (js.getD k 0 < c.padPre k ∨ c.padPre k + src.shape.getD k 0 ≤ js.getD k 0)) →
        db'.get (d.addr js) = 0) ∧
      (∀ a, (∀ js, InShape d.shape js → a ≠ d.addr js) → db'.get a = db.get a) := by
  have hlen : src.shape.length = src.dims.length := by simp [Tensor.shape]
  have el : ∀ k, movLen src c k = src.gShape k + c.padPre k + c.padPost k := by
    intro k
    unfold movLen
    rw [c1, c2, if_neg (by omega)]; omega
  have hs : c.Sane src := by
    constructor
    · intro k hk; rw [c5]; exact hk
    · intro i j _ _ h; rwa [c5, c5] at h
    · intro m; rw [c1]
    · intro m; rw [c2]
    · intro m; rw [c3]; decide
    · intro m; rw [c4]; decide
    · exact c6
    · exact c7
    · intro m hm
      rw [el m, c1]
      have := valid_gShape hv hm
      have := c6 m
      have := c7 m
      omega
    · exact hsm
  obtain ⟨db', h1, h2⟩ := c15_no_offsets_partial (dst := dst) (db := db) hs hv hd hr0 (fun k _ => ⟨c1 k, c4 k⟩)
  refine ⟨_, db', h1, ?_, h2.size, ?_, ?_, ?_⟩
  · apply list_ext_getD (by simp [movDst_shape_length])
    intro k hk
    rw [movDst_shape_length] at hk
    rw [movDst_shape_getD hs hk, getD_map_range _ hk, movWriteSize_one hs hk (c3 _), el, c4, c5, gShape_lt hk]
    omega
  · intro js hj hin
    obtain ⟨j0, h0, rfl⟩ := (movPos_dst hs (fun k _ => c4 k) js).mp hj
    rw [movTarget_zero (fun k _ => c4 k) h0.1] at hin ⊢
    have := h2.copied j0 ((List.range src.dims.length).map fun k => j0.getD k 0 - c.padPre k) h0 ?_ ?_
    · rw [movTarget_zero (fun k _ => c4 k) h0.1] at this
      exact this
    · rw [inShape_iff, hlen]
      refine ⟨by simp, fun k hk => ?_⟩
      rw [getD_map_range _ hk]
      have := hin k hk
      omega
    · intro k hk
      unfold movSpecCoord
      rw [c5, c3, c1, getD_map_range _ hk]
      omega
  · intro js hj hout
    obtain ⟨j0, h0, rfl⟩ := (movPos_dst hs (fun k _ => c4 k) js).mp hj
    refine h2.padded j0 h0 ?_
    obtain ⟨k, hk, h⟩ := hout
    rw [movTarget_zero (fun k _ => c4 k) h0.1] at h
    refine ⟨k, hk, ?_⟩
    unfold movSpecCoord
    rw [c5, c3, c1]
    omega
  · intro a h
    apply h2.frame
    intro j0 h0
    exact h _ ((movPos_dst hs (fun k _ => c4 k) _).mpr ⟨j0, h0, rfl⟩)

theorem movPad_addr {src : Tensor} {a b e : Int} {f : Nat → Int} (h3 : src.dims.length = 3) (h0 : f 0 = a)
    (h1 : f 1 = b) (h2 : f 2 = e) : src.addr ((List.range src.dims.length).map f) = src.addr [a, b, e] := by
  rw [h3]
  simp [List.range_succ, h0, h1, h2]

/-- `mli_mov_cfg_for_padding2d_chw` followed by the movement surrounds every channel plane of a
channel-height-width tensor with zeros. -/
theorem c81_pad_chw {src dst : Tensor} {sb db : Buf} {left right top bot ch h w : Int} {strides : List Int}
    {c : MovCfg} (hv : src.Valid sb) (hsh : src.shape = [ch, h, w])
    (hc : cfgForPadChw left right top bot strides = some c) (hd : (movDst src c dst).Valid db)
    (hpl : 0 ≤ left ∧ 0 ≤ right ∧ 0 ≤ top ∧ 0 ≤ bot)
    (hsm : h + top + bot < 2 ^ 31 ∧ w + left + right < 2 ^ 31) :
    ∃ d db', movPrepare src dst c true sb db = some (.ok, d, db') ∧
      d.shape = [ch, h + top + bot, w + left + right] ∧
      Filled d (InShape d.shape) (fun js =>
        let k := js.getD 0 0; let y := js.getD 1 0; let x := js.getD 2 0
        if top ≤ y ∧ y < top + h ∧ left ≤ x ∧ x < left + w then sb.get (src.addr [k, y - top, x - left]) else 0)
        db db' := by
  unfold cfgForPadChw at hc
  simp only [Option.bind_eq_bind, Option.bind_eq_some_iff, Option.pure_def, Option.some.injEq] at hc
  obtain ⟨t, e3, rfl⟩ := hc
  have hr : src.dims.length = 3 := by
    have := congrArg List.length hsh
    simpa [Tensor.shape] using this
  have hg : ∀ m, m < 3 → src.gShape m = [ch, h, w].getD m 0 := fun m hm => by rw [gShape_lt (by omega), hsh]
  obtain ⟨d, db', r1, r2, r3, r4, r5, r6⟩ := mov_padded (dst := dst) (db := db) hv hd (by omega) (fun _ => rfl) (fun _ => rfl)
    (fun _ => rfl) (fun _ => rfl) (fun _ => rfl)
    (by intro k; show 0 ≤ if k = 2 then left else if k = 1 then top else 0; split_ifs <;> omega)
    (by intro k; show 0 ≤ if k = 2 then right else if k = 1 then bot else 0; split_ifs <;> omega)
    (by
      intro m hm
      rw [hr] at hm
      have hx := valid_gShape hv (m := m) (by omega)
      rw [hg m hm] at *
      match m, hm with
      | 0, _ => simpa using hx.2
      | 1, _ => simpa using hsm.1
      | 2, _ => simpa using hsm.2)
  have hds : d.shape = [ch, h + top + bot, w + left + right] := by
    rw [r2, hr, hsh]
    simp [List.range_succ]
  refine ⟨d, db', r1, hds, r3, ?_, r6⟩
  intro js hj
  simp only
  have hj' := (inShape_iff _ _).mp hj
  have hb0 := hj'.2 0 (by rw [hds]; simp)
  rw [hds] at hb0
  simp only [List.getD_cons_zero] at hb0
  split_ifs with hin
  · rw [r4 js hj ?_]
    · congr 1
      refine movPad_addr hr ?_ ?_ ?_
      · show js.getD 0 0 - 0 = _; omega
      · rfl
      · rfl
    · intro k hk
      rw [hr] at hk
      rw [hsh]
      match k, hk with
      | 0, _ => simpa using hb0
      | 1, _ => exact ⟨hin.1, hin.2.1⟩
      | 2, _ => exact ⟨hin.2.2.1, hin.2.2.2⟩
  · refine r5 js hj ?_
    rw [hr, hsh]
    by_cases h1 : top ≤ js.getD 1 0 ∧ js.getD 1 0 < top + h
    · refine ⟨2, by omega, ?_⟩
      show js.getD 2 0 < left ∨ left + w ≤ js.getD 2 0
      omega
    · refine ⟨1, by omega, ?_⟩
      show js.getD 1 0 < top ∨ top + h ≤ js.getD 1 0
      omega

/-- `mli_mov_cfg_for_padding2d_hwc` followed by the movement surrounds a height-width-channel
tensor with zeros. -/
theorem c81_pad_hwc {src dst : Tensor} {sb db : Buf} {left right top bot ch h w : Int} {strides : List Int}
    {c : MovCfg} (hv : src.Valid sb) (hsh : src.shape = [h, w, ch])
    (hc : cfgForPadHwc left right top bot strides = some c) (hd : (movDst src c dst).Valid db)
    (hpl : 0 ≤ left ∧ 0 ≤ right ∧ 0 ≤ top ∧ 0 ≤ bot)
    (hsm : h + top + bot < 2 ^ 31 ∧ w + left + right < 2 ^ 31) :
    ∃ d db', movPrepare src dst c true sb db = some (.ok, d, db') ∧
      d.shape = [h + top + bot, w + left + right, ch] ∧
      Filled d (InShape d.shape) (fun js =>
        let y := js.getD 0 0; let x := js.getD 1 0; let k := js.getD 2 0
        if top ≤ y ∧ y < top + h ∧ left ≤ x ∧ x < left + w then sb.get (src.addr [y - top, x - left, k]) else 0)
        db db' := by
  unfold cfgForPadHwc at hc
  simp only [Option.bind_eq_bind, Option.bind_eq_some_iff, Option.pure_def, Option.some.injEq] at hc
  obtain ⟨t, e3, rfl⟩ := hc
  have hr : src.dims.length = 3 := by
    have := congrArg List.length hsh
    simpa [Tensor.shape] using this
  have hg : ∀ m, m < 3 → src.gShape m = [h, w, ch].getD m 0 := fun m hm => by rw [gShape_lt (by omega), hsh]
  obtain ⟨d, db', r1, r2, r3, r4, r5, r6⟩ := mov_padded (dst := dst) (db := db) hv hd (by omega) (fun _ => rfl) (fun _ => rfl)
    (fun _ => rfl) (fun _ => rfl) (fun _ => rfl)
    (by intro k; show 0 ≤ if k = 1 then left else if k = 0 then top else 0; split_ifs <;> omega)
    (by intro k; show 0 ≤ if k = 1 then right else if k = 0 then bot else 0; split_ifs <;> omega)
    (by
      intro m hm
      rw [hr] at hm
      have hx := valid_gShape hv (m := m) (by omega)
      rw [hg m hm] at *
      match m, hm with
      | 0, _ => simpa using hsm.1
      | 1, _ => simpa using hsm.2
      | 2, _ => simpa using hx.2)
  have hds : d.shape = [h + top + bot, w + left + right, ch] := by
    rw [r2, hr, hsh]
    simp [List.range_succ]
  refine ⟨d, db', r1, hds, r3, ?_, r6⟩
  intro js hj
  simp only
  have hj' := (inShape_iff _ _).mp hj
  have hb0 := hj'.2 2 (by rw [hds]; simp)
  rw [hds] at hb0
  simp only [List.getD_cons_zero, List.getD_cons_succ] at hb0
  split_ifs with hin
  · rw [r4 js hj ?_]
    · congr 1
      refine movPad_addr hr ?_ ?_ ?_
      · rfl
      · rfl
      · show js.getD 2 0 - 0 = _; omega
    · intro k hk
      rw [hr] at hk
      rw [hsh]
      match k, hk with
      | 0, _ => exact ⟨hin.1, hin.2.1⟩
      | 1, _ => exact ⟨hin.2.2.1, hin.2.2.2⟩
      | 2, _ => simpa using hb0
  · refine r5 js hj ?_
    rw [hr, hsh]
    by_cases h1 : top ≤ js.getD 0 0 ∧ js.getD 0 0 < top + h
    · refine ⟨1, by omega, ?_⟩
      show js.getD 1 0 < left ∨ left + w ≤ js.getD 1 0
      omega
    · refine ⟨0, by omega, ?_⟩
      show js.getD 0 0 < top ∨ top + h ≤ js.getD 0 0
      omega

/-! ## Concatenation of two tensors -/

theorem movDstStrides_cfg (shape cfg old : Nat → Int) : ∀ (n k i : Nat), (∀ j, k ≤ j → j < k + n → cfg j ≠ 0) → i < n →
    (movDstStrides shape cfg old k n).getD i 0 = cfg (k + i) := by
  intro n
  induction n with
  | zero => intro k i _ h; omega
  | succ n ih =>
    intro k i h hi
    unfold movDstStrides
    simp only
    rw [if_pos (h k (by omega) (by omega))]
    cases i with
    | zero => rfl
    | succ i =>
      rw [List.getD_cons_succ, ih (k + 1) i (fun j h1 h2 => h j (by omega) (by omega)) (by omega)]
      congr 1; omega

theorem movDst_strides_cfg {src dst : Tensor} {c : MovCfg} (h : ∀ k, k < src.dims.length → c.dstStride k ≠ 0) :
    (movDst src c dst).strides = (List.range src.dims.length).map c.dstStride := by
  unfold movDst Tensor.strides
  simp only [List.map_map]
  apply List.map_congr_left
  intro k hk
  rw [List.mem_range] at hk
  simp only [Function.comp]
  rw [movDstStrides_cfg _ _ _ _ 0 k (fun j _ hj => h j (by omega)) hk, Nat.zero_add]

/-- Two tensors that differ only in their size along dimension `x`, moved one after the other with
`mli_mov_cfg_for_concat` (the second at offset `a.shape[x]` along `x`, both with the strides of the
result), end up one after the other in the destination, and nothing else changes. -/
theorem c81_concat_two {a b dst : Tensor} {sa sb db : Buf} {zeros offs strides : List Int} {x : Nat} {c1 c2 : MovCfg}
    (hva : a.Valid sa) (hvb : b.Valid sb) (hr : b.dims.length = a.dims.length) (hx : x < a.dims.length)
    (heq : ∀ k, k < a.dims.length → k ≠ x → b.shape.getD k 0 = a.shape.getD k 0)
    (hz : zeros = [0, 0, 0, 0])
    (hol : offs.length = 4) (ho : ∀ k, k < 4 → offs.getD k 0 = if k = x then a.shape.getD x 0 else 0)
    (hst : ∀ k, k < a.dims.length → strides.getD k 0 ≠ 0)
    (hc1 : cfgForConcat zeros strides = some c1) (hc2 : cfgForConcat offs strides = some c2)
    (hd1 : (movDst a c1 dst).Valid db) (hd2 : (movDst b c2 (movDst a c1 dst)).Valid db) :
    ∃ d1 db1 d db', movPrepare a dst c1 true sa db = some (.ok, d1, db1) ∧
      movPrepare b d1 c2 true sb db1 = some (.ok, d, db') ∧
      d.shape = vadd b.shape offs ∧ db'.size = db.size ∧
      (∀ is, InShape a.shape is → db'.get (d.addr is) = sa.get (a.addr is)) ∧
      (∀ is, InShape b.shape is → db'.get (d.addr (vadd is offs)) = sb.get (b.addr is)) ∧
      (∀ p, (∀ is, InShape d.shape is → p ≠ d.addr is) → db'.get p = db.get p) := by
  have hr0 : 0 < a.dims.length := by omega
  have ra := hva.rank
  have hla : a.shape.length = a.dims.length := by simp [Tensor.shape]
  have hlb : b.shape.length = b.dims.length := by simp [Tensor.shape]
  have hxs : 1 ≤ a.shape.getD x 0 ∧ a.shape.getD x 0 < 2 ^ 31 := by
    have := valid_gShape hva hx
    rwa [gShape_lt hx] at this
  have hoff : ∀ y ∈ offs, 0 ≤ y ∧ y < 2 ^ 31 := by
    intro y hy
    obtain ⟨k, hk, rfl⟩ := List.getElem_of_mem hy
    have := ho k (by omega)
    rw [List.getD_eq_getElem?_getD, List.getElem?_eq_getElem hk] at this
    simp only [Option.getD_some] at this
    rw [this]
    split_ifs <;> omega
  obtain ⟨db1, m1, s1, z1, g1, f1⟩ := mov_concat (dst := dst) (db := db) hva hc1 hd1 hr0 (by
    intro y hy; rw [hz] at hy; simp at hy; omega)
  have hd2' : (movDst b c2 (movDst a c1 dst)).Valid db1 :=
    ⟨hd2.typed, hd2.small, hd2.accepted, by have := hd2.fits; unfold Tensor.Fits at *; rw [z1]; exact this⟩
  obtain ⟨db2, m2, s2, z2, g2, f2⟩ := mov_concat (dst := movDst a c1 dst) (db := db1) hvb hc2 hd2' (by omega) hoff
  -- both descriptors address alike
  have hstr : ∀ {l : List Int} {c : MovCfg}, cfgForConcat l strides = some c → ∀ k, k < 4 → c.dstStride k = strides.getD k 0 := by
    intro l c hc k hk
    unfold cfgForConcat at hc
    simp only [Option.bind_eq_bind, Option.bind_eq_some_iff, Option.pure_def, Option.some.injEq] at hc
    obtain ⟨o, e1, t, e3, rfl⟩ := hc
    exact (arr4_some e3).2.1 k hk
  have haddr : ∀ is, (movDst a c1 dst).addr is = (movDst b c2 (movDst a c1 dst)).addr is := by
    intro is
    unfold Tensor.addr
    rw [movDst_strides_cfg (c := c2) (fun k hk => by rw [hstr hc2 k (by omega)]; exact hst k (by omega)),
      movDst_strides_cfg (c := c1) (fun k hk => by rw [hstr hc1 k (by omega)]; exact hst k hk), hr]
    have : (List.range a.dims.length).map c1.dstStride = (List.range a.dims.length).map c2.dstStride := by
      apply List.map_congr_left
      intro k hk
      rw [List.mem_range] at hk
      rw [hstr hc1 k (by omega), hstr hc2 k (by omega)]
    rw [this]
    rfl
  have hzero : ∀ is, InShape a.shape is → vadd is zeros = is := by
    intro is hi
    have hl : is.length = a.dims.length := by rw [← inShape_length _ _ hi, hla]
    apply list_ext_getD (by simp [vadd, hz]; omega)
    intro k hk
    have hk' : k < a.dims.length := by simp [vadd, hz] at hk; omega
    unfold vadd
    rw [getD_zipWith _ _ _ _ (by omega) (by rw [hz]; simp; omega), hz]
    have : k = 0 ∨ k = 1 ∨ k = 2 ∨ k = 3 := by omega
    rcases this with rfl | rfl | rfl | rfl <;> simp
  have hlv : (vadd b.shape offs).length = a.dims.length := by simp [vadd, hlb]; omega
  have hain : ∀ is, InShape a.shape is → InShape (movDst b c2 (movDst a c1 dst)).shape is := by
    intro is hi
    rw [s2, inShape_iff, hlv]
    have h' := (inShape_iff _ _).mp hi
    refine ⟨by omega, fun k hk => ?_⟩
    have h3 := h'.2 k (by omega)
    unfold vadd
    rw [getD_zipWith _ _ _ _ (by omega) (by omega), ho k (by omega)]
    by_cases hkx : k = x
    · subst hkx
      rw [if_pos rfl]
      have := valid_gShape hvb (m := k) (by omega)
      rw [gShape_lt (by omega)] at this
      omega
    · rw [if_neg hkx, heq k hk hkx]; omega
  have hbin : ∀ is, InShape b.shape is → InShape (movDst b c2 (movDst a c1 dst)).shape (vadd is offs) := by
    intro is hi
    rw [s2, inShape_iff, hlv]
    have h' := (inShape_iff _ _).mp hi
    refine ⟨by simp [vadd]; omega, fun k hk => ?_⟩
    have h3 := h'.2 k (by omega)
    have h4 := getD_mem_or hoff (k := k) (by omega)
    unfold vadd
    rw [getD_zipWith _ _ _ _ (by omega) (by omega), getD_zipWith _ _ _ _ (by omega) (by omega)]
    omega
  refine ⟨_, db1, _, db2, m1, m2, s2, by rw [z2, z1], ?_, g2, ?_⟩
  · intro is hi
    rw [f2, ← haddr]
    · have := g1 is hi
      rwa [hzero is hi] at this
    · intro js hj he
      have e := hd2.addr_inj _ _ (hain is hi) (hbin js hj) he
      have h1 := ((inShape_iff _ _).mp hi).2 x (by omega)
      have h2 := (inShape_iff _ _).mp hj
      have h3 := h2.2 x (by omega)
      have := congrArg (fun l => l.getD x 0) e
      unfold vadd at this
      rw [getD_zipWith _ _ _ _ (by omega) (by omega), ho x (by omega), if_pos rfl] at this
      omega
  · intro p hp
    rw [f2 p (fun is hi => hp _ (hbin is hi)), f1 p]
    intro is hi
    rw [hzero is hi, haddr]
    exact hp _ (hain is hi)

/-! ## `mli_mov_cfg_all` -/

/-- `mli_mov_cfg_all` with neutral values for everything else is the slicing, concatenating,
sub-sampling, permuting or padding configuration. -/
theorem c81_all_neutral (l1 l2 l3 : List Int) (left right top bot : Int) :
    cfgAll l1 l2 [1, 1, 1, 1] [0, 0, 0, 0] l3 [0, 1, 2, 3] 0 0 0 0 = cfgForSlice l1 l2 l3 ∧
    cfgAll [0, 0, 0, 0] [0, 0, 0, 0] [1, 1, 1, 1] l1 l3 [0, 1, 2, 3] 0 0 0 0 = cfgForConcat l1 l3 ∧
    cfgAll [0, 0, 0, 0] [0, 0, 0, 0] l1 [0, 0, 0, 0] l3 [0, 1, 2, 3] 0 0 0 0 = cfgForSubsample l1 l3 ∧
    cfgAll [0, 0, 0, 0] [0, 0, 0, 0] [1, 1, 1, 1] [0, 0, 0, 0] [0, 0, 0, 0] l1 0 0 0 0 = cfgForPermute l1 ∧
    cfgAll [0, 0, 0, 0] [0, 0, 0, 0] [1, 1, 1, 1] [0, 0, 0, 0] l3 [0, 1, 2, 3] left right top bot =
      cfgForPadHwc left right top bot l3 := by
  have n0 : ∃ f, arr4 [0, 0, 0, 0] = some f ∧ f = fun _ => 0 := by
    refine ⟨_, rfl, ?_⟩
    funext k
    split
    · rename_i hk
      match k, hk with
      | 0, _ => rfl
      | 1, _ => rfl
      | 2, _ => rfl
      | 3, _ => rfl
    · rfl
  have n1 : ∃ f, arr4 [1, 1, 1, 1] = some f ∧ (fun k => if k < 4 then u32 (f k) else 1) = fun _ => 1 := by
    refine ⟨_, rfl, ?_⟩
    funext k
    split
    · rename_i hk
      match k, hk with
      | 0, _ => rfl
      | 1, _ => rfl
      | 2, _ => rfl
      | 3, _ => rfl
    · rfl
  have n2 : ∃ f, arr4 [0, 1, 2, 3] = some f ∧ (fun k => if k < 4 then (f k).toNat else k) = fun k => k := by
    refine ⟨_, rfl, ?_⟩
    funext k
    split
    · rename_i hk
      match k, hk with
      | 0, _ => rfl
      | 1, _ => rfl
      | 2, _ => rfl
      | 3, _ => rfl
    · rfl
  have u0 : u32 0 = 0 := rfl
  obtain ⟨f0, a0, rfl⟩ := n0
  obtain ⟨f1, a1, b1⟩ := n1
  obtain ⟨f2, a2, b2⟩ := n2
  unfold cfgAll cfgForSlice cfgForConcat cfgForSubsample cfgForPermute cfgForPadHwc cfgForCopy
  simp only [a0, a1, a2, b1, b2, u0, Option.bind_eq_bind, Option.bind_some, ite_self]
  exact ⟨trivial, trivial, trivial, trivial, trivial⟩

/-! ## The hypotheses are met -/

def exMcSrc : Tensor := { dims := [⟨2, 12⟩, ⟨3, 4⟩, ⟨4, 1⟩], cap := 24, es := 1 }
def exMcBuf : Buf := Buf.ofList ((List.range 24).map fun k => (k : Int) + 1)
def exMcRun (c : Option MovCfg) (n : Nat) : Option (Status × List Int × List Int) :=
  c.bind fun c => (movPrepare exMcSrc { dims := [], cap := n, es := 1 } c true exMcBuf
    (Buf.ofList (List.replicate n 99))).map fun r => (r.1, r.2.1.shape, r.2.2.toList)

example : exMcRun (some cfgForCopy) 25 =
    some (.ok, [2, 3, 4], (List.range 24).map (fun k => (k : Int) + 1) ++ [99]) := by decide +kernel
example : exMcRun (cfgForSlice [1, 1, 0, 0] [1, 0, 3, 0] [0, 0, 0, 0]) 8 =
    some (.ok, [1, 2, 3], [17, 18, 19, 21, 22, 23, 99, 99]) := by decide +kernel
example : exMcRun (cfgForSubsample [2, 2, 3, 1] [0, 0, 0, 0]) 5 = some (.ok, [1, 2, 2], [1, 4, 9, 12, 99]) := by
  decide +kernel
example : (exMcRun (cfgForPermute [2, 0, 1, 3]) 24).map (fun r => (r.2.1, r.2.2.take 7)) =
    some ([4, 2, 3], [1, 5, 9, 13, 17, 21, 2]) := by decide +kernel
example : (exMcRun (cfgForPadChw 1 0 1 0 [0, 0, 0, 0]) 40).map (fun r => (r.2.1, r.2.2.take 12)) =
    some ([2, 4, 5], [0, 0, 0, 0, 0, 0, 1, 2, 3, 4, 0, 5]) := by decide +kernel
example : (exMcRun (cfgForPadHwc 1 0 0 1 [0, 0, 0, 0]) 48).map (fun r => (r.2.1, r.2.2.take 12)) =
    some ([3, 4, 4], [0, 0, 0, 0, 1, 2, 3, 4, 5, 6, 7, 8]) := by decide +kernel
/-- Two tensors of shape 2x1 and 2x2 concatenated along the second dimension. -/
example :
    let a : Tensor := { dims := [⟨2, 1⟩, ⟨1, 1⟩], cap := 2, es := 1 }
    let b : Tensor := { dims := [⟨2, 2⟩, ⟨2, 1⟩], cap := 4, es := 1 }
    (do
      let c1 ← cfgForConcat [0, 0, 0, 0] [3, 1, 0, 0]
      let c2 ← cfgForConcat [0, 1, 0, 0] [3, 1, 0, 0]
      let (_, d1, m1) ← movPrepare a { dims := [], cap := 6, es := 1 } c1 true (Buf.ofList [1, 2]) (Buf.ofList (List.replicate 6 99))
      let (s, d2, m2) ← movPrepare b d1 c2 true (Buf.ofList [3, 4, 5, 6]) m1
      return (s, d2.shape, m2.toList)) = some (.ok, [2, 3], [1, 3, 4, 2, 5, 6]) := by decide +kernel

theorem exMc_valid : exMcSrc.Valid exMcBuf := by
  refine ⟨⟨?_, ?_, ?_, ?_⟩, ?_, ?_, ?_⟩ <;> decide
example : ∃ c, cfgForPadChw 1 0 1 0 [0, 0, 0, 0] = some c ∧
    (movDst exMcSrc c { dims := [], cap := 40, es := 1 }).Valid (Buf.ofList (List.replicate 40 99)) := by
  refine ⟨_, rfl, ⟨?_, ?_, ?_, ?_⟩, ?_, ?_, ?_⟩ <;> decide

end Mli
