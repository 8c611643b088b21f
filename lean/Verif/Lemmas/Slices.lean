import Verif.Model.Convert
import Verif.Spec.Rescale
import Verif.Lemmas.Pos
import Verif.Props.Argmax
import Verif.Props.Rescale

/-! # Loops over the slices of a dimension -/

namespace Mli

open Spec

theorem forSlice_eq (t : Tensor) (ax sl : Int) (f : Int → Int → Int → Int → Buf → Option Buf) (d : Buf) :
    forSlice t ax sl f d = (slicePts t ax sl).foldlM (fun s p => f p.1 p.2.1 p.2.2.1 p.2.2.2 s) d := by
  unfold forSlice slicePts
  simp only [forFrom_eq]
  have e1 : ∀ a b s, (rangeI (sliceLo ax sl 2) (sliceHi t ax sl 2)).foldlM (fun s c =>
      (rangeI (sliceLo ax sl 3) (sliceHi t ax sl 3)).foldlM (fun s e => f a b c e s) s) s =
      (box (sliceLo ax sl 2) (sliceHi t ax sl 2) (rangeI (sliceLo ax sl 3) (sliceHi t ax sl 3))).foldlM
        (fun s p => f a b p.1 p.2 s) s := fun a b s =>
    foldlM_nest _ (fun _ => rangeI (sliceLo ax sl 3) (sliceHi t ax sl 3)) (fun c e s => f a b c e s) s
  simp only [e1]
  have e2 : ∀ a s, (rangeI (sliceLo ax sl 1) (sliceHi t ax sl 1)).foldlM (fun s b =>
      (box (sliceLo ax sl 2) (sliceHi t ax sl 2) (rangeI (sliceLo ax sl 3) (sliceHi t ax sl 3))).foldlM
        (fun s p => f a b p.1 p.2 s) s) s =
      (box (sliceLo ax sl 1) (sliceHi t ax sl 1) (box (sliceLo ax sl 2) (sliceHi t ax sl 2)
        (rangeI (sliceLo ax sl 3) (sliceHi t ax sl 3)))).foldlM (fun s p => f a p.1 p.2.1 p.2.2 s) s := fun a s =>
    foldlM_nest _ (fun _ => _) (fun b (p : Int × Int) s => f a b p.1 p.2 s) s
  simp only [e2]
  exact foldlM_nest _ (fun _ => _) (fun a (p : Int × Int × Int) s => f a p.1 p.2.1 p.2.2 s) _

theorem rDim_shape (t : Tensor) (i : Nat) : (t.rDim i).shape = (List.replicate (maxRank - t.shape.length) 1 ++ t.shape).getD i 1 := by
  unfold Tensor.rDim Tensor.shape
  have : (List.replicate (maxRank - (t.dims.map (·.shape)).length) (1 : Int) ++ t.dims.map (·.shape)) =
      (List.replicate (maxRank - t.dims.length) (⟨1, 0⟩ : Dim) ++ t.dims).map (·.shape) := by simp
  rw [this, List.getD_eq_getElem?_getD, List.getD_eq_getElem?_getD, List.getElem?_map]
  cases (List.replicate (maxRank - t.dims.length) (⟨1, 0⟩ : Dim) ++ t.dims)[i]? <;> rfl

theorem slicePts_congr {a b : Tensor} (h : a.shape = b.shape) (ax sl : Int) : slicePts a ax sl = slicePts b ax sl := by
  have : ∀ i, sliceHi a ax sl i = sliceHi b ax sl i := fun i => by unfold sliceHi; rw [rDim_shape, rDim_shape, h]
  unfold slicePts
  simp only [this]

theorem axisDim_congr {a b : Tensor} (h : a.shape = b.shape) (axis : Int) : axisDim a axis = axisDim b axis := by
  have : a.dims.length = b.dims.length := by simpa [Tensor.shape] using congrArg List.length h
  unfold axisDim
  rw [this]

/-- Number of slices as the code computes it. -/
theorem slice_num {t : Tensor} (hr : t.dims.length ≤ 4) {axis : Int} (hax : axis < t.dims.length) :
    (if axis ≥ 0 then (t.rDim (axisDim t axis).toNat).shape else 1) = paramCount axis t.shape := by
  unfold paramCount axisDim
  by_cases h : axis ≥ 0
  · rw [if_pos h, if_pos h, if_neg (by omega)]
    rw [show (axis + ((maxRank : Nat) - (t.dims.length : Int))).toNat = axis.toNat + (4 - t.dims.length) by unfold maxRank; omega, rDim_axis (by omega)]
    unfold Tensor.shape
    rw [List.getD_eq_getElem?_getD, List.getD_eq_getElem?_getD, List.getElem?_map, List.getElem?_eq_getElem (by omega)]
    rfl
  · rw [if_neg h, if_pos (by omega)]

/-- Loops over all slices and the points of each slice that store one value for each element. -/
theorem slices_write (t out : Tensor) (mem : Buf) (ho : out.Valid mem) (hs : t.shape = out.shape) (axis : Int) (hax : axis < out.dims.length)
    (val : List Int → Int) (f : Int → Int → Int → Int → Int → Buf → Option Buf)
    (hf : ∀ (sl : Nat) p, (sl : Int) < paramCount axis out.shape → p ∈ slicePts out (axisDim out axis) sl → ∀ d' : Buf, d'.size = mem.size →
      (∀ a, (∀ js, InShape out.shape js → js ≠ ptIdx out p → out.addr js ≠ a) → d'.get a = mem.get a) →
      f sl p.1 p.2.1 p.2.2.1 p.2.2.2 d' = d'.wr (out.addr (ptIdx out p)) (val (ptIdx out p))) :
    ∃ mem', forRange (paramCount axis out.shape).toNat (fun sl d => forSlice t (axisDim t axis) sl (f sl) d) mem = some mem' ∧
      out.Writes val mem mem' := by
  have hr := ho.rank
  simp only [forSlice_eq, forRange_eq_foldlM, slicePts_congr hs, axisDim_congr hs]
  rw [foldlM_nest (List.range (paramCount axis out.shape).toNat) (fun (sl : Nat) => slicePts out (axisDim out axis) sl)
    (fun (sl : Nat) p s => f sl p.1 p.2.1 p.2.2.1 p.2.2.2 s)]
  have hb : ∀ sl : Nat, (sl : Int) < paramCount axis out.shape → 0 ≤ axis → 0 ≤ (sl : Int) ∧ (sl : Int) < out.shape.getD axis.toNat 0 := by
    intro sl h h0
    unfold paramCount at h
    rw [if_neg (by omega)] at h
    omega
  have hmem : ∀ x : Nat × (Int × Int × Int × Int), x ∈ ((List.range (paramCount axis out.shape).toNat).flatMap fun (sl : Nat) =>
      (slicePts out (axisDim out axis) (sl : Int)).map fun b => (sl, b)) ↔
      (x.1 : Int) < paramCount axis out.shape ∧ x.2 ∈ slicePts out (axisDim out axis) (x.1 : Int) := by
    intro x
    simp only [List.mem_flatMap, List.mem_range, List.mem_map]
    constructor
    · rintro ⟨sl, h1, p, h2, rfl⟩; exact ⟨by simp only []; omega, h2⟩
    · rintro ⟨h1, h2⟩; exact ⟨x.1, by omega, x.2, h2, rfl⟩
  obtain ⟨d', h1, h2⟩ := foldlM_inplace (fun x : Nat × (Int × Int × Int × Int) => out.addr (ptIdx out x.2)) (fun x => val (ptIdx out x.2))
    (fun (s : Buf) (x : Nat × (Int × Int × Int × Int)) => f x.1 x.2.1 x.2.2.1 x.2.2.2.1 x.2.2.2.2 s) mem
    ((List.range (paramCount axis out.shape).toNat).flatMap fun (sl : Nat) => (slicePts out (axisDim out axis) (sl : Int)).map fun b => (sl, b))
    (by
      rw [List.nodup_flatMap]
      refine ⟨fun a _ => (nodup_box _ _ (nodup_box _ _ (nodup_box _ _ (nodup_rangeI _ _)))).map fun x y h => (Prod.mk.inj h).2,
        List.nodup_range.imp fun {a b} hab => ?_⟩
      intro x hx hy
      simp only [List.mem_map] at hx hy
      obtain ⟨y, -, rfl⟩ := hx
      obtain ⟨z, -, e⟩ := hy
      exact hab (Prod.mk.inj e).1.symm)
    (fun x hx d' hd hfr => by
      rw [hmem] at hx
      refine hf x.1 x.2 hx.1 hx.2 d' hd (fun a ha => hfr a fun q hq hne => ha _ ?_ ?_)
      · rw [hmem] at hq
        exact (slice_pts hr hax (hb q.1 hq.1) hq.2).1.1
      · intro e
        rw [hmem] at hq
        have s1 := slice_pts hr hax (hb q.1 hq.1) hq.2
        have s2 := slice_pts hr hax (hb x.1 hx.1) hx.2
        have e0 : q.1 = x.1 := by
          by_cases h0 : 0 ≤ axis
          · have a1 := s1.1.2 h0
            have a2 := s2.1.2 h0
            rw [e, a2] at a1
            have := Option.some.inj a1
            omega
          · have b1 := hq.1
            have b2 := hx.1
            unfold paramCount at b1 b2
            rw [if_pos (by omega)] at b1 b2
            omega
        have : q.2 = x.2 := s2.2.2 q.2 (by rw [← e0]; exact hq.2) e
        exact hne (Prod.ext e0 this))
    (fun x hx => by
      rw [hmem] at hx
      exact ho.inBounds (slice_pts hr hax (hb x.1 hx.1) hx.2).1.1)
    (fun x hx q hq e => by
      rw [hmem] at hx hq
      have s1 := slice_pts hr hax (hb q.1 hq.1) hq.2
      have s2 := slice_pts hr hax (hb x.1 hx.1) hx.2
      have e := Tensor.Separate.refl out mem ho _ _ s2.1.1 s1.1.1 e
      have e0 : x.1 = q.1 := by
        by_cases h0 : 0 ≤ axis
        · have a1 := s1.1.2 h0
          have a2 := s2.1.2 h0
          rw [← e, a2] at a1
          have := Option.some.inj a1
          omega
        · have b1 := hq.1
          have b2 := hx.1
          unfold paramCount at b1 b2
          rw [if_pos (by omega)] at b1 b2
          omega
      exact Prod.ext e0 (s1.2.2 x.2 (by rw [← e0]; exact hx.2) e))
  refine ⟨d', h1, h2.size, fun is hi => ?_, fun a ha => h2.frame a fun x hx => ?_⟩
  · have hpi : ∃ sl : Nat, (sl : Int) < paramCount axis out.shape ∧ InSlice out.shape axis sl is := by
      by_cases h0 : 0 ≤ axis
      · obtain ⟨x, hx⟩ : ∃ x, is[axis.toNat]? = some x := by
          have hlen : is.length = out.dims.length := by
            have := inShape_length _ _ hi
            simpa [Tensor.shape] using this.symm
          exact ⟨_, List.getElem?_eq_getElem (by omega)⟩
        have hb2 := inShape_getD (k := axis.toNat) hi (by simp [Tensor.shape]; omega)
        rw [List.getD_eq_getElem?_getD, hx] at hb2
        simp only [Option.getD_some] at hb2
        refine ⟨x.toNat, ?_, hi, fun _ => ?_⟩
        · unfold paramCount; rw [if_neg (by omega)]; omega
        · rw [hx]; congr 1; omega
      · refine ⟨0, ?_, hi, fun h => absurd h h0⟩
        unfold paramCount; rw [if_pos (by omega)]; decide
    obtain ⟨sl, hsl, hin⟩ := hpi
    obtain ⟨p, hp, rfl⟩ := slice_pts_onto hr hax (hb sl hsl) hin
    exact h2.hit (sl, p) ((hmem _).2 ⟨hsl, hp⟩)
  · rw [hmem] at hx
    exact ha _ (slice_pts hr hax (hb x.1 hx.1) hx.2).1.1

/-- The parameter index of a point of slice `sl`. -/
theorem slice_param {out : Tensor} (hr : out.dims.length ≤ 4) {axis : Int} (hax : axis < out.dims.length) {sl : Nat} {p : Int × Int × Int × Int}
    (h : (sl : Int) < paramCount axis out.shape) (hp : p ∈ slicePts out (axisDim out axis) sl) :
    InShape out.shape (ptIdx out p) ∧ out.base + out.rPos p.1 p.2.1 p.2.2.1 p.2.2.2 = out.addr (ptIdx out p) ∧ paramIdx axis (ptIdx out p) = sl := by
  have s := slice_pts hr hax (fun h0 => by unfold paramCount at h; rw [if_neg (by omega)] at h; omega) hp
  refine ⟨s.1.1, ?_, ?_⟩
  · unfold Tensor.addr; rw [s.2.1]; rfl
  · unfold paramIdx
    by_cases h0 : axis < 0
    · rw [if_pos h0]
      unfold paramCount at h
      rw [if_pos h0] at h
      omega
    · rw [if_neg h0, List.getD_eq_getElem?_getD, s.1.2 (by omega)]
      rfl

end Mli
