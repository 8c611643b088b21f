import Verif.Props.BufSize

/-! # C77: a shrunk buffer holds the tiles it was made for -/

namespace Mli.Iter

open Mli Mli.Spec Mli.Cs

theorem ceilDivU_eq {n a : Int} (hn : 1 ≤ n) (ha : 1 ≤ a) (h : n + a < 2 ^ 32) : ceilDivU n a = (n + a - 1) / a := by
  unfold ceilDivU
  rw [u32_id ⟨by omega, h⟩, u32_id ⟨by omega, by omega⟩]

theorem ceilRnd_bounds {n a : Int} (hn : 1 ≤ n) (ha : 1 ≤ a) (h : n + a < 2 ^ 32) : n ≤ ceilRnd n a ∧ ceilRnd n a < n + a := by
  unfold ceilRnd
  rw [ceilDivU_eq hn ha h]
  have h1 := Int.mul_ediv_add_emod (n + a - 1) a
  have h2 := Int.emod_nonneg (n + a - 1) (show a ≠ 0 by omega)
  have h3 := Int.emod_lt_of_pos (n + a - 1) (show 0 < a by omega)
  rw [u32_id ⟨by omega, by omega⟩]
  omega

theorem tileSize_le_max (n : Int) (c : DimCfg) (s : DimSt) (h : 0 ≤ s.idx ∧ s.idx < c.count) : tileSize n c s ≤ maxTile c := by
  unfold tileSize maxTile
  simp only
  split_ifs <;> omega

/-- The arguments of `ShrinkBuffer` are as documented: the iterator goes through every dimension of the tensor once, tiles and
alignments are at least 1, and no size leaves the 32-bit range. -/
structure ShrinkOk (cfg : List DimCfg) (shape : List Int) (nTiles : Int) (aligns : List Int) : Prop where
  len : cfg.length = shape.length
  nodup : (cfg.map (·.order)).Nodup
  order : ∀ c ∈ cfg, 0 ≤ c.order ∧ c.order < shape.length
  count : ∀ c ∈ cfg, 1 ≤ c.count
  tiles : 1 ≤ nTiles
  size : ∀ c ∈ cfg, 1 ≤ maxTile c
  align : ∀ d, d < shape.length → 1 ≤ aligns.getD d 0
  room : ∀ c ∈ cfg, (maxTile c + aligns.getD c.order.toNat 0) * nTiles ^ cfg.length < 2 ^ 32

/-- One dimension of the array of sizes: `a ≤ b` and not wrapped when multiplied by the remaining factors. -/
theorem shrinkFrom_length (nTiles : Int) (cyclic : Bool) (aligns : List Int) : ∀ (cs : List DimCfg) (i : Nat) (dims : List Int),
    (shrinkFrom nTiles cyclic aligns i cs dims).length = dims.length := by
  intro cs
  induction cs with
  | nil => intro i dims; rfl
  | cons c cs ih =>
    intro i dims
    simp only [shrinkFrom]
    rw [ih]
    unfold shrinkStep
    simp only
    split
    · split <;> split <;> simp
    · rfl

theorem shrinkStep_block (nTiles : Int) (aligns : List Int) (i : Nat) (c : DimCfg) (dims : List Int) (ho : 0 ≤ c.order) :
    shrinkStep nTiles false aligns i c dims =
      let dims := dims.set c.order.toNat (ceilRnd (maxTile c) (aligns.getD c.order.toNat 0))
      dims.set 0 (u32 (dims.getD 0 0 * nTiles)) := by
  unfold shrinkStep
  simp only [Bool.false_and, ge_iff_le, ho, if_true]
  rfl

/-- A dimension that has been set stays: others do not touch it, the first one is multiplied. -/
theorem shrinkFrom_keep (nTiles : Int) (aligns : List Int) (hT : 1 ≤ nTiles) : ∀ (cs : List DimCfg) (i : Nat) (dims : List Int) (d : Nat),
    (∀ c ∈ cs, 0 ≤ c.order ∧ c.order.toNat ≠ d) → d < dims.length →
    0 ≤ dims.getD d 0 → dims.getD d 0 * nTiles ^ cs.length < 2 ^ 32 →
    dims.getD d 0 ≤ (shrinkFrom nTiles false aligns i cs dims).getD d 0 ∧
    (shrinkFrom nTiles false aligns i cs dims).getD d 0 = dims.getD d 0 * (if d = 0 then nTiles ^ cs.length else 1) := by
  intro cs
  induction cs with
  | nil => intro i dims d _ _ h0 _; simp [shrinkFrom]
  | cons c cs ih =>
    intro i dims d hne hd h0 hr
    obtain ⟨hc0, hc1⟩ := hne c (by simp)
    simp only [shrinkFrom]
    rw [shrinkStep_block _ _ _ _ _ hc0]
    simp only
    have hpow : (1 : Int) ≤ nTiles ^ cs.length := one_le_pow₀ hT
    have hpw : nTiles ^ (c :: cs).length = nTiles * nTiles ^ cs.length := by rw [List.length_cons, pow_succ, mul_comm]
    rw [hpw] at hr ⊢
    by_cases hd0 : d = 0
    · subst hd0
      have e1 : (dims.set c.order.toNat (ceilRnd (maxTile c) (aligns.getD c.order.toNat 0))).getD 0 0 = dims.getD 0 0 :=
        getD_set_ne _ _ _ _ hc1
      rw [e1]
      have hle : dims.getD 0 0 * nTiles ≤ dims.getD 0 0 * (nTiles * nTiles ^ cs.length) :=
        Int.mul_le_mul_of_nonneg_left (by nlinarith) h0
      have hlo : 0 ≤ dims.getD 0 0 * nTiles := Int.mul_nonneg h0 (by omega)
      have e2 : ((dims.set c.order.toNat (ceilRnd (maxTile c) (aligns.getD c.order.toNat 0))).set 0 (u32 (dims.getD 0 0 * nTiles))).getD 0 0
          = dims.getD 0 0 * nTiles := by
        rw [getD_set_self _ _ _ (by simpa using hd), u32_id ⟨hlo, by omega⟩]
      obtain ⟨k1, k2⟩ := ih (i + 1) ((dims.set c.order.toNat (ceilRnd (maxTile c) (aligns.getD c.order.toNat 0))).set 0 (u32 (dims.getD 0 0 * nTiles))) 0
        (fun c' hc' => hne c' (by simp [hc'])) (by simpa using hd) (by rw [e2]; exact hlo) (by rw [e2, mul_assoc]; exact hr)
      rw [e2] at k1 k2
      refine ⟨?_, ?_⟩
      · have : dims.getD 0 0 ≤ dims.getD 0 0 * nTiles := by nlinarith
        omega
      · rw [k2, if_pos rfl, if_pos rfl, mul_assoc]
    · have e2 : ((dims.set c.order.toNat (ceilRnd (maxTile c) (aligns.getD c.order.toNat 0))).set 0
          (u32 ((dims.set c.order.toNat (ceilRnd (maxTile c) (aligns.getD c.order.toNat 0))).getD 0 0 * nTiles))).getD d 0 = dims.getD d 0 := by
        rw [getD_set_ne _ _ _ _ (Ne.symm hd0), getD_set_ne _ _ _ _ hc1]
      have hle : dims.getD d 0 * nTiles ^ cs.length ≤ dims.getD d 0 * (nTiles * nTiles ^ cs.length) :=
        Int.mul_le_mul_of_nonneg_left (by nlinarith) h0
      obtain ⟨k1, k2⟩ := ih (i + 1) ((dims.set c.order.toNat (ceilRnd (maxTile c) (aligns.getD c.order.toNat 0))).set 0
          (u32 ((dims.set c.order.toNat (ceilRnd (maxTile c) (aligns.getD c.order.toNat 0))).getD 0 0 * nTiles))) d
        (fun c' hc' => hne c' (by simp [hc'])) (by simpa using hd) (by rw [e2]; exact h0) (by rw [e2]; omega)
      rw [e2] at k1 k2
      refine ⟨k1, ?_⟩
      rw [k2, if_neg hd0, if_neg hd0]

/-- Every dimension of the shrunk buffer holds the largest tile along it, the first one `nTiles` of them. -/
theorem shrinkFrom_block (nTiles : Int) (aligns : List Int) (hT : 1 ≤ nTiles) (N : Nat) : ∀ (cs : List DimCfg) (i : Nat) (dims : List Int),
    (cs.map (·.order)).Nodup → (∀ c ∈ cs, 0 ≤ c.order ∧ c.order.toNat < dims.length) → (∀ c ∈ cs, 1 ≤ maxTile c) →
    (∀ c ∈ cs, 1 ≤ aligns.getD c.order.toNat 0) → cs.length ≤ N →
    (∀ c ∈ cs, (maxTile c + aligns.getD c.order.toNat 0) * nTiles ^ N < 2 ^ 32) → ∀ c ∈ cs,
    maxTile c * (if c.order.toNat = 0 then nTiles else 1) ≤ (shrinkFrom nTiles false aligns i cs dims).getD c.order.toNat 0 := by
  intro cs
  induction cs with
  | nil => intro i dims _ _ _ _ _ _ c hc; simp at hc
  | cons c cs ih =>
    intro i dims hnd ho hs ha hN hr e he
    rw [List.map_cons, List.nodup_cons] at hnd
    obtain ⟨hc0, hc1⟩ := ho c (by simp)
    simp only [shrinkFrom]
    rw [shrinkStep_block _ _ _ _ _ hc0]
    simp only
    rcases List.mem_cons.mp he with rfl | he
    · have hA := ha e (by simp)
      have hM := hs e (by simp)
      have hR := hr e (by simp)
      have hpow : (1 : Int) ≤ nTiles ^ N := one_le_pow₀ hT
      have hle : maxTile e + aligns.getD e.order.toNat 0 ≤ (maxTile e + aligns.getD e.order.toNat 0) * nTiles ^ N := by nlinarith
      obtain ⟨b1, b2⟩ := ceilRnd_bounds hM hA (by omega)
      set D := ceilRnd (maxTile e) (aligns.getD e.order.toNat 0) with hD
      have hpows : nTiles ^ (cs.length + 1) ≤ nTiles ^ N := pow_le_pow_right₀ hT (by simpa using hN)
      have hDP : D * nTiles ^ (cs.length + 1) < 2 ^ 32 := by
        have g1 : D * nTiles ^ (cs.length + 1) ≤ D * nTiles ^ N := Int.mul_le_mul_of_nonneg_left hpows (by omega)
        have g2 : D * nTiles ^ N ≤ (maxTile e + aligns.getD e.order.toNat 0) * nTiles ^ N :=
          Int.mul_le_mul_of_nonneg_right (by omega) (by omega)
        omega
      have hpc : (1 : Int) ≤ nTiles ^ cs.length := one_le_pow₀ hT
      rw [pow_succ, mul_comm (nTiles ^ cs.length), ← mul_assoc] at hDP
      have hDT : D * nTiles ≤ D * nTiles * nTiles ^ cs.length := by
        have : 0 ≤ D * nTiles := Int.mul_nonneg (by omega) (by omega)
        nlinarith
      have hDT0 : 0 ≤ D * nTiles := Int.mul_nonneg (by omega) (by omega)
      have hother : ∀ c' ∈ cs, 0 ≤ c'.order ∧ c'.order.toNat ≠ e.order.toNat := by
        intro c' hc'
        obtain ⟨g, _⟩ := ho c' (by simp [hc'])
        refine ⟨g, fun heq => hnd.1 ?_⟩
        rw [List.mem_map]
        exact ⟨c', hc', by omega⟩
      by_cases hz : e.order.toNat = 0
      · rw [if_pos hz]
        have e2 : ((dims.set e.order.toNat D).set 0 (u32 ((dims.set e.order.toNat D).getD 0 0 * nTiles))).getD e.order.toNat 0 = D * nTiles := by
          have g1 : (dims.set e.order.toNat D).getD 0 0 = D := by
            rw [hz]; exact getD_set_self _ _ _ (by omega)
          rw [g1, hz, getD_set_self _ _ _ (by rw [List.length_set]; omega), u32_id ⟨hDT0, by omega⟩]
        have := (shrinkFrom_keep nTiles aligns hT cs (i + 1)
          ((dims.set e.order.toNat D).set 0 (u32 ((dims.set e.order.toNat D).getD 0 0 * nTiles))) e.order.toNat hother (by simpa using hc1)
          (by rw [e2]; exact hDT0) (by rw [e2]; exact hDP)).1
        rw [e2] at this
        have : maxTile e * nTiles ≤ D * nTiles := Int.mul_le_mul_of_nonneg_right b1 (by omega)
        omega
      · rw [if_neg hz]
        have e2 : ((dims.set e.order.toNat D).set 0 (u32 ((dims.set e.order.toNat D).getD 0 0 * nTiles))).getD e.order.toNat 0 = D := by
          rw [getD_set_ne _ _ _ _ (Ne.symm hz), getD_set_self _ _ _ hc1]
        have h5 : D * nTiles ^ cs.length ≤ D * nTiles * nTiles ^ cs.length :=
          Int.mul_le_mul_of_nonneg_right (by nlinarith) (by omega)
        have := (shrinkFrom_keep nTiles aligns hT cs (i + 1)
          ((dims.set e.order.toNat D).set 0 (u32 ((dims.set e.order.toNat D).getD 0 0 * nTiles))) e.order.toNat hother (by simpa using hc1)
          (by rw [e2]; omega) (by rw [e2]; omega)).1
        rw [e2] at this
        omega
    · exact ih (i + 1) _ hnd.2 (fun c' hc' => by simpa using ho c' (by simp [hc'])) (fun c' hc' => hs c' (by simp [hc']))
        (fun c' hc' => ha c' (by simp [hc'])) (by simp at hN; omega) (fun c' hc' => hr c' (by simp [hc'])) e he

theorem ShrinkOk.tile {cfg : List DimCfg} {shape : List Int} {nTiles : Int} {aligns : List Int} (h : ShrinkOk cfg shape nTiles aligns) (n d : Nat)
    (hd : d < shape.length) :
    ∃ c ∈ cfg, c.order = d ∧ (subTensor shape cfg (nextN cfg n).1).2.getD d 0 ≤ maxTile c := by
  have hl := h.len
  obtain ⟨-, h2, h3⟩ := subTensor_spec shape cfg (nextN cfg n).1 (nextN_length cfg n).symm h.nodup h.order
  have hmem : (d : Int) ∈ cfg.map (·.order) := by
    have hperm : (cfg.map (·.order)).Perm ((List.range shape.length).map fun d : Nat => (d : Int)) := by
      apply (List.subperm_of_subset h.nodup ?_).perm_of_length_le
      · simp [hl]
      · intro x hx
        obtain ⟨c, hc, rfl⟩ := List.mem_map.mp hx
        have := h.order c hc
        exact List.mem_map.mpr ⟨c.order.toNat, List.mem_range.mpr (by omega), by omega⟩
    exact hperm.mem_iff.mpr (List.mem_map.mpr ⟨d, List.mem_range.mpr hd, rfl⟩)
  obtain ⟨c, hc, hcd⟩ := List.mem_map.mp hmem
  obtain ⟨i, hi, rfl⟩ := List.getElem_of_mem hc
  have hi2 : i < (nextN cfg n).1.length := by rw [nextN_length]; exact hi
  have hp : (cfg[i], (nextN cfg n).1[i]) ∈ cfg.zip (nextN cfg n).1 := by
    rw [← List.getElem_zip (h := by simp; omega)]
    exact List.getElem_mem _
  have e := (h3 _ hp).2
  simp only [hcd, Int.toNat_natCast] at e
  refine ⟨_, hc, hcd, ?_⟩
  rw [e]
  have hp' := hp
  generalize (nextN cfg n).1[i] = st at hp' ⊢
  rw [nextN_eq h.count] at hp'
  have hz := zip_stateAt cfg h.count n (cfg[i], st) hp'
  exact tileSize_le_max _ _ _ hz.2

/-- Element `x` of a tile kept in slot `j` of a buffer that is cut along its first dimension into slots of `pitch` rows. -/
def inSlot (pitch : Int) (j : Int) : List Int → List Int
  | [] => []
  | i :: is => (j * pitch + i) :: is

/-- C77, buffer for `nTiles` tiles (not cyclic): the returned number of elements is that of a buffer with the new strides in
which `nTiles` tiles have room one after the other along the first dimension; every element of every tile in every slot has its
own place below the returned number. -/
theorem c77_block_partial (cfg : List DimCfg) (shape aligns : List Int) (nTiles : Int) (h : ShrinkOk cfg shape nTiles aligns) :
    let r := shrinkBuffer cfg shape nTiles false aligns
    let pitch := r.1.getD 0 0 / nTiles
    let sizes := fun n => (subTensor shape cfg (nextN cfg n).1).2
    (∀ d ∈ r.1, 1 ≤ d) → prod r.1 < 2 ^ 31 →
    r.2.2.2 = prod r.1 ∧
    (∀ n j x, 0 ≤ j → j < nTiles → InShape (sizes n) x →
      0 ≤ offset r.2.1 (inSlot pitch j x) ∧ offset r.2.1 (inSlot pitch j x) < r.2.2.2) ∧
    (∀ n m j k x y, 0 ≤ j → j < nTiles → 0 ≤ k → k < nTiles → InShape (sizes n) x → InShape (sizes m) y →
      offset r.2.1 (inSlot pitch j x) = offset r.2.1 (inSlot pitch k y) → inSlot pitch j x = inSlot pitch k y) ∧
    (∀ n, shape ≠ [] → (sizes n).getD 0 0 ≤ pitch) := by
  intro r pitch sizes hpos hprod
  have hlen : r.1.length = shape.length := shrinkFrom_length ..
  have hT := h.tiles
  have hblock : ∀ c ∈ cfg, maxTile c * (if c.order.toNat = 0 then nTiles else 1) ≤ r.1.getD c.order.toNat 0 :=
    shrinkFrom_block nTiles aligns hT cfg.length cfg 0 shape h.nodup (fun c hc => by have := h.order c hc; omega) h.size
      (fun c hc => h.align _ (by have := h.order c hc; omega)) (le_refl _) h.room
  have hsz : ∀ n, (sizes n).length = shape.length := fun n =>
    (subTensor_spec shape cfg (nextN cfg n).1 (nextN_length cfg n).symm h.nodup h.order).2.1
  have hle : ∀ n d, d < shape.length → (sizes n).getD d 0 * (if d = 0 then nTiles else 1) ≤ r.1.getD d 0 := by
    intro n d hd
    obtain ⟨c, hc, hcd, hm⟩ := h.tile n d hd
    have := hblock c hc
    rw [hcd, Int.toNat_natCast] at this
    have h2 : (sizes n).getD d 0 * (if d = 0 then nTiles else 1) ≤ maxTile c * (if d = 0 then nTiles else 1) :=
      Int.mul_le_mul_of_nonneg_right hm (by split <;> omega)
    omega
  have hpitch : ∀ n, 0 < shape.length → (sizes n).getD 0 0 ≤ pitch := by
    intro n h0
    have := hle n 0 h0
    rw [if_pos rfl] at this
    exact (Int.le_ediv_iff_mul_le (by omega)).mpr this
  have hin : ∀ n j x, 0 ≤ j → j < nTiles → InShape (sizes n) x → InShape r.1 (inSlot pitch j x) := by
    intro n j x h0 h1 hx
    have hxl := inShape_length _ _ hx
    rw [hsz] at hxl
    cases x with
    | nil =>
      have : r.1 = [] := List.length_eq_zero_iff.mp (by rw [hlen, hxl]; rfl)
      rw [this]; trivial
    | cons i is =>
      rw [inShape_iff] at hx ⊢
      refine ⟨by simp only [inSlot, List.length_cons]; rw [hlen, hxl]; rfl, ?_⟩
      intro d hd
      rw [hlen] at hd
      have hxd := hx.2 d (by rw [hsz]; exact hd)
      have hl1 := hle n d hd
      cases d with
      | zero =>
        simp only [inSlot, List.getD_cons_zero] at hxd ⊢
        have hp := hpitch n (by omega)
        have hp0 : 0 ≤ pitch := by omega
        have hq : pitch * nTiles ≤ r.1.getD 0 0 := Int.ediv_mul_le _ (by omega)
        have h3 : (j + 1) * pitch ≤ nTiles * pitch := Int.mul_le_mul_of_nonneg_right (by omega) hp0
        have h4 : 0 ≤ j * pitch := Int.mul_nonneg h0 hp0
        refine ⟨by omega, ?_⟩
        have : (j + 1) * pitch = j * pitch + pitch := by ring
        have : nTiles * pitch = pitch * nTiles := by ring
        omega
      | succ d =>
        simp only [inSlot, List.getD_cons_succ] at hxd ⊢
        rw [if_neg (by omega), mul_one] at hl1
        omega
  have hst : r.2.1 = cstr r.1 := by
    show (contigStrides r.1).2 = _
    rw [contigStrides_eq _ hpos hprod]
  have hret : r.2.2.2 = prod r.1 := by
    show totalElems r.1 = _
    exact (c76_contiguous _ hpos hprod).2.1
  refine ⟨hret, ?_, ?_, ?_⟩
  · intro n j x h0 h1 hx
    rw [hst, hret]
    exact contig_offset_range _ _ (hin n j x h0 h1 hx)
  · intro n m j k x y h0 h1 h2 h3 hx hy he
    rw [hst] at he
    exact contig_offset_inj _ _ _ (hin n j x h0 h1 hx) (hin m k y h2 h3 hy) he
  · intro n hne
    exact hpitch n (List.length_pos_iff.mpr hne)

-- three tiles of 3, 3 and 2 rows, two of 3 columns and one of 4 channels; the first dimension of the tensor comes last
example : let cfg := tileCfg [8, 6, 4] [3, 3, 4] [1, 2, 0] 0
    ShrinkOk cfg [8, 6, 4] 2 [1, 2, 1] ∧ (∀ d ∈ (shrinkBuffer cfg [8, 6, 4] 2 false [1, 2, 1]).1, 1 ≤ d) ∧
    (shrinkBuffer cfg [8, 6, 4] 2 false [1, 2, 1]).1 = [6, 4, 4] ∧ (shrinkBuffer cfg [8, 6, 4] 2 false [1, 2, 1]).2.2.2 = 96 ∧
    prod (shrinkBuffer cfg [8, 6, 4] 2 false [1, 2, 1]).1 < 2 ^ 31 := by
  refine ⟨⟨by decide, by decide, by decide, by decide, by decide, by decide, ?_, by decide⟩, by decide, by decide, by decide, by decide⟩
  intro d hd
  have : d = 0 ∨ d = 1 ∨ d = 2 := by simp at hd; omega
  rcases this with rfl | rfl | rfl <;> decide

/-- The size is not that of `nTiles` tiles when the first dimension of the tensor is not the last one of the iteration: two tiles
of 36 elements get 288 elements, more than the whole tensor has. -/
theorem c77_size_violated :
    let r := shrinkBuffer (tileCfg [8, 6, 4] [3, 3, 4] [0, 1, 2] 0) [8, 6, 4] 2 false [1, 1, 1]
    r.2.2.2 = 288 ∧ prod [3, 3, 4] = 36 ∧ prod [8, 6, 4] = 192 := by decide

/-- A shrunk iterator no longer limits a middle tile to the rows that the tensor has: in a convolution with 5 taps and 2 rows of
padding the second tile has 6 rows, with the shrunk iterator 7. -/
theorem c77_clip_violated :
    let cfg := kernelCfg (tileCfg [7, 2] [3, 2] [0, 1] 0) [7, 2] (fun d => if d = 0 then 5 else 1) (fun _ => 1)
      fun d => if d = 0 then 2 else 0
    let cfg' := (shrinkBuffer cfg [7, 2] 1 false [1, 1]).2.2.1
    subTensor [7, 2] cfg (nextN cfg 1).1 = ([1, 0], [6, 2]) ∧ subTensor [7, 2] cfg' (nextN cfg' 1).1 = ([0, 0], [7, 2]) := by
  decide

/-! ## Cyclic buffers -/

theorem shrinkStep_ring (nTiles : Int) (aligns : List Int) (i : Nat) (hi : 1 ≤ i) (c : DimCfg) (dims : List Int) (ho : 0 ≤ c.order) :
    shrinkStep nTiles true aligns i c dims = dims.set c.order.toNat (ceilRnd (maxTile c) (aligns.getD c.order.toNat 0)) := by
  unfold shrinkStep
  have : (i == 0) = false := by simp; omega
  simp only [ge_iff_le, ho, if_true, this, Bool.and_false]
  rfl

theorem shrinkFrom_ring_keep (nTiles : Int) (aligns : List Int) : ∀ (cs : List DimCfg) (i : Nat) (dims : List Int) (d : Nat), 1 ≤ i →
    (∀ c ∈ cs, 0 ≤ c.order ∧ c.order.toNat ≠ d) → (shrinkFrom nTiles true aligns i cs dims).getD d 0 = dims.getD d 0 := by
  intro cs
  induction cs with
  | nil => intro i dims d _ _; rfl
  | cons c cs ih =>
    intro i dims d hi hne
    obtain ⟨hc0, hc1⟩ := hne c (by simp)
    simp only [shrinkFrom]
    rw [shrinkStep_ring _ _ _ hi _ _ hc0, ih _ _ _ (by omega) (fun c' hc' => hne c' (by simp [hc'])), getD_set_ne _ _ _ _ hc1]

theorem shrinkFrom_ring (nTiles : Int) (aligns : List Int) : ∀ (cs : List DimCfg) (i : Nat) (dims : List Int), 1 ≤ i →
    (cs.map (·.order)).Nodup → (∀ c ∈ cs, 0 ≤ c.order ∧ c.order.toNat < dims.length) → (∀ c ∈ cs, 1 ≤ maxTile c) →
    (∀ c ∈ cs, 1 ≤ aligns.getD c.order.toNat 0) → (∀ c ∈ cs, maxTile c + aligns.getD c.order.toNat 0 < 2 ^ 32) → ∀ c ∈ cs,
    maxTile c ≤ (shrinkFrom nTiles true aligns i cs dims).getD c.order.toNat 0 := by
  intro cs
  induction cs with
  | nil => intro i dims _ _ _ _ _ _ c hc; simp at hc
  | cons c cs ih =>
    intro i dims hi hnd ho hs ha hr e he
    rw [List.map_cons, List.nodup_cons] at hnd
    obtain ⟨hc0, hc1⟩ := ho c (by simp)
    simp only [shrinkFrom]
    rw [shrinkStep_ring _ _ _ hi _ _ hc0]
    rcases List.mem_cons.mp he with rfl | he
    · have hother : ∀ c' ∈ cs, 0 ≤ c'.order ∧ c'.order.toNat ≠ e.order.toNat := by
        intro c' hc'
        obtain ⟨g, _⟩ := ho c' (by simp [hc'])
        refine ⟨g, fun heq => hnd.1 ?_⟩
        rw [List.mem_map]
        exact ⟨c', hc', by omega⟩
      rw [shrinkFrom_ring_keep _ _ _ _ _ _ (by omega) hother, getD_set_self _ _ _ hc1]
      exact (ceilRnd_bounds (hs e (by simp)) (ha e (by simp)) (hr e (by simp))).1
    · exact ih (i + 1) _ (by omega) hnd.2 (fun c' hc' => by simpa using ho c' (by simp [hc'])) (fun c' hc' => hs c' (by simp [hc']))
        (fun c' hc' => ha c' (by simp [hc'])) (fun c' hc' => hr c' (by simp [hc'])) e he

/-- What the first iteration dimension needs for a cyclic buffer: positions go forward, the second tile starts not after the end
of the first one (or, with three tiles and more, not further than other tiles do), and the sum of sizes is below `2^32`. -/
structure CycleOk (c : DimCfg) (nTiles : Int) : Prop where
  firstInc : 0 ≤ c.firstInc
  inc : 0 ≤ c.inc
  sizes : 0 ≤ c.firstSize ∧ 0 ≤ c.size ∧ 0 ≤ c.lastSize
  start : c.firstInc ≤ c.firstSize ∨ 2 < c.count ∧ c.firstInc ≤ c.inc
  room : (maxTile c + c.firstSize + c.inc) * nTiles < 2 ^ 31
  span : c.firstInc + c.count * c.inc < 2 ^ 31

theorem cyclicExtent_window {c : DimCfg} {nTiles : Int} (h : CycleOk c nTiles) (hT : 1 ≤ nTiles) (hc : 1 ≤ c.count) (i j : Int) (hi : 0 ≤ i)
    (hij : i ≤ j) (hj : j < c.count) (hw : j < i + nTiles) (z : Int) (hz : z ≤ maxTile c) (hzj : c.count = 2 → j = 1 → z ≤ c.lastSize) :
    posOf c j + z - posOf c i ≤ cyclicExtent c nTiles := by
  obtain ⟨h1, h2, ⟨h3, h4, h5⟩, h6, h7, h8⟩ := h
  have hM : 0 ≤ maxTile c := by unfold maxTile; simp only; split_ifs <;> omega
  have hfull : maxTile c + c.firstSize + c.inc ≤ (maxTile c + c.firstSize + c.inc) * nTiles := by nlinarith
  have hmn : maxTile c * nTiles ≤ (maxTile c + c.firstSize + c.inc) * nTiles := Int.mul_le_mul_of_nonneg_right (by omega) (by omega)
  have hmn1 : maxTile c ≤ maxTile c * nTiles := by nlinarith
  have hin : c.inc * nTiles + (maxTile c + c.firstSize) ≤ (maxTile c + c.firstSize + c.inc) * nTiles := by nlinarith
  have hin0 : 0 ≤ c.inc * nTiles := Int.mul_nonneg h2 (by omega)
  unfold cyclicExtent posOf
  by_cases h1t : nTiles > 1
  · rw [if_pos h1t]
    have hn2 : 0 ≤ (nTiles - 2) * c.inc := Int.mul_nonneg (by omega) h2
    have hn2' : (nTiles - 2) * c.inc = c.inc * nTiles - 2 * c.inc := by ring
    by_cases hc1 : c.count = 1
    · rw [if_pos hc1, u32_id ⟨by omega, by omega⟩]
      have : i = 0 := by omega
      have : j = 0 := by omega
      subst i j
      simp only [if_true]
      omega
    · rw [if_neg hc1]
      by_cases hc2 : c.count = 2
      · have hm2 : c.lastSize ≤ maxTile c ∧ c.firstSize ≤ maxTile c ∧ maxTile c ≤ c.lastSize + c.firstSize := by
          unfold maxTile; simp only; split_ifs <;> omega
        rw [if_pos hc2, u32_id (x := c.inc) ⟨h2, by omega⟩, u32_id (x := c.lastSize + c.firstSize) ⟨by omega, by omega⟩,
          u32_id ⟨by omega, by omega⟩]
        have hj' : j = 0 ∨ j = 1 := by omega
        rcases hj' with rfl | rfl
        · have : i = 0 := by omega
          subst i
          simp only [if_true]
          omega
        · have := hzj hc2 rfl
          rw [if_neg (by omega)]
          have hi' : i = 0 ∨ i = 1 := by omega
          rcases hi' with rfl | rfl
          · simp only [if_true]
            omega
          · simp only [if_neg (show ¬ (1 : Int) = 0 by omega)]
            omega
      · rw [if_neg hc2, u32_id (x := c.inc) ⟨h2, by omega⟩, u32_id (x := maxTile c + _) ⟨by omega, by omega⟩,
          u32_id ⟨by omega, by omega⟩]
        have hk : (j - i - 1) * c.inc ≤ (nTiles - 2) * c.inc := Int.mul_le_mul_of_nonneg_right (by omega) h2
        by_cases hj0 : j = 0
        · subst j
          have : i = 0 := by omega
          subst i
          simp only [if_true]
          omega
        · rw [if_neg hj0]
          by_cases hi0 : i = 0
          · subst i
            simp only [if_true]
            have : (j - 0 - 1) * c.inc = (j - 1) * c.inc := by ring
            omega
          · rw [if_neg hi0]
            have : (j - i - 1) * c.inc = (j - 1) * c.inc - (i - 1) * c.inc - c.inc := by ring
            omega
  · rw [if_neg h1t]
    have : j = i := by omega
    subst j
    omega

theorem emod_window {a b p D : Int} (ha : p ≤ a) (ha' : a < p + D) (hb : p ≤ b) (hb' : b < p + D) (he : a % D = b % D) : a = b := by
  have h1 := Int.emod_emod_of_dvd a (dvd_refl D)
  have hd : D ∣ a - b := Int.dvd_of_emod_eq_zero (Int.emod_eq_emod_iff_emod_sub_eq_zero.mp he)
  obtain ⟨k, hk⟩ := hd
  rcases Int.lt_trichotomy k 0 with h | h | h
  · have : D * k ≤ D * (-1) := Int.mul_le_mul_of_nonneg_left (by omega) (by omega)
    omega
  · subst h; omega
  · have : D * 1 ≤ D * k := Int.mul_le_mul_of_nonneg_left (by omega) (by omega)
    omega

/-- Index in a cyclic buffer of element `x` of a tile that starts at row `p` of the tensor: dimension `d` of the buffer is a ring
of `D` rows, the other dimensions hold one tile. -/
def inRing (D : Int) (d : Nat) (p : Int) (x : List Int) : List Int := x.set d ((p + x.getD d 0) % D)

/-- C77, cyclic buffer: in a ring of the computed number of rows, `nTiles` tiles that follow each other along the first
iteration dimension are held at the same time: all their elements have a place below the returned number, and two of them share
a place only if they are the same element of the tensor along that dimension and of the tile along the others. -/
theorem c77_cyclic_partial (c : DimCfg) (cs : List DimCfg) (shape aligns : List Int) (nTiles : Int) (h : ShrinkOk (c :: cs) shape nTiles aligns)
    (hc : CycleOk c nTiles) :
    let r := shrinkBuffer (c :: cs) shape nTiles true aligns
    let d := c.order.toNat
    let pos := fun n => (subTensor shape (c :: cs) (nextN (c :: cs) n).1).1.getD d 0
    let sizes := fun n => (subTensor shape (c :: cs) (nextN (c :: cs) n).1).2
    let place := fun (n : Nat) x => offset r.2.1 (inRing (r.1.getD d 0) d (pos n) x)
    (∀ d ∈ r.1, 1 ≤ d) → prod r.1 < 2 ^ 31 →
    (∀ n x, InShape (sizes n) x → 0 ≤ place n x ∧ place n x < r.2.2.2) ∧
    (∀ n m : Nat, n ≤ m → (m : Int) < n + nTiles → (m : Int) / c.count = n / c.count → ∀ x y, InShape (sizes n) x → InShape (sizes m) y →
      place n x = place m y → pos n + x.getD d 0 = pos m + y.getD d 0 ∧ ∀ e, e ≠ d → x.getD e 0 = y.getD e 0) := by
  intro r d pos sizes place hpos hprod
  have hlen : r.1.length = shape.length := shrinkFrom_length ..
  have hT := h.tiles
  have hc1 := h.count c (by simp)
  have hco := h.order c (by simp)
  have hd : d < shape.length := by show c.order.toNat < _; omega
  have hpow : (1 : Int) ≤ nTiles ^ (c :: cs).length := one_le_pow₀ hT
  have hroom : ∀ e ∈ c :: cs, maxTile e + aligns.getD e.order.toNat 0 < 2 ^ 32 := by
    intro e he
    have h1 := h.room e he
    have h2 := h.size e he
    have h3 := h.align e.order.toNat (by have := h.order e he; omega)
    nlinarith
  have hnd := h.nodup
  rw [List.map_cons, List.nodup_cons] at hnd
  have hother : ∀ c' ∈ cs, 0 ≤ c'.order ∧ c'.order.toNat ≠ d := by
    intro c' hc'
    have g := h.order c' (by simp [hc'])
    refine ⟨g.1, fun heq => hnd.1 ?_⟩
    rw [List.mem_map]
    exact ⟨c', hc', by have : c'.order.toNat = c.order.toNat := heq; omega⟩
  -- the buffer
  have hD : cyclicExtent c nTiles ≤ r.1.getD d 0 := by
    show _ ≤ (shrinkFrom nTiles true aligns 1 cs (shrinkStep nTiles true aligns 0 c shape)).getD d 0
    rw [shrinkFrom_ring_keep _ _ _ _ _ _ (le_refl _) hother]
    have : shrinkStep nTiles true aligns 0 c shape = shape.set d (max (cyclicExtent c nTiles)
        (u32 (u32 (aligns.getD d 0 * nTiles) + u32 (c.size - u32 c.inc)))) := by
      unfold shrinkStep
      simp only [ge_iff_le, hco.1, if_true]
      rfl
    rw [this, getD_set_self _ _ _ hd]
    exact le_max_left _ _
  have hrest : ∀ e ∈ cs, maxTile e ≤ r.1.getD e.order.toNat 0 := by
    intro e he
    show _ ≤ (shrinkFrom nTiles true aligns 1 cs (shrinkStep nTiles true aligns 0 c shape)).getD _ 0
    refine shrinkFrom_ring nTiles aligns cs 1 _ (le_refl _) hnd.2 (fun c' hc' => ?_) (fun c' hc' => h.size c' (by simp [hc'])) (fun c' hc' => ?_)
      (fun c' hc' => hroom c' (by simp [hc'])) e he
    · have g := h.order c' (by simp [hc'])
      refine ⟨g.1, ?_⟩
      have : (shrinkStep nTiles true aligns 0 c shape).length = shape.length := shrinkFrom_length nTiles true aligns [c] 0 shape
      omega
    · exact h.align _ (by have := h.order c' (by simp [hc']); omega)
  have hDpos : 0 < r.1.getD d 0 := by
    have : r.1.getD d 0 ∈ r.1 := by
      have g : d < r.1.length := by omega
      rw [List.getD_eq_getElem?_getD, List.getElem?_eq_getElem g]
      exact List.getElem_mem g
    have := hpos _ this
    omega
  -- the tiles
  have hsz : ∀ n, (sizes n).length = shape.length := fun n =>
    (subTensor_spec shape (c :: cs) (nextN (c :: cs) n).1 (nextN_length (c :: cs) n).symm h.nodup h.order).2.1
  have hfirst : ∀ n : Nat, pos n = posOf c (n % c.count) ∧ (sizes n).getD d 0 ≤ maxTile c ∧
      (c.count = 2 → (n : Int) % c.count = 1 → (sizes n).getD d 0 ≤ c.lastSize) := by
    intro n
    obtain ⟨-, -, h3⟩ := subTensor_spec shape (c :: cs) (nextN (c :: cs) n).1 (nextN_length (c :: cs) n).symm h.nodup h.order
    have hst : (nextN (c :: cs) n).1 = { pos := posOf c (n % c.count), idx := n % c.count } :: stateAt cs (n / c.count) := by
      rw [nextN_eq h.count]; rfl
    have hmem : (c, ({ pos := posOf c (n % c.count), idx := n % c.count } : DimSt)) ∈ (c :: cs).zip (nextN (c :: cs) n).1 := by
      rw [hst]; simp
    have e := h3 _ hmem
    simp only at e
    have m0 := Int.emod_nonneg (n : Int) (show c.count ≠ 0 by omega)
    have m1 := Int.emod_lt_of_pos (n : Int) (show 0 < c.count by omega)
    refine ⟨?_, ?_, ?_⟩
    · show (subTensor shape (c :: cs) (nextN (c :: cs) n).1).1.getD c.order.toNat 0 = _
      rw [e.1]
      obtain ⟨g1, g2, -, -, -, g3⟩ := hc
      apply u32_id
      unfold posOf
      split
      · omega
      · have : 0 ≤ ((n : Int) % c.count - 1) * c.inc := Int.mul_nonneg (by omega) g2
        have : ((n : Int) % c.count - 1) * c.inc ≤ c.count * c.inc := Int.mul_le_mul_of_nonneg_right (by omega) g2
        omega
    · show (subTensor shape (c :: cs) (nextN (c :: cs) n).1).2.getD c.order.toNat 0 ≤ _
      rw [e.2]
      exact tileSize_le_max _ _ _ ⟨m0, m1⟩
    · intro c2 n1
      show (subTensor shape (c :: cs) (nextN (c :: cs) n).1).2.getD c.order.toNat 0 ≤ _
      rw [e.2]
      unfold tileSize
      rw [if_pos (by simp only; omega)]
  have hle : ∀ n e, e < shape.length → e ≠ d → (sizes n).getD e 0 ≤ r.1.getD e 0 := by
    intro n e he hed
    obtain ⟨c', hc', hcd, hm⟩ := h.tile n e he
    have hc'' : c' ∈ cs := by
      rcases List.mem_cons.mp hc' with rfl | g
      · exact absurd (by show _ = c'.order.toNat; omega) hed
      · exact g
    have := hrest c' hc''
    rw [hcd, Int.toNat_natCast] at this
    exact le_trans hm this
  have hin : ∀ n x, InShape (sizes n) x → InShape r.1 (inRing (r.1.getD d 0) d (pos n) x) := by
    intro n x hx
    have hxl := inShape_length _ _ hx
    rw [hsz] at hxl
    rw [inShape_iff] at hx ⊢
    refine ⟨by simp only [inRing, List.length_set]; omega, ?_⟩
    intro e he
    rw [hlen] at he
    unfold inRing
    by_cases hed : e = d
    · subst hed
      rw [getD_set_self _ _ _ (by omega)]
      exact ⟨Int.emod_nonneg _ (by omega), Int.emod_lt_of_pos _ hDpos⟩
    · rw [getD_set_ne _ _ _ _ (Ne.symm hed)]
      have := hx.2 e (by rw [hsz]; exact he)
      have := hle n e he hed
      omega
  have hst : r.2.1 = cstr r.1 := by
    show (contigStrides r.1).2 = _
    rw [contigStrides_eq _ hpos hprod]
  have hret : r.2.2.2 = prod r.1 := by
    show totalElems r.1 = _
    exact (c76_contiguous _ hpos hprod).2.1
  refine ⟨?_, ?_⟩
  · intro n x hx
    show 0 ≤ offset r.2.1 _ ∧ offset r.2.1 _ < _
    rw [hst, hret]
    exact contig_offset_range _ _ (hin n x hx)
  · intro n m hnm hmn hdiv x y hx hy he
    replace he : offset r.2.1 (inRing (r.1.getD d 0) d (pos n) x) = offset r.2.1 (inRing (r.1.getD d 0) d (pos m) y) := he
    rw [hst] at he
    have heq := contig_offset_inj _ _ _ (hin n x hx) (hin m y hy) he
    have hxl := inShape_length _ _ hx
    have hyl := inShape_length _ _ hy
    rw [hsz] at hxl hyl
    have hxd := ((inShape_iff _ _).mp hx).2 d (by rw [hsz]; exact hd)
    have hyd := ((inShape_iff _ _).mp hy).2 d (by rw [hsz]; exact hd)
    unfold inRing at heq
    have hat : ∀ e, (x.set d ((pos n + x.getD d 0) % r.1.getD d 0)).getD e 0 = (y.set d ((pos m + y.getD d 0) % r.1.getD d 0)).getD e 0 := by
      intro e; rw [heq]
    refine ⟨?_, fun e hed => ?_⟩
    · have hmod := hat d
      rw [getD_set_self _ _ _ (by omega), getD_set_self _ _ _ (by omega)] at hmod
      obtain ⟨p1, p2, p3⟩ := hfirst n
      obtain ⟨q1, q2, q3⟩ := hfirst m
      have m0 := Int.emod_nonneg (n : Int) (show c.count ≠ 0 by omega)
      have m1 := Int.emod_lt_of_pos (m : Int) (show 0 < c.count by omega)
      have m2 := Int.emod_lt_of_pos (n : Int) (show 0 < c.count by omega)
      have en := Int.mul_ediv_add_emod n c.count
      have em := Int.mul_ediv_add_emod m c.count
      rw [hdiv] at em
      have hwin := cyclicExtent_window hc hT hc1 (n % c.count) (m % c.count) m0 (by omega) m1 (by omega) ((sizes m).getD d 0) q2 q3
      have hwin0 := cyclicExtent_window hc hT hc1 (n % c.count) (n % c.count) m0 (by omega) m2 (by omega) ((sizes n).getD d 0) p2 p3
      have hmono : posOf c (n % c.count) ≤ posOf c (m % c.count) := by
        unfold posOf
        have hi := hc.inc
        have hf := hc.firstInc
        by_cases g0 : (n : Int) % c.count = 0
        · rw [if_pos g0]
          split
          · omega
          · have : 0 ≤ ((m : Int) % c.count - 1) * c.inc := Int.mul_nonneg (by omega) hi
            omega
        · rw [if_neg g0, if_neg (by omega)]
          have : ((n : Int) % c.count - 1) * c.inc ≤ ((m : Int) % c.count - 1) * c.inc := Int.mul_le_mul_of_nonneg_right (by omega) hi
          omega
      rw [← p1, ← q1] at hwin hmono
      exact emod_window (p := pos n) (by omega) (by omega) (by omega) (by omega) hmod
    · have := hat e
      rw [getD_set_ne _ _ _ _ (Ne.symm hed), getD_set_ne _ _ _ _ (Ne.symm hed)] at this
      exact this

-- two tiles of three at a time, with an overlap of two rows
example : let cfg := kernelCfg (tileCfg [6, 4] [2, 4] [0, 1] 0) [8, 4] (fun d => if d = 0 then 3 else 1) (fun _ => 1) fun _ => 0
    ShrinkOk cfg [8, 4] 2 [1, 1] ∧ (∀ c ∈ cfg.head?, CycleOk c 2) ∧
    (shrinkBuffer cfg [8, 4] 2 true [1, 1]).1 = [8, 4] ∧ (shrinkBuffer cfg [8, 4] 2 true [1, 1]).2.2.2 = 32 := by
  refine ⟨⟨by decide, by decide, by decide, by decide, by decide, by decide, ?_, by decide⟩, ?_, by decide, by decide⟩
  · intro d hd
    have : d = 0 ∨ d = 1 := by simp at hd; omega
    rcases this with rfl | rfl <;> decide
  · intro c hc
    have : c = kernelDim (tileDim 0 6 2 0) 8 3 1 0 := by
      have : (kernelCfg (tileCfg [6, 4] [2, 4] [0, 1] 0) [8, 4] (fun d => if d = 0 then 3 else 1) (fun _ => 1) fun _ => 0).head?
          = some (kernelDim (tileDim 0 6 2 0) 8 3 1 0) := by decide
      rw [this] at hc
      simpa using hc.symm
    subst this
    exact ⟨by decide, by decide, by decide, by decide, by decide, by decide⟩

/-- With two tiles and a stride larger than the kernel the ring is too small: rows 0 and 4 are held at the same time, and share
their place. -/
theorem c77_stride_violated :
    let cfg := kernelCfg (tileCfg [2, 2] [1, 2] [0, 1] 0) [6, 2] (fun _ => 1) (fun d => if d = 0 then 3 else 1) fun _ => 0
    let r := shrinkBuffer cfg [6, 2] 2 true [1, 1]
    subTensor [6, 2] cfg (nextN cfg 0).1 = ([0, 0], [1, 2]) ∧ subTensor [6, 2] cfg (nextN cfg 1).1 = ([3, 0], [3, 2]) ∧
    r.1 = [4, 2] ∧ inRing 4 0 0 [0, 0] = inRing 4 0 3 [1, 0] := by decide

end Mli.Iter
