import Verif.Lemmas.Generic
import Verif.Props.Tensor
import Mathlib.Data.List.Nodup

/-! # C13, C14, C47: permute and the buffer overlap check -/

namespace Mli

open Spec

/-- The buffer behind the data pointer really has `capacity` bytes. -/
def Tensor.Fits (t : Tensor) (b : Buf) : Prop := 0 ≤ t.base ∧ t.base * t.es + t.cap ≤ b.size * t.es

instance (t : Tensor) (b : Buf) : Decidable (t.Fits b) := by unfold Tensor.Fits; infer_instance

/-- A tensor the library accepts, spanning less than 2 GiB, in a buffer of its capacity. -/
structure Tensor.Valid (t : Tensor) (b : Buf) : Prop where
  typed : t.WellTyped
  small : t.footprint ≤ int32Max
  accepted : checkTensorPrivate t = some .ok
  fits : t.Fits b

theorem Tensor.Valid.inBounds {t : Tensor} {b : Buf} (h : t.Valid b) {is : List Int}
    (hi : InShape t.shape is) : 0 ≤ t.base + offset t.strides is ∧ t.base + offset t.strides is < b.size := by
  obtain ⟨x, y⟩ := c08_accepted_in_bounds_partial t h.typed h.small h.accepted is hi
  obtain ⟨f1, f2⟩ := h.fits
  have hes : 1 ≤ t.es := by have := h.typed.2.2.2; omega
  refine ⟨by omega, ?_⟩
  by_contra hc
  have : b.size ≤ t.base + offset t.strides is := by omega
  nlinarith

theorem Tensor.Valid.rank {t : Tensor} {b : Buf} (h : t.Valid b) : t.dims.length ≤ 4 :=
  (checkTensorPrivate_ok h.accepted).1

theorem Tensor.Valid.shape_pos {t : Tensor} {b : Buf} (h : t.Valid b) : ∀ d ∈ t.dims, 1 ≤ d.shape := by
  intro d hd; have := ((checkTensorPrivate_ok h.accepted).2.2.1 d hd).2.1; omega

/-! ## helper facts about the permutation -/

theorem chkPermLoop_ok {inT outT : Tensor} {perm : PermCfg} : ∀ {n : Nat},
    chkPermLoop inT outT perm n = .ok → ∀ k, k < n → chkPermDim inT outT perm k = .ok := by
  intro n
  induction n with
  | zero => intro _ k hk; omega
  | succ n ih =>
    intro h k hk
    unfold chkPermLoop at h
    cases hc : chkPermLoop inT outT perm n <;> rw [hc] at h <;> simp only [reduceCtorEq] at h
    by_cases hk' : k = n
    · subst hk'; exact h
    · exact ih hc k (by omega)

theorem chkPermDim_ok {inT outT : Tensor} {perm : PermCfg} {k : Nat}
    (h : chkPermDim inT outT perm k = .ok) :
    perm.getD k 0 < inT.dims.length ∧
    (∀ j, k < j → j < inT.dims.length → perm.getD j 0 ≠ perm.getD k 0) ∧
    outT.gShape k = inT.gShape (perm.getD k 0) := by
  unfold chkPermDim at h
  simp only at h
  split at h
  · simp at h
  · rename_i h1
    split at h
    · simp at h
    · rename_i h2
      split at h
      · simp at h
      · rename_i h3
        refine ⟨by omega, ?_, by simpa using h3⟩
        intro j hj1 hj2 he
        apply h2
        rw [List.any_eq_true]
        refine ⟨j, by simpa using hj2, ?_⟩
        simp only [Bool.and_eq_true, decide_eq_true_eq, beq_iff_eq]
        exact ⟨hj1, he⟩

theorem chkPermute_ok {inT outT : Tensor} {perm : PermCfg} {no : Bool}
    (h : chkPermute inT outT perm no = some .ok) :
    chkPermLoop inT outT perm inT.dims.length = .ok := by
  unfold chkPermute at h
  simp only [Option.bind_eq_bind, Option.bind_eq_some_iff, Option.pure_def] at h
  obtain ⟨s1, _, h⟩ := h
  split at h
  · rename_i h1; simp only [Option.some.injEq] at h; exact absurd h h1
  · simp only [Option.bind_eq_some_iff] at h
    obtain ⟨s2, _, h⟩ := h
    split at h
    · rename_i h1; simp only [Option.some.injEq] at h; exact absurd h h1
    · split at h
      · rename_i h1; simp only [Option.some.injEq] at h; exact absurd h h1
      · rename_i h1; simpa using h1

/-- The checked `perm_dim` is a permutation of the dimensions. -/
theorem perm_isPerm {perm : PermCfg} {r : Nat} (h1 : ∀ k, k < r → perm.getD k 0 < r)
    (h2 : ∀ i j, i < j → j < r → perm.getD j 0 ≠ perm.getD i 0) :
    ((List.range r).map (perm.getD · 0)).Perm (List.range r) := by
  apply List.Subperm.perm_of_length_le
  · apply List.subperm_of_subset
    · apply List.Nodup.map_on _ List.nodup_range
      intro a ha b hb hab
      rw [List.mem_range] at ha hb
      rcases Nat.lt_trichotomy a b with h | h | h
      · exact absurd hab.symm (h2 a b h hb)
      · exact h
      · exact absurd hab (h2 b a h ha)
    · intro x hx
      rw [List.mem_map] at hx
      obtain ⟨k, hk, rfl⟩ := hx
      rw [List.mem_range] at hk ⊢
      exact h1 k hk
  · simp

theorem perm_surj {perm : PermCfg} {r : Nat}
    (h : ((List.range r).map (perm.getD · 0)).Perm (List.range r)) {m : Nat} (hm : m < r) :
    ∃ k, k < r ∧ perm.getD k 0 = m := by
  have : m ∈ (List.range r).map (perm.getD · 0) := h.mem_iff.mpr (by simpa using hm)
  rw [List.mem_map] at this
  obtain ⟨k, hk, rfl⟩ := this
  exact ⟨k, by simpa using hk, rfl⟩

theorem inShape_iff : ∀ (ns is : List Int), InShape ns is ↔ ns.length = is.length ∧
    ∀ m, m < ns.length → 0 ≤ is.getD m 0 ∧ is.getD m 0 < ns.getD m 0 := by
  intro ns
  induction ns with
  | nil => intro is; cases is <;> simp [InShape]
  | cons n ns ih =>
    intro is
    cases is with
    | nil => simp [InShape]
    | cons i is =>
      rw [InShape, ih is]
      constructor
      · rintro ⟨h1, h2, h3⟩
        refine ⟨by simp [h2], ?_⟩
        intro m hm
        cases m with
        | zero => simpa using h1
        | succ m =>
          have := h3 m (by simpa using hm)
          simpa using this
      · rintro ⟨h1, h2⟩
        refine ⟨by simpa using h2 0 (by simp), by simpa using h1, ?_⟩
        intro m hm
        have := h2 (m + 1) (by simpa using hm)
        simpa using this

/-- Coordinate `k` of a loop point. -/
def pget (p : Nat × Nat × Nat × Nat) (k : Nat) : Nat := [p.1, p.2.1, p.2.2.1, p.2.2.2].getD k 0

theorem idx4_getD {r k : Nat} (hr : r ≤ 4) (p : Nat × Nat × Nat × Nat) (hk : k < r) :
    (idx4 r p).getD k 0 = pget p k := by
  unfold idx4 pget
  have : k = 0 ∨ k = 1 ∨ k = 2 ∨ k = 3 := by omega
  rcases this with rfl | rfl | rfl | rfl <;>
    (rw [List.getD_eq_getElem?_getD, List.getElem?_take_of_lt hk]; simp)

/-- Input address of a loop point. -/
def permInAddr (inT : Tensor) (perm : PermCfg) (p : Nat × Nat × Nat × Nat) : Int :=
  inT.base + (p.1 * inT.gStride (permDim inT.dims.length perm 0) + p.2.1 * inT.gStride (permDim inT.dims.length perm 1)
    + p.2.2.1 * inT.gStride (permDim inT.dims.length perm 2) + p.2.2.2 * inT.gStride (permDim inT.dims.length perm 3))

theorem gStride_lt {t : Tensor} {k : Nat} (h : k < t.dims.length) : t.gStride k = t.strides.getD k 0 := by
  unfold Tensor.gStride Tensor.strides
  rw [List.getD_eq_getElem?_getD, List.getElem?_map]

theorem gStride_ge {t : Tensor} {k : Nat} (h : t.dims.length ≤ k) : t.gStride k = 0 := by
  unfold Tensor.gStride; rw [List.getElem?_eq_none h]; rfl

theorem gShape_lt {t : Tensor} {k : Nat} (h : k < t.dims.length) : t.gShape k = t.shape.getD k 0 := by
  unfold Tensor.gShape Tensor.shape
  rw [List.getD_eq_getElem?_getD, List.getElem?_map, List.getElem?_eq_getElem h]; rfl

theorem gShape_ge {t : Tensor} {k : Nat} (h : t.dims.length ≤ k) : t.gShape k = 1 := by
  unfold Tensor.gShape; rw [List.getElem?_eq_none h]; rfl

theorem sum4 (r : Nat) (hr : r ≤ 4) (f : Nat → Int) (h : ∀ k, r ≤ k → f k = 0) :
    f 0 + f 1 + f 2 + f 3 = ((List.range r).map f).sum := by
  have : r = 0 ∨ r = 1 ∨ r = 2 ∨ r = 3 ∨ r = 4 := by omega
  rcases this with rfl | rfl | rfl | rfl | rfl
  · rw [h 0, h 1, h 2, h 3] <;> simp
  · rw [h 1, h 2, h 3] <;> simp [List.range_succ]
  · rw [h 2, h 3] <;> simp [List.range_succ]
  · rw [h 3] <;> simp [List.range_succ, Int.add_assoc]
  · simp [List.range_succ, Int.add_assoc]

/-- The address computed from permuted strides is the address of the permuted multi-index. -/
theorem permInAddr_eq {inT : Tensor} {perm : PermCfg} (hr : inT.dims.length ≤ 4)
    (hp : ((List.range inT.dims.length).map (perm.getD · 0)).Perm (List.range inT.dims.length))
    (p : Nat × Nat × Nat × Nat) (is : List Int) (hl : is.length = inT.dims.length)
    (hrel : ∀ k, k < inT.dims.length → is.getD (perm.getD k 0) 0 = pget p k) :
    permInAddr inT perm p = inT.base + offset inT.strides is := by
  have hls : inT.strides.length = inT.dims.length := by simp [Tensor.strides]
  rw [offset_eq_sum _ _ (by omega), hls]
  unfold permInAddr
  congr 1
  have h4 := sum4 inT.dims.length hr (fun k => (pget p k : Int) * inT.gStride (permDim inT.dims.length perm k))
    (by intro k hk; unfold permDim; rw [if_neg (by omega), gStride_ge hk]; simp)
  have hlhs : ((p.1 : Int) * inT.gStride (permDim inT.dims.length perm 0) + p.2.1 * inT.gStride (permDim inT.dims.length perm 1)
    + p.2.2.1 * inT.gStride (permDim inT.dims.length perm 2) + p.2.2.2 * inT.gStride (permDim inT.dims.length perm 3)) =
    ((List.range inT.dims.length).map fun k => (pget p k : Int) * inT.gStride (permDim inT.dims.length perm k)).sum := by
    rw [← h4]; rfl
  rw [hlhs]
  have hmap := (hp.map (fun m => is.getD m 0 * inT.strides.getD m 0)).sum_eq
  rw [← hmap, List.map_map]
  congr 1
  apply List.map_congr_left
  intro k hk
  rw [List.mem_range] at hk
  have hlt : perm.getD k 0 < inT.dims.length := by
    have : perm.getD k 0 ∈ (List.range inT.dims.length).map (perm.getD · 0) :=
      List.mem_map.mpr ⟨k, by simpa using hk, rfl⟩
    simpa using hp.mem_iff.mp this
  simp only [Function.comp]
  rw [hrel k hk]
  unfold permDim
  rw [if_pos hk, gStride_lt hlt]

/-- The order of dimensions is a permutation, and the shapes agree. -/
def PermDims (inT outT : Tensor) (perm : PermCfg) : Prop :=
  ∀ k, k < inT.dims.length → perm.getD k 0 < inT.dims.length ∧ (∀ j, k < j → j < inT.dims.length → perm.getD j 0 ≠ perm.getD k 0) ∧
    outT.gShape k = inT.gShape (perm.getD k 0)

/-- Every output position has a source position. -/
theorem permDims_source (inT outT : Tensor) (perm : PermCfg) (hd : PermDims inT outT perm) (hrank : outT.dims.length = inT.dims.length)
    (js : List Int) (hj : InShape outT.shape js) :
    ∃ is, InShape inT.shape is ∧
      ∀ k, k < inT.dims.length → js.getD k 0 = is.getD (perm.getD k 0) 0 := by
  have hp := perm_isPerm (r := inT.dims.length) (fun k hk => (hd k hk).1)
    (fun i j hij hj => (hd i (by omega)).2.1 j hij hj)
  rw [inShape_iff] at hj
  have hlo : outT.shape.length = inT.dims.length := by simp [Tensor.shape, hrank]
  have hli : inT.shape.length = inT.dims.length := by simp [Tensor.shape]
  rw [hlo] at hj
  -- choose a preimage of every dimension
  have hsel : ∀ m, m < inT.dims.length → ∃ k, k < inT.dims.length ∧ perm.getD k 0 = m :=
    fun m hm => perm_surj hp hm
  let inv : Nat → Nat := fun m => if h : m < inT.dims.length then Classical.choose (hsel m h) else 0
  have hinv : ∀ m, m < inT.dims.length → inv m < inT.dims.length ∧ perm.getD (inv m) 0 = m := by
    intro m hm
    simp only [inv, dif_pos hm]
    exact Classical.choose_spec (hsel m hm)
  have hinv2 : ∀ k, k < inT.dims.length → inv (perm.getD k 0) = k := by
    intro k hk
    obtain ⟨a, b⟩ := hinv (perm.getD k 0) (hd k hk).1
    rcases Nat.lt_trichotomy (inv (perm.getD k 0)) k with h | h | h
    · exact absurd b.symm ((hd _ a).2.1 k h hk)
    · exact h
    · exact absurd b ((hd _ hk).2.1 _ h a)
  refine ⟨(List.range inT.dims.length).map (fun m => js.getD (inv m) 0), ?_, ?_⟩
  · rw [inShape_iff, hli]
    refine ⟨by simp, ?_⟩
    intro m hm
    obtain ⟨a, b⟩ := hinv m hm
    have hj2 := hj.2 (inv m) a
    have e : ((List.range inT.dims.length).map (fun m => js.getD (inv m) 0)).getD m 0 = js.getD (inv m) 0 := by
      rw [List.getD_eq_getElem?_getD, List.getElem?_map, List.getElem?_range hm]; rfl
    rw [e]
    refine ⟨hj2.1, ?_⟩
    have := (hd (inv m) a).2.2
    rw [b, gShape_lt (by omega), gShape_lt hm] at this
    rw [← this]; exact hj2.2
  · intro k hk
    have hlt := (hd k hk).1
    rw [List.getD_eq_getElem?_getD (l := List.map _ _), List.getElem?_map, List.getElem?_range hlt]
    simp only [Option.map_some, Option.getD_some]
    rw [hinv2 k hk]

theorem chkPermute_dims {inT outT : Tensor} {perm : PermCfg} {no : Bool} (hchk : chkPermute inT outT perm no = some .ok) : PermDims inT outT perm :=
  fun k hk => chkPermDim_ok (chkPermLoop_ok (chkPermute_ok hchk) k hk)

/-- Every output position has a source position. -/
theorem c13_source_exists (inT outT : Tensor) (perm : PermCfg) (no : Bool)
    (hchk : chkPermute inT outT perm no = some .ok) (hrank : outT.dims.length = inT.dims.length)
    (js : List Int) (hj : InShape outT.shape js) :
    ∃ is, InShape inT.shape is ∧
      ∀ k, k < inT.dims.length → js.getD k 0 = is.getD (perm.getD k 0) 0 :=
  permDims_source inT outT perm (chkPermute_dims hchk) hrank js hj

/-- The four pointer-driven loops are four loops with computed addresses. -/
theorem permuteCalc_eq (st : Nat → Int) (shape : Nat → Nat) (ostride : Nat → Int) (pd : Nat → Nat)
    (src : Buf) (ib : Int) (d : Buf) (ob : Int) :
    (permuteCalc st shape (outIncrement (fun k => (shape k : Int)) ostride) pd src ib (d, ob)).map (·.1) =
    forRange (shape 0) (fun a => forRange (shape 1) (fun b => forRange (shape 2) (fun c => forRange (shape 3)
      (fun e d => (src.rd (ib + (a * st (pd 0) + b * st (pd 1) + c * st (pd 2) + e * st (pd 3)))).bind
        (fun v => d.wr (ob + a * ostride 0 + b * ostride 1 + c * ostride 2 + e * ostride 3) v))))) d := by
  have i3 : outIncrement (fun k => (shape k : Int)) ostride 3 = ostride 3 := rfl
  have i2 : outIncrement (fun k => (shape k : Int)) ostride 2 = ostride 2 - ostride 3 * shape 3 := rfl
  have i1 : outIncrement (fun k => (shape k : Int)) ostride 1 = ostride 1 - ostride 2 * shape 2 := rfl
  have i0 : outIncrement (fun k => (shape k : Int)) ostride 0 = ostride 0 - ostride 1 * shape 1 := rfl
  unfold permuteCalc
  rw [i0, i1, i2, i3]
  rw [forRange_ptr (shape 0) _ (fun a p => forRange (shape 1) (fun b => forRange (shape 2) (fun c =>
    forRange (shape 3) (fun e d => (src.rd (ib + (a * st (pd 0) + b * st (pd 1) + c * st (pd 2) + e * st (pd 3)))).bind
        (fun v => d.wr (p + b * ostride 1 + c * ostride 2 + e * ostride 3) v))))) (ostride 0)]
  · simp only [Option.map_map]
    have : ((fun x : Buf × Int => x.1) ∘ fun s' => (s', ob + ↑(shape 0) * ostride 0)) = id := rfl
    rw [this, Option.map_id]; rfl
  · intro a _ s p
    rw [forRange_ptr (shape 1) _ (fun b p => forRange (shape 2) (fun c =>
      forRange (shape 3) (fun e d => (src.rd (ib + (a * st (pd 0) + b * st (pd 1) + c * st (pd 2) + e * st (pd 3)))).bind
        (fun v => d.wr (p + c * ostride 2 + e * ostride 3) v)))) (ostride 1)]
    · simp only [Option.bind_eq_bind, Option.pure_def, Option.bind_map]
      rw [Option.map_eq_bind]
      congr 1
      funext x
      simp only [Function.comp, Option.some.injEq, Prod.mk.injEq, true_and]
      ring
    · intro b _ s p
      rw [forRange_ptr (shape 2) _ (fun c p =>
        forRange (shape 3) (fun e d => (src.rd (ib + (a * st (pd 0) + b * st (pd 1) + c * st (pd 2) + e * st (pd 3)))).bind
          (fun v => d.wr (p + e * ostride 3) v))) (ostride 2)]
      · simp only [Option.bind_eq_bind, Option.pure_def, Option.bind_map]
        rw [Option.map_eq_bind]
        congr 1
        funext x
        simp only [Function.comp, Option.some.injEq, Prod.mk.injEq, true_and]
        ring
      · intro c _ s p
        rw [forRange_ptr (shape 3) _ (fun e p d =>
          (src.rd (ib + (a * st (pd 0) + b * st (pd 1) + c * st (pd 2) + e * st (pd 3)))).bind
            (fun v => d.wr p v)) (ostride 3)]
        · simp only [Option.bind_eq_bind, Option.pure_def, Option.bind_map]
          rw [Option.map_eq_bind]
          congr 1
          funext x
          simp only [Function.comp, Option.some.injEq, Prod.mk.injEq, true_and]
          ring
        · intro e _ s p
          simp only [Option.bind_eq_bind, Option.pure_def]
          cases src.rd (ib + (a * st (pd 0) + b * st (pd 1) + c * st (pd 2) + e * st (pd 3))) with
          | none => rfl
          | some v =>
            simp only [Option.bind_some]
            cases s.wr p v <;> rfl

/-! ## C13 -/

/-- `permuteRun` for tensors that are not checked. -/
theorem permute_laid (inT outT : Tensor) (perm : PermCfg) (src dst : Buf) (hr4 : inT.dims.length ≤ 4)
    (hib : ∀ is, InShape inT.shape is → 0 ≤ inT.base + offset inT.strides is ∧ inT.base + offset inT.strides is < src.size)
    (hob : ∀ is, InShape outT.shape is → 0 ≤ outT.base + offset outT.strides is ∧ outT.base + offset outT.strides is < dst.size)
    (hal : ∀ is js, InShape outT.shape is → InShape outT.shape js → offset outT.strides is = offset outT.strides js → is = js)
    (hsh : ∀ d ∈ outT.dims, 0 ≤ d.shape) (hrank : outT.dims.length = inT.dims.length) (hd : PermDims inT outT perm) :
    ∃ dst', permuteRun inT outT perm src dst = some dst' ∧ dst'.size = dst.size ∧
      (∀ is js, InShape inT.shape is → InShape outT.shape js →
        (∀ k, k < inT.dims.length → js.getD k 0 = is.getD (perm.getD k 0) 0) →
        dst'.get (outT.base + offset outT.strides js) = src.get (inT.base + offset inT.strides is)) ∧
      (∀ a, (∀ js, InShape outT.shape js → a ≠ outT.base + offset outT.strides js) →
        dst'.get a = dst.get a) := by
  have hp := perm_isPerm (r := inT.dims.length) (fun k hk => (hd k hk).1)
    (fun i j hij hj => (hd i (by omega)).2.1 j hij hj)
  have hro4 : outT.dims.length ≤ 4 := by omega
  -- the padded shape and strides are those of the rank-4 view
  have hosh : (fun k => if k < inT.dims.length then outT.gShape k else 1) = outT.gShape := by
    funext k
    by_cases hk : k < inT.dims.length
    · rw [if_pos hk]
    · rw [if_neg hk, gShape_ge (by omega)]
  have host : (fun k => if k < inT.dims.length then outT.gStride k else 0) = outT.gStride := by
    funext k
    by_cases hk : k < inT.dims.length
    · rw [if_pos hk]
    · rw [if_neg hk, gStride_ge (by omega)]
  have hshpos : ∀ k, 0 ≤ outT.gShape k := by
    intro k
    by_cases hk : k < outT.dims.length
    · unfold Tensor.gShape
      rw [List.getElem?_eq_getElem hk]
      have := hsh outT.dims[k] (List.getElem_mem hk)
      simp only [Option.map_some, Option.getD_some]; omega
    · rw [gShape_ge (by omega)]; decide
  have hcast : outT.gShape = fun k => ((outT.gShape k).toNat : Int) := by
    funext k; have := hshpos k; omega
  -- facts about a loop point
  have hpt : ∀ p ∈ outT.pts, ∃ is, InShape inT.shape is ∧ permInAddr inT perm p = inT.base + offset inT.strides is := by
    intro p hpm
    obtain ⟨a, b⟩ := pts_inShape hro4 hpm
    obtain ⟨is, h1, h2⟩ := permDims_source inT outT perm hd hrank _ a
    refine ⟨is, h1, ?_⟩
    have hl := inShape_length _ _ h1
    apply permInAddr_eq hr4 hp p is (by rw [← hl]; simp [Tensor.shape])
    intro k hk
    rw [← h2 k hk, hrank]
    exact idx4_getD hr4 p hk
  have haddr : ∀ p ∈ outT.pts, 0 ≤ outT.base + outT.addr4 p ∧ outT.base + outT.addr4 p < dst.size := by
    intro p hpm
    obtain ⟨a, b⟩ := pts_inShape hro4 hpm
    rw [← b]; exact hob _ a
  obtain ⟨dst', hrun, hst⟩ := nest4_stores (outT.gShape 0).toNat (outT.gShape 1).toNat (outT.gShape 2).toNat
    (outT.gShape 3).toNat
    (fun a b c e d => (src.rd (inT.base + (a * inT.gStride (permDim inT.dims.length perm 0)
        + b * inT.gStride (permDim inT.dims.length perm 1) + c * inT.gStride (permDim inT.dims.length perm 2)
        + e * inT.gStride (permDim inT.dims.length perm 3)))).bind
        (fun v => d.wr (outT.base + a * outT.gStride 0 + b * outT.gStride 1 + c * outT.gStride 2 + e * outT.gStride 3) v))
    (fun p => outT.base + outT.addr4 p) (fun p => src.get (permInAddr inT perm p)) dst
    (by
      intro p hpm d' _
      obtain ⟨is, h1, h2⟩ := hpt p hpm
      have hb := hib _ h1
      rw [← h2] at hb
      have hrd := Buf.rd_some hb
      unfold permInAddr at hrd
      rw [hrd, Option.bind_some]
      congr 1
      unfold Tensor.addr4; ring)
    haddr
    (by
      intro p hpm q hqm he
      obtain ⟨a, b⟩ := pts_inShape hro4 hpm
      obtain ⟨a', b'⟩ := pts_inShape hro4 hqm
      have heq : idx4 outT.dims.length p = idx4 outT.dims.length q := by
        apply hal _ _ a a'
        rw [b, b']; omega
      congr 1
      have hl1 : ∀ k, k < inT.dims.length → pget p k = pget q k := by
        intro k hk
        have h1 := idx4_getD (r := inT.dims.length) hr4 p hk
        have h2 := idx4_getD (r := inT.dims.length) hr4 q hk
        rw [← hrank, heq, hrank] at h1
        rw [h1] at h2; omega
      obtain ⟨is, h1, h2⟩ := permDims_source inT outT perm hd hrank _ a
      have hl := inShape_length _ _ h1
      have hli : is.length = inT.dims.length := by rw [← hl]; simp [Tensor.shape]
      have hrel : ∀ k, k < inT.dims.length → is.getD (perm.getD k 0) 0 = pget p k := by
        intro k hk; rw [← h2 k hk, hrank]; exact idx4_getD hr4 p hk
      rw [permInAddr_eq hr4 hp p is hli hrel,
        permInAddr_eq hr4 hp q is hli (fun k hk => by rw [hrel k hk, hl1 k hk])])
  refine ⟨dst', ?_, hst.size, ?_, ?_⟩
  · unfold permuteRun
    have hosh' : (fun k => (if k < inT.dims.length then outT.gShape k else 1).toNat) =
        fun k => (outT.gShape k).toNat := by
      funext k; exact congrArg Int.toNat (congrFun hosh k)
    simp only [hosh, host, hosh', Option.bind_eq_bind, Option.pure_def]
    have hcalc := permuteCalc_eq inT.gStride (fun k => (outT.gShape k).toNat) outT.gStride
      (permDim inT.dims.length perm) src inT.base dst outT.base
    rw [hrun] at hcalc
    conv at hcalc => lhs; rw [← hcast]
    have key : ∀ (x : Option (Buf × Int)), x.map (·.1) = some dst' →
        (x.bind fun s => some s.1) = some dst' := by
      intro x hx
      cases x with
      | none => simp at hx
      | some v => simp only [Option.map_some, Option.some.injEq] at hx; simp [hx]
    exact key _ hcalc
  · intro is js his hjs hrel
    obtain ⟨p, hpm, hidx⟩ := pts_onto hro4 hjs
    obtain ⟨a, b⟩ := pts_inShape hro4 hpm
    rw [← hidx, b, hst.hit p hpm]
    congr 1
    have hl := inShape_length _ _ his
    apply permInAddr_eq hr4 hp p is (by rw [← hl]; simp [Tensor.shape])
    intro k hk
    rw [← hrel k hk, ← hidx, hrank]
    exact idx4_getD hr4 p hk
  · intro a ha
    apply hst.frame
    intro p hpm
    obtain ⟨x, y⟩ := pts_inShape hro4 hpm
    rw [← y]
    exact fun he => ha _ x he.symm

/-- Permute is defined for every accepted pair of tensors, puts every element where the
permutation says, and writes nothing else. -/
theorem c13_permute (inT outT : Tensor) (perm : PermCfg) (src dst : Buf)
    (hi : inT.Valid src) (ho : outT.Valid dst) (hrank : outT.dims.length = inT.dims.length)
    (hchk : chkPermute inT outT perm true = some .ok) :
    ∃ dst', permute inT outT perm true src dst = some (.ok, dst') ∧ dst'.size = dst.size ∧
      (∀ is js, InShape inT.shape is → InShape outT.shape js →
        (∀ k, k < inT.dims.length → js.getD k 0 = is.getD (perm.getD k 0) 0) →
        dst'.get (outT.base + offset outT.strides js) = src.get (inT.base + offset inT.strides is)) ∧
      (∀ a, (∀ js, InShape outT.shape js → a ≠ outT.base + offset outT.strides js) →
        dst'.get a = dst.get a) := by
  obtain ⟨dst', h1, h2⟩ := permute_laid inT outT perm src dst hi.rank (fun _ h => hi.inBounds h) (fun _ h => ho.inBounds h)
    (fun _ _ a b e => c09_accepted_no_alias outT ho.accepted _ _ a b e) (fun d h => by have := ho.shape_pos d h; omega) hrank (chkPermute_dims hchk)
  refine ⟨dst', ?_, h2⟩
  unfold permute
  rw [hchk]
  simp only [Option.bind_eq_bind, Option.bind_some, ne_eq, not_true_eq_false, if_false, Option.pure_def]
  rw [h1]
  rfl

/-- **Violation**: the output rank is never compared with the input rank; an output tensor of
larger rank is accepted and keeps elements that were never written. -/
theorem c13_rank_unchecked : ∃ (inT outT : Tensor) (perm : PermCfg),
    inT.WellTyped ∧ outT.WellTyped ∧ chkPermute inT outT perm true = some .ok ∧
    ∀ (src dst : Buf), src.size = 2 → dst.size = 4 →
      ∃ dst', permute inT outT perm true src dst = some (.ok, dst') ∧
        ∃ js, InShape outT.shape js ∧
          dst'.get (outT.base + offset outT.strides js) = dst.get (outT.base + offset outT.strides js) := by
  refine ⟨{ dims := [⟨2, 1⟩], cap := 2, es := 1 }, { dims := [⟨2, 2⟩, ⟨2, 1⟩], cap := 4, es := 1 }, [0],
    by decide, by decide, by decide, ?_⟩
  intro src dst hs hd
  refine ⟨{ size := dst.size, get := fun x => if x = 2 then src.get 1 else if x = 0 then src.get 0 else dst.get x },
    ?_, [1, 1], by decide, by simp [Tensor.strides, offset]⟩
  have hc : chkPermute { dims := [⟨2, 1⟩], cap := 2, es := 1 } { dims := [⟨2, 2⟩, ⟨2, 1⟩], cap := 4, es := 1 } [0] true
      = some .ok := by decide
  unfold permute
  rw [hc]
  simp [permuteRun, permuteCalc, forRange, Tensor.gShape, Tensor.gStride, outIncrement, permDim, Buf.rd, Buf.wr, hs, hd]

example : let a : Tensor := { dims := [⟨2, 4⟩, ⟨3, 1⟩], cap := 7, es := 1 }
    let b : Tensor := { dims := [⟨3, 2⟩, ⟨2, 1⟩], cap := 6, es := 1 }
    chkPermute a b [1, 0] true = some .ok ∧ a.WellTyped ∧ b.WellTyped ∧ a.footprint ≤ int32Max ∧
    a.Fits (Buf.ofList [1, 2, 3, 0, 4, 5, 6]) ∧ b.Fits (Buf.ofList [0, 0, 0, 0, 0, 0]) ∧
    ((permute a b [1, 0] true (Buf.ofList [1, 2, 3, 0, 4, 5, 6]) (Buf.ofList [0, 0, 0, 0, 0, 0])).map
      fun r => r.2.toList) = some [1, 4, 2, 5, 3, 6] := by decide

/-! ## C14 -/

/-- Permuting with `P` and then with the inverse of `P` restores every element. -/
theorem c14_permute_inverse (aT bT cT : Tensor) (P Q : PermCfg) (a b c : Buf)
    (ha : aT.Valid a) (hb : bT.Valid b) (hc : cT.Valid c)
    (hr1 : bT.dims.length = aT.dims.length) (hr2 : cT.dims.length = bT.dims.length)
    (h1 : chkPermute aT bT P true = some .ok) (h2 : chkPermute bT cT Q true = some .ok)
    (hinv : ∀ k, k < aT.dims.length → Q.getD (P.getD k 0) 0 = k) :
    ∃ b' c', permute aT bT P true a b = some (.ok, b') ∧ permute bT cT Q true b' c = some (.ok, c') ∧
      ∀ is, InShape aT.shape is → InShape cT.shape is ∧
        c'.get (cT.base + offset cT.strides is) = a.get (aT.base + offset aT.strides is) := by
  obtain ⟨b', e1, s1, g1, f1⟩ := c13_permute aT bT P a b ha hb hr1 h1
  have hb' : bT.Valid b' := ⟨hb.typed, hb.small, hb.accepted, by
    obtain ⟨x, y⟩ := hb.fits; exact ⟨x, by rw [s1]; exact y⟩⟩
  obtain ⟨c', e2, s2, g2, f2⟩ := c13_permute bT cT Q b' c hb' hc hr2 h2
  refine ⟨b', c', e1, e2, ?_⟩
  have hd := fun k hk => chkPermDim_ok (chkPermLoop_ok (chkPermute_ok h1) k hk)
  have hd2 := fun k hk => chkPermDim_ok (chkPermLoop_ok (chkPermute_ok h2) k hk)
  have hp := perm_isPerm (r := aT.dims.length) (fun k hk => (hd k hk).1)
    (fun i j hij hj => (hd i (by omega)).2.1 j hij hj)
  have hinv' : ∀ m, m < aT.dims.length → P.getD (Q.getD m 0) 0 = m := by
    intro m hm
    obtain ⟨k, hk, rfl⟩ := perm_surj hp hm
    rw [hinv k hk]
  have hQ : ∀ m, m < aT.dims.length → Q.getD m 0 < aT.dims.length := by
    intro m hm; have := (hd2 m (by omega)).1; omega
  intro is his
  have hli : aT.shape.length = aT.dims.length := by simp [Tensor.shape]
  have hlb : bT.shape.length = aT.dims.length := by simp [Tensor.shape, hr1]
  have hlc : cT.shape.length = aT.dims.length := by simp [Tensor.shape]; omega
  have his' := his
  rw [inShape_iff, hli] at his'
  -- the intermediate multi-index
  let js : List Int := (List.range aT.dims.length).map (fun k => is.getD (P.getD k 0) 0)
  have hjget : ∀ k, k < aT.dims.length → js.getD k 0 = is.getD (P.getD k 0) 0 := by
    intro k hk
    simp only [js]
    rw [List.getD_eq_getElem?_getD, List.getElem?_map, List.getElem?_range hk]; rfl
  have hjs : InShape bT.shape js := by
    rw [inShape_iff, hlb]
    refine ⟨by simp [js], ?_⟩
    intro k hk
    rw [hjget k hk]
    obtain ⟨x, y, z⟩ := hd k hk
    have := his'.2 _ x
    rw [gShape_lt (by omega), gShape_lt x] at z
    rw [z]; exact this
  have hcs : InShape cT.shape is := by
    rw [inShape_iff, hlc]
    refine ⟨his'.1, ?_⟩
    intro m hm
    have h3 := his'.2 m hm
    have z := (hd2 m (by omega)).2.2
    have z2 := (hd _ (hQ m hm)).2.2
    rw [gShape_lt (by omega), gShape_lt (by have := hQ m hm; omega)] at z
    rw [hinv' m hm, gShape_lt (by have := hQ m hm; omega), gShape_lt (by omega)] at z2
    rw [z, z2]; exact h3
  refine ⟨hcs, ?_⟩
  rw [g2 js is hjs hcs ?_, g1 is js his hjs hjget]
  intro k hk
  rw [hr1] at hk
  rw [hjget _ (hQ k hk), hinv' k hk]

example : let a : Tensor := { dims := [⟨2, 3⟩, ⟨3, 1⟩, ⟨1, 1⟩], cap := 6, es := 1 }
    let b : Tensor := { dims := [⟨3, 2⟩, ⟨1, 2⟩, ⟨2, 1⟩], cap := 6, es := 1 }
    chkPermute a b [1, 2, 0] true = some .ok ∧ chkPermute b a [2, 0, 1] true = some .ok ∧
    (∀ k, k < 3 → [2, 0, 1].getD ([1, 2, 0].getD k 0) 0 = k) := by decide

/-! ## C47 -/

/-- If the overlap check answers "not overlapped" then the two byte ranges are disjoint.
(`none`, an overflow of the 32-bit address sums, is excluded; `c47_overflow_violated` shows what a
wrapping implementation answers there.) -/
theorem c47_not_overlapped_sound (p1 c1 p2 c2 : Int) (hc1 : 0 ≤ c1 ∧ c1 ≤ int32Max)
    (hc2 : 0 ≤ c2 ∧ c2 ≤ int32Max)
    (h : containersNotOverlapped p1 c1 p2 c2 = some true)
    (h' : InRange 32 (wrap 32 p1 + c1)) :
    ∀ x, ¬ ((p1 ≤ x ∧ x < p1 + c1) ∧ (p2 ≤ x ∧ x < p2 + c2)) := by
  have w1 : wrap 32 c1 = c1 := wrap_of_inRange (by omega) ⟨by
    rw [show lo 32 = -2147483648 by decide]; omega, hc1.2⟩
  have w2 : wrap 32 c2 = c2 := wrap_of_inRange (by omega) ⟨by
    rw [show lo 32 = -2147483648 by decide]; omega, hc2.2⟩
  unfold containersNotOverlapped at h
  rw [w1, w2] at h
  simp only [Option.bind_eq_bind, Option.bind_eq_some_iff, ckd_eq_some] at h
  obtain ⟨e2, ⟨hr2, rfl⟩, h⟩ := h
  have key : wrap 32 p1 ≥ wrap 32 p2 + c2 ∨ wrap 32 p2 ≥ wrap 32 p1 + c1 := by
    split at h
    · rename_i h3; exact Or.inl h3
    · simp only [Option.bind_eq_some_iff, ckd_eq_some] at h
      obtain ⟨e1, ⟨_, rfl⟩, h⟩ := h
      simp only [Option.pure_def, Option.some.injEq, decide_eq_true_eq] at h
      exact Or.inr h
  have m1 := wrap_emod 32 p1
  have m2 := wrap_emod 32 p2
  have b1 := wrap_inRange (w := 32) p1
  have b2 := wrap_inRange (w := 32) p2
  unfold InRange at b1 b2 hr2 h'
  rw [show lo 32 = -2147483648 by decide, show Spec.hi 32 = 2147483647 by decide] at b1 b2 hr2 h'
  rintro x ⟨⟨a1, a2⟩, a3, a4⟩
  generalize wrap 32 p1 = q1 at *
  generalize wrap 32 p2 = q2 at *
  unfold int32Max at hc1 hc2
  norm_num at m1 m2
  omega

/-- **Violation**: with wrapping address sums the check declares overlapping buffers disjoint. -/
theorem c47_overflow_violated : ∃ (p1 c1 p2 c2 x : Int), containersNotOverlapped p1 c1 p2 c2 = none ∧
    wrap 32 p1 ≥ wrap 32 (wrap 32 p2 + c2) ∧ (p1 ≤ x ∧ x < p1 + c1) ∧ (p2 ≤ x ∧ x < p2 + c2) :=
  ⟨2147483638, 100, 2147483643, 50, 2147483645, by decide, by decide, by decide, by decide⟩

example : containersNotOverlapped 1000 16 1016 32 = some true ∧ InRange 32 (wrap 32 1000 + 16) ∧
    containersNotOverlapped 1000 17 1016 32 = some false := by decide

end Mli
