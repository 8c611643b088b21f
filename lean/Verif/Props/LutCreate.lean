import Verif.Model.LutCreate
import Verif.Props.Lut
import Verif.Props.View

/-! # C82: creation of look-up tables -/

namespace Mli

open Spec

/-! ## Specification -/

/-- Two tables that no lookup can tell apart: the same parameters and the same entries. -/
structure SameTable (l l' : Lut) : Prop where
  length : l.length = l'.length
  inFrac : l.inFrac = l'.inFrac
  outFrac : l.outFrac = l'.outFrac
  inOffset : l.inOffset = l'.inOffset
  entries : ∀ i, 0 ≤ i → i < l'.length → l.data.rd i = l'.data.rd i

/-- All kernels that take a table give the same status and the same results with both tables. -/
structure SameKernels (l l' : Lut) : Prop where
  activationFx : ∀ m w f tin tout mem, krnActivationFx m l w f tin tout mem = krnActivationFx m l' w f tin tout mem
  activationSa : ∀ m off scale shift oo os tin tout mem,
    krnActivationSa m l off scale shift oo os tin tout mem = krnActivationSa m l' off scale shift oo os tin tout mem
  softmaxFx : ∀ m w f axis tin tout mem, krnSoftmaxFx m l w f axis tin tout mem = krnSoftmaxFx m l' w f axis tin tout mem
  softmaxSa : ∀ m q axis tin tout mem, krnSoftmaxSa m l q axis tin tout mem = krnSoftmaxSa m l' q axis tin tout mem
  l2Fx16 : ∀ m axis tin tout mem, krnL2NormFx16 m l axis tin tout mem = krnL2NormFx16 m l' axis tin tout mem
  l2Sa8 : ∀ m q axis tin tout mem, krnL2NormSa8 m l q axis tin tout mem = krnL2NormSa8 m l' q axis tin tout mem

/-! ## Lemmas -/

theorem boundRange_in {x n : Int} (hn : 0 ≤ n) : 0 ≤ boundRangeFx x 0 n ∧ boundRangeFx x 0 n ≤ n := by
  unfold boundRangeFx maxFx minFx
  split <;> split <;> omega

theorem lutInterp_same {l l' : Lut} (h : SameTable l l') (h2 : 2 ≤ l'.length) (m : Rnd) (f v : Int) :
    lutInterp m l f v = lutInterp m l' f v := by
  unfold lutInterp
  simp only []
  rw [h.length, h.inFrac, h.inOffset]
  split
  · rfl
  · have hb := boundRange_in (x := addFx 32 (asrFx 32 (asrFx 32 v (minFx (maxFx (f - l'.inFrac - 15) 0) 15)) (minFx (f - l'.inFrac) 15))
      l'.inOffset) (n := l'.length - 2) (by omega)
    rw [h.entries _ hb.1 (by omega), h.entries _ (by omega) (by omega)]

theorem lutPlain_same {l l' : Lut} (h : SameTable l l') (h2 : 2 ≤ l'.length) (f v : Int) :
    lutPlain l f v = lutPlain l' f v := by
  unfold lutPlain
  simp only []
  rw [h.length, h.inFrac, h.inOffset]
  have hb := boundRange_in (x := addFx 32 (aslFx 32 v (-(minFx (f - l'.inFrac) 15))) l'.inOffset)
    (n := l'.length - 1) (by omega)
  exact h.entries _ hb.1 (by omega)

theorem sameKernels_of {l l' : Lut} (h : SameTable l l') (h2 : 2 ≤ l'.length) : SameKernels l l' := by
  have e1 : ∀ m, lutInterp m l = lutInterp m l' := fun m => by funext f v; exact lutInterp_same h h2 m f v
  have e2 : lutPlain l = lutPlain l' := by funext f v; exact lutPlain_same h h2 f v
  have e3 : ∀ m, lutOutput m l = lutOutput m l' := fun m => by
    funext co r; unfold lutOutput; rw [h.outFrac]
  have e4 : lutFrac l = lutFrac l' := by funext ci f; unfold lutFrac; rw [h.inFrac]
  have e5 : ∀ m, lutInput0 m l = lutInput0 m l' := fun m => by funext ci v; unfold lutInput0; rw [h.inFrac]
  have e6 : lutInterpolates l = lutInterpolates l' := by
    funext ci f; unfold lutInterpolates; rw [e4, h.inFrac]
  have e7 : ∀ m, lutElem m l = lutElem m l' := fun m => by
    funext ci co f v; unfold lutElem; rw [e1, e2, e3, e4, e5, e6]
  have e8 : ∀ m, activationLut m l = activationLut m l' := fun m => by
    funext ci co f tin tout mem; unfold activationLut; rw [e7]
  have e9 : ∀ m, softmaxFxSlice m l = softmaxFxSlice m l' := fun m => by
    funext w f g sq bi bo d; unfold softmaxFxSlice; rw [e7, h.outFrac]
  have e10 : ∀ m, softmaxExpSa m l = softmaxExpSa m l' := fun m => by
    funext sc sh mx v; unfold softmaxExpSa; rw [e1, e3, e4]
  have e11 : ∀ m, softmaxSaSlice m l = softmaxSaSlice m l' := fun m => by
    funext sc sh sq bi bo d; unfold softmaxSaSlice; rw [e10, h.outFrac]
  have e12 : ∀ m, l2Slice m l = l2Slice m l' := fun m => by
    funext w zp os axis ds bi bo d; unfold l2Slice; rw [e1, e3, h.outFrac]
  constructor
  · intro m w f tin tout mem; unfold krnActivationFx; rw [e8]
  · intro m off scale shift oo os tin tout mem; unfold krnActivationSa; rw [e8]
  · intro m w f axis tin tout mem; unfold krnSoftmaxFx; rw [e9]
  · intro m q axis tin tout mem; unfold krnSoftmaxSa; rw [e11]
  · intro m axis tin tout mem; unfold krnL2NormFx16; rw [e12]
  · intro m q axis tin tout mem; unfold krnL2NormSa8; rw [e12]

theorem createLut_ok {t : Lut} (ht : 2 ≤ t.length ∧ t.data.size = t.length ∧ lutSize t < 2 ^ 31) {u : LutDesc} {mem : Buf}
    (hc : lutSize t ≤ u.capacity) (hc2 : u.capacity < 2 ^ 31)
    (hp : 0 ≤ u.ptr) (hm : u.capacity ≤ 2 * (mem.size - u.ptr)) :
    ∃ u' mem', createLut t u mem = some (.ok, u', mem') ∧ u'.ptr = u.ptr ∧ u'.capacity = u.capacity ∧ u'.typ = elFx16 ∧
      SameTable (u'.lut mem') t ∧ mem'.size = mem.size ∧
      ∀ a, (a < u.ptr ∨ u.ptr + t.length ≤ a) → mem'.get a = mem.get a := by
  obtain ⟨t2, t3, t4⟩ := ht
  have hl : lutSize t = t.length * 2 := rfl
  obtain ⟨d, h1, h2⟩ := forRange_inv (n := t.length.toNat) (f := fun i d => do
      let v ← t.data.rd i
      d.wr (u.ptr + i) v) (s := mem)
    (fun n d => d.size = mem.size ∧ (∀ i : Int, 0 ≤ i → i < n → d.get (u.ptr + i) = t.data.get i) ∧
      ∀ a, (a < u.ptr ∨ u.ptr + n ≤ a) → d.get a = mem.get a)
    ⟨rfl, fun i h1 h2 => by omega, fun a _ => rfl⟩
    (by
      intro i d hi ⟨p1, p2, p3⟩
      refine ⟨{ d with get := fun x => if x = u.ptr + i then t.data.get i else d.get x }, ?_, p1, ?_, ?_⟩
      · simp only [Option.bind_eq_bind]
        rw [Buf.rd_some (by omega), Option.bind_some]
        unfold Buf.wr
        rw [if_pos (by omega)]
      · intro j h1 h2
        show (if u.ptr + j = u.ptr + i then t.data.get i else d.get (u.ptr + j)) = _
        split
        · rename_i e; rw [show (i : Int) = j by omega]
        · exact p2 j h1 (by omega)
      · intro a ha
        show (if a = u.ptr + i then t.data.get i else d.get a) = _
        rw [if_neg (by omega)]
        exact p3 a (by omega))
  obtain ⟨p1, p2, p3⟩ := h2
  refine ⟨{ u with typ := elFx16, inFrac := t.inFrac, length := t.length, inOffset := t.inOffset, outOffset := 0, outFrac := t.outFrac },
    d, ?_, rfl, rfl, rfl, ?_, p1, ?_⟩
  rotate_left
  · refine ⟨rfl, rfl, rfl, rfl, ?_⟩
    intro i h1 h2
    rw [Buf.rd_some (b := t.data) (by omega)]
    show (if 0 ≤ i ∧ i < d.size - u.ptr then some (d.get (u.ptr + i)) else none) = _
    rw [if_pos (by omega), p2 i h1 (by omega)]
  · intro a ha
    exact p3 a (by omega)
  · have hk : chkLut { u with typ := elFx16 } (lutSize t) = .ok := by
      unfold chkLut
      rw [if_pos]
      show wrap 32 u.capacity ≥ lutSize t
      rw [wrap_of_inRange (by omega) (by
        have e1 : lo 32 = -2147483648 := by decide
        have e2 : hi 32 = 2147483647 := by decide
        unfold InRange; rw [e1, e2]; omega)]
      exact hc
    unfold createLut
    simp only [hk]
    simp only [ne_eq, not_true, if_false]
    rw [h1]
    rfl

/-- What a pair of functions `get_lut_size` and `create_lut` has to do for table `t`: with memory of the
reported size the table is created and nothing else is written, all kernels behave with it as with the library's
table; with less memory (or a capacity that is no positive `int`) the creation is refused and no memory is
touched. -/
structure Creates (size : Int) (create : LutDesc → Buf → Option (Status × LutDesc × Buf)) (t : Lut) : Prop where
  created : ∀ u mem, size ≤ u.capacity → u.capacity < 2 ^ 31 → 0 ≤ u.ptr → u.capacity ≤ 2 * (mem.size - u.ptr) →
    ∃ u' mem', create u mem = some (.ok, u', mem') ∧ u'.ptr = u.ptr ∧ u'.capacity = u.capacity ∧ u'.typ = elFx16 ∧
      SameTable (u'.lut mem') t ∧ SameKernels (u'.lut mem') t ∧ mem'.size = mem.size ∧
      ∀ a, (a < u.ptr ∨ u.ptr + t.length ≤ a) → mem'.get a = mem.get a
  refused : ∀ u mem, (u.capacity < size ∨ 2 ^ 31 ≤ u.capacity) → 0 ≤ u.capacity → u.capacity < 2 ^ 32 →
    ∃ u', create u mem = some (.notEnghMem, u', mem) ∧ u'.ptr = u.ptr ∧ u'.capacity = u.capacity

/-! ## Property -/

theorem creates_of {t : Lut} (hf : 2 ≤ t.length ∧ t.data.size = t.length ∧ lutSize t < 2 ^ 31) :
    Creates (lutSize t) (createLut t) t := by
  constructor
  · intro u mem hc hc2 hp hm
    obtain ⟨u', mem', h1, h2, h3, h3', h4, h5, h6⟩ := createLut_ok hf hc hc2 hp hm
    exact ⟨u', mem', h1, h2, h3, h3', h4, sameKernels_of h4 hf.1, h5, h6⟩
  · intro u mem hc hc0 hc32
    have hl : lutSize t = t.length * 2 := rfl
    refine ⟨{ u with typ := elFx16 }, ?_, rfl, rfl⟩
    have hk : chkLut { u with typ := elFx16 } (lutSize t) = .notEnghMem := by
      unfold chkLut
      rw [if_neg]
      show ¬ wrap 32 u.capacity ≥ lutSize t
      have h1 : InRange 32 (wrap 32 u.capacity) := wrap_inRange _
      have h2 : u32 (wrap 32 u.capacity) = u32 u.capacity := Cs.u32_wrap _
      have e1 : lo 32 = -2147483648 := by decide
      have e2 : hi 32 = 2147483647 := by decide
      unfold InRange at h1
      unfold u32 at h2
      rw [e1, e2] at h1
      omega
    unfold createLut
    simp only [hk]
    rfl

/-- The four pairs of functions do this for their tables, of 320, 344, 358 and 97 entries of two bytes. -/
theorem c82_create_lut :
    Creates sigmGetLutSize sigmCreateLut sigmoidLut ∧ Creates tanhGetLutSize tanhCreateLut tanhLut ∧
    Creates softmaxGetLutSize softmaxCreateLut expnegLut ∧ Creates l2GetLutSize l2CreateLut invsqrtLut ∧
    (sigmGetLutSize, tanhGetLutSize, softmaxGetLutSize, l2GetLutSize) = (640, 688, 716, 194) := by
  refine ⟨creates_of ?_, creates_of ?_, creates_of ?_, creates_of ?_, ?_⟩ <;> decide +kernel

/-- The hypotheses are met: the table of the L2 normalisation in 100 elements of memory, at element 2. -/
example : (createLut invsqrtLut ⟨2, 194, 0, 0, 0, 0, 0, 0⟩ (Buf.ofList (List.replicate 100 7))).map
    (fun r => (r.1, r.2.1.length, r.2.1.inOffset, r.2.2.toList.take 4, r.2.2.get 98, r.2.2.get 99)) =
    some (.ok, 97, -32, [7, 7, 23170, 22817], 11585, 7) := by decide +kernel

end Mli
