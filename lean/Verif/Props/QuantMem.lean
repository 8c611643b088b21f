import Verif.Spec.QuantMem
import Verif.Props.Tensor
import Verif.Props.PointSub
import Verif.Props.Rescale
import Mathlib.Tactic.NormNum

/-! # C97: sub-tensors stand for the same numbers -/

namespace Mli

open Spec

/-! ## The quantized dimension of a sub-tensor -/

theorem subAxis_kept : ∀ (sizes offs : List Int) (k j : Nat) (i o : Int), j < sizes.length → offs.length = sizes.length →
    KeepsDim sizes k j → ∃ m : Nat, subAxis (i + j) k i o sizes offs = (o + m, offs.getD j 0) ∧
      ∀ is : List Int, is.length = sizes.length → m < (dropOnes k sizes is).length ∧ (dropOnes k sizes is).getD m 0 = is.getD j 0 := by
  intro sizes
  induction sizes with
  | nil => intro offs k j i o h; simp at h
  | cons n ns ih =>
    intro offs k j i o hj hl hk
    match offs, hl with
    | f :: fs, hl =>
    simp only [List.length_cons, Nat.add_right_cancel_iff] at hl
    unfold subAxis
    by_cases hd : (k : Int) > 0 ∧ n = 1
    · rw [if_pos hd]
      obtain ⟨k', rfl⟩ : ∃ k', k = k' + 1 := ⟨k - 1, by omega⟩
      obtain ⟨j', rfl⟩ : ∃ j', j = j' + 1 := by
        refine ⟨j - 1, ?_⟩
        rcases Nat.eq_zero_or_pos j with h | h
        · subst h
          rcases hk with h | h
          · exact absurd hd.2 (by simpa using h)
          · simp at h
        · omega
      have hk' : KeepsDim ns k' j' := by
        rcases hk with h | h
        · exact .inl (by simpa using h)
        · right
          rw [List.take_succ_cons, List.count_cons, hd.2] at h
          simpa using h
      obtain ⟨m, e, hm⟩ := ih fs k' j' (i + 1) o (by simpa using hj) hl hk'
      refine ⟨m, ?_, ?_⟩
      · rw [show ((k' + 1 : Nat) : Int) - 1 = k' by omega, show i + ((j' + 1 : Nat) : Int) = i + 1 + j' by omega, e]
        rfl
      · intro is his
        match is, his with
        | x :: xs, his =>
        rw [dropOnes_cons, if_pos hd.2]
        exact hm xs (by simpa using his)
    · rw [if_neg hd]
      have hdrop : ∀ (x : Int) (xs : List Int), dropOnes k (n :: ns) (x :: xs) = x :: dropOnes k ns xs := by
        intro x xs
        match k, hd with
        | 0, _ => rw [dropOnes_zero, dropOnes_zero]
        | k' + 1, hd => rw [dropOnes_cons, if_neg (fun h => hd ⟨by omega, h⟩)]
      match j, hj, hk with
      | 0, _, _ =>
        rw [if_pos (by simp)]
        refine ⟨0, by simp, ?_⟩
        intro is his
        match is, his with
        | x :: xs, his => rw [hdrop]; exact ⟨by simp, rfl⟩
      | j' + 1, hj, hk =>
        rw [if_neg (by omega)]
        have hk' : KeepsDim ns k j' := by
          rcases hk with h | h
          · exact .inl (by simpa using h)
          · right
            rw [List.take_succ_cons, List.count_cons] at h
            by_cases hn : n = 1
            · have : k = 0 := by
                by_contra hk0
                exact hd ⟨by omega, hn⟩
              omega
            · rwa [if_neg (by simpa using hn), Nat.add_zero] at h
        obtain ⟨m, e, hm⟩ := ih fs k j' (i + 1) (o + 1) (by simpa using hj) hl hk'
        refine ⟨m + 1, ?_, ?_⟩
        · rw [show i + ((j' + 1 : Nat) : Int) = i + 1 + j' by omega, e]
          simp only [List.getD_cons_succ, Prod.mk.injEq, and_true]
          push_cast
          omega
        · intro is his
          match is, his with
          | x :: xs, his =>
          obtain ⟨h1, h2⟩ := hm xs (by simpa using his)
          rw [hdrop, List.getD_cons_succ, h2, List.getD_cons_succ]
          exact ⟨by simpa using h1, rfl⟩

theorem subAxis_dropped : ∀ (sizes offs : List Int) (k j : Nat) (i o : Int), j < sizes.length → offs.length = sizes.length →
    ¬ KeepsDim sizes k j → subAxis (i + j) k i o sizes offs = (-1, 0) := by
  intro sizes
  induction sizes with
  | nil => intro offs k j i o h; simp at h
  | cons n ns ih =>
    intro offs k j i o hj hl hk
    match offs, hl with
    | f :: fs, hl =>
    simp only [List.length_cons, Nat.add_right_cancel_iff] at hl
    unfold KeepsDim at hk
    rw [not_or, not_not] at hk
    obtain ⟨hk1, hk2⟩ := hk
    have past : ∀ (ns fs : List Int) (k i' o : Int), i + j < i' → subAxis (i + j) k i' o ns fs = (-1, 0) := by
      intro ns
      induction ns with
      | nil => intro fs k i' o _; unfold subAxis; rfl
      | cons n ns ih =>
        intro fs k i' o h
        match fs with
        | [] => rfl
        | f :: fs =>
          unfold subAxis
          rw [ih fs (k - 1) (i' + 1) o (by omega), if_neg (show ¬ i + (j : Int) = i' by omega), ih fs k (i' + 1) (o + 1) (by omega)]
          simp
    unfold subAxis
    match j, hj, hk1, hk2, past with
    | 0, _, hk1, hk2, past =>
      simp only [List.take_zero, List.count_nil, Nat.not_le] at hk2
      rw [if_pos ⟨by omega, by simpa using hk1⟩]
      exact past _ _ _ _ _ (by omega)
    | j' + 1, hj, hk1, hk2, past =>
      rw [List.take_succ_cons, List.count_cons] at hk2
      by_cases hd : (k : Int) > 0 ∧ n = 1
      · rw [if_pos hd]
        obtain ⟨k', rfl⟩ : ∃ k', k = k' + 1 := ⟨k - 1, by omega⟩
        rw [show ((k' + 1 : Nat) : Int) - 1 = k' by omega, show i + ((j' + 1 : Nat) : Int) = i + 1 + j' by omega]
        apply ih fs k' j' (i + 1) o (by simpa using hj) hl
        rintro (h | h)
        · exact h (by simpa using hk1)
        · rw [if_pos (by simpa using hd.2)] at hk2; omega
      · rw [if_neg hd, if_neg (by omega), show i + ((j' + 1 : Nat) : Int) = i + 1 + j' by omega]
        apply ih fs k j' (i + 1) (o + 1) (by simpa using hj) hl
        rintro (h | h)
        · exact h (by simpa using hk1)
        · omega

theorem addIdx_getD : ∀ (os is : List Int) (j : Nat), j < os.length → os.length = is.length →
    (addIdx os is).getD j 0 = os.getD j 0 + is.getD j 0 := by
  intro os
  induction os with
  | nil => intro is j h; simp at h
  | cons a as ih =>
    intro is j hj hl
    match is, hl with
    | b :: bs, hl =>
    match j, hj with
    | 0, _ => rfl
    | j + 1, hj =>
      show (addIdx as bs).getD j 0 = as.getD j 0 + bs.getD j 0
      exact ih bs j (by simpa using hj) (by simpa using hl)

/-- The parameters `p` with arrays at other addresses and another dimension. -/
def SaMem.moveTo (p : SaMem) (m z s f : Int) : SaMem :=
  { dim := m, zp := ⟨p.zp.cap, .ptr (some z)⟩, scale := ⟨p.scale.cap, .ptr (some s)⟩, frac := ⟨p.frac.cap, .ptr (some f)⟩ }

theorem number_eq {data pm : Buf} {t : Tensor} {p : SaMem} {is : List Int} {x z s f : Int} {v : ℚ}
    (hx : data.rd (t.base + offset t.strides is) = some x) (hz : entry pm p.dim p.zp is = some z) (hs : entry pm p.dim p.scale is = some s)
    (hf : entry pm p.dim p.frac is = some f) (hv : ((x - z : Int) : ℚ) * s * (2 : ℚ) ^ (-f) = v) : number data pm t p is = some v := by
  unfold number
  rw [hx, hz, hs, hf]
  exact congrArg some hv

/-! ## The property -/

/-- **C97.** The sub-tensor of an asymmetric tensor describes the same numbers: the element at index `is` of the window stands for
the number the element at `offset + is` of the parent stands for, for per-tensor quantization and for per-axis quantization
along a dimension the sub-tensor keeps.  (A dropped quantized dimension: `c97_dropped_violated`.) -/
theorem c97_same_numbers_partial (t out : Tensor) (c : SubCfg) (p : SaMem) (data pm : Buf) (hs : c.Sane t) (hp : ParOk t p pm)
    (hk : p.dim < 0 ∨ KeepsDim c.sizes (t.dims.length - c.rank) p.dim.toNat)
    (h : createSubtensor t c = some (.ok, out)) :
    ∃ q, createSubtensorSa t c p = some (.ok, out, q) ∧
      (∀ is, InShape c.sizes is →
        number data pm out q (dropOnes (t.dims.length - c.rank) c.sizes is) = number data pm t p (addIdx c.offs is) ∧
        (number data pm out q (dropOnes (t.dims.length - c.rank) c.sizes is)).isSome = (data.rd (t.addr (addIdx c.offs is))).isSome) := by
  have hrank : c.rank ≤ t.dims.length := (createSubtensor_ok h).2.1
  have hl1 : t.dims.length = c.offs.length := hs.1
  have hl2 : t.dims.length = c.sizes.length := hs.2.1
  have some_of : ∀ (is : List Int) (z s f : Int), entry pm p.dim p.zp is = some z → entry pm p.dim p.scale is = some s →
      entry pm p.dim p.frac is = some f → (number data pm t p is).isSome = (data.rd (t.addr is)).isSome := by
    intro is z s f hz hs hf
    unfold number
    rw [hz, hs, hf]
    show Option.isSome (Option.bind (data.rd (t.addr is)) _) = _
    cases data.rd (t.addr is) <;> rfl
  cases hp with
  | perTensor z s f hd hz hsc hf =>
    refine ⟨p, ?_, ?_⟩
    · unfold createSubtensorSa subParams
      rw [h, if_neg (by omega)]
      simp
    · intro is hi
      obtain ⟨_, _, e⟩ := c12_window_partial t out c hs h is hi
      have ent : ∀ (ct : Cont) (is js : List Int), entry pm p.dim ct is = entry pm p.dim ct js := by
        intro ct is js
        unfold entry
        rw [if_neg (by omega), if_neg (by omega)]
      have e1 : number data pm out p (dropOnes (t.dims.length - c.rank) c.sizes is) = number data pm t p (addIdx c.offs is) := by
        unfold number
        rw [e, ent p.zp _ (addIdx c.offs is), ent p.scale _ (addIdx c.offs is), ent p.frac _ (addIdx c.offs is)]
      refine ⟨e1, ?_⟩
      rw [e1]
      apply some_of _ z s f <;> (unfold entry; rw [if_neg (by omega)]) <;> simp only [hz, hsc, hf]
  | perAxis a h0 h1 ha hin =>
    obtain ⟨az, as', af⟩ := ha
    have hkeep : KeepsDim c.sizes (t.dims.length - c.rank) p.dim.toNat := by
      rcases hk with h | h
      · omega
      · exact h
    obtain ⟨m, e, hm⟩ := subAxis_kept c.sizes c.offs (t.dims.length - c.rank) p.dim.toNat 0 0 (by omega) (by omega) hkeep
    rw [show (0 : Int) + (p.dim.toNat : Int) = p.dim by omega, Int.zero_add] at e
    have e' : ((t.dims.length - c.rank : Nat) : Int) = (t.dims.length : Int) - c.rank := by omega
    rw [e'] at e
    generalize hoff : c.offs.getD p.dim.toNat 0 = off at e
    refine ⟨p.moveTo m (a.z + off) (a.s + off) (a.f + off), ?_, ?_⟩
    · unfold createSubtensorSa subParams
      rw [h, if_pos h0, e]
      simp only [Cont.adv, az, as', af, Option.bind_eq_bind, Option.bind_some, Option.pure_def, ne_eq, not_true_eq_false, if_false, SaMem.moveTo]
    · intro is hi
      obtain ⟨_, hin2, ew⟩ := c12_window_partial t out c hs h is hi
      have hlen : is.length = c.sizes.length := (inShape_length _ _ hi).symm
      have hm' := (hm is hlen).2
      have hidx : (addIdx c.offs is).getD p.dim.toNat 0 = off + is.getD p.dim.toNat 0 := by
        rw [addIdx_getD c.offs is _ (by omega) (by omega), hoff]
      have e1 : number data pm out (p.moveTo m (a.z + off) (a.s + off) (a.f + off))
          (dropOnes (t.dims.length - c.rank) c.sizes is) = number data pm t p (addIdx c.offs is) := by
        unfold number entry SaMem.moveTo
        simp only [az, as', af]
        rw [ew, if_pos h0, if_pos h0, if_pos h0, if_pos (by omega), if_pos (by omega), if_pos (by omega), Int.toNat_natCast, hm', hidx]
        rw [Int.add_assoc, Int.add_assoc, Int.add_assoc]
      refine ⟨e1, ?_⟩
      rw [e1]
      have hb : 0 ≤ (addIdx c.offs is).getD p.dim.toNat 0 ∧ (addIdx c.offs is).getD p.dim.toNat 0 < t.shape.getD p.dim.toNat 0 :=
        inShape_getD hin2 (by unfold Tensor.shape; rw [List.length_map]; omega)
      obtain ⟨i1, i2, i3⟩ := hin
      apply some_of _ (pm.get (a.z + (addIdx c.offs is).getD p.dim.toNat 0)) (pm.get (a.s + (addIdx c.offs is).getD p.dim.toNat 0))
        (pm.get (a.f + (addIdx c.offs is).getD p.dim.toNat 0)) <;> (unfold entry; rw [if_pos h0]) <;> simp only [az, as', af] <;>
        exact Buf.rd_some (by omega)

/-! ## The parameters stay acceptable -/

/-- The allowed zero points for a number of bits. -/
def zpIn (bits : Nat) (z : Int) : Prop :=
  (if bits = 0 then 0 else -(2 ^ bits : Int)) ≤ z ∧ z ≤ (if bits = 0 then 0 else (2 ^ bits : Int) - 1)

instance (bits : Nat) (z : Int) : Decidable (zpIn bits z) := by unfold zpIn; infer_instance

theorem chkQuantMemLoop_iff (p : SaMem) (pm : Buf) (bits : Nat) : ∀ n k, chkQuantMemLoop p pm bits n k = some .ok ↔
    ∀ i, i < n → ∃ s z, p.scale.fetch (0 ≤ p.dim) pm (k + i : Nat) = some s ∧ 0 < s ∧ p.zp.fetch (0 ≤ p.dim) pm (k + i : Nat) = some z ∧
      zpIn bits z := by
  intro n
  induction n with
  | zero => intro k; simp [chkQuantMemLoop]
  | succ n ih =>
    intro k
    unfold chkQuantMemLoop
    constructor
    · intro h i hi
      cases hs : p.scale.fetch (0 ≤ p.dim) pm k with
      | none => rw [hs] at h; simp at h
      | some s =>
      rw [hs] at h
      simp only [Option.bind_eq_bind, Option.bind_some, Option.pure_def] at h
      by_cases h0 : 0 < s
      · rw [if_neg (not_not.mpr h0)] at h
        cases hz : p.zp.fetch (0 ≤ p.dim) pm k with
        | none => rw [hz] at h; simp at h
        | some z =>
        rw [hz] at h
        simp only [Option.bind_some] at h
        by_cases hr : zpIn bits z
        · unfold zpIn at hr
          rw [if_neg (not_not.mpr hr)] at h
          rcases Nat.eq_zero_or_pos i with rfl | hi0
          · exact ⟨s, z, hs, h0, hz, hr⟩
          · have := (ih (k + 1)).mp h (i - 1) (by omega)
            rwa [show k + 1 + (i - 1) = k + i by omega] at this
        · unfold zpIn at hr
          rw [if_pos hr] at h
          simp at h
      · rw [if_pos h0] at h
        simp at h
    · intro h
      obtain ⟨s, z, h1, h2, h3, h4⟩ := h 0 (by omega)
      rw [Nat.add_zero] at h1 h3
      rw [h1]
      simp only [Option.bind_eq_bind, Option.bind_some, Option.pure_def]
      rw [if_neg (not_not.mpr h2), h3]
      simp only [Option.bind_some]
      unfold zpIn at h4
      rw [if_neg (not_not.mpr h4)]
      apply (ih (k + 1)).mpr
      intro i hi
      have := h (i + 1) (by omega)
      rwa [show k + (i + 1) = k + 1 + i by omega] at this

/-- What the check of the parameters asks of a per-axis tensor. -/
theorem chkQuantMem_axis {t : Tensor} {p : SaMem} {pm : Buf} {bits : Nat} {a : Arrays} (h0 : 0 ≤ p.dim) (ha : a.Of p) :
    chkQuantMem t p pm bits = some .ok ↔ p.dim < t.dims.length ∧ t.gShape p.dim.toNat * 2 ≤ p.scale.cap ∧
      t.gShape p.dim.toNat * 2 ≤ p.zp.cap ∧ t.gShape p.dim.toNat ≤ p.frac.cap ∧
      ∀ i : Nat, (i : Int) < t.gShape p.dim.toNat → ∃ s z, pm.rd (a.s + i) = some s ∧ 0 < s ∧ pm.rd (a.z + i) = some z ∧ zpIn bits z := by
  obtain ⟨az, as', af⟩ := ha
  unfold chkQuantMem Cont.arrayOk Cont.addr
  rw [if_pos h0]
  by_cases h1 : p.dim < t.dims.length
  · simp only [h1, not_true_eq_false, if_false, az, as', af, Option.bind_eq_bind, Option.bind_some, Option.pure_def, true_and,
      Option.isSome_some, Bool.true_and, Int.mul_one]
    by_cases hc : t.gShape p.dim.toNat * 2 ≤ p.scale.cap ∧ t.gShape p.dim.toNat * 2 ≤ p.zp.cap ∧ t.gShape p.dim.toNat ≤ p.frac.cap
    · obtain ⟨c1, c2, c3⟩ := hc
      simp only [c1, c2, c3, decide_true, Bool.and_self, Bool.not_true, Bool.false_eq_true, if_false, true_and]
      rw [chkQuantMemLoop_iff]
      simp only [Cont.fetch, Cont.addr, az, as', h0, decide_true, if_true, Option.bind_some, Nat.zero_add]
      constructor
      · intro h i hi; exact h i (by omega)
      · intro h i hi; exact h i (by omega)
    · constructor
      · intro h
        exfalso
        apply hc
        by_contra hc'
        have : (decide (t.gShape p.dim.toNat * 2 ≤ p.scale.cap) && decide (t.gShape p.dim.toNat * 2 ≤ p.zp.cap) &&
            decide (t.gShape p.dim.toNat ≤ p.frac.cap)) = false := by
          rw [Bool.eq_false_iff]
          intro hh
          simp only [Bool.and_eq_true, decide_eq_true_eq] at hh
          exact hc' ⟨hh.1.1, hh.1.2, hh.2⟩
        rw [this] at h
        simp at h
      · rintro ⟨a, b, c, _⟩
        exact absurd ⟨a, b, c⟩ hc
  · simp [h1]

theorem subCfgOk_getD : ∀ (ds : List Dim) (os ns : List Int), subCfgOk ds os ns = true →
    (∀ o ∈ os, 0 ≤ o) → (∀ n ∈ ns, 0 ≤ n) → (∀ p ∈ os.zip ns, p.1 + p.2 < 2 ^ 32) →
    ds.length = os.length → ds.length = ns.length → ∀ j, j < ds.length →
    0 ≤ os.getD j 0 ∧ 0 ≤ ns.getD j 0 ∧ os.getD j 0 + ns.getD j 0 ≤ (ds.map (·.shape)).getD j 0 := by
  intro ds
  induction ds with
  | nil => intro os ns _ _ _ _ _ _ j hj; simp at hj
  | cons d ds ih =>
    intro os ns h h1 h2 h3 hl1 hl2 j hj
    match os, ns, hl1, hl2 with
    | o :: os, n :: ns, hl1, hl2 =>
    unfold subCfgOk at h
    simp only [Bool.and_eq_true, decide_eq_true_eq] at h
    have ho := h1 o (by simp)
    have hn := h2 n (by simp)
    have hz := h3 (o, n) (by simp)
    match j, hj with
    | 0, _ =>
      show 0 ≤ o ∧ 0 ≤ n ∧ o + n ≤ d.shape
      refine ⟨ho, hn, ?_⟩
      have := h.1.2
      rwa [Int.emod_eq_of_lt (by omega) hz] at this
    | j + 1, hj =>
      exact ih os ns h.2 (fun x hx => h1 x (by simp [hx])) (fun x hx => h2 x (by simp [hx]))
        (fun x hx => h3 x (by simp [hx])) (by simpa using hl1) (by simpa using hl2) j (by simpa using hj)

/-- The parameters of a sub-tensor that keeps the quantized dimension. -/
theorem createSubtensorSa_kept {t out : Tensor} {c : SubCfg} {p : SaMem} {a : Arrays} (hs : c.Sane t) (h0 : 0 ≤ p.dim)
    (h1 : p.dim < t.dims.length) (ha : a.Of p) (hk : KeepsDim c.sizes (t.dims.length - c.rank) p.dim.toNat)
    (h : createSubtensor t c = some (.ok, out)) :
    ∃ m : Nat, m < out.dims.length ∧ out.gShape m = c.sizes.getD p.dim.toNat 0 ∧
      0 ≤ c.offs.getD p.dim.toNat 0 ∧ 0 ≤ out.gShape m ∧ c.offs.getD p.dim.toNat 0 + out.gShape m ≤ t.gShape p.dim.toNat ∧
      createSubtensorSa t c p = some (.ok, out, p.moveTo m (a.z + c.offs.getD p.dim.toNat 0) (a.s + c.offs.getD p.dim.toNat 0)
        (a.f + c.offs.getD p.dim.toNat 0)) := by
  obtain ⟨hsh, -⟩ := createSubtensor_shape hs h
  obtain ⟨-, hrank, hok, -⟩ := createSubtensor_ok h
  obtain ⟨hl1, hl2, s3, s4, s5, s6⟩ := hs
  obtain ⟨az, as', af⟩ := ha
  obtain ⟨m, e, hm⟩ := subAxis_kept c.sizes c.offs (t.dims.length - c.rank) p.dim.toNat 0 0 (by omega) (by omega) hk
  rw [show (0 : Int) + (p.dim.toNat : Int) = p.dim by omega, Int.zero_add] at e
  have e' : ((t.dims.length - c.rank : Nat) : Int) = (t.dims.length : Int) - c.rank := by omega
  rw [e'] at e
  obtain ⟨m1, m2⟩ := hm c.sizes rfl
  rw [← hsh] at m1 m2
  have m1' : m < out.dims.length := by unfold Tensor.shape at m1; rwa [List.length_map] at m1
  obtain ⟨w1, w2, w3⟩ := subCfgOk_getD t.dims c.offs c.sizes hok s3 s4 s5 hl1 hl2 p.dim.toNat (by omega)
  have hg : out.gShape m = c.sizes.getD p.dim.toNat 0 := by rw [gShape_lt m1', m2]
  refine ⟨m, m1', hg, w1, by rw [hg]; exact w2, ?_, ?_⟩
  · rw [hg, gShape_lt (t := t) (by omega)]; exact w3
  · unfold createSubtensorSa subParams
    rw [h, if_pos h0, e]
    simp only [Cont.adv, az, as', af, Option.bind_eq_bind, Option.bind_some, Option.pure_def, ne_eq, not_true_eq_false, if_false, SaMem.moveTo]

theorem createSubtensorSa_ok {t out : Tensor} {c : SubCfg} {p q : SaMem} (h : createSubtensorSa t c p = some (.ok, out, q)) :
    createSubtensor t c = some (.ok, out) ∧ subParams t c p = some q := by
  unfold createSubtensorSa at h
  cases hc : createSubtensor t c with
  | none => rw [hc] at h; simp at h
  | some r =>
    rw [hc] at h
    simp only [Option.bind_eq_bind, Option.bind_some, Option.pure_def] at h
    by_cases hr : r.1 = .ok
    · rw [if_neg (not_not.mpr hr)] at h
      cases hsub : subParams t c p with
      | none => rw [hsub] at h; simp at h
      | some q' =>
        rw [hsub] at h
        simp only [Option.bind_some, Option.some.injEq, Prod.mk.injEq, true_and] at h
        obtain ⟨rfl, rfl⟩ := h
        exact ⟨by rw [← hr], rfl⟩
    · rw [if_pos hr] at h
      simp only [Option.some.injEq, Prod.mk.injEq] at h
      exact absurd h.1 hr

/-- A sub-tensor of a tensor with acceptable parameters has acceptable parameters, if it keeps the quantized dimension. -/
theorem c97_accepted_partial (t out : Tensor) (c : SubCfg) (p q : SaMem) (pm : Buf) (bits : Nat) (hs : c.Sane t) (hp : ParOk t p pm)
    (hk : p.dim < 0 ∨ KeepsDim c.sizes (t.dims.length - c.rank) p.dim.toNat)
    (h : createSubtensorSa t c p = some (.ok, out, q)) (hq : chkQuantMem t p pm bits = some .ok) :
    chkQuantMem out q pm bits = some .ok := by
  obtain ⟨hsub, hpar⟩ := createSubtensorSa_ok h
  cases hp with
  | perTensor z s f hd hz hsc hf =>
    unfold subParams at hpar
    rw [if_neg (by omega)] at hpar
    cases hpar
    unfold chkQuantMem at hq ⊢
    rw [if_neg (by omega)] at hq ⊢
    exact hq
  | perAxis a h0 h1 ha hin =>
    have hk' : KeepsDim c.sizes (t.dims.length - c.rank) p.dim.toNat := by
      rcases hk with h | h
      · omega
      · exact h
    obtain ⟨m, m1, m2, m3, m4, m5, m6⟩ := createSubtensorSa_kept hs h0 h1 ha hk' hsub
    rw [h] at m6
    simp only [Option.some.injEq, Prod.mk.injEq, true_and] at m6
    subst m6
    obtain ⟨q1, q2, q3, q4, q5⟩ := (chkQuantMem_axis h0 ha).mp hq
    generalize c.offs.getD p.dim.toNat 0 = off at m3 m5 ⊢
    refine (chkQuantMem_axis (a := ⟨a.z + off, a.s + off, a.f + off⟩) (by simp [SaMem.moveTo]) ⟨rfl, rfl, rfl⟩).mpr ?_
    simp only [SaMem.moveTo, Int.toNat_natCast]
    refine ⟨by omega, by omega, by omega, by omega, ?_⟩
    intro i hi
    have := q5 (off.toNat + i) (by omega)
    rwa [show a.s + ((off.toNat + i : Nat) : Int) = a.s + off + i by omega,
      show a.z + ((off.toNat + i : Nat) : Int) = a.z + off + i by omega] at this

/-- The check of the parameters never follows a pointer that is not there: with a quantized dimension out of range, a null pointer or an array
too small for the dimension, the tensor is refused. -/
theorem c97_missing_refused (t : Tensor) (p : SaMem) (pm : Buf) (bits : Nat) (az as' af : Option Int) (h0 : 0 ≤ p.dim)
    (hz : p.zp.val = .ptr az) (hs : p.scale.val = .ptr as') (hf : p.frac.val = .ptr af)
    (h : (t.dims.length : Int) ≤ p.dim ∨ az = none ∨ as' = none ∨ af = none ∨ p.zp.cap < 2 * t.gShape p.dim.toNat ∨
      p.scale.cap < 2 * t.gShape p.dim.toNat ∨ p.frac.cap < t.gShape p.dim.toNat) :
    chkQuantMem t p pm bits = some .badTensor := by
  have e : ∀ (c : Cont) (a : Option Int) (n es : Int), c.val = .ptr a → c.arrayOk n es = some (a.isSome && decide (n * es ≤ c.cap)) := by
    intro c a n es hc
    unfold Cont.arrayOk Cont.addr
    rw [hc]
    rfl
  unfold chkQuantMem
  rw [if_pos h0]
  by_cases hd : p.dim < t.dims.length
  · rw [if_neg (not_not.2 hd)]
    simp only [e _ _ _ _ hz, e _ _ _ _ hs, e _ _ _ _ hf, Option.bind_eq_bind, Option.bind_some, Option.pure_def]
    rw [if_pos]
    rcases h with h | h | h | h | h | h | h
    · omega
    · subst h; simp
    · subst h; simp
    · subst h; simp
    · have : decide (t.gShape p.dim.toNat * 2 ≤ p.zp.cap) = false := by simp; omega
      simp [this]
    · have : decide (t.gShape p.dim.toNat * 2 ≤ p.scale.cap) = false := by simp; omega
      simp [this]
    · have : decide (t.gShape p.dim.toNat * 1 ≤ p.frac.cap) = false := by simp; omega
      rw [this]; simp
  · rw [if_pos hd]
    rfl

/-- Hypotheses of `c97_missing_refused`: a null pointer for the scales. -/
example : chkQuantMem { dims := [⟨4, 1⟩], cap := 4, es := 1 } ⟨0, ⟨8, .ptr (some 0)⟩, ⟨8, .ptr none⟩, ⟨4, .ptr (some 4)⟩⟩ (Buf.ofList [0]) 7 = some .badTensor := by
  decide

/-- **Violation**: when the quantized dimension is one of the dimensions of size 1 that the sub-tensor drops, the parameters are not
turned into the parameters of the selected index: no number can be read off the sub-tensor, and every function that checks
the parameters refuses it, although each of its elements stands for a number in the parent. -/
theorem c97_dropped_violated (t out : Tensor) (c : SubCfg) (p : SaMem) (data pm : Buf) (a : Arrays) (hs : c.Sane t)
    (h0 : 0 ≤ p.dim) (h1 : p.dim < t.dims.length) (ha : a.Of p) (hk : ¬ KeepsDim c.sizes (t.dims.length - c.rank) p.dim.toNat)
    (h : createSubtensor t c = some (.ok, out)) (hcap : p.scale.cap ≠ 0) :
    ∃ q, createSubtensorSa t c p = some (.ok, out, q) ∧ (∀ js, number data pm out q js = none) ∧
      ∀ bits, chkQuantMem out q pm bits = some .badTensor := by
  obtain ⟨-, hrank, -, -⟩ := createSubtensor_ok h
  obtain ⟨hl1, hl2, -⟩ := hs
  obtain ⟨az, as', af⟩ := ha
  have e := subAxis_dropped c.sizes c.offs (t.dims.length - c.rank) p.dim.toNat 0 0 (by omega) (by omega) hk
  rw [show (0 : Int) + (p.dim.toNat : Int) = p.dim by omega] at e
  have e' : ((t.dims.length - c.rank : Nat) : Int) = (t.dims.length : Int) - c.rank := by omega
  rw [e'] at e
  refine ⟨p.moveTo (-1) a.z a.s a.f, ?_, ?_, ?_⟩
  · unfold createSubtensorSa subParams
    rw [h, if_pos h0, e]
    simp only [Cont.adv, az, as', af, Option.bind_eq_bind, Option.bind_some, Option.pure_def, ne_eq, not_true_eq_false, if_false, SaMem.moveTo,
      Int.add_zero]
  · intro js
    unfold number entry SaMem.moveTo
    cases data.rd (out.base + offset out.strides js) <;> rfl
  · intro bits
    unfold chkQuantMem SaMem.moveTo
    rw [if_neg (show ¬ (0 : Int) ≤ -1 by decide)]
    simp only
    rw [if_pos (fun hh => hcap hh.1)]
    rfl

/-- **Violation**: the capacities of the parameter arrays are not reduced when their start is moved, so the sub-tensor claims memory
behind the end of the arrays (and a function that fills the parameters of this tensor relies on it). -/
theorem c97_capacity_violated : ∃ (t out : Tensor) (c : SubCfg) (p q : SaMem) (pm : Buf) (a : Int), c.Sane t ∧ ParOk t p pm ∧
    p.scale.cap = 2 * (pm.size - 8) ∧ createSubtensorSa t c p = some (.ok, out, q) ∧ q.scale.val = .ptr (some a) ∧
    ¬ 2 * a + q.scale.cap ≤ 2 * pm.size := by
  refine ⟨{ dims := [⟨4, 1⟩], cap := 4, es := 1 }, { dims := [⟨2, 1⟩], base := 2, cap := 2, es := 1 },
    { offs := [2], sizes := [2], rank := 1 }, ⟨0, ⟨8, .ptr (some 0)⟩, ⟨8, .ptr (some 8)⟩, ⟨4, .ptr (some 4)⟩⟩,
    ⟨0, ⟨8, .ptr (some 2)⟩, ⟨8, .ptr (some 10)⟩, ⟨4, .ptr (some 6)⟩⟩, Buf.ofList [0, 0, 0, 0, 0, 0, 0, 0, 5, 6, 7, 8], 10, by decide,
    .perAxis ⟨0, 8, 4⟩ (by decide) (by decide) (by decide) (by decide), by decide, by decide, by decide, by decide⟩

/-! ## mli_hlp_point_to_subtensor -/

/-- The deprecated function: with per-tensor quantization the fragment stands for the numbers it points to. -/
theorem c97_pointed_partial (t : Tensor) (b pm : Buf) (c : PointCfg) (ostr : List Int) (o : Option (PointOut × SaMem)) (p : SaMem)
    (hv : t.Valid b) (hc : c.Typed) (ho : ostr.length = 4) (hd : p.dim < 0) (h : pointSubSa t c ostr p = some (.ok, o)) :
    ∃ (out : Tensor) (q : SaMem), o = some (⟨out.dims, some out.base, out.cap, out.es⟩, q) ∧ out.shape = [c.first] ∧
      ∀ j, 0 ≤ j → j < c.first → number b pm out q [j] = number b pm t p (bump c.start j) := by
  unfold pointSubSa at h
  cases hr : pointSub .sa8 t c ostr with
  | none => rw [hr] at h; simp at h
  | some r =>
  rw [hr] at h
  obtain ⟨st, o'⟩ := r
  simp only [Option.bind_eq_bind, Option.bind_some, Option.pure_def, Option.some.injEq, Prod.mk.injEq] at h
  obtain ⟨rfl, rfl⟩ := h
  obtain ⟨out, rfl, h2, -, -, h5⟩ := c85_points_partial .sa8 (by decide) t b c ostr o' hv hc ho hr
  refine ⟨out, p, rfl, h2, ?_⟩
  intro j h0 hj
  have e := (h5 j h0 hj).2
  unfold Tensor.addr at e
  unfold number entry
  rw [e]
  simp only [if_neg (show ¬ 0 ≤ p.dim by omega)]

/-- **Violation**: with per-axis quantization the deprecated `mli_hlp_point_to_subtensor` copies the parameters as they are: a fragment
that starts at index 1 is read with the parameters of index 0. -/
theorem c97_pointed_violated : ∃ (t out : Tensor) (c : PointCfg) (ostr : List Int) (p q : SaMem) (b pm : Buf), t.Valid b ∧ c.Typed ∧
    ParOk t p pm ∧ pointSubSa t c ostr p = some (.ok, some (⟨out.dims, some out.base, out.cap, out.es⟩, q)) ∧
    out.addr [0] = t.addr [1] ∧ number b pm out q [0] = some 4 ∧ number b pm t p [1] = some 12 := by
  refine ⟨{ dims := [⟨2, 1⟩], cap := 2, es := 1 }, { dims := [⟨1, 1⟩], base := 1, cap := 1, es := 1 }, ⟨[1, 0, 0, 0], 1, 1⟩, [1, 0, 0, 0],
    ⟨0, ⟨4, .ptr (some 0)⟩, ⟨4, .ptr (some 2)⟩, ⟨2, .ptr (some 4)⟩⟩, ⟨0, ⟨4, .ptr (some 0)⟩, ⟨4, .ptr (some 2)⟩, ⟨2, .ptr (some 4)⟩⟩,
    Buf.ofList [3, 4], Buf.ofList [0, 0, 1, 3, 0, 0], ⟨by decide, by decide, by decide, by decide⟩, ⟨by decide, by decide, by decide⟩,
    .perAxis ⟨0, 2, 4⟩ (by decide) (by decide) (by decide) (by decide), by decide, by decide, ?_, ?_⟩
  · exact number_eq (x := 4) (z := 0) (s := 1) (f := 0) (by decide) (by decide) (by decide) (by decide) (by norm_num)
  · exact number_eq (x := 4) (z := 0) (s := 3) (f := 0) (by decide) (by decide) (by decide) (by decide) (by norm_num)

/-! ## Examples -/

/-- A 2×3×4 tensor quantized along the last dimension: the zero points are 1..4, the scales 5..8, the fractional bits 0..3. -/
def exQT : Tensor := { dims := [⟨2, 12⟩, ⟨3, 4⟩, ⟨4, 1⟩], cap := 24, es := 1 }
def exQP : SaMem := ⟨2, ⟨8, .ptr (some 0)⟩, ⟨8, .ptr (some 4)⟩, ⟨4, .ptr (some 8)⟩⟩
def exQM : Buf := Buf.ofList [1, 2, 3, 4, 5, 6, 7, 8, 0, 1, 2, 3]
def exQSub : SubCfg := { offs := [1, 1, 2], sizes := [1, 2, 2], rank := 2 }
def exQData : Buf := Buf.ofList (List.range 24 |>.map fun n => (n : Int))

/-- The 2×2 sub-tensor keeps the last dimension as its second one and starts at entry 2 of the arrays. -/
example : exQSub.Sane exQT ∧ KeepsDim exQSub.sizes (exQT.dims.length - exQSub.rank) 2 ∧
    chkQuantMem exQT exQP exQM 15 = some .ok ∧ InShape exQSub.sizes [0, 1, 1] ∧
    createSubtensorSa exQT exQSub exQP = some (.ok, { dims := [⟨2, 4⟩, ⟨2, 1⟩], base := 18, cap := 6, es := 1 },
      ⟨1, ⟨8, .ptr (some 2)⟩, ⟨8, .ptr (some 6)⟩, ⟨4, .ptr (some 10)⟩⟩) := by decide
example : ParOk exQT exQP exQM := .perAxis ⟨0, 4, 8⟩ (by decide) (by decide) (by decide) (by decide)
/-- Element (0, 1, 1) of the window, element (1, 2, 3) of the parent: (23 - 4) * 8 / 2^3. -/
example : number exQData exQM exQT exQP [1, 2, 3] = some 19 :=
  number_eq (x := 23) (z := 4) (s := 8) (f := 3) (by decide) (by decide) (by decide) (by decide) (by norm_num)
/-- Selecting one index of the quantized dimension and dropping that dimension. -/
example : let c : SubCfg := { offs := [0, 0, 2], sizes := [2, 3, 1], rank := 2 }
    c.Sane exQT ∧ ¬ KeepsDim c.sizes (exQT.dims.length - c.rank) 2 ∧ (createSubtensor exQT c).map (·.1) = some .ok ∧
    (createSubtensorSa exQT c exQP).map (fun r => (r.1, r.2.2.dim, chkQuantMem r.2.1 r.2.2 exQM 15)) =
      some (.ok, -1, some .badTensor) := by decide

end Mli
