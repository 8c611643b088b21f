import Verif.Props.QuantMem
import Verif.Props.Permute
import Verif.Lemmas.Rows
import Verif.Props.Broadcast

/-! # C98: permute keeps the numbers -/

namespace Mli

open Spec

/-! ## The check of the parameters -/

/-- **C98, the decision.** The parameters of a per-axis tensor and of the output are accepted exactly in the three situations of the
documentation: null pointers, the pointers of the input, or arrays of the output's own with capacities for one entry per index
along the quantized dimension.  Per-tensor parameters are always accepted. -/
theorem c98_accepts (inT : Tensor) (pin pout : SaMem) (a : Arrays) (ha : a.Of pin) (h0 : 0 ≤ pin.dim) (h1 : pin.dim < inT.dims.length)
    (zo so fo : Option Int) (hz : pout.zp.val = .ptr zo) (hs : pout.scale.val = .ptr so) (hf : pout.frac.val = .ptr fo) :
    ∃ st, chkPermutePar inT pin pout = some st ∧ (st = .ok ∨ st = .specParamMismatch) ∧
      (st = .ok ↔ Shared pin pout ∨ ∃ b, Own a b pout (inT.shape.getD pin.dim.toNat 0)) := by
  obtain ⟨az, as', af⟩ := ha
  have hn : inT.gShape pin.dim.toNat = inT.shape.getD pin.dim.toNat 0 := gShape_lt (by omega)
  unfold chkPermutePar Cont.addr Shared Own Arrays.Of
  rw [if_pos h0]
  simp only [az, as', af, hz, hs, hf, Option.bind_eq_bind, Option.bind_some, Option.pure_def, hn, CVal.ptr.injEq]
  generalize inT.shape.getD pin.dim.toNat 0 = n
  by_cases hc : parConsistent (some a.z) (some a.s) (some a.f) zo so fo = true
  · rw [hc]
    simp only [Bool.not_true, Bool.false_eq_true, if_false]
    unfold parConsistent at hc
    simp only [Bool.and_eq_true, Bool.or_eq_true, bne_iff_ne, beq_iff_eq, Bool.not_eq_true', Bool.and_eq_false_iff, bne_eq_false_iff_eq,
      ne_eq] at hc
    by_cases hown : zo ≠ some a.z ∧ zo ≠ none
    · rw [if_pos hown, if_neg (not_not.mpr h1)]
      obtain ⟨bz, rfl⟩ := Option.ne_none_iff_exists'.mp hown.2
      have h2 : (¬ so = none ∧ ¬ so = some a.s) ∧ ¬ fo = none ∧ ¬ fo = some a.f := by
        rcases hc.1.2 with (h | h) | h
        · exact absurd h hown.2
        · exact absurd h hown.1
        · exact h
      obtain ⟨bs, rfl⟩ := Option.ne_none_iff_exists'.mp h2.1.1
      obtain ⟨bf, rfl⟩ := Option.ne_none_iff_exists'.mp h2.2.1
      have e1 : bz ≠ a.z := fun h => hown.1 (by rw [h])
      have e2 : bs ≠ a.s := fun h => h2.1.2 (by rw [h])
      have e3 : bf ≠ a.f := fun h => h2.2.2 (by rw [h])
      by_cases hcap : n * 2 ≤ pout.zp.cap ∧ n * 2 ≤ pout.scale.cap ∧ n ≤ pout.frac.cap
      · rw [if_neg (not_not.mpr hcap)]
        exact ⟨.ok, rfl, .inl rfl, fun _ => .inr ⟨⟨bz, bs, bf⟩, ⟨rfl, rfl, rfl⟩, e1, e2, e3, hcap⟩, fun _ => rfl⟩
      · rw [if_pos hcap]
        refine ⟨.specParamMismatch, rfl, .inr rfl, fun h => by simp at h, ?_⟩
        rintro (h | ⟨b, -, -, -, -, h⟩)
        · rcases h with ⟨h, -⟩ | ⟨h, -⟩
          · simp at h
          · exact absurd h hown.1
        · exact absurd h hcap
    · rw [if_neg hown]
      refine ⟨.ok, rfl, .inl rfl, fun _ => .inl ?_, fun _ => rfl⟩
      rcases Classical.em (zo = some a.z) with h | h
      · rcases hc.1.1 with h' | h'
        · exact absurd h h'
        · exact .inr ⟨h, h'.1, h'.2⟩
      · have hz0 : zo = none := by
          by_contra h'
          exact hown ⟨h, h'⟩
        rcases hc.2 with h' | h'
        · exact absurd hz0 h'
        · exact .inl ⟨hz0, h'.1, h'.2⟩
  · rw [Bool.not_eq_true] at hc
    rw [hc]
    refine ⟨.specParamMismatch, rfl, .inr rfl, fun h => by simp at h, ?_⟩
    intro h
    exfalso
    rw [Bool.eq_false_iff] at hc
    apply hc
    unfold parConsistent
    rcases h with (⟨rfl, rfl, rfl⟩ | ⟨rfl, rfl, rfl⟩) | ⟨b, ⟨rfl, rfl, rfl⟩, e1, e2, e3, -⟩
    · simp
    · simp
    · simp [e1, e2, e3]

/-- Per-tensor parameters: nothing is asked of the output. -/
theorem c98_accepts_per_tensor (inT : Tensor) (pin pout : SaMem) (h : pin.dim < 0) : chkPermutePar inT pin pout = some .ok := by
  unfold chkPermutePar
  rw [if_neg (by omega)]

/-! ## Copying one parameter -/

theorem permutePar_own {n p q : Int} {ci co : Cont} {pm : Buf} (hi : ci.val = .ptr (some p)) (ho : co.val = .ptr (some q)) (hne : q ≠ p)
    (h0 : 0 ≤ n) (hp : 0 ≤ p ∧ p + n ≤ pm.size) (hq : 0 ≤ q ∧ q + n ≤ pm.size) (hsep : NoShare p n q n) :
    ∃ pm', permutePar n ci co pm = some (co, pm') ∧ pm.Puts q n (fun i => pm.get (p + i)) pm' := by
  unfold permutePar Cont.addr
  simp only [hi, ho, Option.bind_eq_bind, Option.bind_some, Option.pure_def]
  rw [if_pos (fun h => hne (by simpa using h))]
  obtain ⟨pm', h1, h2⟩ := forRange_puts (n := n) (p := q) (d := pm) (fun i => pm.get (p + i))
    (fun k m => (m.rd (p + (k : Int))).bind fun v => m.wr (q + (k : Int)) v) h0 hq (by
      intro i hi d' hd hfr
      rw [Buf.rd_some (by omega), Option.bind_some, hfr _ (by unfold NoShare at hsep; omega)])
  rw [h1]
  exact ⟨pm', rfl, h2⟩

theorem permutePar_shared {n : Int} {ci co : Cont} {pm : Buf} {p : Int} (hi : ci.val = .ptr (some p))
    (ho : co.val = .ptr none ∨ co.val = ci.val) :
    ∃ cr : Cont, permutePar n ci co pm = some (cr, pm) ∧ cr.val = ci.val := by
  unfold permutePar Cont.addr
  rcases ho with ho | ho
  · simp only [hi, ho, Option.bind_eq_bind, Option.bind_some, Option.pure_def]
    exact ⟨ci, rfl, hi⟩
  · simp only [ho, hi, Option.bind_eq_bind, Option.bind_some, Option.pure_def, ne_eq, not_true_eq_false, if_false]
    exact ⟨co, rfl, by rw [ho, hi]⟩

/-- The parameters of the output for per-axis quantization. -/
theorem permuteParams_axis {inT : Tensor} {perm : PermCfg} {pin pout : SaMem} {pm : Buf} {a : Arrays} {n : Int} {k0 : Nat}
    (h0 : 0 ≤ pin.dim) (h1 : pin.dim < inT.dims.length) (ha : a.Of pin) (hn : inT.gShape pin.dim.toNat = n) (hn0 : 0 ≤ n)
    (hin : a.In 0 n pm)
    (hk : (List.range inT.dims.length).find? (fun k => (permDim inT.dims.length perm k : Int) == pin.dim) = some k0)
    (hout : Shared pin pout ∨ ∃ b, Own a b pout n ∧ b.In 0 n pm ∧ a.Apart n b 0 n) :
    ∃ q pm', permuteParams inT perm pin pout pm = some (q, pm') ∧ pm'.size = pm.size ∧ q.dim = k0 ∧
      (∃ r : Arrays, r.Of q ∧ r.In 0 n pm ∧ ∀ i, 0 ≤ i → i < n → pm'.get (r.z + i) = pm.get (a.z + i) ∧
        pm'.get (r.s + i) = pm.get (a.s + i) ∧ pm'.get (r.f + i) = pm.get (a.f + i)) ∧
      (∀ i, 0 ≤ i → i < n → pm'.get (a.z + i) = pm.get (a.z + i) ∧
        pm'.get (a.s + i) = pm.get (a.s + i) ∧ pm'.get (a.f + i) = pm.get (a.f + i)) ∧
      (∀ x, (∀ b : Arrays, b.Of pout → ∀ y ∈ [b.z, b.s, b.f], x < y ∨ y + n ≤ x) → pm'.get x = pm.get x) := by
  obtain ⟨az, as', af⟩ := ha
  unfold permuteParams
  rw [if_neg (by omega), if_neg (not_not.mpr h1), hn]
  simp only [hk, Option.bind_eq_bind, Option.pure_def]
  rcases hout with hsh | ⟨b, ⟨⟨bz, bs, bf⟩, e1, e2, e3, -⟩, hbin, hap, s1, s2, s3⟩
  · obtain ⟨cz, z1, z2⟩ := permutePar_shared (n := n) (pm := pm) az (hsh.imp (·.1) (·.1))
    obtain ⟨cs, s1, s2⟩ := permutePar_shared (n := n) (pm := pm) as' (hsh.imp (·.2.1) (·.2.1))
    obtain ⟨cf, f1, f2⟩ := permutePar_shared (n := n) (pm := pm) af (hsh.imp (·.2.2) (·.2.2))
    rw [z1, Option.bind_some, s1, Option.bind_some, f1, Option.bind_some]
    refine ⟨_, _, rfl, rfl, rfl, ⟨a, ⟨z2.trans az, s2.trans as', f2.trans af⟩, hin, fun _ _ _ => ⟨rfl, rfl, rfl⟩⟩,
      fun _ _ _ => ⟨rfl, rfl, rfl⟩, fun _ _ => rfl⟩
  · obtain ⟨iz, is', jf⟩ := hin
    obtain ⟨oz, os, of'⟩ := hbin
    rw [Int.add_zero] at iz is' jf oz os of' s1 s2 s3
    have q : ∀ x ∈ [a.z, a.s, a.f], ∀ y ∈ [b.z, b.s, b.f], NoShare x n y n := by
      intro x hx y hy
      have := hap x hx y hy
      rwa [Int.add_zero] at this
    have q11 := q a.z (by simp) b.z (by simp)
    have q12 := q a.z (by simp) b.s (by simp)
    have q13 := q a.z (by simp) b.f (by simp)
    have q21 := q a.s (by simp) b.z (by simp)
    have q22 := q a.s (by simp) b.s (by simp)
    have q23 := q a.s (by simp) b.f (by simp)
    have q31 := q a.f (by simp) b.z (by simp)
    have q32 := q a.f (by simp) b.s (by simp)
    have q33 := q a.f (by simp) b.f (by simp)
    unfold NoShare at q11 q12 q13 q21 q22 q23 q31 q32 q33 s1 s2 s3
    obtain ⟨m1, z1, z2⟩ := permutePar_own (ci := pin.zp) (co := pout.zp) (pm := pm) az bz e1 hn0 iz oz q11
    obtain ⟨m2, t1, t2⟩ := permutePar_own (ci := pin.scale) (co := pout.scale) (pm := m1) as' bs e2 hn0 (by rw [z2.size]; exact is')
      (by rw [z2.size]; exact os) q22
    obtain ⟨m3, u1, u2⟩ := permutePar_own (ci := pin.frac) (co := pout.frac) (pm := m2) af bf e3 hn0 (by rw [t2.size, z2.size]; exact jf)
      (by rw [t2.size, z2.size]; exact of') q33
    rw [z1, Option.bind_some, t1, Option.bind_some, u1, Option.bind_some]
    refine ⟨_, _, rfl, by rw [u2.size, t2.size, z2.size], rfl, ⟨b, ⟨bz, bs, bf⟩, ⟨by omega, by omega, by omega⟩, ?_⟩, ?_, ?_⟩
    · intro i i0 i1
      refine ⟨?_, ?_, ?_⟩
      · rw [u2.frame _ (by omega), t2.frame _ (by omega), z2.hit i i0 i1]
      · rw [u2.frame _ (by omega), t2.hit i i0 i1, z2.frame _ (by omega)]
      · rw [u2.hit i i0 i1, t2.frame _ (by omega), z2.frame _ (by omega)]
    · intro i i0 i1
      refine ⟨?_, ?_, ?_⟩ <;> rw [u2.frame _ (by omega), t2.frame _ (by omega), z2.frame _ (by omega)]
    · intro x hx
      have hx' := hx b ⟨bz, bs, bf⟩
      have x1 := hx' b.z (by simp)
      have x2 := hx' b.s (by simp)
      have x3 := hx' b.f (by simp)
      rw [u2.frame _ x3, t2.frame _ x2, z2.frame _ x1]

/-- Reading a parameter through an array. -/
theorem entry_axis {pm : Buf} {d : Int} {ct : Cont} {p n : Int} {is : List Int} (h0 : 0 ≤ d) (hc : ct.val = .ptr (some p))
    (hi : 0 ≤ is.getD d.toNat 0 ∧ is.getD d.toNat 0 < n) (hp : 0 ≤ p + 0 ∧ p + 0 + n ≤ pm.size) :
    entry pm d ct is = some (pm.get (p + is.getD d.toNat 0)) := by
  unfold entry
  rw [if_pos h0, hc]
  exact Buf.rd_some (by omega)

/-! ## The property -/

/-- **C98.** Permuting a tensor permutes the numbers it stands for: every element of the result stands for the number the element it
was taken from stands for, whichever of the three documented ways the caller chose for the parameters of a per-axis tensor.  The
call changes neither the parameters of the input nor any parameter memory outside of the output's own arrays. -/
theorem c98_same_numbers (inT outT : Tensor) (perm : PermCfg) (pin pout : SaMem) (src dst pm : Buf)
    (hi : inT.Valid src) (ho : outT.Valid dst) (hrank : outT.dims.length = inT.dims.length)
    (hchk : chkPermute inT outT perm true = some .ok) (hp : ParOk inT pin pm)
    (hout : 0 ≤ pin.dim → ∀ a : Arrays, a.Of pin → Shared pin pout ∨
      ∃ b, Own a b pout (inT.shape.getD pin.dim.toNat 0) ∧ b.In 0 (inT.shape.getD pin.dim.toNat 0) pm ∧
        a.Apart (inT.shape.getD pin.dim.toNat 0) b 0 (inT.shape.getD pin.dim.toNat 0)) :
    ∃ dst' q pm', permuteSa inT outT perm true pin pout src dst pm = some (.ok, dst', q, pm') ∧ dst'.size = dst.size ∧ pm'.size = pm.size ∧
      (∀ is js, InShape inT.shape is → InShape outT.shape js →
        (∀ k, k < inT.dims.length → js.getD k 0 = is.getD (perm.getD k 0) 0) →
        ∃ v, number src pm inT pin is = some v ∧ number dst' pm' outT q js = some v ∧ number src pm' inT pin is = some v) ∧
      (∀ x, (∀ js, InShape outT.shape js → x ≠ outT.base + offset outT.strides js) → dst'.get x = dst.get x) ∧
      (∀ x, (∀ b : Arrays, b.Of pout → ∀ y ∈ [b.z, b.s, b.f], x < y ∨ y + inT.shape.getD pin.dim.toNat 0 ≤ x) → pm'.get x = pm.get x) := by
  obtain ⟨dst', hr, hsz, hget, hfr⟩ := c13_permute inT outT perm src dst hi ho hrank hchk
  have hrun : permuteRun inT outT perm src dst = some dst' := by
    unfold permute at hr
    rw [hchk] at hr
    simp only [Option.bind_eq_bind, Option.bind_some, ne_eq, not_true_eq_false, if_false, Option.pure_def] at hr
    cases h : permuteRun inT outT perm src dst with
    | none => rw [h] at hr; simp at hr
    | some d =>
      rw [h] at hr
      simpa using hr
  have goal : ∀ q pm', permuteParams inT perm pin pout pm = some (q, pm') → chkPermutePar inT pin pout = some .ok →
      permuteSa inT outT perm true pin pout src dst pm = some (.ok, dst', q, pm') := by
    intro q pm' h1 h2
    unfold permuteSa
    rw [hchk, h2, hrun, h1]
    rfl
  have rdIn : ∀ is, InShape inT.shape is → src.rd (inT.base + offset inT.strides is) = some (src.get (inT.base + offset inT.strides is)) :=
    fun is h => Buf.rd_some (hi.inBounds h)
  have rdOut : ∀ js, InShape outT.shape js → dst'.rd (outT.base + offset outT.strides js) = some (dst'.get (outT.base + offset outT.strides js)) :=
    fun js h => Buf.rd_some (by rw [hsz]; exact ho.inBounds h)
  cases hp with
  | perTensor z s f hd hz hs hf =>
    refine ⟨dst', { dim := -1, zp := { pout.zp with val := .imm z }, scale := { pout.scale with val := .imm s }, frac := { pout.frac with val := .imm f } },
      pm, goal _ _ ?_ (c98_accepts_per_tensor _ _ _ hd), hsz, rfl, ?_, hfr, fun _ _ => rfl⟩
    · unfold permuteParams Cont.value
      rw [if_pos hd]
      simp only [hz, hs, hf, Option.bind_eq_bind, Option.bind_some, Option.pure_def]
    · intro is js h1 h2 hrel
      have e := hget is js h1 h2 hrel
      have en : number src pm inT pin is = some (((src.get (inT.base + offset inT.strides is) - z : Int) : ℚ) * s * (2 : ℚ) ^ (-f)) :=
        number_eq (rdIn is h1) (by unfold entry; rw [if_neg (by omega), hz]) (by unfold entry; rw [if_neg (by omega), hs])
          (by unfold entry; rw [if_neg (by omega), hf]) rfl
      refine ⟨_, en, ?_, en⟩
      exact number_eq (x := src.get (inT.base + offset inT.strides is)) (z := z) (s := s) (f := f) (by rw [rdOut js h2, e]) rfl rfl rfl rfl
  | perAxis a h0 h1 ha hin =>
    have hn : inT.gShape pin.dim.toNat = inT.shape.getD pin.dim.toNat 0 := gShape_lt (by omega)
    have hn0 : 0 ≤ inT.shape.getD pin.dim.toNat 0 := by rw [← hn]; have := gShape_pos hi pin.dim.toNat; omega
    have hd := chkPermute_dims hchk
    have hperm := perm_isPerm (r := inT.dims.length) (fun k hk => (hd k hk).1) (fun i j hij hj => (hd i (by omega)).2.1 j hij hj)
    obtain ⟨k0, hk0⟩ : ∃ k0, (List.range inT.dims.length).find? (fun k => (permDim inT.dims.length perm k : Int) == pin.dim) = some k0 := by
      rw [← Option.isSome_iff_exists, List.find?_isSome]
      obtain ⟨k, k1, k2⟩ := perm_surj hperm (m := pin.dim.toNat) (by omega)
      refine ⟨k, by simpa using k1, ?_⟩
      unfold permDim
      rw [if_pos k1, k2, beq_iff_eq]
      omega
    have hk1 : k0 < inT.dims.length := by have := List.mem_of_find?_eq_some hk0; simpa using this
    have hk2 : perm.getD k0 0 = pin.dim.toNat := by
      have := List.find?_some hk0
      rw [beq_iff_eq] at this
      unfold permDim at this
      rw [if_pos hk1] at this
      omega
    have hout' := hout h0 a ha
    have hacc : chkPermutePar inT pin pout = some .ok := by
      have hv : ∃ zo so fo, pout.zp.val = .ptr zo ∧ pout.scale.val = .ptr so ∧ pout.frac.val = .ptr fo := by
        rcases hout' with (⟨x, y, z⟩ | ⟨x, y, z⟩) | ⟨b, ⟨⟨x, y, z⟩, -⟩, -⟩
        · exact ⟨_, _, _, x, y, z⟩
        · exact ⟨_, _, _, x.trans ha.1, y.trans ha.2.1, z.trans ha.2.2⟩
        · exact ⟨_, _, _, x, y, z⟩
      obtain ⟨zo, so, fo, x, y, z⟩ := hv
      obtain ⟨st, e, -, hiff⟩ := c98_accepts inT pin pout a ha h0 h1 zo so fo x y z
      rw [e, hiff.mpr]
      rcases hout' with h | ⟨b, h, -⟩
      · exact .inl h
      · exact .inr ⟨b, h⟩
    obtain ⟨q, pm', r1, r2, r3, ⟨r, ⟨rz, rs, rf⟩, ⟨ri1, ri2, ri3⟩, r5⟩, r6, r7⟩ := permuteParams_axis (pout := pout) h0 h1 ha hn hn0 hin hk0 hout'
    refine ⟨dst', q, pm', goal q pm' r1 hacc, hsz, r2, ?_, hfr, r7⟩
    obtain ⟨az, as', af⟩ := ha
    obtain ⟨i1, i2, i3⟩ := hin
    intro is js hI hJ hrel
    have e := hget is js hI hJ hrel
    have hidx : js.getD k0 0 = is.getD pin.dim.toNat 0 := by rw [hrel k0 hk1, hk2]
    have hb : 0 ≤ is.getD pin.dim.toNat 0 ∧ is.getD pin.dim.toNat 0 < inT.shape.getD pin.dim.toNat 0 :=
      inShape_getD hI (by unfold Tensor.shape; rw [List.length_map]; omega)
    obtain ⟨v1, v2, v3⟩ := r5 _ hb.1 hb.2
    obtain ⟨w1, w2, w3⟩ := r6 _ hb.1 hb.2
    have q0 : 0 ≤ q.dim := by omega
    have qt : q.dim.toNat = k0 := by omega
    have hb' : 0 ≤ js.getD q.dim.toNat 0 ∧ js.getD q.dim.toNat 0 < inT.shape.getD pin.dim.toNat 0 := by rw [qt, hidx]; exact hb
    refine ⟨_, number_eq (rdIn is hI) (entry_axis h0 az hb i1) (entry_axis h0 as' hb i2) (entry_axis h0 af hb i3) rfl, ?_, ?_⟩
    · refine number_eq (x := src.get (inT.base + offset inT.strides is)) (by rw [rdOut js hJ, e]) (entry_axis q0 rz hb' (by rw [r2]; exact ri1))
        (entry_axis q0 rs hb' (by rw [r2]; exact ri2)) (entry_axis q0 rf hb' (by rw [r2]; exact ri3)) ?_
      rw [qt, hidx, v1, v2, v3]
    · refine number_eq (x := src.get (inT.base + offset inT.strides is)) (rdIn is hI) (entry_axis h0 az hb (by rw [r2]; exact i1))
        (entry_axis h0 as' hb (by rw [r2]; exact i2)) (entry_axis h0 af hb (by rw [r2]; exact i3)) ?_
      rw [w1, w2, w3]

/-- **Violation**: for per-tensor quantization the three values are copied but not the capacities, which are 0 in the input: an output
tensor that was per-axis before keeps its capacities, and every function that checks the parameters refuses it. -/
theorem c98_per_tensor_violated : ∃ (inT outT : Tensor) (perm : PermCfg) (pin pout : SaMem) (src dst pm : Buf), inT.Valid src ∧ outT.Valid dst ∧
    ParOk inT pin pm ∧ chkQuantMem inT pin pm 15 = some .ok ∧ ∃ dst' q pm',
      permuteSa inT outT perm true pin pout src dst pm = some (.ok, dst', q, pm') ∧ chkQuantMem outT q pm' 15 = some .badTensor := by
  refine ⟨{ dims := [⟨2, 1⟩], cap := 2, es := 1 }, { dims := [⟨2, 1⟩], cap := 2, es := 1 }, [0], ⟨-1, ⟨0, .imm 3⟩, ⟨0, .imm 1⟩, ⟨0, .imm 0⟩⟩,
    ⟨0, ⟨4, .ptr (some 0)⟩, ⟨4, .ptr (some 2)⟩, ⟨2, .ptr (some 4)⟩⟩, Buf.ofList [1, 2], Buf.ofList [0, 0], Buf.ofList [0, 0, 1, 1, 0, 0],
    ⟨by decide, by decide, by decide, by decide⟩, ⟨by decide, by decide, by decide, by decide⟩,
    .perTensor 3 1 0 (by decide) (by decide) (by decide) (by decide), by decide, ?_⟩
  exact ⟨_, _, _, rfl, by decide⟩

/-! ## Examples -/

/-- A 2×3 tensor quantized along its second dimension, permuted; the output has arrays of its own in the cells 9..17. -/
def exPermIn : Tensor := { dims := [⟨2, 3⟩, ⟨3, 1⟩], cap := 6, es := 1 }
def exPermOut : Tensor := { dims := [⟨3, 2⟩, ⟨2, 1⟩], cap := 6, es := 1 }
def exPermPin : SaMem := ⟨1, ⟨6, .ptr (some 0)⟩, ⟨6, .ptr (some 3)⟩, ⟨3, .ptr (some 6)⟩⟩
def exPermPout : SaMem := ⟨-1, ⟨6, .ptr (some 9)⟩, ⟨6, .ptr (some 12)⟩, ⟨3, .ptr (some 15)⟩⟩
def exPermMem : Buf := Buf.ofList [1, 2, 3, 5, 6, 7, 0, 1, 2, 9, 9, 9, 9, 9, 9, 9, 9, 9]

example : exPermIn.Valid (Buf.ofList [10, 20, 30, 40, 50, 60]) := ⟨by decide, by decide, by decide, by decide⟩
example : exPermOut.Valid (Buf.ofList [0, 0, 0, 0, 0, 0]) := ⟨by decide, by decide, by decide, by decide⟩
example : ParOk exPermIn exPermPin exPermMem := .perAxis ⟨0, 3, 6⟩ (by decide) (by decide) (by decide) (by decide)
example : chkPermute exPermIn exPermOut [1, 0] true = some .ok ∧ Arrays.Of ⟨0, 3, 6⟩ exPermPin ∧
    Own ⟨0, 3, 6⟩ ⟨9, 12, 15⟩ exPermPout 3 ∧ Arrays.In ⟨9, 12, 15⟩ 0 3 exPermMem ∧ Arrays.Apart ⟨0, 3, 6⟩ 3 ⟨9, 12, 15⟩ 0 3 := by decide
example : (permuteSa exPermIn exPermOut [1, 0] true exPermPin exPermPout (Buf.ofList [10, 20, 30, 40, 50, 60])
      (Buf.ofList [0, 0, 0, 0, 0, 0]) exPermMem).map (fun r => (r.1, r.2.1.toList, r.2.2.1, r.2.2.2.toList)) =
    some (.ok, [10, 40, 20, 50, 30, 60], ⟨0, ⟨6, .ptr (some 9)⟩, ⟨6, .ptr (some 12)⟩, ⟨3, .ptr (some 15)⟩⟩,
      [1, 2, 3, 5, 6, 7, 0, 1, 2, 1, 2, 3, 5, 6, 7, 0, 1, 2]) := by decide +kernel
/-- The element (1, 2) of the input, the element (2, 1) of the output: (60 - 3) * 7 / 2^2. -/
example : number (Buf.ofList [10, 20, 30, 40, 50, 60]) exPermMem exPermIn exPermPin [1, 2] = some (399 / 4) :=
  number_eq (x := 60) (z := 3) (s := 7) (f := 2) (by decide) (by decide) (by decide) (by decide) (by norm_num)
/-- Null pointers: the arrays are shared. -/
example : (permuteSa exPermIn exPermOut [1, 0] true exPermPin ⟨-1, ⟨0, .ptr none⟩, ⟨0, .ptr none⟩, ⟨0, .ptr none⟩⟩ (Buf.ofList [10, 20, 30, 40, 50, 60])
      (Buf.ofList [0, 0, 0, 0, 0, 0]) exPermMem).map (fun r => (r.1, r.2.2.1)) =
    some (.ok, ⟨0, ⟨6, .ptr (some 0)⟩, ⟨6, .ptr (some 3)⟩, ⟨3, .ptr (some 6)⟩⟩) := by decide +kernel
/-- A capacity of five bytes for three scales is refused. -/
example : chkPermutePar exPermIn exPermPin ⟨-1, ⟨6, .ptr (some 9)⟩, ⟨5, .ptr (some 12)⟩, ⟨3, .ptr (some 15)⟩⟩ = some .specParamMismatch := by decide

end Mli
