import Verif.Props.QuantPermute
import Verif.Props.Mov
import Verif.Lemmas.ConvRun

/-! # C99: data movement keeps the numbers -/

namespace Mli

open Spec

/-! ## Specification -/

/-- The movement leaves source dimension `d`, which becomes dimension `o` of the destination, as it is: all of it, in the same place. -/
def AxisWhole (src : Tensor) (c : MovCfg) (d o : Nat) : Prop :=
  (c.size d = 0 ∨ c.size d = src.shape.getD d 0) ∧ c.offset d = 0 ∧ c.padPre d = 0 ∧ c.padPost d = 0 ∧ c.sub d = 1 ∧ c.dstOffset o = 0

/-- Acceptable parameters of the destination, for arrays `a` of the source: shared arrays if nothing changes along the quantized
dimension, or arrays of its own with room for `n` entries. -/
def MovOut (src : Tensor) (c : MovCfg) (pin pout : SaMem) (a : Arrays) (o : Nat) (n : Int) : Prop :=
  (Shared pin pout ∧ AxisWhole src c pin.dim.toNat o) ∨ ∃ b, Own a b pout n

/-! ## The decision -/

theorem shape_lt_pow {t : Tensor} {b : Buf} (h : t.Valid b) {k : Nat} (hk : k < t.dims.length) : t.shape.getD k 0 < 2 ^ 31 := by
  have h1 := h.count_le
  have hl : k < t.shape.length := by unfold Tensor.shape; rw [List.length_map]; exact hk
  have hg : t.shape.getD k 0 = t.shape[k] := by rw [List.getD_eq_getElem?_getD, List.getElem?_eq_getElem hl]; rfl
  have hpos : ∀ x ∈ t.shape, 1 ≤ x := by
    intro x hx
    unfold Tensor.shape at hx
    rw [List.mem_map] at hx
    obtain ⟨d, hd, rfl⟩ := hx
    exact h.shape_pos d hd
  have hdvd : (t.shape[k]).toNat ∣ (t.shape.map Int.toNat).prod := List.dvd_prod (List.mem_map.mpr ⟨_, List.getElem_mem hl, rfl⟩)
  have hp : 0 < (t.shape.map Int.toNat).prod := by
    apply Nat.pos_of_ne_zero
    rw [Ne, List.prod_eq_zero_iff]
    intro hm
    rw [List.mem_map] at hm
    obtain ⟨x, hx, e⟩ := hm
    have := hpos x hx
    omega
  have := Nat.le_of_dvd hp hdvd
  have := hpos _ (List.getElem_mem hl)
  rw [hg]
  omega

theorem movFindDim_eq {src : Tensor} {c : MovCfg} (hs : c.Sane src) {o : Nat} (ho : o < src.dims.length) :
    movFindDim src.dims.length c (c.perm o : Int) = some o := by
  unfold movFindDim
  cases h : (List.range src.dims.length).find? (fun k => (c.perm k : Int) == (c.perm o : Int)) with
  | none =>
    rw [List.find?_eq_none] at h
    exact absurd (by simp) (h o (by simpa using ho))
  | some k =>
    have h1 := List.find?_some h
    have h2 := List.mem_of_find?_eq_some h
    rw [List.mem_range] at h2
    rw [beq_iff_eq] at h1
    rw [hs.permInj k o h2 ho (by omega)]

theorem movCfgOk_sane {src : Tensor} {c : MovCfg} (hs : c.Sane src) : movCfgOk src c = true := by
  unfold movCfgOk
  rw [List.all_eq_true]
  intro i hi
  rw [List.mem_range] at hi
  have h1 := hs.window i hi
  have h2 := hs.small i hi
  have h3 := hs.offset i
  have h4 := hs.size i
  have h5 := (hs.sub i).1
  have h6 := hs.permLt i hi
  have h7 := hs.padPre i
  have h8 := hs.padPost i
  unfold movLen at h1
  have h9 : c.size i + c.offset i ≤ src.gShape i + c.padPre i + c.padPost i := by
    split at h1 <;> omega
  simp only [Bool.and_eq_true, decide_eq_true_eq]
  refine ⟨⟨?_, by omega⟩, h6⟩
  rw [u32_id ⟨by omega, by omega⟩, u32_id ⟨by omega, by omega⟩]
  exact h9

theorem movParSize_eq {src : Tensor} {c : MovCfg} (hs : c.Sane src) {o : Nat} (ho : o < src.dims.length)
    (hsm : movWriteSize src c o + c.dstOffset o < 2 ^ 31) :
    movParSize src c (c.perm o) o = movWriteSize src c o + c.dstOffset o := by
  obtain ⟨e, h31⟩ := movCpySize_eq hs ho
  have hw := (hs.window _ (hs.permLt o ho)).1
  have h1 := movWriteSize_pos hs ho
  have h2 := hs.dstOffset o
  have hwr : ∀ x : Int, 0 ≤ x → x < 2 ^ 31 → wrap 32 x = x := fun x h1 h2 => wrap_of_inRange (by decide) ⟨by unfold lo; omega, by unfold hi; omega⟩
  have e' : (if c.size (c.perm o) > 0 then c.size (c.perm o) else u32 (src.gShape (c.perm o) - c.offset (c.perm o) + c.padPre (c.perm o) +
      c.padPost (c.perm o))) = movCpySize src c o := rfl
  unfold movParSize
  simp only [e']
  rw [hwr (movCpySize src c o) (by omega) (by omega)]
  have e2 : u32 (movCpySize src c o + c.sub (c.perm o) - 1) / c.sub (c.perm o) = movWriteSize src c o := rfl
  rw [e2]
  exact hwr _ (by omega) hsm

/-- **C99, the decision.** For a per-axis tensor and a meaningful configuration the parameters are accepted exactly in the documented
situations: the arrays may be shared only if nothing changes along the quantized dimension, and arrays of the destination's own need
capacity for one entry per index of the destination's quantized dimension. -/
theorem c99_accepts (src dst : Tensor) (c : MovCfg) (db : Buf) (pin pout : SaMem) (a : Arrays) (o : Nat) (hs : c.Sane src)
    (hd : (movDst src c dst).Valid db) (ha : a.Of pin) (ho : o < src.dims.length) (hdim : pin.dim = c.perm o)
    (zo so fo : Option Int) (hz : pout.zp.val = .ptr zo) (hsc : pout.scale.val = .ptr so) (hf : pout.frac.val = .ptr fo) :
    ∃ st, chkMovPar src c pin pout = some st ∧ (st = .ok ∨ st = .specParamMismatch) ∧
      (st = .ok ↔ MovOut src c pin pout a o ((movDst src c dst).shape.getD o 0)) := by
  obtain ⟨az, as', af⟩ := ha
  have ho' : o < (movDst src c dst).dims.length := by rw [movDst_length]; exact ho
  have hshape : (movDst src c dst).shape.getD o 0 = movWriteSize src c o + c.dstOffset o := by
    rw [← gShape_lt ho', movDst_gShape _ _ _ _ ho, movDstShape_eq hs ho]
  have hsm := shape_lt_pow hd ho'
  rw [hshape] at hsm ⊢
  have hp := hs.permLt o ho
  have hn : src.gShape (c.perm o) = src.shape.getD (c.perm o) 0 := gShape_lt hp
  have hw := movWriteSize_pos hs ho
  have hdo := hs.dstOffset o
  unfold chkMovPar Cont.addr MovOut AxisWhole
  rw [if_pos (by omega)]
  simp only [az, as', af, hz, hsc, hf, Option.bind_eq_bind, Option.bind_some, Option.pure_def, movCfgOk_sane hs, Bool.not_true,
    Bool.false_eq_true, if_false, hdim, Int.toNat_natCast, movFindDim_eq hs ho, Option.getD_some, movParSize_eq hs ho hsm, hn]
  generalize hN : movWriteSize src c o + c.dstOffset o = n
  have hn0 : 0 ≤ n := by omega
  by_cases hc : parConsistent (some a.z) (some a.s) (some a.f) zo so fo = true
  · rw [hc]
    simp only [Bool.not_true, Bool.false_eq_true, if_false]
    rw [if_neg (by omega)]
    unfold Shared Own Arrays.Of
    simp only [az, as', af, hz, hsc, hf, CVal.ptr.injEq]
    unfold parConsistent at hc
    simp only [Bool.and_eq_true, Bool.or_eq_true, bne_iff_ne, beq_iff_eq, Bool.not_eq_true', Bool.and_eq_false_iff, bne_eq_false_iff_eq,
      ne_eq] at hc
    by_cases hown : zo = none ∨ zo = some a.z
    · rw [if_pos hown]
      have hsh : (zo = none ∧ so = none ∧ fo = none) ∨ (zo = some a.z ∧ so = some a.s ∧ fo = some a.f) := by
        rcases hown with h | h
        · rcases hc.2 with h' | h'
          · exact absurd h h'
          · exact .inl ⟨h, h'.1, h'.2⟩
        · rcases hc.1.1 with h' | h'
          · exact absurd h h'
          · exact .inr ⟨h, h'.1, h'.2⟩
      by_cases hWd : ((c.size (c.perm o) = 0 ∨ c.size (c.perm o) = src.shape.getD (c.perm o) 0) ∧ c.offset (c.perm o) = 0 ∧
          c.padPre (c.perm o) = 0 ∧ c.padPost (c.perm o) = 0 ∧ c.sub (c.perm o) = 1 ∧ c.dstOffset o = 0)
      · rw [if_neg (not_not.mpr hWd)]
        exact ⟨.ok, rfl, .inl rfl, fun _ => .inl ⟨hsh, hWd⟩, fun _ => rfl⟩
      · rw [if_pos hWd]
        refine ⟨.specParamMismatch, rfl, .inr rfl, fun h => by simp at h, ?_⟩
        rintro (⟨-, h⟩ | ⟨b, ⟨h, -⟩, h', -⟩)
        · exact absurd h hWd
        · rcases hown with h2 | h2
          · rw [h] at h2; simp at h2
          · rw [h] at h2; simp only [Option.some.injEq] at h2; exact absurd h2 h'
    · rw [if_neg hown]
      rw [not_or] at hown
      obtain ⟨bz, rfl⟩ := Option.ne_none_iff_exists'.mp hown.1
      have h2 : (¬ so = none ∧ ¬ so = some a.s) ∧ ¬ fo = none ∧ ¬ fo = some a.f := by
        rcases hc.1.2 with (h | h) | h
        · exact absurd h hown.1
        · exact absurd h hown.2
        · exact h
      obtain ⟨bs, rfl⟩ := Option.ne_none_iff_exists'.mp h2.1.1
      obtain ⟨bf, rfl⟩ := Option.ne_none_iff_exists'.mp h2.2.1
      have e1 : bz ≠ a.z := fun h => hown.2 (by rw [h])
      have e2 : bs ≠ a.s := fun h => h2.1.2 (by rw [h])
      have e3 : bf ≠ a.f := fun h => h2.2.2 (by rw [h])
      by_cases hcap : n * 2 ≤ pout.zp.cap ∧ n * 2 ≤ pout.scale.cap ∧ n ≤ pout.frac.cap
      · rw [if_neg (not_not.mpr ⟨hn0, hcap⟩)]
        exact ⟨.ok, rfl, .inl rfl, fun _ => .inr ⟨⟨bz, bs, bf⟩, ⟨rfl, rfl, rfl⟩, e1, e2, e3, hcap⟩, fun _ => rfl⟩
      · rw [if_pos (fun h => hcap h.2)]
        refine ⟨.specParamMismatch, rfl, .inr rfl, fun h => by simp at h, ?_⟩
        rintro (⟨h, -⟩ | ⟨b, -, -, -, -, h⟩)
        · rcases h with ⟨h, -⟩ | ⟨h, -⟩
          · simp at h
          · simp only [Option.some.injEq] at h; exact absurd h e1
        · exact absurd h hcap
  · rw [Bool.not_eq_true] at hc
    rw [hc]
    refine ⟨.specParamMismatch, rfl, .inr rfl, fun h => by simp at h, ?_⟩
    intro h
    exfalso
    rw [Bool.eq_false_iff] at hc
    apply hc
    unfold Shared Own Arrays.Of at h
    simp only [az, as', af, hz, hsc, hf, CVal.ptr.injEq] at h
    unfold parConsistent
    rcases h with ⟨⟨rfl, rfl, rfl⟩ | ⟨rfl, rfl, rfl⟩, -⟩ | ⟨b, ⟨rfl, rfl, rfl⟩, e1, e2, e3, -⟩
    · simp
    · simp
    · simp [e1, e2, e3]

/-! ## Moving one parameter array -/

theorem movParLoop_puts {src : Tensor} {c : MovCfg} {d o : Nat} {n pad p q : Int} {pm : Buf} (hn : 0 ≤ n)
    (hp : 0 ≤ p ∧ p + src.gShape d ≤ pm.size) (hq : 0 ≤ q + c.dstOffset o ∧ q + c.dstOffset o + n ≤ pm.size)
    (hsep : NoShare p (src.gShape d) (q + c.dstOffset o) n) :
    ∃ pm', movParLoop src c d o n pad p q pm = some pm' ∧ pm.Puts (q + c.dstOffset o) n
      (fun i => if i * c.sub d + c.offset d - c.padPre d < 0 ∨ src.gShape d ≤ i * c.sub d + c.offset d - c.padPre d then pad
        else pm.get (p + (i * c.sub d + c.offset d - c.padPre d))) pm' := by
  unfold movParLoop
  apply forRange_puts _ _ hn hq
  intro i hi d' hd hfr
  simp only [Option.bind_eq_bind]
  rw [show q + ((i : Int) + c.dstOffset o) = q + c.dstOffset o + i by omega]
  generalize (i : Int) * c.sub d + c.offset d - c.padPre d = s
  by_cases hs : s < 0 ∨ src.gShape d ≤ s
  · rw [if_pos hs, if_pos hs]
  · rw [if_neg hs, if_neg hs, Buf.rd_some (by omega), Option.bind_some, hfr _ (by unfold NoShare at hsep; omega)]

theorem Spec.NoShare.left {p n q m i : Int} (h : NoShare p n q m) (h0 : 0 ≤ i) (h1 : i < n) : p + i < q ∨ q + m ≤ p + i := by
  unfold NoShare at h; omega

theorem Spec.NoShare.right {p n q m i : Int} (h : NoShare p n q m) (h0 : 0 ≤ i) (h1 : i < m) : q + i < p ∨ p + n ≤ q + i := by
  unfold NoShare at h; omega

/-- The parameters of the destination for per-axis quantization. -/
theorem movParams_axis {src : Tensor} {c : MovCfg} {pin pout : SaMem} {pm : Buf} {a : Arrays} {o : Nat} (hs : c.Sane src)
    (ho : o < src.dims.length) (hdim : pin.dim = c.perm o) (ha : a.Of pin) (hin : a.In 0 (src.gShape (c.perm o)) pm)
    (hout : (Shared pin pout ∧ AxisWhole src c (c.perm o) o) ∨ ∃ b, (b.Of pout ∧ b.s ≠ a.s) ∧ b.In (c.dstOffset o) (movWriteSize src c o) pm ∧
      a.Apart (src.gShape (c.perm o)) b (c.dstOffset o) (movWriteSize src c o)) :
    ∃ q pm', movParams src c pin pout pm = some (q, pm') ∧ pm'.size = pm.size ∧ q.dim = o ∧
      (∃ r : Arrays, r.Of q ∧ ∀ i, 0 ≤ i → i < movWriteSize src c o →
        (0 ≤ r.z + (i + c.dstOffset o) ∧ r.z + (i + c.dstOffset o) < pm.size) ∧ (0 ≤ r.s + (i + c.dstOffset o) ∧ r.s + (i + c.dstOffset o) < pm.size) ∧
        (0 ≤ r.f + (i + c.dstOffset o) ∧ r.f + (i + c.dstOffset o) < pm.size) ∧
        (∀ s, s = i * c.sub (c.perm o) + c.offset (c.perm o) - c.padPre (c.perm o) →
          (0 ≤ s → s < src.gShape (c.perm o) → pm'.get (r.z + (i + c.dstOffset o)) = pm.get (a.z + s) ∧
            pm'.get (r.s + (i + c.dstOffset o)) = pm.get (a.s + s) ∧ pm'.get (r.f + (i + c.dstOffset o)) = pm.get (a.f + s)) ∧
          (s < 0 ∨ src.gShape (c.perm o) ≤ s → pm'.get (r.z + (i + c.dstOffset o)) = 0 ∧
            pm'.get (r.s + (i + c.dstOffset o)) = 1 ∧ pm'.get (r.f + (i + c.dstOffset o)) = 0))) ∧
      (∀ i, 0 ≤ i → i < src.gShape (c.perm o) → pm'.get (a.z + i) = pm.get (a.z + i) ∧
        pm'.get (a.s + i) = pm.get (a.s + i) ∧ pm'.get (a.f + i) = pm.get (a.f + i)) ∧
      (∀ x, (∀ b : Arrays, b.Of pout → ∀ y ∈ [b.z, b.s, b.f], x < y + c.dstOffset o ∨ y + c.dstOffset o + movWriteSize src c o ≤ x) →
        pm'.get x = pm.get x) := by
  obtain ⟨az, as', af⟩ := ha
  have hp := hs.permLt o ho
  have hw := movWriteSize_pos hs ho
  unfold movParams Cont.addr
  rw [if_pos (by omega), hdim, movFindDim_eq hs ho]
  rcases hout with ⟨hsh, hwh⟩ | ⟨b, ⟨⟨bz, bs, bf⟩, e2⟩, ⟨oz, os, of'⟩, hap, s1, s2, s3⟩
  · have hso : pout.scale.val = .ptr none ∨ pout.scale.val = .ptr (some a.s) := by
      rcases hsh with h | h
      · exact .inl h.2.1
      · exact .inr (h.2.1.trans as')
    obtain ⟨w1, w2, w3, w4, w5, w6⟩ := hwh
    have hN : ∀ i, i < movWriteSize src c o → 0 ≤ i → i < src.gShape (c.perm o) := by
      intro i h1 h0
      have := (movWriteSize_lt hs ho h0).mp h1
      rw [w5, Int.mul_one] at this
      unfold movLen at this
      rw [gShape_lt hp] at this ⊢
      rcases w1 with h | h
      · rw [if_neg (by omega), w2, w3, w4] at this
        omega
      · split at this
        · omega
        · omega
    obtain ⟨i1, i2, i3⟩ := hin
    refine ⟨⟨o, pin.zp, pin.scale, pin.frac⟩, pm, ?_, rfl, rfl, ⟨a, ⟨az, as', af⟩, ?_⟩, fun _ _ _ => ⟨rfl, rfl, rfl⟩, fun _ _ => rfl⟩
    · rcases hso with h | h
      · simp [as', h]
      · simp [as', h]
    · intro i h0 h1
      have := hN i h1 h0
      rw [w2, w3, w5, w6]
      refine ⟨by omega, by omega, by omega, ?_⟩
      intro s hse
      have hsi : s = i := by omega
      subst hsi
      rw [Int.add_zero]
      exact ⟨fun _ _ => ⟨rfl, rfl, rfl⟩, fun h => by omega⟩
  · simp only [az, as', af, bz, bs, bf, Option.bind_eq_bind, Option.bind_some, Option.pure_def]
    rw [if_pos ⟨fun h => e2 (by simpa using h), by simp⟩, if_neg (by omega)]
    simp only [Int.toNat_natCast]
    obtain ⟨iz, is', jf⟩ := hin
    rw [Int.add_zero] at iz is' jf
    have q11 := hap a.z (by simp) b.z (by simp)
    have q12 := hap a.z (by simp) b.s (by simp)
    have q13 := hap a.z (by simp) b.f (by simp)
    have q21 := hap a.s (by simp) b.z (by simp)
    have q22 := hap a.s (by simp) b.s (by simp)
    have q23 := hap a.s (by simp) b.f (by simp)
    have q31 := hap a.f (by simp) b.z (by simp)
    have q32 := hap a.f (by simp) b.s (by simp)
    have q33 := hap a.f (by simp) b.f (by simp)
    have hn0 : 0 ≤ movWriteSize src c o := by omega
    obtain ⟨m1, z1, z2⟩ := movParLoop_puts (pad := 1) (pm := pm) hn0 is' os q22
    obtain ⟨m2, t1, t2⟩ := movParLoop_puts (pad := 0) (pm := m1) hn0 (by rw [z2.size]; exact iz) (by rw [z2.size]; exact oz) q11
    obtain ⟨m3, u1, u2⟩ := movParLoop_puts (pad := 0) (pm := m2) hn0 (by rw [t2.size, z2.size]; exact jf) (by rw [t2.size, z2.size]; exact of') q33
    rw [z1, Option.bind_some, t1, Option.bind_some, u1, Option.bind_some]
    refine ⟨_, _, rfl, by rw [u2.size, t2.size, z2.size], rfl, ⟨b, ⟨bz, bs, bf⟩, ?_⟩, ?_, ?_⟩
    · intro i h0 h1
      rw [show b.z + (i + c.dstOffset o) = b.z + c.dstOffset o + i by omega, show b.s + (i + c.dstOffset o) = b.s + c.dstOffset o + i by omega,
        show b.f + (i + c.dstOffset o) = b.f + c.dstOffset o + i by omega]
      refine ⟨⟨by omega, by omega⟩, ⟨by omega, by omega⟩, ⟨by omega, by omega⟩, ?_⟩
      intro s hse
      have ez : m3.get (b.z + c.dstOffset o + i) = if s < 0 ∨ src.gShape (c.perm o) ≤ s then 0 else m1.get (a.z + s) := by
        rw [u2.frame _ (s2.left h0 h1), t2.hit i h0 h1, ← hse]
      have es : m3.get (b.s + c.dstOffset o + i) = if s < 0 ∨ src.gShape (c.perm o) ≤ s then 1 else pm.get (a.s + s) := by
        rw [u2.frame _ (s3.left h0 h1), t2.frame _ (s1.right h0 h1), z2.hit i h0 h1, ← hse]
      have ef : m3.get (b.f + c.dstOffset o + i) = if s < 0 ∨ src.gShape (c.perm o) ≤ s then 0 else m2.get (a.f + s) := by
        rw [u2.hit i h0 h1, ← hse]
      rw [ez, es, ef]
      clear ez es ef hse
      constructor
      · intro h2 h3
        have hno : ¬ (s < 0 ∨ src.gShape (c.perm o) ≤ s) := not_or.mpr ⟨not_lt.mpr h2, not_le.mpr h3⟩
        rw [if_neg hno, if_neg hno, if_neg hno, z2.frame _ (q12.left h2 h3), t2.frame _ (q31.left h2 h3), z2.frame _ (q32.left h2 h3)]
        exact ⟨rfl, rfl, rfl⟩
      · intro h2
        rw [if_pos h2, if_pos h2, if_pos h2]
        exact ⟨rfl, rfl, rfl⟩
    · intro i i0 i1
      refine ⟨?_, ?_, ?_⟩
      · rw [u2.frame _ (q13.left i0 i1), t2.frame _ (q11.left i0 i1), z2.frame _ (q12.left i0 i1)]
      · rw [u2.frame _ (q23.left i0 i1), t2.frame _ (q21.left i0 i1), z2.frame _ (q22.left i0 i1)]
      · rw [u2.frame _ (q33.left i0 i1), t2.frame _ (q31.left i0 i1), z2.frame _ (q32.left i0 i1)]
    · intro x hx
      have hx' := hx b ⟨bz, bs, bf⟩
      have x1 := hx' b.z (by simp)
      have x2 := hx' b.s (by simp)
      have x3 := hx' b.f (by simp)
      rw [u2.frame _ x3, t2.frame _ x1, z2.frame _ x2]

/-! ## The property -/

/-- What a data movement of a quantized tensor has to achieve, in terms of the numbers. -/
structure MovNumbers (src dstT : Tensor) (c : MovCfg) (pin pout q : SaMem) (sb db' pm pm' : Buf) : Prop where
  /-- an element stands for the number the source element it was taken from stands for -/
  copied : ∀ js is, MovPos src c js → InShape src.shape is →
    (∀ k, k < src.dims.length → is.getD (c.perm k) 0 = movSpecCoord c js k) →
    ∃ v, number sb pm src pin is = some v ∧ number db' pm' dstT q (movTarget src.dims.length c js) = some v ∧
      number sb pm' src pin is = some v
  /-- padding along the quantized dimension stands for zero -/
  axisPad : 0 ≤ pin.dim → ∀ js k, MovPos src c js → k < src.dims.length → (c.perm k : Int) = pin.dim →
    (movSpecCoord c js k < 0 ∨ src.shape.getD (c.perm k) 0 ≤ movSpecCoord c js k) →
    number db' pm' dstT q (movTarget src.dims.length c js) = some 0
  /-- padding of a tensor with zero point 0 stands for zero -/
  zeroPad : pin.dim < 0 → pin.zp.val = .imm 0 → ∀ js, MovPos src c js →
    (∃ k, k < src.dims.length ∧ (movSpecCoord c js k < 0 ∨ src.shape.getD (c.perm k) 0 ≤ movSpecCoord c js k)) →
    number db' pm' dstT q (movTarget src.dims.length c js) = some 0
  size : pm'.size = pm.size
  /-- of the parameter memory only the entries of the destination's own arrays that belong to moved indices change -/
  frame : ∀ x, (∀ b : Arrays, b.Of pout → ∀ k, (c.perm k : Int) = pin.dim → ∀ y ∈ [b.z, b.s, b.f], ∀ i, 0 ≤ i →
    i * c.sub (c.perm k) < movLen src c (c.perm k) → x ≠ y + (i + c.dstOffset k)) → pm'.get x = pm.get x

/-- The caller's side for per-axis tensors: shared parameter arrays and an unchanged quantized dimension, or arrays of the
destination's own, with room, apart from those of the source. -/
def MovParOk (src dstT : Tensor) (c : MovCfg) (pin pout : SaMem) (pm : Buf) : Prop :=
  ∀ a : Arrays, a.Of pin → ∀ o, o < src.dims.length → (c.perm o : Int) = pin.dim →
    (Shared pin pout ∧ AxisWhole src c (c.perm o) o) ∨
    ∃ b, Own a b pout (dstT.shape.getD o 0) ∧ b.In 0 (dstT.shape.getD o 0) pm ∧ a.Apart (src.shape.getD (c.perm o) 0) b 0 (dstT.shape.getD o 0)

theorem mov_numbers {src dst : Tensor} {c : MovCfg} {pin pout : SaMem} {sb db pm : Buf} (hs : c.Sane src) (hv : src.Valid sb)
    (hd : (movDst src c dst).Valid db) (hp : ParOk src pin pm) (hdim : -1 ≤ pin.dim)
    (hout : MovParOk src (movDst src c dst) c pin pout pm)
    (hdata : ∃ db', movPrepare src dst c true sb db = some (.ok, movDst src c dst, db') ∧ MovDone src (movDst src c dst) c sb db db') :
    ∃ db' q pm', movPrepareSa src dst c true pin pout sb db pm = some (.ok, movDst src c dst, q, db', pm') ∧
      MovDone src (movDst src c dst) c sb db db' ∧ MovNumbers src (movDst src c dst) c pin pout q sb db' pm pm' := by
  obtain ⟨db', hrun, hdone⟩ := hdata
  have goal : ∀ q pm', movParams src c pin pout pm = some (q, pm') → chkMovPar src c pin pout = some .ok →
      movPrepareSa src dst c true pin pout sb db pm = some (.ok, movDst src c dst, q, db', pm') := by
    intro q pm' h1 h2
    unfold movPrepareSa
    rw [hv.accepted, h2, h1, hrun]
    rfl
  have rdS : ∀ is, InShape src.shape is → sb.rd (src.base + offset src.strides is) = some (sb.get (src.base + offset src.strides is)) :=
    fun is h => Buf.rd_some (hv.inBounds h)
  have rdD : ∀ js, MovPos src c js → db'.rd ((movDst src c dst).base + offset (movDst src c dst).strides (movTarget src.dims.length c js)) =
      some (db'.get ((movDst src c dst).base + offset (movDst src c dst).strides (movTarget src.dims.length c js))) :=
    fun js h => Buf.rd_some (by rw [hdone.size]; exact hd.inBounds (movTarget_inShape hs h))
  cases hp with
  | perTensor z s f h0 hz hsc hf =>
    have e1 : pin.dim = -1 := by omega
    have ez : ∀ is, entry pm pin.dim pin.zp is = some z := fun is => by unfold entry; rw [if_neg (by omega), hz]
    have es : ∀ is, entry pm pin.dim pin.scale is = some s := fun is => by unfold entry; rw [if_neg (by omega), hsc]
    have ef : ∀ is, entry pm pin.dim pin.frac is = some f := fun is => by unfold entry; rw [if_neg (by omega), hf]
    refine ⟨db', pin, pm, goal pin pm ?_ ?_, hdone, ?_, fun h => by omega, ?_, rfl, fun _ _ => rfl⟩
    · unfold movParams; rw [if_neg (by omega)]
    · unfold chkMovPar; rw [if_neg (by omega)]
    · intro js is hj hi hrel
      have en := number_eq (rdS is hi) (ez is) (es is) (ef is) rfl
      exact ⟨_, en, number_eq (by rw [rdD js hj, hdone.copied js is hj hi hrel]) (ez _) (es _) (ef _) rfl, en⟩
    · intro _ hz0 js hj hpad
      have : z = 0 := by rw [hz] at hz0; simpa using hz0
      subst this
      exact number_eq (x := 0) (by rw [rdD js hj, hdone.padded js hj hpad]) (ez _) (es _) (ef _) (by simp)
  | perAxis a h0 h1 ha hin =>
    obtain ⟨o, ho, hpo⟩ := permFn_surj hs.permLt hs.permInj (m := pin.dim.toNat) (by omega)
    have hpd : pin.dim = c.perm o := by omega
    have hpt : pin.dim.toNat = c.perm o := hpo.symm
    have hplt := hs.permLt o ho
    have hg : src.gShape (c.perm o) = src.shape.getD (c.perm o) 0 := gShape_lt hplt
    have ho' : o < (movDst src c dst).dims.length := by rw [movDst_length]; exact ho
    have hshape : (movDst src c dst).shape.getD o 0 = movWriteSize src c o + c.dstOffset o := by
      rw [← gShape_lt ho', movDst_gShape _ _ _ _ ho, movDstShape_eq hs ho]
    have hw := movWriteSize_pos hs ho
    have hdo := hs.dstOffset o
    have hout' := hout a ha o ho hpd.symm
    have hacc : chkMovPar src c pin pout = some .ok := by
      have hvv : ∃ zo so fo, pout.zp.val = .ptr zo ∧ pout.scale.val = .ptr so ∧ pout.frac.val = .ptr fo := by
        rcases hout' with ⟨⟨x, y, z⟩ | ⟨x, y, z⟩, -⟩ | ⟨b, ⟨⟨x, y, z⟩, -⟩, -⟩
        · exact ⟨_, _, _, x, y, z⟩
        · exact ⟨_, _, _, x.trans ha.1, y.trans ha.2.1, z.trans ha.2.2⟩
        · exact ⟨_, _, _, x, y, z⟩
      obtain ⟨zo, so, fo, x, y, z⟩ := hvv
      obtain ⟨st, e, -, hiff⟩ := c99_accepts src dst c db pin pout a o hs hd ha ho hpd zo so fo x y z
      rw [e, hiff.mpr]
      unfold MovOut
      rw [hpt]
      rcases hout' with h | ⟨b, h, -⟩
      · exact .inl h
      · exact .inr ⟨b, h⟩
    rw [hpt, ← hg] at hin
    have hout2 : (Shared pin pout ∧ AxisWhole src c (c.perm o) o) ∨ ∃ b, (b.Of pout ∧ b.s ≠ a.s) ∧ b.In (c.dstOffset o) (movWriteSize src c o) pm ∧
        a.Apart (src.gShape (c.perm o)) b (c.dstOffset o) (movWriteSize src c o) := by
      rcases hout' with h | ⟨b, ⟨hb, -, hb2, -⟩, hb3, hb4, hb5, hb6, hb7⟩
      · exact .inl h
      · right
        rw [hshape] at hb3 hb4 hb5 hb6 hb7
        rw [← hg] at hb4
        have sub1 : ∀ {p n y : Int}, NoShare p n (y + 0) (movWriteSize src c o + c.dstOffset o) → NoShare p n (y + c.dstOffset o) (movWriteSize src c o) := by
          intro p n y h; unfold NoShare at h ⊢; omega
        have sub2 : ∀ {x y : Int}, NoShare (x + 0) (movWriteSize src c o + c.dstOffset o) (y + 0) (movWriteSize src c o + c.dstOffset o) →
            NoShare (x + c.dstOffset o) (movWriteSize src c o) (y + c.dstOffset o) (movWriteSize src c o) := by
          intro x y h; unfold NoShare at h ⊢; omega
        refine ⟨b, ⟨hb, hb2⟩, ?_, fun x hx y hy => sub1 (hb4 x hx y hy), sub2 hb5, sub2 hb6, sub2 hb7⟩
        unfold Arrays.In at hb3 ⊢
        omega
    obtain ⟨q, pm', r1, r2, r3, ⟨r, ⟨rz, rs, rf⟩, r5⟩, r6, r7⟩ := movParams_axis hs ho hpd ha hin hout2
    have q0 : 0 ≤ q.dim := by omega
    have qt : q.dim.toNat = o := by omega
    obtain ⟨az, as', af⟩ := ha
    obtain ⟨i1, i2, i3⟩ := hin
    have tgt : ∀ js, (movTarget src.dims.length c js).getD o 0 = js.getD o 0 + c.dstOffset o := by
      intro js; unfold movTarget; exact getD_map_range _ ho
    have ent : ∀ (ct : Cont) (p : Int) js, ct.val = .ptr (some p) → 0 ≤ p + (js.getD o 0 + c.dstOffset o) ∧ p + (js.getD o 0 + c.dstOffset o) < pm.size →
        entry pm' q.dim ct (movTarget src.dims.length c js) = some (pm'.get (p + (js.getD o 0 + c.dstOffset o))) := by
      intro ct p js hc hb
      unfold entry
      rw [if_pos q0, hc, qt, tgt]
      exact Buf.rd_some (by rw [r2]; exact hb)
    refine ⟨db', q, pm', goal q pm' r1 hacc, hdone, ?_, ?_, fun h => by omega, r2, ?_⟩
    · intro js is hj hi hrel
      have hjo := hj.2 o ho
      have hjw := (movWriteSize_lt hs ho hjo.1).mpr hjo.2
      obtain ⟨b1, b2, b3, b4⟩ := r5 _ hjo.1 hjw
      have hco := hrel o ho
      have hb : 0 ≤ is.getD (c.perm o) 0 ∧ is.getD (c.perm o) 0 < src.gShape (c.perm o) := by
        rw [hg]; exact inShape_getD hi (by unfold Tensor.shape; rw [List.length_map]; exact hplt)
      obtain ⟨v1, v2, v3⟩ := (b4 _ hco).1 hb.1 hb.2
      obtain ⟨w1, w2, w3⟩ := r6 _ hb.1 hb.2
      rw [← hpt] at hb v1 v2 v3 w1 w2 w3
      refine ⟨_, number_eq (rdS is hi) (entry_axis h0 az hb (by rw [hpt]; exact i1)) (entry_axis h0 as' hb (by rw [hpt]; exact i2))
        (entry_axis h0 af hb (by rw [hpt]; exact i3)) rfl, ?_, ?_⟩
      · refine number_eq (by rw [rdD js hj, hdone.copied js is hj hi hrel]) (ent _ _ js rz b1) (ent _ _ js rs b2) (ent _ _ js rf b3) ?_
        rw [v1, v2, v3]
      · refine number_eq (rdS is hi) (entry_axis h0 az hb (by rw [r2, hpt]; exact i1)) (entry_axis h0 as' hb (by rw [r2, hpt]; exact i2))
          (entry_axis h0 af hb (by rw [r2, hpt]; exact i3)) ?_
        rw [w1, w2, w3]
    · intro _ js k hj hk hpk hpad
      have : k = o := hs.permInj k o hk ho (by omega)
      subst this
      have hjo := hj.2 k ho
      have hjw := (movWriteSize_lt hs ho hjo.1).mpr hjo.2
      obtain ⟨b1, b2, b3, b4⟩ := r5 _ hjo.1 hjw
      obtain ⟨v1, v2, v3⟩ := (b4 _ rfl).2 (by rw [hg]; exact hpad)
      refine number_eq (x := 0) (by rw [rdD js hj, hdone.padded js hj ⟨k, ho, hpad⟩]) (ent _ _ js rz b1) (ent _ _ js rs b2) (ent _ _ js rf b3) ?_
      rw [v1]
      simp
    · intro x hx
      apply r7 x
      intro b hb y hy
      by_contra hc
      apply hx b hb o (by omega) y hy (x - y - c.dstOffset o) (by omega)
      · exact (movWriteSize_lt hs ho (by omega)).mp (by omega)
      · omega

/-- **C99 without offsets.** A data movement with any slice size, sub-sampling, permutation and padding keeps the numbers the elements
stand for.  (With offsets: `c99_with_offsets_partial`; the flat copy that ignores offsets is `c17_flat_transfer_violated`.) -/
theorem c99_no_offsets_partial (src dst : Tensor) (c : MovCfg) (pin pout : SaMem) (sb db pm : Buf) (hs : c.Sane src) (hv : src.Valid sb)
    (hd : (movDst src c dst).Valid db) (hr0 : 0 < src.dims.length) (hoff : ∀ k, k < src.dims.length → c.offset k = 0 ∧ c.dstOffset k = 0)
    (hp : ParOk src pin pm) (hdim : -1 ≤ pin.dim) (hout : MovParOk src (movDst src c dst) c pin pout pm) :
    ∃ db' q pm', movPrepareSa src dst c true pin pout sb db pm = some (.ok, movDst src c dst, q, db', pm') ∧
      MovDone src (movDst src c dst) c sb db db' ∧ MovNumbers src (movDst src c dst) c pin pout q sb db' pm pm' :=
  mov_numbers hs hv hd hp hdim hout (c15_no_offsets_partial hs hv hd hr0 hoff)

/-- **C99 with offsets** (slices and concatenation), whenever the transfer cannot be mistaken for a flat copy. -/
theorem c99_with_offsets_partial (src dst : Tensor) (c : MovCfg) (pin pout : SaMem) (sb db pm : Buf) (hs : c.Sane src) (hv : src.Valid sb)
    (hd : (movDst src c dst).Valid db)
    (hne : ∃ k, k < src.dims.length ∧ (c.perm k ≠ k ∨ c.sub k ≠ 1 ∨ c.padPre k ≠ 0 ∨ c.padPost k ≠ 0 ∨
      src.shape.getD k 0 ≠ (movDst src c dst).shape.getD k 0 ∨
      src.strides.getD k 0 ≠ prod (src.shape.drop (k + 1)) ∨
      (movDst src c dst).strides.getD k 0 ≠ prod (src.shape.drop (k + 1))))
    (hp : ParOk src pin pm) (hdim : -1 ≤ pin.dim) (hout : MovParOk src (movDst src c dst) c pin pout pm) :
    ∃ db' q pm', movPrepareSa src dst c true pin pout sb db pm = some (.ok, movDst src c dst, q, db', pm') ∧
      MovDone src (movDst src c dst) c sb db db' ∧ MovNumbers src (movDst src c dst) c pin pout q sb db' pm pm' :=
  mov_numbers hs hv hd hp hdim hout (c15_with_offsets_partial hs hv hd hne)

/-- **Violation**: the documentation and the checks of the kernels take any negative quantized dimension for per-tensor quantization, the data
movement only -1: with another negative value it indexes the configuration in front of its arrays. -/
theorem c99_dim_violated : ∃ (src dst : Tensor) (c : MovCfg) (pin pout : SaMem) (sb db pm : Buf), c.Sane src ∧ src.Valid sb ∧
    (movDst src c dst).Valid db ∧ ParOk src pin pm ∧ chkQuantMem src pin pm 15 = some .ok ∧
    movPrepareSa src dst c true pin pout sb db pm = none := by
  refine ⟨{ dims := [⟨2, 1⟩], cap := 2, es := 1 }, { dims := [], cap := 2, es := 1 },
    ⟨fun _ => 0, fun _ => 0, fun _ => 1, fun _ => 0, fun _ => 0, id, fun _ => 0, fun _ => 0⟩, ⟨-2, ⟨0, .imm 0⟩, ⟨0, .imm 1⟩, ⟨0, .imm 0⟩⟩,
    ⟨-1, ⟨0, .imm 0⟩, ⟨0, .imm 1⟩, ⟨0, .imm 0⟩⟩, Buf.ofList [1, 2], Buf.ofList [0, 0], Buf.ofList [], ?_,
    ⟨by decide, by decide, by decide, by decide⟩, ⟨by decide, by decide, by decide, by decide⟩,
    .perTensor 0 1 0 (by decide) (by decide) (by decide) (by decide), by decide, by decide⟩
  constructor <;> try (intro m; simp only; omega)
  · intro k hk; simpa using hk
  · intro i j _ _ h; simpa using h
  · intro m hm
    have : m = 0 := by simpa using hm
    subst this; decide
  · intro m hm
    have : m = 0 := by simpa using hm
    subst this; decide

/-- A vector of four elements, the first of three target positions in the padding, every second element, target positions 1, 2, 3. -/
def exMovQ : MovCfg :=
  ⟨fun _ => 0, fun _ => 0, fun _ => 2, fun _ => 1, fun _ => 0, id, fun _ => 1, fun _ => 0⟩
def exMovSrc : Tensor := { dims := [⟨4, 1⟩], cap := 4, es := 1 }
def exMovDstT : Tensor := { dims := [], cap := 4, es := 1 }
def exMovPin : SaMem := ⟨0, ⟨8, .ptr (some 0)⟩, ⟨8, .ptr (some 4)⟩, ⟨4, .ptr (some 8)⟩⟩
def exMovPout : SaMem := ⟨5, ⟨8, .ptr (some 12)⟩, ⟨8, .ptr (some 16)⟩, ⟨4, .ptr (some 20)⟩⟩
def exMovPm : Buf := Buf.ofList [1, 2, 3, 4, 5, 6, 7, 8, 0, 1, 2, 3, 99, 99, 99, 99, 99, 99, 99, 99, 99, 99, 99, 99]

theorem exMovQ_sane : exMovQ.Sane exMovSrc := by
  constructor <;> try (intro m; simp only [exMovQ]; omega)
  · intro k hk; simpa [exMovQ] using hk
  · intro i j _ _ h; simpa [exMovQ] using h
  · intro m hm
    have : m = 0 := by simpa [exMovSrc] using hm
    subst this; decide
  · intro m hm
    have : m = 0 := by simpa [exMovSrc] using hm
    subst this; decide

/-- **Violation**: padded samples are zeros, not the zero point: in a per-tensor quantized tensor with zero point 3 and scale 1 the padding
stands for -3 (the documentation: "Padded samples are set to zero"). -/
theorem c99_padding_violated : ∃ (src dst : Tensor) (c : MovCfg) (pin pout : SaMem) (sb db pm : Buf), c.Sane src ∧ src.Valid sb ∧
    (movDst src c dst).Valid db ∧ ParOk src pin pm ∧ pin.dim = -1 ∧ ∃ js db' q pm', MovPos src c js ∧ movSpecCoord c js 0 < 0 ∧
      movPrepareSa src dst c true pin pout sb db pm = some (.ok, movDst src c dst, q, db', pm') ∧
      number db' pm' (movDst src c dst) q (movTarget src.dims.length c js) = some (-3) := by
  refine ⟨exMovSrc, exMovDstT, exMovQ, ⟨-1, ⟨0, .imm 3⟩, ⟨0, .imm 1⟩, ⟨0, .imm 0⟩⟩, ⟨-1, ⟨0, .imm 0⟩, ⟨0, .imm 1⟩, ⟨0, .imm 0⟩⟩,
    Buf.ofList [10, 20, 30, 40], Buf.ofList [0, 0, 0, 0], Buf.ofList [], exMovQ_sane, ⟨by decide, by decide, by decide, by decide⟩,
    ⟨by decide, by decide, by decide, by decide⟩, .perTensor 3 1 0 (by decide) (by decide) (by decide) (by decide), rfl, [0], _, _, _, ?_, by decide, rfl, ?_⟩
  · refine ⟨rfl, ?_⟩
    intro k hk
    have : k = 0 := by simpa [exMovSrc] using hk
    subst this; decide
  · exact number_eq (x := 0) (z := 3) (s := 1) (f := 0) (by decide) (by decide) (by decide) (by decide) (by norm_num)

/-! ## Examples -/

example : exMovSrc.Valid (Buf.ofList [10, 20, 30, 40]) := ⟨by decide, by decide, by decide, by decide⟩
example : (movDst exMovSrc exMovQ exMovDstT).Valid (Buf.ofList [0, 0, 0, 0]) := ⟨by decide, by decide, by decide, by decide⟩
example : ParOk exMovSrc exMovPin exMovPm := .perAxis ⟨0, 4, 8⟩ (by decide) (by decide) (by decide) (by decide)
example : MovParOk exMovSrc (movDst exMovSrc exMovQ exMovDstT) exMovQ exMovPin exMovPout exMovPm := by
  rintro ⟨z, s, f⟩ ha o ho hpo
  have h1 : z = 0 := by have := ha.1; simp only [exMovPin, CVal.ptr.injEq, Option.some.injEq] at this; omega
  have h2 : s = 4 := by have := ha.2.1; simp only [exMovPin, CVal.ptr.injEq, Option.some.injEq] at this; omega
  have h3 : f = 8 := by have := ha.2.2; simp only [exMovPin, CVal.ptr.injEq, Option.some.injEq] at this; omega
  have h4 : o = 0 := by simpa [exMovSrc] using ho
  subst h1; subst h2; subst h3; subst h4
  exact .inr ⟨⟨12, 16, 20⟩, by decide, by decide, by decide⟩
example : (movPrepareSa exMovSrc exMovDstT exMovQ true exMovPin exMovPout (Buf.ofList [10, 20, 30, 40]) (Buf.ofList [77, 77, 77, 77]) exMovPm).map
      (fun r => (r.1, r.2.1.shape, r.2.2.1.dim, r.2.2.2.1.toList, r.2.2.2.2.toList)) =
    some (.ok, [4], 0, [77, 0, 20, 40], [1, 2, 3, 4, 5, 6, 7, 8, 0, 1, 2, 3, 99, 0, 2, 4, 99, 1, 6, 8, 99, 0, 1, 3]) := by decide +kernel
/-- Position 2 of the movement, element 3 of the source, element 3 of the destination: (40 - 4) * 8 / 2^3. -/
example : number (Buf.ofList [10, 20, 30, 40]) exMovPm exMovSrc exMovPin [3] = some 36 :=
  number_eq (x := 40) (z := 4) (s := 8) (f := 3) (by decide) (by decide) (by decide) (by decide) (by norm_num)
/-- Sharing the arrays while sub-sampling is refused, and so is too little room. -/
example : chkMovPar exMovSrc exMovQ exMovPin ⟨5, ⟨0, .ptr none⟩, ⟨0, .ptr none⟩, ⟨0, .ptr none⟩⟩ = some .specParamMismatch ∧
    chkMovPar exMovSrc exMovQ exMovPin { exMovPout with frac := ⟨3, .ptr (some 20)⟩ } = some .specParamMismatch := by decide

end Mli
