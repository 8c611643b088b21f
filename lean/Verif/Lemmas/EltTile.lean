import Verif.Lemmas.Unit
import Verif.Props.Eltwise

/-! # The element-wise loop for tensors that are not checked: only the innermost stride and the addresses matter -/

namespace Mli

open Spec

/-- A tensor that lies inside memory, with innermost stride 1. -/
structure Tensor.Laid (t : Tensor) (mem : Buf) : Prop where
  unit : t.Unit
  inb : ∀ is, InShape t.shape is → 0 ≤ t.addr is ∧ t.addr is < mem.size
  small : prod t.shape < 2 ^ 32

theorem Tensor.Laid.rd {t : Tensor} {b b' : Buf} (h : t.Laid b) {is : List Int} (hi : InShape t.shape is)
    (hs : b'.size = b.size) : b'.rd (t.addr is) = some (b'.get (t.addr is)) := by
  have := h.inb is hi
  exact Buf.rd_some (by omega)

theorem rowMajor_laid (out : Tensor) (mem : Buf) (hv : ∀ is, InShape out.shape is → 0 ≤ out.addr is ∧ out.addr is < mem.size)
    (hinj : out.Separate out) (val : List Int → Int) (f : Buf → List Int → Option Buf)
    (hf : ∀ is, InShape out.shape is → ∀ d' : Buf, d'.size = mem.size →
      (∀ a, (∀ js, InShape out.shape js → js ≠ is → out.addr js ≠ a) → d'.get a = mem.get a) →
      f d' is = d'.wr (out.addr is) (val is)) :
    ∃ mem', (rowMajor out.shape).foldlM f mem = some mem' ∧ out.Writes val mem mem' := by
  obtain ⟨d', h1, h2⟩ := foldlM_inplace (fun is => out.addr is) val f mem (rowMajor out.shape)
    (nodup_rowMajor _)
    (fun p hp d' hd hfr => hf p (mem_rowMajor.mp hp) d' hd
      (fun a ha => hfr a (fun q hq hne => ha q (mem_rowMajor.mp hq) hne)))
    (fun p hp => hv p (mem_rowMajor.mp hp))
    (fun p hp q hq e => hinj p q (mem_rowMajor.mp hp) (mem_rowMajor.mp hq) e)
  exact ⟨d', h1, h2.size, fun is hi => h2.hit is (mem_rowMajor.mpr hi),
    fun a ha => h2.frame a (fun q hq => fun e => ha q (mem_rowMajor.mp hq) e)⟩

theorem countElemNum_laid {t : Tensor} (hp : ∀ n ∈ t.shape, 1 ≤ n) (hl : prod t.shape < 2 ^ 32) : countElemNum t = prod t.shape := by
  unfold countElemNum countElemNumPart
  rw [List.drop_zero]
  have := foldl_mod_prod t.shape hp 1 (by decide) (by simpa using hl)
  unfold Tensor.shape at this ⊢
  rw [this, Int.one_mul]

theorem inShape_zero_map : ∀ {ns : List Int}, (∀ n ∈ ns, 1 ≤ n) → InShape ns (ns.map fun _ => 0) := by
  intro ns
  induction ns with
  | nil => intro _; trivial
  | cons n ns ih =>
    intro h
    have h1 := h n (by simp)
    exact ⟨⟨le_refl 0, by show (0 : Int) < n; omega⟩, ih fun m hm => h m (by simp [hm])⟩

theorem offset_zero_map {α : Type} : ∀ (ss : List Int) (ns : List α), offset ss (ns.map fun _ => 0) = 0 := by
  intro ss
  induction ss with
  | nil => intro ns; cases ns <;> rfl
  | cons s ss ih => intro ns; cases ns with
    | nil => rfl
    | cons n ns => rw [List.map_cons, offset, ih]; simp

/-- A tile operand: a value, or a tensor of the shape of the output whose elements are those of the output or elsewhere. -/
structure Operand.Laid (o : Operand) (out : Tensor) (mem : Buf) : Prop where
  laid : o.t.dims ≠ [] → o.t.Laid mem
  shape : o.t.dims ≠ [] → o.t.shape = out.shape
  separate : o.t.dims ≠ [] → o.t.Separate out

/-- Value of a tile operand at a position. -/
def Operand.tileAt (o : Operand) (mem : Buf) (is : List Int) : Int := if o.t.dims = [] then o.imm else mem.get (o.t.addr is)

/-- The element-wise loop on tiles. -/
theorem eltwise_laid (g : Int → Int → Int) (o1 o2 : Operand) (out : Tensor) (mem : Buf) (ho : out.Laid mem) (hinj : out.Separate out)
    (h1 : o1.Laid out mem) (h2 : o2.Laid out mem) (hne : o1.t.dims ≠ [] ∨ o2.t.dims ≠ [] ∨ prod out.shape = 1) :
    ∃ mem', eltwiseRun g o1 o2 out mem = some mem' ∧
      out.Writes (fun is => g (o1.tileAt mem is) (o2.tileAt mem is)) mem mem' := by
  have hval : ∀ o : Operand, o.Laid out mem → o.val mem = some (if o.t.dims = [] then o.imm else mem.get o.t.base) := by
    intro o hv
    unfold Operand.val
    by_cases hd : o.t.dims = []
    · simp [hd]
    · rw [if_neg (by simpa using hd), if_neg hd]
      have hb := (hv.laid hd).inb _ (inShape_zero_map (hv.laid hd).unit.pos)
      rw [Tensor.addr, offset_zero_map, add_zero] at hb
      exact Buf.rd_some hb
  have hcnt : ∀ o : Operand, o.Laid out mem → countElemNum o.t = if o.t.dims = [] then 1 else prod out.shape := by
    intro o hv
    by_cases hd : o.t.dims = []
    · simp [hd, countElemNum, countElemNumPart]
    · rw [if_neg hd, countElemNum_laid (hv.laid hd).unit.pos (hv.laid hd).small, hv.shape hd]
  unfold eltwiseRun
  simp only [hval o1 h1, hval o2 h2, hcnt o1 h1, hcnt o2 h2, Option.bind_eq_bind, Option.bind_some]
  by_cases hp : prod out.shape = 1
  · -- one element
    have hones : ∀ n ∈ out.shape, n = 1 := prod_one_shape ho.unit.pos hp
    have hbase : ∀ (t : Tensor), t.shape = out.shape → ∀ is, InShape out.shape is → t.addr is = t.base := by
      intro t hts is his
      unfold Tensor.addr
      rw [offset_ones hones his]; omega
    have his0 := inShape_zero_map ho.unit.pos
    have hb := ho.inb _ his0
    rw [hbase out rfl _ his0] at hb
    simp only [hp, ite_self, decide_true, Bool.not_true, Bool.and_true, Bool.and_false, Bool.and_self, if_false,
      Bool.false_eq_true]
    unfold Buf.wr
    rw [if_pos hb]
    have hat : ∀ o : Operand, o.Laid out mem → ∀ is, InShape out.shape is →
        (if o.t.dims = [] then o.imm else mem.get o.t.base) = o.tileAt mem is := by
      intro o hv is his
      unfold Operand.tileAt
      by_cases hd : o.t.dims = []
      · simp [hd]
      · rw [if_neg hd, if_neg hd, hbase o.t (hv.shape hd) is his]
    refine ⟨_, rfl, rfl, fun is his => ?_, fun a ha => ?_⟩
    · simp only [hbase out rfl is his, if_true]
      rw [hat o1 h1 is his, hat o2 h2 is his]
    · have := ha _ his0
      rw [hbase out rfl _ his0] at this
      simp only [if_neg (Ne.symm this)]
  · have hd12 : o1.t.dims ≠ [] ∨ o2.t.dims ≠ [] := by tauto
    by_cases d1 : o1.t.dims = []
    · have d2 : o2.t.dims ≠ [] := by tauto
      simp only [d1, if_true, d2, if_false, decide_true, hp, decide_false, Bool.not_false, Bool.and_self]
      rw [traverse_unit2 o2.t out (h2.shape d2) (h2.laid d2).unit ho.unit, h2.shape d2]
      apply rowMajor_laid out mem ho.inb hinj
      intro is his d' hd hfr
      have hi2 : InShape o2.t.shape is := by rw [h2.shape d2]; exact his
      have e2 : d'.get (o2.t.addr is) = mem.get (o2.t.addr is) := hfr _ (fun js hj hne e =>
        hne (h2.separate d2 is js hi2 hj e.symm).symm)
      have r2 := (h2.laid d2).rd hi2 hd
      rw [e2] at r2
      show (d'.rd (o2.t.addr is)).bind (fun y => d'.wr (out.addr is) (g _ y)) = _
      rw [r2, Option.bind_some]
      simp only [Operand.tileAt, d1, d2, if_true, if_false]
    · by_cases d2 : o2.t.dims = []
      · simp only [d1, if_true, d2, if_false, decide_true, hp, decide_false, Bool.not_false, Bool.and_self, Bool.not_true,
          Bool.and_false, Bool.false_eq_true]
        rw [traverse_unit2 o1.t out (h1.shape d1) (h1.laid d1).unit ho.unit, h1.shape d1]
        apply rowMajor_laid out mem ho.inb hinj
        intro is his d' hd hfr
        have hi1 : InShape o1.t.shape is := by rw [h1.shape d1]; exact his
        have e1 : d'.get (o1.t.addr is) = mem.get (o1.t.addr is) := hfr _ (fun js hj hne e =>
          hne (h1.separate d1 is js hi1 hj e.symm).symm)
        have r1 := (h1.laid d1).rd hi1 hd
        rw [e1] at r1
        show (d'.rd (o1.t.addr is)).bind (fun x => d'.wr (out.addr is) (g x _)) = _
        rw [r1, Option.bind_some]
        simp only [Operand.tileAt, d1, d2, if_true, if_false]
      · simp only [d1, d2, if_false, hp, decide_false, Bool.not_false, Bool.and_self, Bool.and_true, Bool.false_eq_true, if_true]
        rw [traverse_unit3 o1.t o2.t out (h1.shape d1) (h2.shape d2) (h1.laid d1).unit (h2.laid d2).unit ho.unit]
        apply rowMajor_laid out mem ho.inb hinj
        intro is his d' hd hfr
        have hi1 : InShape o1.t.shape is := by rw [h1.shape d1]; exact his
        have hi2 : InShape o2.t.shape is := by rw [h2.shape d2]; exact his
        have e1 : d'.get (o1.t.addr is) = mem.get (o1.t.addr is) := hfr _ (fun js hj hne e =>
          hne (h1.separate d1 is js hi1 hj e.symm).symm)
        have e2 : d'.get (o2.t.addr is) = mem.get (o2.t.addr is) := hfr _ (fun js hj hne e =>
          hne (h2.separate d2 is js hi2 hj e.symm).symm)
        have r1 := (h1.laid d1).rd hi1 hd
        have r2 := (h2.laid d2).rd hi2 hd
        rw [e1] at r1
        rw [e2] at r2
        show (d'.rd (o1.t.addr is)).bind (fun x => (d'.rd (o2.t.addr is)).bind fun y => d'.wr (out.addr is) (g x y)) = _
        rw [r1, Option.bind_some, r2, Option.bind_some]
        simp only [Operand.tileAt, d1, d2, if_false]

end Mli
