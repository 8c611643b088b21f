import Verif.Props.Squash

/-! # Element-by-element kernels in one memory -/

namespace Mli

open Spec

/-- Element address of position `is` of a tensor. -/
def Tensor.addr (t : Tensor) (is : List Int) : Int := t.base + offset t.strides is

/-- `mem'` is `mem` with element `is` of tensor `t` set to `val is`, for every position of the
tensor, and nothing else changed. -/
structure Tensor.Writes (t : Tensor) (val : List Int → Int) (mem mem' : Buf) : Prop where
  size : mem'.size = mem.size
  elem : ∀ is, InShape t.shape is → mem'.get (t.addr is) = val is
  frame : ∀ a, (∀ is, InShape t.shape is → t.addr is ≠ a) → mem'.get a = mem.get a

/-- Two tensors of one shape are either the same elements or do not share any: a shared address has
the same position in both. -/
def Tensor.Separate (a b : Tensor) : Prop :=
  ∀ is js, InShape a.shape is → InShape b.shape js → a.addr is = b.addr js → is = js

theorem Tensor.Separate.refl (a : Tensor) (mem : Buf) (h : a.Valid mem) : a.Separate a := by
  intro is js hi hj e
  refine c09_accepted_no_alias a h.accepted is js hi hj ?_
  unfold Tensor.addr at e; omega

theorem Tensor.Valid.rd {t : Tensor} {b b' : Buf} (h : t.Valid b) {is : List Int} (hi : InShape t.shape is)
    (hs : b'.size = b.size) : b'.rd (t.addr is) = some (b'.get (t.addr is)) := by
  have := h.inBounds hi
  exact Buf.rd_some (by unfold Tensor.addr; omega)

/-- A tensor with at least one element, all of them in the buffer. -/
structure Tensor.Placed (t : Tensor) (b : Buf) : Prop where
  shape_pos : ∀ d ∈ t.dims, 1 ≤ d.shape
  inb : ∀ is, InShape t.shape is → 0 ≤ t.addr is ∧ t.addr is < b.size

theorem Tensor.Valid.placed {t : Tensor} {b : Buf} (h : t.Valid b) : t.Placed b :=
  ⟨h.shape_pos, fun _ hi => h.inBounds hi⟩

theorem Tensor.Placed.rd {t : Tensor} {b b' : Buf} (h : t.Placed b) {is : List Int} (hi : InShape t.shape is)
    (hs : b'.size = b.size) : b'.rd (t.addr is) = some (b'.get (t.addr is)) := by
  have := h.inb is hi
  exact Buf.rd_some (by omega)

/-- Row-major loops that compute each element of `out` from the memory contents at addresses that
no other element's store touches. -/
theorem rowMajor_inplace (out : Tensor) (mem : Buf) (hv : out.Valid mem) (val : List Int → Int)
    (f : Buf → List Int → Option Buf)
    (hf : ∀ is, InShape out.shape is → ∀ d' : Buf, d'.size = mem.size →
      (∀ a, (∀ js, InShape out.shape js → js ≠ is → out.addr js ≠ a) → d'.get a = mem.get a) →
      f d' is = d'.wr (out.addr is) (val is)) :
    ∃ mem', (rowMajor out.shape).foldlM f mem = some mem' ∧ out.Writes val mem mem' := by
  obtain ⟨d', h1, h2⟩ := foldlM_inplace (fun is => out.addr is) val f mem (rowMajor out.shape)
    (nodup_rowMajor _)
    (fun p hp d' hd hfr => hf p (mem_rowMajor.mp hp) d' hd
      (fun a ha => hfr a (fun q hq hne => ha q (mem_rowMajor.mp hq) hne)))
    (fun p hp => hv.inBounds (mem_rowMajor.mp hp))
    (fun p hp q hq e => Tensor.Separate.refl out mem hv p q (mem_rowMajor.mp hp) (mem_rowMajor.mp hq) e)
  exact ⟨d', h1, h2.size, fun is hi => h2.hit is (mem_rowMajor.mpr hi),
    fun a ha => h2.frame a (fun q hq => fun e => ha q (mem_rowMajor.mp hq) e)⟩

/-- Unary element-wise loop. -/
theorem map_unary (tin out : Tensor) (mem : Buf) (hi : tin.Valid mem) (ho : out.Valid mem)
    (hs : tin.shape = out.shape) (hsep : tin.Separate out) (g : Int → Option Int) (val : List Int → Int)
    (hg : ∀ is, InShape tin.shape is → g (mem.get (tin.addr is)) = some (val is)) :
    ∃ mem', (rowMajor tin.shape).foldlM (fun d is =>
        (d.rd (tin.base + offset tin.strides is)).bind fun v =>
        (g v).bind fun r => d.wr (out.base + offset out.strides is) r) mem = some mem' ∧
      out.Writes val mem mem' := by
  rw [hs]
  apply rowMajor_inplace out mem ho val
  intro is his d' hd hfr
  have his' : InShape tin.shape is := by rw [hs]; exact his
  have := hi.rd his' hd
  unfold Tensor.addr at this
  rw [this, Option.bind_some]
  have e : d'.get (tin.base + offset tin.strides is) = mem.get (tin.addr is) := by
    apply hfr
    intro js hj hne e
    exact hne (hsep is js his' hj e.symm).symm
  rw [e, hg is his', Option.bind_some]
  rfl

end Mli
