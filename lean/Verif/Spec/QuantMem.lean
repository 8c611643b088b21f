import Verif.Model.QuantMem
import Verif.Spec.Tensor
import Mathlib.Data.Rat.Defs
import Mathlib.Algebra.Field.Rat

/-!
# The numbers a quantized tensor stands for

An element `x` of an asymmetric tensor stands for `(x - zero_point) * scale * 2^-scale_frac_bits`
(doc/documents/mli_api_data/data_formats.rst); zero point, scale and number of fractional bits are either the same for the whole
tensor or taken at the index of the element along the quantized dimension.
-/

namespace Mli.Spec

/-- The value of one parameter for the element at index `is`. -/
def entry (pm : Buf) (dim : Int) (c : Cont) (is : List Int) : Option Int :=
  if 0 ≤ dim then
    match c.val with
    | .ptr (some p) => pm.rd (p + is.getD dim.toNat 0)
    | _ => none
  else
    match c.val with
    | .imm v => some v
    | _ => none

/-- The number the element at index `is` stands for; nothing, if the element or a parameter cannot be read. -/
def number (data pm : Buf) (t : Tensor) (p : SaMem) (is : List Int) : Option ℚ := do
  let x ← data.rd (t.base + offset t.strides is)
  let z ← entry pm p.dim p.zp is
  let s ← entry pm p.dim p.scale is
  let f ← entry pm p.dim p.frac is
  return ((x - z : Int) : ℚ) * s * (2 : ℚ) ^ (-f)

/-- Base addresses of the three parameter arrays (zero points, scales, fractional bits). -/
structure Arrays where
  z : Int
  s : Int
  f : Int
deriving DecidableEq

/-- The parameters are the arrays at these addresses. -/
def Arrays.Of (a : Arrays) (p : SaMem) : Prop :=
  p.zp.val = .ptr (some a.z) ∧ p.scale.val = .ptr (some a.s) ∧ p.frac.val = .ptr (some a.f)

/-- The entries `lo .. lo + n - 1` of the three arrays are memory. -/
def Arrays.In (a : Arrays) (lo n : Int) (pm : Buf) : Prop :=
  (0 ≤ a.z + lo ∧ a.z + lo + n ≤ pm.size) ∧ (0 ≤ a.s + lo ∧ a.s + lo + n ≤ pm.size) ∧ (0 ≤ a.f + lo ∧ a.f + lo + n ≤ pm.size)

/-- `n` entries from `p` on and `m` entries from `q` on share no cell. -/
def NoShare (p n q m : Int) : Prop := p + n ≤ q ∨ q + m ≤ p

/-- The first `n` entries of the arrays `a` share no cell with the entries `lo .. lo + m - 1` of the arrays `b`, and the
latter share none with each other. -/
def Arrays.Apart (a : Arrays) (n : Int) (b : Arrays) (lo m : Int) : Prop :=
  (∀ x ∈ [a.z, a.s, a.f], ∀ y ∈ [b.z, b.s, b.f], NoShare x n (y + lo) m) ∧
  NoShare (b.z + lo) m (b.s + lo) m ∧ NoShare (b.z + lo) m (b.f + lo) m ∧ NoShare (b.s + lo) m (b.f + lo) m

instance (a : Arrays) (p : SaMem) : Decidable (a.Of p) := by unfold Arrays.Of; infer_instance
instance (a : Arrays) (lo n : Int) (pm : Buf) : Decidable (a.In lo n pm) := by unfold Arrays.In; infer_instance
instance (p n q m : Int) : Decidable (NoShare p n q m) := by unfold NoShare; infer_instance
instance (a : Arrays) (n : Int) (b : Arrays) (lo m : Int) : Decidable (a.Apart n b lo m) := by unfold Arrays.Apart; infer_instance

/-- Usable parameters of a tensor: one value each, or three arrays with an entry for every index along the quantized dimension. -/
inductive ParOk (t : Tensor) (p : SaMem) (pm : Buf) : Prop where
  | perTensor (z s f : Int) (hd : p.dim < 0) (hz : p.zp.val = .imm z) (hs : p.scale.val = .imm s) (hf : p.frac.val = .imm f)
  | perAxis (a : Arrays) (h0 : 0 ≤ p.dim) (h1 : p.dim < t.dims.length) (ha : a.Of p) (hi : a.In 0 (t.shape.getD p.dim.toNat 0) pm)

/-- What the caller left in the three containers of an output tensor, the first two options of the documentation: null pointers
or the pointers of the input. -/
def Shared (pin pout : SaMem) : Prop :=
  (pout.zp.val = .ptr none ∧ pout.scale.val = .ptr none ∧ pout.frac.val = .ptr none) ∨
  (pout.zp.val = pin.zp.val ∧ pout.scale.val = pin.scale.val ∧ pout.frac.val = pin.frac.val)

/-- The third option: arrays of the output tensor's own, with capacities for `n` entries of 2, 2 and 1 bytes. -/
def Own (a b : Arrays) (pout : SaMem) (n : Int) : Prop :=
  b.Of pout ∧ b.z ≠ a.z ∧ b.s ≠ a.s ∧ b.f ≠ a.f ∧ n * 2 ≤ pout.zp.cap ∧ n * 2 ≤ pout.scale.cap ∧ n ≤ pout.frac.cap

instance (pin pout : SaMem) : Decidable (Shared pin pout) := by unfold Shared; infer_instance
instance (a b : Arrays) (pout : SaMem) (n : Int) : Decidable (Own a b pout n) := by unfold Own; infer_instance

/-- Dimension `d` is one of those a sub-tensor of rank `r - k` keeps: of the dimensions of size 1 the first `k` are dropped. -/
def KeepsDim (sizes : List Int) (k d : Nat) : Prop := sizes.getD d 0 ≠ 1 ∨ k ≤ (sizes.take d).count 1

instance (sizes : List Int) (k d : Nat) : Decidable (KeepsDim sizes k d) := by unfold KeepsDim; infer_instance

end Mli.Spec
