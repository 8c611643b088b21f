import Verif.Model.Permute

/-!
# Models of the element-wise kernels of the code-generation API: rescale and clip

The descriptors are those the kernel object holds for the current tile (`m_tile_metadata`, `m_tile_input`, `m_tile_output`).
No check is made on them.  `MLI_ASSERT` does nothing in the modelled configuration.
-/

namespace Mli

open Spec (lo hi InRange Rnd)

/-- The four nested loops `for (pos[k] = 0; pos[k] < shape[k]; pos[k]++)` over the rank-4 view of a tensor
(`mli_prv_get_generic_tensor`, private/mli_prv_tensor.h:397-464). -/
def forPos (t : Tensor) (f : Nat → Nat → Nat → Nat → Buf → Option Buf) (d : Buf) : Option Buf :=
  forRange (t.gShape 0).toNat (fun a => forRange (t.gShape 1).toNat (fun b => forRange (t.gShape 2).toNat (fun c =>
    forRange (t.gShape 3).toNat (fun e => f a b c e)))) d

/-- `POS(&tsr, pos[0], pos[1], pos[2], pos[3])` (private/mli_prv_tensor.h:45-58) of that view, behind the data pointer. -/
def Tensor.gPos (t : Tensor) (a b c e : Nat) : Int :=
  t.base + (a * t.gStride 0 + b * t.gStride 1 + c * t.gStride 2 + e * t.gStride 3)

/-- kernels/conversion/impl/mli_krn_rescale_ref.hpp:22-40 `rescale_value` from elements of `wi` to elements of `wo` bits:
`sub_fx` saturates in the input type, the product is exact in 64 bits. -/
def rescaleValue (m : Rnd) (wi wo : Nat) (x biasIn biasOut scale shift : Int) : Int :=
  let shift := max (-63) (min shift 63)
  let value := subFx wi x biasIn
  let scaled := asrRndFx m 64 (value * scale) shift
  castFx m 64 wo (addFx 64 scaled biasOut) 0

/-- The four parameter arrays of a rescale kernel, each with the index of its first entry. -/
structure RescaleParams where
  biasIn : Buf
  scale : Buf
  shift : Buf
  biasOut : Buf

/-- mli_krn_rescale_ref.hpp:64-73, 98-102: `rescale_value` with the parameters at `idx`. -/
def rescaleAt (m : Rnd) (wi wo : Nat) (p : RescaleParams) (idx x : Int) : Option Int :=
  (p.biasIn.rd idx).bind fun bi => (p.biasOut.rd idx).bind fun bo => (p.scale.rd idx).bind fun s => (p.shift.rd idx).bind fun k =>
    some (rescaleValue m wi wo x bi bo s k)

/-- mli_krn_rescale_ref.hpp:42-143 `mli_krn_rescale` with `compute_rescale_per_axis` and `compute_rescale_per_tensor` (axis < 0: the
parameters are the entries 0). -/
def krnRescale (m : Rnd) (wi wo : Nat) (axis : Int) (p : RescaleParams) (src : Buf) (tin tout : Tensor) (dst : Buf) : Option Buf :=
  forPos tin (fun a b c e d =>
    (src.rd (tin.gPos a b c e)).bind fun x =>
    (rescaleAt m wi wo p (if axis < 0 then 0 else [(a : Int), b, c, e].getD axis.toNat 0) x).bind fun v =>
    d.wr (tout.gPos a b c e) v) dst

/-- kernels/conversion/mli_krn_rescale_runtime.cc:162-225 `Rescale::Issue`, for elements of `esi` and `eso` bytes: 32 to 8 and
8 to 8 bits are implemented.  8 to 32 bits reads the 8-bit elements as 32-bit ones and is not modelled (`none`), as are the
combinations with 16 bits, which the constructor rejects; 32 to 32 bits does nothing. -/
def rescaleIssue (m : Rnd) (esi eso : Int) (axis : Int) (p : RescaleParams) (src : Buf) (tin tout : Tensor) (dst : Buf) :
    Option (Status × Buf) :=
  if esi = 4 ∧ eso = 1 then (krnRescale m 32 8 axis p src tin tout dst).map fun d => (.ok, d)
  else if esi = 1 ∧ eso = 1 then (krnRescale m 8 8 axis p src tin tout dst).map fun d => (.ok, d)
  else if esi = 4 ∧ eso = 4 then some (.ok, dst)
  else none

/-- kernels/clip/impl/mli_krn_clip_ref.hpp:20-80 `mli_krn_clip` with `compute_clip_per_tensor` and `clip_value`, for input and
output elements of one type; `mem` holds input and output, `minVal` and `maxVal` are the decoded limits. -/
def krnClip (minVal maxVal : Int) (tin tout : Tensor) (mem : Buf) : Option Buf :=
  forPos tin (fun a b c e d =>
    (d.rd (tin.gPos a b c e)).bind fun x => d.wr (tout.gPos a b c e) (minFx (maxFx x minVal) maxVal)) mem

/-- kernels/clip/mli_krn_clip_runtime.cc:113-134 `Clip::Issue`, for elements of `esi` and `eso` bytes; the assertion of the last
branch is compiled out. -/
def clipIssue (esi eso minVal maxVal : Int) (tin tout : Tensor) (mem : Buf) : Option (Status × Buf) :=
  if esi = 1 ∧ eso = 1 then (krnClip minVal maxVal tin tout mem).map fun d => (.ok, d)
  else if esi = 4 ∧ eso = 4 then (krnClip minVal maxVal tin tout mem).map fun d => (.ok, d)
  else some (.ok, mem)

end Mli
