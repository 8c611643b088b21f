import Verif.Model.Rescale

/-!
# Models of the reductions along one dimension

The descriptors are those the kernel object holds for the current tile (`m_tile_input`, `m_tile_output`).  No check is made on
them.  `MLI_ASSERT` does nothing in the modelled configuration.
-/

namespace Mli

/-- `reorder_dim`: the reduced dimension changes places with the last one
(kernels/conversion/impl/mli_reduce_max_ref.hpp:49-52, mli_reduce_sum_ref.hpp:49-52). -/
def redDim (axis k : Nat) : Nat := if k = 3 then axis else if k = axis then 3 else k

/-- Bound of the loop over `pos_in[reorder_dim[k]]` (mli_reduce_max_ref.hpp:38-47, 60-71): a dimension of 0 counts as 1. -/
def redBound (t : Tensor) (axis k : Nat) : Nat :=
  (if t.gShape (redDim axis k) = 0 then 1 else t.gShape (redDim axis k)).toNat

/-- `POS(&tsr, pos[0], pos[1], pos[2], pos[3])` when `pos[reorder_dim[0..3]]` is `a b c e`. -/
def Tensor.redPos (t : Tensor) (axis a b c e : Nat) : Int :=
  let pos k := [a, b, c, e].getD (redDim axis k) 0
  t.gPos (pos 0) (pos 1) (pos 2) (pos 3)

/-- The loops of mli_reduce_max_ref.hpp:60-83 and mli_reduce_sum_ref.hpp:61-84: `init` gives the first value of `out_val`,
`step` the new value. -/
def reduceLoops (init : Int → Option Int) (step : Int → Int → Int) (axis : Nat) (src : Buf) (tin tout : Tensor) (dst : Buf) : Option Buf :=
  forRange (redBound tin axis 0) (fun a => forRange (redBound tin axis 1) (fun b => forRange (redBound tin axis 2) (fun c d =>
    (init (tin.redPos axis a b c 0)).bind fun v0 =>
    (forRange (redBound tin axis 3) (fun e v => (src.rd (tin.redPos axis a b c e)).map (step v)) v0).bind fun v =>
    d.wr (tout.redPos axis a b c 0) v))) dst

/-- kernels/conversion/impl/mli_reduce_max_ref.hpp:23-86 `mli_reduce_max`. -/
def krnReduceMax (axis : Nat) (src : Buf) (tin tout : Tensor) (dst : Buf) : Option Buf :=
  reduceLoops src.rd (fun v x => maxFx v x) axis src tin tout dst

/-- kernels/conversion/impl/mli_reduce_sum_ref.hpp:25-87 `mli_reduce_sum` for elements of `w` bits: the 64-bit sum is converted to
the element type at each step. -/
def krnReduceSum (w : Nat) (axis : Nat) (src : Buf) (tin tout : Tensor) (dst : Buf) : Option Buf :=
  reduceLoops (fun _ => some 0) (fun v x => wrap w (v + x)) axis src tin tout dst

/-- kernels/conversion/mli_reduce_max_runtime.cc `ReduceMax::Issue`, for elements of `es` bytes. -/
def reduceMaxIssue (es : Int) (axis : Nat) (src : Buf) (tin tout : Tensor) (dst : Buf) : Option (Status × Buf) :=
  if es = 4 ∨ es = 2 ∨ es = 1 then (krnReduceMax axis src tin tout dst).map fun d => (.ok, d) else some (.ok, dst)

/-- kernels/conversion/mli_reduce_sum_runtime.cc:83-99 `ReduceSum::Issue`, for elements of `es` bytes. -/
def reduceSumIssue (es : Int) (axis : Nat) (src : Buf) (tin tout : Tensor) (dst : Buf) : Option (Status × Buf) :=
  if es = 4 then (krnReduceSum 32 axis src tin tout dst).map fun d => (.ok, d)
  else if es = 2 then (krnReduceSum 16 axis src tin tout dst).map fun d => (.ok, d)
  else if es = 1 then (krnReduceSum 8 axis src tin tout dst).map fun d => (.ok, d)
  else some (.ok, dst)

end Mli
