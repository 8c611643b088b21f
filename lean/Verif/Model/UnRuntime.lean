import Verif.Model.TileRun
import Verif.Model.EltRuntime
import Verif.Model.Reduce
import Verif.Model.Permute

/-!
# Model of the run-time kernels `ReduceSum`, `ReduceMax` and `Permute` (`lib/src/kernels/conversion/mli_reduce_sum_runtime.cc`,
`mli_reduce_max_runtime.cc`, `lib/src/kernels/diverse/mli_krn_permute_runtime.cc`)

The tiles of input and output are in separate buffers of elements.  The quantisation parameters that `mli_krn_permute_run` copies between the tile
descriptors are not modelled.
-/

namespace Mli.Rt
open Mli Mli.Iter Mli.Spec

/-- The kernel and its configuration (`m_reduce_axis`, `m_perm_dim`). -/
inductive UnOp where
  | sum (axis : Nat)
  | max (axis : Nat)
  | permute (perm : PermCfg)
deriving DecidableEq, Repr

/-- include/api/mli_ref_runtime_api.hpp `ReduceSum`, `ReduceMax`, `Permute`: the members; `es` is `m_in_elem_size`. -/
structure UnObj where
  op : UnOp
  es : Nat
  inp : TIt
  out : TIt
  tin : Tensor
  tout : Tensor

/-- The shape of a tile that the constructor sets: `ReduceSum` (mli_reduce_sum_runtime.cc:37, 54-57, 63, 80-83) and `Permute`
(mli_krn_permute_runtime.cc:41, 59-62, 70, 88-91) take the current tile, `ReduceMax` (mli_reduce_max_runtime.cc:50-53, 74-77) the whole tensor. -/
def UnOp.firstSizes (op : UnOp) (t : TIt) : List Int :=
  match op with
  | .max _ => t.shape
  | _ => t.sizes

/-- mli_reduce_sum_runtime.cc:21-84, mli_reduce_max_runtime.cc:21-78, mli_krn_permute_runtime.cc:21-92: the constructors, from the iterators and buffer
addresses of the private data. -/
def UnObj.new (op : UnOp) (es : Nat) (inp out : TIt) (bi bo : Int) : UnObj :=
  { op, es, inp, out
    tin := { dims := List.zipWith Dim.mk (op.firstSizes inp) inp.strides, base := bi, cap := 0, es := 1 }
    tout := { dims := List.zipWith Dim.mk (op.firstSizes out) out.strides, base := bo, cap := 0, es := 1 } }

/-- mli_krn_permute_runtime.cc:94-133 `Permute::Issue`: there is no case for elements of two bytes. -/
def permuteIssue (es : Nat) (perm : PermCfg) (src : Buf) (tin tout : Tensor) (dst : Buf) : Option (Status × Buf) :=
  if es = 4 ∨ es = 1 then (permuteRun tin tout perm src dst).map fun d => (.ok, d) else some (.ok, dst)

/-- `Issue` of the three kernels. -/
def UnObj.issue (o : UnObj) (src dst : Buf) : Option (Status × Buf) :=
  match o.op with
  | .sum axis => reduceSumIssue o.es axis src o.tin o.tout dst
  | .max axis => reduceMaxIssue o.es axis src o.tin o.tout dst
  | .permute perm => permuteIssue o.es perm src o.tin o.tout dst

/-- mli_reduce_sum_runtime.cc:106-114, mli_reduce_max_runtime.cc:100-107, mli_krn_permute_runtime.cc:137-145 `Update`. -/
def UnObj.update (o : UnObj) : UnObj :=
  { o with
    inp := o.inp.next
    out := o.out.next
    tin := setShape o.tin o.inp.next.sizes
    tout := setShape o.tout o.out.next.sizes }

/-- State of the caller: the object, the local buffers of the input tile and the output tile, the output in global memory and the status of the calls so
far. -/
structure UnHost where
  obj : UnObj
  lin : Buf
  lout : Buf
  gout : Buf
  status : Status

/-- user_tests/tests/mli_krn_reduce_sum_30/tests_mli_krn_reduce_sum_30.cc:231-257, mli_krn_reduce_max_30/tests_mli_krn_reduce_max_30.cc:223-250,
mli_krn_permute_30/tests_mli_krn_permute_30.cc:308-335: one round of the caller's loop: sizes and offsets from `GetIOSizesAndOffsets`
(mli_reduce_sum_runtime.cc:116-127, mli_reduce_max_runtime.cc:109-120, mli_krn_permute_runtime.cc:147-158), input tile, `Issue`, output tile, `Update`. -/
def UnHost.round (gin : Glob) (gos : List Int) (s : UnHost) : Option UnHost :=
  let o := s.obj
  (copyBox o.inp.sizes gin.buf 0 gin.strides o.inp.getPos o.tin.base o.inp.strides (zeros o.inp.sizes) s.lin).bind fun lin =>
  (o.issue lin s.lout).bind fun r =>
  (copyBox o.out.sizes r.2 o.tout.base o.out.strides (zeros o.out.sizes) 0 gos o.out.getPos s.gout).map fun gout =>
    { obj := o.update, lin, lout := r.2, gout, status := if s.status ≠ .ok then s.status else r.1 }

/-- `k` rounds. -/
def UnHost.run (gin : Glob) (gos : List Int) (k : Nat) (s : UnHost) : Option UnHost :=
  forRange k (fun _ s => s.round gin gos) s

end Mli.Rt
