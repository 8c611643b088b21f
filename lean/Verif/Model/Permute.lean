import Verif.Model.Tensor
import Verif.Model.Mem

/-! # Generic tensors, the overlap check and the permute kernel -/

namespace Mli

/-- private/mli_prv_tensor.h:396-465 `mli_prv_get_generic_tensor`: `shape[k]` of the view padded
to rank 4.  (For rank 0 the code leaves the fields unset; they are then only multiplied by
zero counters.) -/
def Tensor.gShape (t : Tensor) (k : Nat) : Int := (t.dims[k]?.map (·.shape)).getD 1

/-- private/mli_prv_tensor.h:396-465: `mem_stride[k]` of the view padded to rank 4. -/
def Tensor.gStride (t : Tensor) (k : Nat) : Int := (t.dims[k]?.map (·.stride)).getD 0

/-- private/src/mli_check.cc:245-251 `mli_chk_containers_not_overlapped`: `p1`, `p2` are the
pointer values, of which the low 32 bits are compared as `int`; the second sum is only evaluated
when the first comparison fails. -/
def containersNotOverlapped (p1 c1 p2 c2 : Int) : Option Bool := do
  let e2 ← ckd 32 (wrap 32 p2 + wrap 32 c2)
  if wrap 32 p1 ≥ e2 then return true
  let e1 ← ckd 32 (wrap 32 p1 + wrap 32 c1)
  return decide (wrap 32 p2 ≥ e1)

/-- include/mli_types.h `mli_permute_cfg`: `perm_dim[]`, outermost output dimension first. -/
abbrev PermCfg := List Nat

/-- private/src/mli_check.cc:2657-2670, body of the loop of `mli_chk_permute` for one `idx`. -/
def chkPermDim (inT outT : Tensor) (perm : PermCfg) (idx : Nat) : Status :=
  let rank := inT.dims.length
  let p := perm.getD idx 0
  if ¬ p < rank then .badFuncCfg
  else if (List.range rank).any (fun jdx => idx + 1 ≤ jdx && perm.getD jdx 0 == p) then .badFuncCfg
  else if outT.gShape idx ≠ inT.gShape p then .shapeMismatch
  else .ok

/-- private/src/mli_check.cc:2657-2670, the loop of `mli_chk_permute`: first failure wins. -/
def chkPermLoop (inT outT : Tensor) (perm : PermCfg) : Nat → Status
  | 0 => .ok
  | n + 1 =>
    match chkPermLoop inT outT perm n with
    | .ok => chkPermDim inT outT perm n
    | s => s

/-- private/src/mli_check.cc:2641-2678 `mli_chk_permute` (after the tensor checks, for equal
element types).  `notOverlapped` is the outcome of the overlap check on the two buffers.
Only `in->rank` output dimensions are looked at: the output rank is never compared. -/
def chkPermute (inT outT : Tensor) (perm : PermCfg) (notOverlapped : Bool) : Option Status := do
  let s1 ← checkTensorPrivate inT
  if s1 ≠ .ok then return s1
  let s2 ← checkTensorPrivate outT
  if s2 ≠ .ok then return s2
  let s3 := chkPermLoop inT outT perm inT.dims.length
  if s3 ≠ .ok then return s3
  if !notOverlapped then return .incompatibleTensors
  return .ok

/-- kernels/diverse/impl/mli_krn_permute_ref.h:67-82: `perm_dim[k]` after the defaults. -/
def permDim (rank : Nat) (perm : PermCfg) (k : Nat) : Nat := if k < rank then perm.getD k 0 else k

/-- kernels/diverse/impl/mli_krn_permute_ref.h:40-43: `out_increments[k]` after the correction. -/
def outIncrement (shape stride : Nat → Int) (k : Nat) : Int :=
  if k < 3 then stride k - stride (k + 1) * shape (k + 1) else stride k

/-- kernels/diverse/impl/mli_krn_permute_ref.h:26-57 `mli_krn_permute_calc`: four nested loops
with a running output pointer. -/
def permuteCalc (inStride : Nat → Int) (outShape : Nat → Nat) (outInc : Nat → Int) (pd : Nat → Nat)
    (src : Buf) (inBase : Int) (s : Buf × Int) : Option (Buf × Int) :=
  forRange (outShape 0) (fun d0 s => do
    let s ← forRange (outShape 1) (fun d1 s => do
      let s ← forRange (outShape 2) (fun d2 s => do
        let s ← forRange (outShape 3) (fun d3 s => do
          let v ← src.rd (inBase + (d0 * inStride (pd 0) + d1 * inStride (pd 1)
                    + d2 * inStride (pd 2) + d3 * inStride (pd 3)))
          let d ← s.1.wr s.2 v
          return (d, s.2 + outInc 3)) s
        return (s.1, s.2 + outInc 2)) s
      return (s.1, s.2 + outInc 1)) s
    return (s.1, s.2 + outInc 0)) s

/-- kernels/diverse/impl/mli_krn_permute_ref.h:59-82 `mli_krn_permute_run`, the data part.
`out_shape[]`/`out_increments[]` are taken from `out` for the first `in->rank` dimensions. -/
def permuteRun (inT outT : Tensor) (perm : PermCfg) (src dst : Buf) : Option Buf := do
  let rank := inT.dims.length
  let oshape : Nat → Int := fun k => if k < rank then outT.gShape k else 1
  let ostride : Nat → Int := fun k => if k < rank then outT.gStride k else 0
  let s ← permuteCalc inT.gStride (fun k => (oshape k).toNat) (outIncrement oshape ostride)
    (permDim rank perm) src inT.base (dst, outT.base)
  return s.1

/-- `mli_krn_permute_fx8/fx16/sa8`: check, then run. -/
def permute (inT outT : Tensor) (perm : PermCfg) (notOverlapped : Bool) (src dst : Buf) :
    Option (Status × Buf) := do
  let st ← chkPermute inT outT perm notOverlapped
  if st ≠ .ok then return (st, dst)
  let d ← permuteRun inT outT perm src dst
  return (.ok, d)

end Mli
