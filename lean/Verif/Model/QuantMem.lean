import Verif.Model.Mov
import Verif.Model.PointSub

/-!
# The quantization parameters of an asymmetric tensor as the caller's memory holds them

`el_params.sa` keeps, for each of zero point, scale and number of fractional bits of the scale, either one value
(per-tensor quantization) or a pointer to an array with one entry per index along `dim`.  This file models what
`mli_hlp_create_subtensor`, `mli_hlp_point_to_subtensor`, `mli_krn_permute_sa8` and `mli_mov_prepare` do with them.

Simplification: all parameter arrays live in one memory `pm` with one cell per entry, whatever its size in bytes; capacities
stay in bytes.
-/

namespace Mli

/-- include/mli_types.h:100-112 `mli_data_container.mem` as `el_params.sa` uses it: a pointer (`none` is the null pointer) or a
value.  Reading one as the other gives an unspecified result. -/
inductive CVal where
  | ptr (p : Option Int)
  | imm (v : Int)
deriving DecidableEq, Repr

/-- include/mli_types.h:100-112 `mli_data_container`. -/
structure Cont where
  cap : Int
  val : CVal
deriving DecidableEq, Repr

/-- include/mli_types.h:122-138 `mli_element_params.sa` without the type tags. -/
structure SaMem where
  dim : Int
  zp : Cont
  scale : Cont
  frac : Cont
deriving DecidableEq, Repr

/-- `mem.pi16`, `mem.pi8`: the pointer of a container; a value read as a pointer is no usable pointer. -/
def Cont.addr (c : Cont) : Option (Option Int) :=
  match c.val with
  | .ptr p => some p
  | .imm _ => none

/-- `mem.i16`, `mem.i8`: the value of a container; a pointer read as a value gives an unspecified value. -/
def Cont.value (c : Cont) : Option Int :=
  match c.val with
  | .ptr _ => none
  | .imm v => some v

/-! ## mli_chk_tensor_quant_params -/

/-- private/src/mli_check.cc:149-152: entry `idx` of one of the parameters. -/
def Cont.fetch (perAxis : Bool) (pm : Buf) (c : Cont) (idx : Int) : Option Int :=
  if perAxis then c.addr.bind fun a => a.bind fun p => pm.rd (p + idx) else c.value

/-- private/src/mli_check.cc:170-178, the loop over the entries from `k` on, `n` to go. -/
def chkQuantMemLoop (p : SaMem) (pm : Buf) (bits : Nat) : Nat → Nat → Option Status
  | 0, _ => some .ok
  | n + 1, k => do
    let s ← p.scale.fetch (0 ≤ p.dim) pm k
    if ¬ 0 < s then return .badTensor
    let z ← p.zp.fetch (0 ≤ p.dim) pm k
    if ¬ ((if bits = 0 then 0 else -(2 ^ bits : Int)) ≤ z ∧ z ≤ (if bits = 0 then 0 else (2 ^ bits : Int) - 1)) then
      return .incompatibleTensors
    chkQuantMemLoop p pm bits n (k + 1)

/-- private/src/mli_check.cc:158-167: a parameter array of `n` entries of `es` bytes is there. -/
def Cont.arrayOk (c : Cont) (n es : Int) : Option Bool := do
  let a ← c.addr
  return a.isSome && decide (n * es ≤ c.cap)

/-- private/src/mli_check.cc:131-186 `mli_chk_tensor_quant_params` for SA tensors. -/
def chkQuantMem (t : Tensor) (p : SaMem) (pm : Buf) (bits : Nat) : Option Status := do
  if 0 ≤ p.dim then
    if ¬ p.dim < t.dims.length then return .badTensor
    let n := t.gShape p.dim.toNat
    let a ← p.scale.arrayOk n 2
    let b ← p.zp.arrayOk n 2
    let c ← p.frac.arrayOk n 1
    if !(a && b && c) then return .badTensor
    chkQuantMemLoop p pm bits n.toNat 0
  else
    if ¬ (p.scale.cap = 0 ∧ p.zp.cap = 0 ∧ p.frac.cap = 0) then return .badTensor
    chkQuantMemLoop p pm bits 1 0

/-! ## Sub-tensors -/

/-- helpers/src/mli_helpers.cc:221-238: `out_asym_dim` and `out_asym_offset` (initially -1 and 0); `i`, `o` are `in_idx` and
`out_idx`, `skip` is `skip_cnt`. -/
def subAxis (dim : Int) : (skip i o : Int) → (sizes offs : List Int) → Int × Int
  | skip, i, o, n :: ns, f :: fs =>
    if skip > 0 ∧ n = 1 then subAxis dim (skip - 1) (i + 1) o ns fs
    else if dim = i then (o, f)
    else subAxis dim skip (i + 1) (o + 1) ns fs
  | _, _, _, _, _ => (-1, 0)

/-- helpers/src/mli_helpers.cc:243-246 `mem.pi16 += out_asym_offset`; the capacity is left alone.  Moving the null pointer
gives no pointer. -/
def Cont.adv (c : Cont) (n : Int) : Option Cont :=
  match c.val with
  | .ptr (some p) => some { c with val := .ptr (some (p + n)) }
  | .ptr none => if n = 0 then some c else none
  | .imm _ => none

/-- helpers/src/mli_helpers.cc:221-248: `out->el_params` of `mli_hlp_create_subtensor` for SA tensors. -/
def subParams (t : Tensor) (c : SubCfg) (p : SaMem) : Option SaMem :=
  if 0 ≤ p.dim then do
    let a := subAxis p.dim ((t.dims.length : Int) - c.rank) 0 0 c.sizes c.offs
    let s ← p.scale.adv a.2
    let f ← p.frac.adv a.2
    let z ← p.zp.adv a.2
    return { dim := a.1, zp := z, scale := s, frac := f }
  else some p

/-- helpers/src/mli_helpers.cc:174-250 `mli_hlp_create_subtensor` for SA tensors, with their parameters.  (A refused call
leaves `out` alone; the model then returns its arguments.) -/
def createSubtensorSa (t : Tensor) (c : SubCfg) (p : SaMem) : Option (Status × Tensor × SaMem) := do
  let r ← createSubtensor t c
  if r.1 ≠ .ok then return (r.1, r.2, p)
  let q ← subParams t c p
  return (.ok, r.2, q)

/-- helpers/src/mli_helpers.cc:122-171 `mli_hlp_point_to_subtensor` for `sa8` and `sa32` tensors: line 168 copies the
parameters as they are. -/
def pointSubSa (t : Tensor) (c : PointCfg) (ostr : List Int) (p : SaMem) : Option (Status × Option (PointOut × SaMem)) := do
  let r ← pointSub .sa8 t c ostr
  return (r.1, r.2.map fun o => (o, p))

/-! ## Permute -/

/-- private/src/mli_check.cc:2703-2716 and 2835-2848: the three pointers of the output are used in the same way. -/
def parConsistent (zi si fi zo so fo : Option Int) : Bool :=
  (zo != zi || (so == si && fo == fi)) &&
  (!(zo != none && zo != zi) || ((so != none && so != si) && (fo != none && fo != fi))) &&
  (zo != none || (so == none && fo == none))

/-- private/src/mli_check.cc:2701-2724, the last part of `mli_chk_permute_sa8`; the product of the shape (`uint32_t`) with
the size of an entry does not wrap (64-bit `size_t`).  A quantized dimension past the rank reads a stale or missing entry of
`shape[]` (`none`). -/
def chkPermutePar (inT : Tensor) (pin pout : SaMem) : Option Status :=
  if 0 ≤ pin.dim then do
    let zi ← pin.zp.addr
    let si ← pin.scale.addr
    let fi ← pin.frac.addr
    let zo ← pout.zp.addr
    let so ← pout.scale.addr
    let fo ← pout.frac.addr
    if !(parConsistent zi si fi zo so fo) then return .specParamMismatch
    if zo ≠ zi ∧ zo ≠ none then
      if ¬ pin.dim < inT.dims.length then none
      let n := inT.gShape pin.dim.toNat
      if ¬ (n * 2 ≤ pout.zp.cap ∧ n * 2 ≤ pout.scale.cap ∧ n ≤ pout.frac.cap) then return .specParamMismatch
    return .ok
  else some .ok

/-- kernels/diverse/impl/mli_krn_permute_ref.h:102-118: one of the three parameters of the output; `n` entries. -/
def permutePar (n : Int) (ci co : Cont) (pm : Buf) : Option (Cont × Buf) := do
  let a ← ci.addr
  let b ← co.addr
  match b with
  | none => return (ci, pm)
  | some q =>
    if some q ≠ a then
      let pm' ← forRange n.toNat (fun k m => do
        let p ← a
        let v ← m.rd (p + k)
        m.wr (q + k) v) pm
      return (co, pm')
    else return (co, pm)

/-- kernels/diverse/impl/mli_krn_permute_ref.h:84-118: `out->el_params` of the SA version. -/
def permuteParams (inT : Tensor) (perm : PermCfg) (pin pout : SaMem) (pm : Buf) : Option (SaMem × Buf) :=
  if pin.dim < 0 then do
    let z ← pin.zp.value
    let s ← pin.scale.value
    let f ← pin.frac.value
    return ({ dim := -1, zp := { pout.zp with val := .imm z }, scale := { pout.scale with val := .imm s },
              frac := { pout.frac with val := .imm f } }, pm)
  else do
    if ¬ pin.dim < inT.dims.length then none
    let n := inT.gShape pin.dim.toNat
    let rank := inT.dims.length
    let d : Int := match (List.range rank).find? (fun k => (permDim rank perm k : Int) == pin.dim) with
      | some k => k
      | none => -1
    let z ← permutePar n pin.zp pout.zp pm
    let s ← permutePar n pin.scale pout.scale z.2
    let f ← permutePar n pin.frac pout.frac s.2
    return ({ dim := d, zp := z.1, scale := s.1, frac := f.1 }, f.2)

/-- kernels/diverse/mli_krn_permute_fx.cc `mli_krn_permute_sa8`: check (private/src/mli_check.cc:2694-2728), data, then
parameters. -/
def permuteSa (inT outT : Tensor) (perm : PermCfg) (notOverlapped : Bool) (pin pout : SaMem) (src dst pm : Buf) :
    Option (Status × Buf × SaMem × Buf) := do
  let st ← chkPermute inT outT perm notOverlapped
  if st ≠ .ok then return (st, dst, pout, pm)
  let st ← chkPermutePar inT pin pout
  if st ≠ .ok then return (st, dst, pout, pm)
  let d ← permuteRun inT outT perm src dst
  let r ← permuteParams inT perm pin pout pm
  return (.ok, d, r.1, r.2)

/-! ## Data movement -/

/-- private/src/mli_check.cc:2851-2858: the configuration, looked at for per-axis tensors only (`uint32_t` sums). -/
def movCfgOk (src : Tensor) (c : MovCfg) : Bool :=
  (List.range src.dims.length).all fun i =>
    decide (u32 (c.size i + c.offset i) ≤ u32 (src.gShape i + c.padPre i + c.padPost i)) && decide (c.sub i > 0)
      && decide (c.perm i < src.dims.length)

/-- The first position of `perm_dim[]` with the given dimension (mli_check.cc:2862-2867, mli_mov_api.cc:137-142). -/
def movFindDim (r : Nat) (c : MovCfg) (dim : Int) : Option Nat :=
  (List.range r).find? fun k => (c.perm k : Int) == dim

/-- private/src/mli_check.cc:2877-2881 `dst_size` (`int32_t`) for input dimension `d` and output dimension `o`. -/
def movParSize (src : Tensor) (c : MovCfg) (d o : Nat) : Int :=
  let cpy := wrap 32 (if c.size d > 0 then c.size d else u32 (src.gShape d - c.offset d + c.padPre d + c.padPost d))
  wrap 32 (u32 (cpy + c.sub d - 1) / c.sub d + c.dstOffset o)

/-- private/src/mli_check.cc:2832-2891, the parameters of an SA tensor in `mli_chk_data_movement`.  A quantized dimension
other than -1 that is no dimension of the tensor indexes the arrays of the configuration out of bounds or reads stale entries
(`none`).  A negative `dst_size` becomes huge in the comparison (64-bit `size_t`). -/
def chkMovPar (src : Tensor) (c : MovCfg) (pin pout : SaMem) : Option Status :=
  if pin.dim ≠ -1 then do
    let zi ← pin.zp.addr
    let si ← pin.scale.addr
    let fi ← pin.frac.addr
    let zo ← pout.zp.addr
    let so ← pout.scale.addr
    let fo ← pout.frac.addr
    if !(movCfgOk src c) then return .badFuncCfg
    if !(parConsistent zi si fi zo so fo) then return .specParamMismatch
    if ¬ (0 ≤ pin.dim ∧ pin.dim < src.dims.length) then none
    let d := pin.dim.toNat
    let o := (movFindDim src.dims.length c pin.dim).getD 0
    if zo = none ∨ zo = zi then
      if ¬ ((c.size d = 0 ∨ c.size d = src.gShape d) ∧ c.offset d = 0 ∧ c.padPre d = 0 ∧ c.padPost d = 0 ∧ c.sub d = 1
          ∧ c.dstOffset o = 0) then return .specParamMismatch
    else
      let n := movParSize src c d o
      if ¬ (0 ≤ n ∧ n * 2 ≤ pout.zp.cap ∧ n * 2 ≤ pout.scale.cap ∧ n ≤ pout.frac.cap) then return .specParamMismatch
    return .ok
  else some .ok

/-- move/impl/mli_mov_ref.h:51-60 `mov_inner_loop` on one parameter array: `d`, `o` are the quantized dimensions of source and
destination, `n` the number of entries, `pad` the entry for the padding.  Positions are exact integers. -/
def movParLoop (src : Tensor) (c : MovCfg) (d o : Nat) (n pad p q : Int) (pm : Buf) : Option Buf :=
  forRange n.toNat (fun k m =>
    let s := k * c.sub d + c.offset d - c.padPre d
    if s < 0 ∨ src.gShape d ≤ s then m.wr (q + (k + c.dstOffset o)) pad
    else do
      let v ← m.rd (p + s)
      m.wr (q + (k + c.dstOffset o)) v) pm

/-- move/mli_mov_api.cc:135-204: `dst->el_params` for SA tensors. -/
def movParams (src : Tensor) (c : MovCfg) (pin pout : SaMem) (pm : Buf) : Option (SaMem × Buf) :=
  if pin.dim ≠ -1 then do
    let dim : Int := match movFindDim src.dims.length c pin.dim with
      | some k => k
      | none => pout.dim
    let si ← pin.scale.addr
    let so ← pout.scale.addr
    if so ≠ si ∧ so ≠ none then
      if ¬ (0 ≤ dim ∧ dim < src.dims.length ∧ 0 ≤ pin.dim ∧ pin.dim < src.dims.length) then none
      let n := movWriteSize src c dim.toNat
      let zi ← pin.zp.addr
      let fi ← pin.frac.addr
      let zo ← pout.zp.addr
      let fo ← pout.frac.addr
      let pm ← movParLoop src c pin.dim.toNat dim.toNat n 1 (← si) (← so) pm
      let pm ← movParLoop src c pin.dim.toNat dim.toNat n 0 (← zi) (← zo) pm
      let pm ← movParLoop src c pin.dim.toNat dim.toNat n 0 (← fi) (← fo) pm
      return ({ pout with dim := dim }, pm)
    else return ({ dim := dim, zp := pin.zp, scale := pin.scale, frac := pin.frac }, pm)
  else some (pin, pm)

/-- move/mli_mov_api.cc:99-275 `mli_mov_prepare` for SA tensors, with their parameters; the data part is `movPrepare` (which
repeats the check of the source).  The parameters are written before the destination is checked. -/
def movPrepareSa (src dst : Tensor) (c : MovCfg) (notOverlapped : Bool) (pin pout : SaMem) (sb db pm : Buf) :
    Option (Status × Tensor × SaMem × Buf × Buf) := do
  let st ← checkTensorPrivate src
  if st ≠ .ok then return (st, dst, pout, db, pm)
  let st ← chkMovPar src c pin pout
  if st ≠ .ok then return (st, dst, pout, db, pm)
  if !notOverlapped then return (.incompatibleTensors, dst, pout, db, pm)
  let q ← movParams src c pin pout pm
  let r ← movPrepare src dst c notOverlapped sb db
  return (r.1, r.2.1, q.1, r.2.2, q.2)

end Mli
