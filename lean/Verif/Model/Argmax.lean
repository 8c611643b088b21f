import Verif.Model.Fc

/-!
# Model of the arg-max kernels (`lib/src/kernels/diverse/impl/mli_krn_argmax_ref.h`)

Input and output are different buffers; positions are not wrapped to `int`.
-/

namespace Mli

/-- `for (x = a; x < b; ++x) s = f(x, s);` -/
def forFrom {σ : Type} (a b : Int) (f : Int → σ → Option σ) (s : σ) : Option σ :=
  forRange (b - a).toNat (fun k => f (a + k)) s

/-- `src_tensor_arr[dst_tensor_arr[j]]` of mli_krn_argmax_ref.h:38, 42: the value behind entry `j` of the index array at `db`. -/
def idxKey (src : Buf) (sb : Int) (db : Int) (d : Buf) (j : Nat) : Option Int :=
  (d.rd (db + j)).bind fun i => src.rd (sb + i)

/-- mli_krn_argmax_ref.h:37-43: the position of the smallest value among `root` and its children. -/
def smallerChild (src : Buf) (sb : Int) (size : Nat) (db : Int) (d : Buf) (j sm : Nat) : Option Nat :=
  if j < size then
    (idxKey src sb db d j).bind fun a => (idxKey src sb db d sm).bind fun b => some (if a < b then j else sm)
  else some sm

/-- `temp = a[i]; a[i] = a[j]; a[j] = temp;` on the array at `db`. -/
def swapIdx (db : Int) (i j : Nat) (d : Buf) : Option Buf :=
  (d.rd (db + i)).bind fun t => (d.rd (db + j)).bind fun u => (d.wr (db + i) u).bind fun d => d.wr (db + j) t

/-- mli_krn_argmax_ref.h:24-54 `heapify`.  The `while` loop gets a number of rounds it may take; `none` if that is not enough. -/
def heapify (src : Buf) (sb : Int) (size : Nat) (db : Int) : (fuel root : Nat) → Buf → Option Buf
  | 0, _, _ => none
  | fuel + 1, root, d =>
    if root < size / 2 then
      (smallerChild src sb size db d (2 * root + 1) root).bind fun sm =>
      (smallerChild src sb size db d (2 * root + 2) sm).bind fun sm =>
      if sm ≠ root then (swapIdx db root sm d).bind (heapify src sb size db fuel sm) else some d
    else some d

/-- mli_krn_argmax_ref.h:87-88, 126-127: `for (i = size / 2 - 1; i >= 0; i--) heapify(...)`. -/
def buildHeap (src : Buf) (sb : Int) (size : Nat) (db : Int) (d : Buf) : Option Buf :=
  forRange (size / 2) (fun t => heapify src sb size db (size + 1) (size / 2 - 1 - t)) d

/-- mli_krn_argmax_ref.h:121-135 `heap_sort`. -/
def heapSort (src : Buf) (sb : Int) (size : Nat) (db : Int) (d : Buf) : Option Buf :=
  (buildHeap src sb size db d).bind
    (forRange (size - 1) (fun t d =>
      (swapIdx db 0 (size - 1 - t) d).bind (heapify src sb (size - 1 - t) db (size + 1) 0)))

/-- private/mli_prv_tensor.h:524-537 `mli_prv_reorder_generic_tensor`: dimension `i` of the rank-4 view whose last
dimensions are those of the tensor. -/
def Tensor.rDim (t : Tensor) (i : Nat) : Dim :=
  (List.replicate (maxRank - t.dims.length) (⟨1, 0⟩ : Dim) ++ t.dims).getD i ⟨1, 0⟩

/-- `POS` (private/mli_prv_tensor.h) of that view. -/
def Tensor.rPos (t : Tensor) (a b c d : Int) : Int :=
  a * (t.rDim 0).stride + b * (t.rDim 1).stride + c * (t.rDim 2).stride + d * (t.rDim 3).stride

/-- mli_krn_argmax_ref.h:97-99, 148-150: first index of dimension `i` in slice `sl` of dimension `ax` (-1: no slices). -/
def sliceLo (ax sl : Int) (i : Nat) : Int := if ax = i then sl else 0

/-- mli_krn_argmax_ref.h:100, 151: the index after the last one. -/
def sliceHi (t : Tensor) (ax sl : Int) (i : Nat) : Int := if ax = i then sl + 1 else (t.rDim i).shape

/-- Local variables of `fill_dst_array`: `i`, the array, and the coordinates stored before the early `return`. -/
structure FillSt where
  i : Nat
  d : Buf
  ret : Option (Int × Int × Int × Int) := none

/-- mli_krn_argmax_ref.h:159-168: body of the innermost loop; nothing happens after the `return`. -/
def fillStep (t : Tensor) (topk : Nat) (db a b c e : Int) (s : FillSt) : Option FillSt :=
  match s.ret with
  | some _ => some s
  | none =>
    if s.i = topk then some { s with ret := some (a, b, c, e) }
    else (s.d.wr (db + s.i) (t.rPos a b c e)).map fun d => { s with i := s.i + 1, d := d }

/-- mli_krn_argmax_ref.h:138-173 `fill_dst_array`: the array and `after_kth_element_pos`. -/
def fillDst (t : Tensor) (topk : Nat) (ax sl db : Int) (d : Buf) : Option (Buf × (Int × Int × Int × Int)) :=
  (forFrom (sliceLo ax sl 0) (sliceHi t ax sl 0) (fun a => forFrom (sliceLo ax sl 1) (sliceHi t ax sl 1) (fun b =>
    forFrom (sliceLo ax sl 2) (sliceHi t ax sl 2) (fun c => forFrom (sliceLo ax sl 3) (sliceHi t ax sl 3) (fun e =>
      fillStep t topk db a b c e)))) { i := 0, d := d }).map fun s =>
    (s.d, s.ret.getD (sliceHi t ax sl 0, sliceHi t ax sl 1, sliceHi t ax sl 2, sliceHi t ax sl 3))

/-- mli_krn_argmax_ref.h:66-74: body of `inner_loop`. -/
def selectStep (src : Buf) (t : Tensor) (topk : Nat) (db a b c e : Int) (d : Buf) : Option Buf :=
  (idxKey src t.base db d 0).bind fun k =>
  (src.rd (t.base + t.rPos a b c e)).bind fun v =>
  if k > v then some d
  else (d.wr (db + (0 : Nat)) (t.rPos a b c e)).bind (heapify src t.base topk db (topk + 1) 0)

/-- mli_krn_argmax_ref.h:77-118 `heap_select_k`: `dim_start[1..3]` are part of the state, `dim_start[0]` does not change. -/
def heapSelect (src : Buf) (t : Tensor) (topk : Nat) (ax sl db : Int) (after : Int × Int × Int × Int) (d : Buf) : Option Buf :=
  (buildHeap src t.base topk db d).bind fun d =>
  (forFrom after.1 (sliceHi t ax sl 0) (fun a (s : (Int × Int × Int) × Buf) =>
    (forFrom s.1.1 (sliceHi t ax sl 1) (fun b (s : (Int × Int) × Buf) =>
      (forFrom s.1.1 (sliceHi t ax sl 2) (fun c (s : Int × Buf) =>
        (forFrom s.1 (sliceHi t ax sl 3) (fun e d => selectStep src t topk db a b c e d) s.2).map fun d => (sliceLo ax sl 3, d))
        (s.1.2, s.2)).map fun s => ((sliceLo ax sl 2, s.1), s.2))
      (s.1.2, s.2)).map fun s => ((sliceLo ax sl 1, s.1), s.2))
    (after.2, d)).map (·.2)

/-- mli_krn_argmax_ref.h:176-209 `argmax`. -/
def argmaxRun (src : Buf) (tin tout : Tensor) (axis topk : Int) (d : Buf) : Option Buf :=
  let ax := if axis ≥ 0 then axis + (maxRank - tin.dims.length) else -1
  let slices := if axis ≥ 0 then (tin.rDim ax.toNat).shape else 1
  forRange slices.toNat (fun sl d =>
    let db := tout.base + topk * sl
    (fillDst tin topk.toNat ax sl db d).bind fun r =>
    (heapSelect src tin topk.toNat ax sl db r.2 r.1).bind fun d =>
    heapSort src tin.base topk.toNat db d) d

/-- `out->shape[i]`: entries behind the rank are whatever the caller left there. -/
def rawShape (t : Tensor) (stale : Nat → Int) (i : Nat) : Int := (t.shape[i]?).getD (stale i)

/-- private/src/mli_check.cc:2909-2947 `mli_chk_argmax`, for correct element types and non-null pointers. -/
def chkArgmax (tin tout : Tensor) (stale : Nat → Int) (axis topk : Int) : Option Status := do
  let s ← checkTensorPrivate tin
  if s ≠ .ok then return s
  let s ← checkTensorPrivate tout
  if s ≠ .ok then return s
  if !isContig tout then return .incompatibleTensors
  if ¬ axis ≤ tin.dims.length then return .badFuncCfg
  if !innerOne tin then return .incompatibleTensors
  if ¬ axis < tin.dims.length then return .badFuncCfg
  let dimSize := if axis ≥ 0 then tin.shape.getD axis.toNat 0 else 1
  if ¬ topk ≤ wrap 32 (countElemNum tin / dimSize) then return .badFuncCfg
  if ¬ (rawShape tout stale 0 = dimSize ∧ wrap 32 (rawShape tout stale 1) = topk) then return .shapeMismatch
  return .ok

/-- kernels/diverse/mli_krn_argmax.cc:24-50 `mli_krn_argmax_sa8`, `mli_krn_argmax_fx16` with
mli_krn_argmax_ref.h:211-223 (without the element parameters of the output, which are set to constants). -/
def krnArgmax (src : Buf) (tin tout : Tensor) (stale : Nat → Int) (axis topk : Int) (dst : Buf) : Option (Status × Buf) := do
  let s ← chkArgmax tin tout stale axis topk
  if s ≠ .ok then return (s, dst)
  let d ← argmaxRun src tin tout axis topk dst
  return (.ok, d)

end Mli
