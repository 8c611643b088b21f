import Verif.Model.Mov

/-!
# Model of the functions that fill a data movement configuration

`mli_mov_cfg_for_copy`, `.._slice`, `.._concat`, `.._subsample`, `.._permute`,
`.._padding2d_chw`, `.._padding2d_hwc` and `mli_mov_cfg_all`.  The array arguments are lists; every
function reads the four entries `0 .. MLI_MAX_RANK - 1` of each array, whatever the rank of the
tensor, so a shorter array is undefined behaviour (`none`).  Entries with an index above 3 do not
exist in the structure; they have the neutral value here.
-/

namespace Mli

/-- A read loop over `MLI_MAX_RANK = 4` entries of an `int*` argument: the array must have them. -/
def arr4 (l : List Int) : Option (Nat → Int) :=
  if 4 ≤ l.length then some (fun k => if k < 4 then l.getD k 0 else 0) else none

/-- move/mli_mov_api.cc:434-442 `mli_mov_cfg_for_copy`. -/
def cfgForCopy : MovCfg :=
  { offset := fun _ => 0, size := fun _ => 0, sub := fun _ => 1, dstOffset := fun _ => 0,
    dstStride := fun _ => 0, perm := fun k => k, padPre := fun _ => 0, padPost := fun _ => 0 }

/-- move/mli_mov_api.cc:450-462 `mli_mov_cfg_for_slice`; `int` to `uint32_t` conversions wrap. -/
def cfgForSlice (offsets sizes dstStride : List Int) : Option MovCfg := do
  let o ← arr4 offsets
  let s ← arr4 sizes
  let t ← arr4 dstStride
  return { cfgForCopy with offset := fun k => u32 (o k), size := fun k => u32 (s k), dstStride := t }

/-- move/mli_mov_api.cc:470-481 `mli_mov_cfg_for_concat`. -/
def cfgForConcat (dstOffsets dstStride : List Int) : Option MovCfg := do
  let o ← arr4 dstOffsets
  let t ← arr4 dstStride
  return { cfgForCopy with dstOffset := fun k => u32 (o k), dstStride := t }

/-- move/mli_mov_api.cc:489-501 `mli_mov_cfg_for_subsample`. -/
def cfgForSubsample (step dstStride : List Int) : Option MovCfg := do
  let s ← arr4 step
  let t ← arr4 dstStride
  return { cfgForCopy with sub := fun k => if k < 4 then u32 (s k) else 1, dstStride := t }

/-- move/mli_mov_api.cc:508-516 `mli_mov_cfg_for_permute`. -/
def cfgForPermute (perm : List Int) : Option MovCfg := do
  let p ← arr4 perm
  return { cfgForCopy with perm := fun k => if k < 4 then (p k).toNat else k }

/-- move/mli_mov_api.cc:523-537 `mli_mov_cfg_for_padding2d_chw` (height is dimension 1 and width
dimension 2, include/api/mli_helpers_api.h:29-31). -/
def cfgForPadChw (left right top bot : Int) (dstStride : List Int) : Option MovCfg := do
  let t ← arr4 dstStride
  return { cfgForCopy with
    dstStride := t
    padPre := fun k => if k = 2 then left else if k = 1 then top else 0
    padPost := fun k => if k = 2 then right else if k = 1 then bot else 0 }

/-- move/mli_mov_api.cc:544-558 `mli_mov_cfg_for_padding2d_hwc` (height is dimension 0 and width
dimension 1, include/api/mli_helpers_api.h:38-40). -/
def cfgForPadHwc (left right top bot : Int) (dstStride : List Int) : Option MovCfg := do
  let t ← arr4 dstStride
  return { cfgForCopy with
    dstStride := t
    padPre := fun k => if k = 1 then left else if k = 0 then top else 0
    padPost := fun k => if k = 1 then right else if k = 0 then bot else 0 }

/-- move/mli_mov_api.cc:566-594 `mli_mov_cfg_all`. -/
def cfgAll (offsets sizes step dstOffsets dstStride perm : List Int) (left right top bot : Int) :
    Option MovCfg := do
  let o ← arr4 offsets
  let s ← arr4 sizes
  let u ← arr4 step
  let d ← arr4 dstOffsets
  let t ← arr4 dstStride
  let p ← arr4 perm
  return {
    offset := fun k => u32 (o k)
    size := fun k => u32 (s k)
    sub := fun k => if k < 4 then u32 (u k) else 1
    dstOffset := fun k => u32 (d k)
    dstStride := t
    perm := fun k => if k < 4 then (p k).toNat else k
    padPre := fun k => if k = 1 then left else if k = 0 then top else 0
    padPost := fun k => if k = 1 then right else if k = 0 then bot else 0 }

end Mli
