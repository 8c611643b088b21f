import Verif.Model.Fc

/-!
# Model of `mli_hlp_point_to_subtensor` and of the accumulator guard bits (`lib/src/helpers/src/mli_helpers.cc`)
-/

namespace Mli

/-- include/mli_types.h:425-429 `mli_point_to_subtsr_cfg`: `start_coord[4]` (`uint32_t`), `coord_num` and
`first_out_dim_size` (both `uint8_t`). -/
structure PointCfg where
  coords : List Int
  num : Nat
  first : Int
deriving DecidableEq, Repr

/-- include/mli_types.h `mli_element_type`, the types the switch of mli_helpers.cc:143-161 knows. -/
inductive ElKind where
  | fx8 | sa8 | fx16 | fp32 | sa32
deriving DecidableEq, Repr

/-- private/src/mli_check.cc:2783-2786: the coordinates against the shape. -/
def coordsOk (shape coords : List Int) : Nat → Bool
  | 0 => true
  | n + 1 => coordsOk shape coords n && decide (coords.getD n 0 < shape.getD n 0)

/-- private/src/mli_check.cc:332-340 `check_layout_is_contiguous(mem_stride, rank)`. -/
def strideContig (rank : Nat) (ostr : List Int) : Bool := (rank == 1 && ostr.getD 0 0 == 1) || rank == 0

/-- private/src/mli_check.cc:2770-2800 `mli_chk_point_to_subtensor` for non-null pointers; `ostr` is what the caller left in
`out->mem_stride`.  Without coordinates lines 2788-2789 read in front of the arrays (`none`). -/
def chkPoint (t : Tensor) (c : PointCfg) (ostr : List Int) : Option Status := do
  let st ← checkTensorPrivate t
  if st ≠ .ok then return st
  if c.num > t.dims.length then return .badFuncCfg
  if !(coordsOk t.shape c.coords c.num) then return .badFuncCfg
  if c.num = 0 then none
  if (c.coords.getD (c.num - 1) 0 + c.first) % 2 ^ 32 > t.shape.getD (c.num - 1) 0 then return .badFuncCfg
  if !(isContig t && strideContig (t.dims.length - (c.num - 1)) ostr) then return .incompatibleTensors
  return .ok

/-- helpers/src/mli_helpers.cc:133-137: `dimension_sizes` and the final `size`, both `uint32_t`. -/
def dimSizes : List Int → List Int × Int
  | [] => ([], 1)
  | n :: ns =>
    let r := dimSizes ns
    (r.2 :: r.1, r.2 * n % 2 ^ 32)

/-- helpers/src/mli_helpers.cc:139-141: the offset of the start coordinates (`uint32_t`). -/
def startOffset (coords sizes : List Int) : Nat → Int
  | 0 => 0
  | n + 1 => (startOffset coords sizes n + coords.getD n 0 * sizes.getD n 0 % 2 ^ 32) % 2 ^ 32

/-- What the call leaves in `out`: `base = none` stands for a pointer that is no address of the buffer. -/
structure PointOut where
  dims : List Dim
  base : Option Int
  cap : Int
  es : Int
deriving DecidableEq, Repr

/-- helpers/src/mli_helpers.cc:122-171 `mli_hlp_point_to_subtensor`; `out->mem_stride` keeps what the caller left in it.
Line 152 adds the offset to the pointer read as a `float` (the union member `f32`), which gives no address.  `el_params`
and `el_type` are copied as they are (Model/QuantMem.lean `pointSubSa`). -/
def pointSub (k : ElKind) (t : Tensor) (c : PointCfg) (ostr : List Int) : Option (Status × Option PointOut) := do
  let st ← chkPoint t c ostr
  if st ≠ .ok then return (st, none)
  let size := startOffset c.coords (dimSizes t.shape).1 c.num
  let rest := t.shape.drop c.num
  return (.ok, some
    { dims := List.zipWith Dim.mk (c.first :: rest) ostr
      base := if k = .fp32 then none else some (t.base + size)
      cap := (c.first :: rest).foldl (fun a n => a * n % 2 ^ 32) 1 * t.es % 2 ^ 32
      es := t.es })

/-- helpers/src/mli_helpers.cc:337-345 `mli_hlp_accu_guard_bits_<operands>` of the reference, a `uint8_t`: size of the
accumulator and of the operands in bytes. -/
def guardBits (acc a b : Nat) : Nat := (acc * 8 - (a * 8 + b * 8)) % 256

/-- helpers/src/mli_helpers.cc:337-339; `mli_acc32_t` is `int32_t`. -/
def guardBitsSa8Sa8 : Nat := guardBits 4 1 1

/-- helpers/src/mli_helpers.cc:340-342; `mli_acc40_t` is `int64_t`. -/
def guardBitsFx16Fx16 : Nat := guardBits 8 2 2

/-- helpers/src/mli_helpers.cc:343-345. -/
def guardBitsFx16Fx8 : Nat := guardBits 4 1 2

end Mli
