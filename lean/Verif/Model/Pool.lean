import Verif.Model.Lut

/-!
# Model of the pooling kernels (`lib/src/kernels/pooling/mli_krn_pool_hwc.h`)

Sizes and positions are `int`s in the code; the products formed from them are bounded by the
extents of accepted tensors, so they are modelled without wrapping (the checks, which multiply
unbounded shapes, are modelled with wrapping).  Input and output are different buffers: the
library expects tensors that do not overlap.
-/

namespace Mli

open Spec (lo hi InRange Rnd)

/-- private/mli_math_macros.h:16 `CEIL_DIV` on `int` operands. -/
def ceilDiv (num den : Int) : Int := (num + den - 1).tdiv den

/-- private/mli_prv_layout.h:47-56 `mli_compensations`. -/
structure Comp where
  inLeft : Int := 0
  inRight : Int := 0
  inTop : Int := 0
  inBottom : Int := 0
  left : Int := 0
  right : Int := 0
  top : Int := 0
  bottom : Int := 0
deriving DecidableEq, Repr

/-- private/mli_prv_layout.h:62-93 `mli_prv_valid_area_compensations`. -/
def validArea (y x ih iw kh kw sh sw pl pt dh dw : Int) : Comp :=
  if dh = 1 ∧ dw = 1 then
    let l := -min (x * sw - pl) 0
    let r := -min (iw - (x * sw - pl + kw)) 0
    let t := -min (y * sh - pt) 0
    let b := -min (ih - (y * sh - pt + kh)) 0
    { inLeft := l, left := l, inRight := r, right := r, inTop := t, top := t, inBottom := b, bottom := b }
  else
    let ekw := (kw - 1) * dw + 1
    let ekh := (kh - 1) * dh + 1
    let l := ceilDiv (-min (x * sw - pl) 0) dw
    let t := ceilDiv (-min (y * sh - pt) 0) dh
    let r := ceilDiv (-min (iw - (x * sw - pl + ekw)) 0) dw
    let b := ceilDiv (-min (ih - (y * sh - pt + ekh)) 0) dh
    { left := l, top := t, right := r, bottom := b,
      inLeft := l * dw, inRight := r * dw, inTop := t * dh, inBottom := b * dh }

/-- private/mli_private_types.h:20-29 `tensor_private_t` (the channel stride is 1). -/
structure Prv where
  ptr : Int
  width : Int
  height : Int
  ch : Int
  col : Int
  row : Int
deriving DecidableEq, Repr

/-- private/mli_prv_tensor.h:373-394 `mli_prv_get_tensor_hwc`. -/
def prvHwc (t : Tensor) : Option Prv :=
  match t.dims with
  | [h, w, c] => some { ptr := t.base, width := w.shape, height := h.shape, ch := c.shape, col := w.stride, row := h.stride }
  | _ => none

/-- private/mli_prv_tensor.h:786-810 `mli_prv_rotate_tensor_private<n>`. -/
def rotate (n : Nat) (t : Prv) : Prv :=
  match n with
  | 1 => { t with ptr := t.ptr + t.col * (t.width - 1), width := t.height, height := t.width, row := -t.col, col := t.row }
  | 2 => { t with ptr := t.ptr + t.col * (t.width - 1) + t.row * (t.height - 1), col := -t.col, row := -t.row }
  | 3 => { t with ptr := t.ptr + t.row * (t.height - 1), width := t.height, height := t.width, row := t.col, col := -t.row }
  | _ => t

/-- What is computed over one window: first address, rows, columns, row and column stride. -/
abbrev WinOp := Buf → Int → Int → Int → Int → Int → Option Int

/-- Window geometry: kernel size, strides, padding. -/
structure Geo where
  kh : Int
  kw : Int
  sh : Int
  sw : Int
  pt : Int
  pb : Int
  pl : Int
  pr : Int
deriving DecidableEq, Repr

/-- mli_krn_pool_hwc.h:36-144 `mli_krn_pool_hwc_nopad`: one channel per iteration (one lane),
pointers are incremented along the way. -/
def poolNoPad (K : WinOp) (src : Buf) (rb re cb ce : Int) (g : Geo) (i o : Prv) (d : Buf) : Option Buf :=
  if i.height ≥ g.kh ∧ i.width ≥ g.kw then
    let inColInc := i.col * g.sw
    let inRowInc := i.row * g.sh - inColInc * (ce - cb)
    let outColInc := o.col
    let outRowInc := o.row - outColInc * (ce - cb)
    forRange i.ch.toNat (fun (ch : Nat) d =>
      let inPtr := i.ptr + i.row * (rb * g.sh - g.pt) + i.col * (cb * g.sw - g.pl) + ch
      let outPtr := o.ptr + o.row * rb + o.col * cb + ch
      (forRange (re - rb).toNat (fun _ s =>
        (forRange (ce - cb).toNat (fun _ (s : (Int × Int) × Buf) =>
          (K src s.1.1 g.kh g.kw i.row i.col).bind fun r =>
          (s.2.wr s.1.2 r).bind fun d => some ((s.1.1 + inColInc, s.1.2 + outColInc), d)) s).bind
        fun s => some ((s.1.1 + inRowInc, s.1.2 + outRowInc), s.2)) ((inPtr, outPtr), d)).map (·.2)) d
  else some d

/-- mli_krn_pool_hwc.h:209-240, 247-277: all channels of one output position with the given
compensations. -/
def poolPos (K : WinOp) (src : Buf) (g : Geo) (i o : Prv) (H W : Int) (c : Comp) (d : Buf) : Option Buf :=
  let rows := g.kh - c.top - c.bottom
  let clmns := g.kw - c.right - c.left
  let h := H * g.sh - g.pt + c.inTop
  let w := W * g.sw - g.pl + c.inLeft
  forRange i.ch.toNat (fun (ch : Nat) d =>
    (K src (i.ptr + i.row * h + i.col * w + ch) rows clmns i.row i.col).bind fun r =>
    d.wr (o.ptr + o.row * H + o.col * W + ch) r) d

/-- mli_krn_pool_hwc.h:146-279 `mli_krn_pool_hwc_compute_pad` over rows `rb..re` and columns
`cb..ce`: compensations are computed for the first `kernel_width` columns of each row and kept
for the others. -/
def poolPad (K : WinOp) (src : Buf) (rb re cb ce : Int) (g : Geo) (i o : Prv) (d : Buf) : Option Buf :=
  (forRange (re - rb).toNat (fun (h : Nat) s =>
    let H := rb + h
    let mid := min (cb + g.kw) ce
    (forRange (mid - cb).toNat (fun (w : Nat) (s : Comp × Buf) =>
      let W := cb + w
      let c := validArea H W i.height i.width g.kh g.kw g.sh g.sw g.pl g.pt 1 1
      (poolPos K src g i o H W c s.2).map fun d => (c, d)) s).bind fun s =>
    let W0 := max cb mid
    forRange (ce - W0).toNat (fun (w : Nat) (s : Comp × Buf) =>
      (poolPos K src g i o H (W0 + w) s.1 s.2).map fun d => (s.1, d)) s) (({} : Comp), d)).map (·.2)

/-- mli_krn_pool_hwc.h:335-352: border area 0 (top). -/
def poolTop (K : WinOp) (src : Buf) (g : Geo) (i o : Prv) (d : Buf) : Option Buf :=
  if g.pt ≠ 0 then
    poolPad K src 0 (ceilDiv g.pt g.sh) 0 (max (ceilDiv g.pl g.sw) (o.width - ceilDiv g.pr g.sw)) g i o d
  else some d

/-- mli_krn_pool_hwc.h:353-377: border area 1 (right), rotated to the top. -/
def poolRight (K : WinOp) (src : Buf) (g : Geo) (i o : Prv) (d : Buf) : Option Buf :=
  if g.pr ≠ 0 then
    poolPad K src (o.width - o.width) (o.width - (o.width - ceilDiv g.pr g.sw)) 0 (o.height - ceilDiv g.pb g.sh)
      { kh := g.kw, kw := g.kh, sh := g.sw, sw := g.sh, pt := g.pr, pb := g.pl, pl := g.pt, pr := g.pb }
      (rotate 1 i) (rotate 1 o) d
  else some d

/-- mli_krn_pool_hwc.h:378-396: border area 2 (bottom), rotated to the top. -/
def poolBottom (K : WinOp) (src : Buf) (g : Geo) (i o : Prv) (d : Buf) : Option Buf :=
  if g.pb ≠ 0 then
    poolPad K src (o.height - o.height) (o.height - (o.height - ceilDiv g.pb g.sh))
      (o.width - o.width) (o.width - ceilDiv g.pl g.sw)
      { g with pt := g.pb, pb := g.pt, pl := g.pr, pr := g.pl } (rotate 2 i) (rotate 2 o) d
  else some d

/-- mli_krn_pool_hwc.h:397-419: border area 3 (left), rotated to the top. -/
def poolLeft (K : WinOp) (src : Buf) (g : Geo) (i o : Prv) (d : Buf) : Option Buf :=
  if g.pl ≠ 0 then
    poolPad K src 0 (ceilDiv g.pl g.sw) (o.height - o.height) (o.height - ceilDiv g.pt g.sh)
      { kh := g.kw, kw := g.kh, sh := g.sw, sw := g.sh, pt := g.pl, pb := g.pr, pl := g.pb, pr := g.pt }
      (rotate 3 i) (rotate 3 o) d
  else some d

/-- mli_krn_pool_hwc.h:281-427 `mli_krn_pool_hwc_pad`. -/
def poolHwcPad (K : WinOp) (src : Buf) (g : Geo) (i o : Prv) (d : Buf) : Option Buf :=
  let rb := ceilDiv g.pt g.sh
  let re := ceilDiv (i.height + g.pt - g.kh + 1) g.sh
  let cb := ceilDiv g.pl g.sw
  let ce := ceilDiv (i.width + g.pl - g.kw + 1) g.sw
  (if re - rb > 0 ∧ ce - cb > 0 then poolNoPad K src rb re cb ce g i o d else some d).bind fun d =>
  if g.pt ≠ 0 ∨ g.pl ≠ 0 ∨ g.pb ≠ 0 ∨ g.pr ≠ 0 then
    (poolTop K src g i o d).bind fun d =>
    (poolRight K src g i o d).bind fun d =>
    (poolBottom K src g i o d).bind fun d =>
    poolLeft K src g i o d
  else some d

/-- mli_krn_pool_hwc.h:429-465 `mli_krn_pool_hwc_wrapper`. -/
def poolWrapper (K : WinOp) (src : Buf) (g : Geo) (i o : Prv) (d : Buf) : Option Buf :=
  if g.pt ≠ 0 ∨ g.pl ≠ 0 ∨ g.pb ≠ 0 ∨ g.pr ≠ 0 then poolHwcPad K src g i o d
  else poolNoPad K src 0 o.height 0 o.width { g with pt := 0, pb := 0, pl := 0, pr := 0 } i o d

/-- mli_krn_pool_hwc.h:468-537 `mli_krn_pool_hwc`: the right and bottom padding and, when not all
of the input is used, its size are adjusted to the output size. -/
def poolHwc (K : WinOp) (src : Buf) (g : Geo) (tin tout : Tensor) (d : Buf) : Option Buf := do
  let i ← prvHwc tin
  let o ← prvHwc tout
  let pr := (o.width * g.sw + g.kw - g.sw) - i.width - g.pl
  let pb := (o.height * g.sh + g.kh - g.sh) - i.height - g.pt
  let i := { i with width := if pr < 0 then i.width + pr else i.width,
                    height := if pb < 0 then i.height + pb else i.height }
  poolWrapper K src { g with pr := max pr 0, pb := max pb 0 } i o d

/-- private/src/mli_check.cc:1114-1168 `mli_chk_maxpool_hwc` = 1214-1268 `mli_chk_avepool_hwc`, for
equal element types, non-null pointers and `kernel_size == 0`; `uint32_t` arithmetic converted
to `int`. -/
def chkPool (tin : Tensor) (g : Geo) (tout : Tensor) : Option Status := do
  let s ← checkTensorPrivate tin
  if s ≠ .ok then return s
  let s ← checkTensorPrivate tout
  if s ≠ .ok then return s
  match tin.dims, tout.dims with
  | [ih, iw, ic], [oh, ow, oc] =>
    if !(innerOne tin && innerOne tout) then return .incompatibleTensors
    if ¬ (g.pl < g.kw ∧ g.pr < g.kw ∧ g.pt < g.kh ∧ g.pb < g.kh ∧ g.sh > 0 ∧ g.sw > 0) then return .badFuncCfg
    let effW := wrap 32 (iw.shape + g.pl + g.pr)
    let effH := wrap 32 (ih.shape + g.pt + g.pb)
    let reqW := wrap 32 (ow.shape * g.sw + g.kw - g.sw)
    let reqH := wrap 32 (oh.shape * g.sh + g.kh - g.sh)
    if ¬ (reqH ≤ effH ∧ reqW ≤ effW ∧ oc.shape = ic.shape) then return .badFuncCfg
    return .ok
  | _, _ => return .shapeMismatch

/-- bricks/impl/mli_krn_reduce_max2d_ref.h:22-39 `reduce_max2D_hwc`; the running maximum, kept in
`*out` by the code, is returned. -/
def reduceMax : WinOp := fun src p rows clmns rs cs => do
  let v ← src.rd p
  forRange rows.toNat (fun (r : Nat) => forRange clmns.toNat (fun (c : Nat) acc =>
    (src.rd (p + (rs * r + cs * c))).map fun x => maxFx acc x)) v

/-- kernels/pooling/mli_krn_maxpool_hwc_fx8.cc:46-53 (and fx16, sa8): the max-pooling kernel on the
elements; copying the element parameters to the output is left out. -/
def krnMaxpool (src : Buf) (tin : Tensor) (g : Geo) (tout : Tensor) (dst : Buf) : Option (Status × Buf) := do
  let s ← chkPool tin g tout
  if s ≠ .ok then return (s, dst)
  let dst' ← poolHwc reduceMax src g tin tout dst
  return (.ok, dst')

end Mli
