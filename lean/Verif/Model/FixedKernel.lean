import Verif.Model.AvePool

/-! # Pooling kernels specialised for one kernel size

The convolution kernels of Model/Conv, Model/GroupConv and Model/TransposeConv carry the size they are
specialised for as parameter `ks`.  The pooling code is traversed here with the template parameter
`fixed_kernel_size`, which replaces the kernel size of the configuration and the number of columns of a
part of the border. -/

namespace Mli

open Spec (lo hi InRange Rnd)

/-- What is computed over one window whose multiplier was chosen for a given number of elements. -/
abbrev CountOp := Int → WinOp

/-- mli_krn_pool_hwc.h:242-277: all channels of one output position behind the first `kernel_width` columns, with
`clmns = fixed_kernel_size` (254-256); `rows`, the multiplier and the start are those kept from the column before. -/
def poolPosFix (fix : Int) (K : CountOp) (src : Buf) (g : Geo) (i o : Prv) (H W : Int) (c : Comp) (d : Buf) : Option Buf :=
  let rows := g.kh - c.top - c.bottom
  let kept := g.kw - c.right - c.left
  let clmns := if fix > 0 then fix else kept
  let h := H * g.sh - g.pt + c.inTop
  let w := W * g.sw - g.pl + c.inLeft
  forRange i.ch.toNat (fun (ch : Nat) d =>
    (K (rows * kept) src (i.ptr + i.row * h + i.col * w + ch) rows clmns i.row i.col).bind fun r =>
    d.wr (o.ptr + o.row * H + o.col * W + ch) r) d

/-- mli_krn_pool_hwc.h:146-279 `mli_krn_pool_hwc_compute_pad` with `fixed_kernel_size = fix`. -/
def poolPadFix (fix : Int) (K : CountOp) (src : Buf) (rb re cb ce : Int) (g : Geo) (i o : Prv) (d : Buf) : Option Buf :=
  (forRange (re - rb).toNat (fun (h : Nat) s =>
    let H := rb + h
    let mid := min (cb + g.kw) ce
    (forRange (mid - cb).toNat (fun (w : Nat) (s : Comp × Buf) =>
      let W := cb + w
      let c := validArea H W i.height i.width g.kh g.kw g.sh g.sw g.pl g.pt 1 1
      (poolPosFix 0 K src g i o H W c s.2).map fun d => (c, d)) s).bind fun s =>
    let W0 := max cb mid
    forRange (ce - W0).toNat (fun (w : Nat) (s : Comp × Buf) =>
      (poolPosFix fix K src g i o H (W0 + w) s.1 s.2).map fun d => (s.1, d)) s) (({} : Comp), d)).map (·.2)

/-- mli_krn_pool_hwc.h:62-83: the multiplier of the part without padding is that of the whole kernel. -/
def whole (K : CountOp) (g : Geo) : WinOp := K (g.kh * g.kw)

/-- mli_krn_pool_hwc.h:335-352 with `fixed_kernel_size = fix`. -/
def poolTopFix (fix : Int) (K : CountOp) (src : Buf) (g : Geo) (i o : Prv) (d : Buf) : Option Buf :=
  if g.pt ≠ 0 then
    poolPadFix fix K src 0 (ceilDiv g.pt g.sh) 0 (max (ceilDiv g.pl g.sw) (o.width - ceilDiv g.pr g.sw)) g i o d
  else some d

/-- mli_krn_pool_hwc.h:353-377 with `fixed_kernel_size = fix`. -/
def poolRightFix (fix : Int) (K : CountOp) (src : Buf) (g : Geo) (i o : Prv) (d : Buf) : Option Buf :=
  if g.pr ≠ 0 then
    poolPadFix fix K src (o.width - o.width) (o.width - (o.width - ceilDiv g.pr g.sw)) 0 (o.height - ceilDiv g.pb g.sh)
      { kh := g.kw, kw := g.kh, sh := g.sw, sw := g.sh, pt := g.pr, pb := g.pl, pl := g.pt, pr := g.pb }
      (rotate 1 i) (rotate 1 o) d
  else some d

/-- mli_krn_pool_hwc.h:378-396 with `fixed_kernel_size = fix`. -/
def poolBottomFix (fix : Int) (K : CountOp) (src : Buf) (g : Geo) (i o : Prv) (d : Buf) : Option Buf :=
  if g.pb ≠ 0 then
    poolPadFix fix K src (o.height - o.height) (o.height - (o.height - ceilDiv g.pb g.sh))
      (o.width - o.width) (o.width - ceilDiv g.pl g.sw)
      { g with pt := g.pb, pb := g.pt, pl := g.pr, pr := g.pl } (rotate 2 i) (rotate 2 o) d
  else some d

/-- mli_krn_pool_hwc.h:397-419 with `fixed_kernel_size = fix`. -/
def poolLeftFix (fix : Int) (K : CountOp) (src : Buf) (g : Geo) (i o : Prv) (d : Buf) : Option Buf :=
  if g.pl ≠ 0 then
    poolPadFix fix K src 0 (ceilDiv g.pl g.sw) (o.height - o.height) (o.height - ceilDiv g.pt g.sh)
      { kh := g.kw, kw := g.kh, sh := g.sw, sw := g.sh, pt := g.pl, pb := g.pr, pl := g.pb, pr := g.pt }
      (rotate 3 i) (rotate 3 o) d
  else some d

/-- mli_krn_pool_hwc.h:281-427 `mli_krn_pool_hwc_pad` with `fixed_kernel_size = fix`. -/
def poolHwcPadFix (fix : Int) (K : CountOp) (src : Buf) (g : Geo) (i o : Prv) (d : Buf) : Option Buf :=
  let rb := ceilDiv g.pt g.sh
  let re := ceilDiv (i.height + g.pt - g.kh + 1) g.sh
  let cb := ceilDiv g.pl g.sw
  let ce := ceilDiv (i.width + g.pl - g.kw + 1) g.sw
  (if re - rb > 0 ∧ ce - cb > 0 then poolNoPad (whole K g) src rb re cb ce g i o d else some d).bind fun d =>
  if g.pt ≠ 0 ∨ g.pl ≠ 0 ∨ g.pb ≠ 0 ∨ g.pr ≠ 0 then
    (poolTopFix fix K src g i o d).bind fun d =>
    (poolRightFix fix K src g i o d).bind fun d =>
    (poolBottomFix fix K src g i o d).bind fun d =>
    poolLeftFix fix K src g i o d
  else some d

/-- mli_krn_pool_hwc.h:429-465 `mli_krn_pool_hwc_wrapper` with `fixed_kernel_size = fix`. -/
def poolWrapperFix (fix : Int) (K : CountOp) (src : Buf) (g : Geo) (i o : Prv) (d : Buf) : Option Buf :=
  if g.pt ≠ 0 ∨ g.pl ≠ 0 ∨ g.pb ≠ 0 ∨ g.pr ≠ 0 then poolHwcPadFix fix K src g i o d
  else poolNoPad (whole K g) src 0 o.height 0 o.width { g with pt := 0, pb := 0, pl := 0, pr := 0 } i o d

/-- mli_krn_pool_hwc.h:468-537 `mli_krn_pool_hwc` with `fixed_kernel_size = fix`, which replaces the kernel size of the
configuration (484-487). -/
def poolHwcFix (fix : Int) (K : CountOp) (src : Buf) (g : Geo) (tin tout : Tensor) (d : Buf) : Option Buf := do
  let i ← prvHwc tin
  let o ← prvHwc tout
  let g := if fix ≠ 0 then { g with kh := fix, kw := fix } else g
  let pr := (o.width * g.sw + g.kw - g.sw) - i.width - g.pl
  let pb := (o.height * g.sh + g.kh - g.sh) - i.height - g.pt
  let i := { i with width := if pr < 0 then i.width + pr else i.width,
                    height := if pb < 0 then i.height + pb else i.height }
  poolWrapperFix fix K src { g with pr := max pr 0, pb := max pb 0 } i o d

/-- private/src/mli_check.cc:1122-1128 (= 1222-1228): the kernel size of a specialised function, then the rest of the check. -/
def chkPoolFix (ks : Int) (tin : Tensor) (g : Geo) (tout : Tensor) : Option Status :=
  if ks ≠ 0 ∧ ¬ (g.kh = ks ∧ g.kw = ks) then some .shapeMismatch else chkPool tin g tout

/-- kernels/pooling/mli_krn_maxpool_hwc_fx8.cc, mli_krn_maxpool_hwc_fx16.cc, mli_krn_maxpool_hwc_sa8.cc: `_k2x2` (`ks = 2`),
`_k3x3` (`ks = 3`). -/
def krnMaxpoolFix (ks : Int) (src : Buf) (tin : Tensor) (g : Geo) (tout : Tensor) (dst : Buf) : Option (Status × Buf) := do
  let s ← chkPoolFix ks tin g tout
  if s ≠ .ok then return (s, dst)
  let dst' ← poolHwcFix ks (fun _ => reduceMax) src g tin tout dst
  return (.ok, dst')

/-- mli_krn_avepool_hwc_ref.h:124-157 `compute_avepool_func` with the multiplier and shift for `n` elements. -/
def avgCountOp (m : Rnd) (w aw : Nat) (zp : Int) (ms : Int → Int × Int) : CountOp := fun n src p rows clmns rs cs =>
  let mul := (ms n).1
  let shift := (ms n).2
  (winAcc aw mul (aslFx aw (wrap 16 zp) shift) src p rows clmns rs cs).bind fun acc =>
  some (wrap w (satFx aw (asrRndFx m aw acc shift) (aw - w)))

/-- kernels/pooling/mli_krn_avepool_hwc_fx8.cc:25-44, mli_krn_avepool_hwc_fx16.cc:25-44: `_k2x2`, `_k3x3`. -/
def krnAvepoolFxFix (ks : Int) (m : Rnd) (w : Nat) (inFrac outFrac : Int) (src : Buf) (tin : Tensor) (g : Geo) (tout : Tensor)
    (dst : Buf) : Option (Status × Buf) := do
  let s ← chkPoolFix ks tin g tout
  if s ≠ .ok then return (s, dst)
  let dst' ← poolHwcFix ks (avgCountOp m w (if w = 8 then 32 else 64) 0 (msFx inFrac outFrac)) src g tin tout dst
  return (.ok, dst')

/-- kernels/pooling/mli_krn_avepool_hwc_sa8.cc:25-44: `_k2x2`, `_k3x3`. -/
def krnAvepoolSa8Fix (ks : Int) (m : Rnd) (b : Nat) (qi qo : SaQ) (src : Buf) (tin : Tensor) (g : Geo) (tout : Tensor)
    (dst : Buf) : Option (Status × Buf) :=
  (chkPoolFix ks tin g tout).bind fun s =>
  if s ≠ .ok then some (s, dst)
  else if chkAveQuant tin tout qi qo ≠ .ok then some (chkAveQuant tin tout qi qo, dst)
  else
    (requantParams m (qi.scaleAt 0) (qi.fracAt 0) (qi.zpAt 0) (qo.scaleAt 0) (qo.fracAt 0) (qo.zpAt 0)).bind fun p =>
    (poolHwcFix ks (avgCountOp m 8 32 p.2.2 (msSa m b p.1 p.2.1)) src g tin tout dst).map fun dst' => (.ok, dst')

end Mli
