import Verif.Model.Batch
import Verif.Model.EltRuntime

/-!
# Model of the run-time pooling kernels (`lib/src/kernels/pooling/mli_krn_{maxpool,sumpool}_runtime.cc`)

Line numbers without a file name are those of `mli_krn_maxpool_runtime.cc`.  The tiles of input and output are in different buffers: the library
expects tensors that do not overlap.
-/

namespace Mli.Rt
open Mli Mli.Iter Mli.Spec

/-- `MaxPool2D` or `SumPool2D`. -/
inductive PoolOp
  | max
  | sum
deriving DecidableEq, Repr

/-- include/api/mli_ref_runtime_api.hpp: the members.  `wi`, `wo` are the bits of input and output elements, `tin` and `tout` the three-dimensional tile
tensors, `nb` is `m_tile_batch_size`, `si` and `so` are the batch strides, `tcfg` is `m_tile_cfg`. -/
structure PoolObj where
  op : PoolOp
  wi : Nat
  wo : Nat
  cfg : Geo
  tcfg : Geo
  inp : TIt
  out : TIt
  tin : Tensor
  tout : Tensor
  nb : Int
  si : Int
  so : Int
deriving Repr

/-- include/mli_types.hpp:939-955, 38-45: the 32-bit fields of `PoolOpConfig` are assigned to the bytes of `mli_pool_cfg`. -/
def byteGeo (g : Geo) : Geo :=
  { kh := g.kh % 256, kw := g.kw % 256, sh := g.sh % 256, sw := g.sw % 256, pt := g.pt % 256, pb := g.pb % 256, pl := g.pl % 256, pr := g.pr % 256 }

/-- 152-175: padding before the input in the current tile of dimension `d`; the product of two `int`s is taken to be in range. -/
def padBefore (it : TIt) (d : Nat) (p : Int) : Int :=
  let idx := (it.st.map (·.idx)).getD d 0
  if idx ≠ 0 then
    let used := u32 ((it.cfg.map (·.inc)).getD d 0 * idx)
    if used < p then p - used else 0
  else p

/-- 177-197: padding behind the input in the current tile of dimension `d`. -/
def padBehind (it : TIt) (d : Nat) (p : Int) : Int :=
  let used := u32 (it.shape.getD d 0 + p)
  let pad := wrap 32 (it.getPos.getD d 0 + (it.cfg.map (·.size)).getD d 0 - used)
  if pad > 0 then min pad p else 0

/-- 144-198 `MaxPool2D::UpdateTilePaddings`, mli_krn_sumpool_runtime.cc:133-149 `SumPool2D::UpdateTilePaddings`. -/
def tilePads (op : PoolOp) (it : TIt) (g : Geo) : Geo :=
  match op with
  | .max => { g with pt := padBefore it 1 g.pt, pl := padBefore it 2 g.pl, pb := padBehind it 1 g.pb, pr := padBehind it 2 g.pr }
  | .sum =>
    { g with
      pt := if it.getPos.getD 1 0 ≠ 0 then 0 else g.pt
      pb := if it.getPos.getD 1 0 + (it.cfg.map (·.size)).getD 1 0 < it.shape.getD 1 0 then 0 else g.pb
      pl := if it.getPos.getD 2 0 ≠ 0 then 0 else g.pl
      pr := if it.getPos.getD 2 0 + (it.cfg.map (·.size)).getD 2 0 < it.shape.getD 2 0 then 0 else g.pr }

/-- 67-71: the tensor of one batch element of the tile at address `b`. -/
def hwcTile (it : TIt) (b : Int) : Tensor := { dims := List.zipWith Dim.mk it.sizes.tail it.strides.tail, base := b, cap := 0, es := 1 }

/-- 26-98 the constructor, mli_krn_sumpool_runtime.cc:24-94, from the iterators, configuration and buffer addresses of the private data. -/
def PoolObj.new (op : PoolOp) (wi wo : Nat) (g : Geo) (inp out : TIt) (bi bo : Int) : PoolObj :=
  { op, wi, wo, inp, out
    cfg := byteGeo g
    tcfg := tilePads op inp (byteGeo g)
    tin := hwcTile inp bi
    tout := hwcTile out bo
    nb := inp.sizes.getD 0 0
    si := inp.strides.getD 0 0
    so := out.strides.getD 0 0 }

/-- 100-123 `MaxPool2D::Issue`, mli_krn_sumpool_runtime.cc:96-113 `SumPool2D::Issue`, with the tiles in `lin` and `lout`. -/
def PoolObj.issue (o : PoolObj) (lin lout : Buf) : Option (Status × Buf) :=
  match o.op with
  | .max =>
    if o.wi = 16 ∨ o.wi = 8 then (maxpoolIssueN o.nb.toNat o.si o.so lin o.tin o.tcfg o.tout lout).map fun d => (.ok, d)
    else some (.ok, lout)
  | .sum =>
    if o.wi = 8 ∧ o.wo = 32 then (sumpoolIssueN o.nb.toNat o.si o.so lin o.tin o.tcfg o.tout lout).map fun d => (.ok, d)
    else some (.notSupported, lout)

/-- 127-142 `Update`, mli_krn_sumpool_runtime.cc:117-131. -/
def PoolObj.update (o : PoolObj) : PoolObj :=
  { o with
    inp := o.inp.next
    out := o.out.next
    tin := setShape o.tin o.inp.next.sizes.tail
    tout := setShape o.tout o.out.next.sizes.tail
    nb := o.inp.next.sizes.getD 0 0
    tcfg := tilePads o.op o.inp.next o.cfg }

/-- State of the caller: the object, the two local buffers, the output tensor in global memory and the status of the calls so far. -/
structure PoolHost where
  obj : PoolObj
  lin : Buf
  lout : Buf
  gout : Buf
  status : Status

/-- user_tests/tests/mli_krn_maxpool_30/tests_mli_krn_maxpool_30.cc:244-290: one round of the caller's loop, with `GetIOSizesAndOffsets` (200-210). -/
def PoolHost.round (gin : Glob) (gos : List Int) (s : PoolHost) : Option PoolHost :=
  let o := s.obj
  (copyBox o.inp.sizes gin.buf 0 gin.strides o.inp.getPos o.tin.base o.inp.strides (zeros o.inp.sizes) s.lin).bind fun lin =>
  (o.issue lin s.lout).bind fun r =>
  (copyBox o.out.sizes r.2 o.tout.base o.out.strides (zeros o.out.sizes) 0 gos o.out.getPos s.gout).map fun gout =>
    { obj := o.update, lin, lout := r.2, gout, status := if s.status ≠ .ok then s.status else r.1 }

/-- `n` rounds. -/
def PoolHost.run (gin : Glob) (gos : List Int) (n : Nat) (s : PoolHost) : Option PoolHost := forRange n (fun _ s => s.round gin gos) s

end Mli.Rt
