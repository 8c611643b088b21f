import Verif.Model.MapRuntime
import Verif.Model.ConvTiles
import Verif.Model.Rescale

/-!
# Model of a layer of run-time kernels: a convolution, a `Rescale` or `PRelu` and a `Clip` (`lib/src/kernels/clip/mli_krn_clip_runtime.cc`,
`user_tests/tests/mli_krn_conv2d_30/tests_mli_krn_conv2d_30.cc`, `user_tests/tests/mli_krn_depthwise_conv_30/tests_mli_krn_depthwise_conv_30.cc`)

Each kernel works on the output tile of the kernel before it, in local memory.  `Rescale` and `Clip` have tensors of four dimensions, without the group.
-/

namespace Mli.Rt
open Mli Mli.Iter Mli.Spec

/-- include/api/mli_ref_runtime_api.hpp:733-757: the members of `Clip`.  `es` are the bytes of an element, `pb` is the address of the encoded limits. -/
structure ClipObj where
  es : Nat
  inp : TIt
  out : TIt
  tin : Tensor
  tout : Tensor
  pb : Int

/-- lib/src/kernels/clip/mli_krn_clip_runtime.cc:26-111: the constructor, from the iterators and buffer addresses of the private data. -/
def ClipObj.new (es : Nat) (inp out : TIt) (bi bo pb : Int) : ClipObj :=
  { es, inp, out, pb
    tin := { dims := List.zipWith Dim.mk inp.sizes inp.strides, base := bi, cap := 0, es := 1 }
    tout := { dims := List.zipWith Dim.mk out.sizes out.strides, base := bo, cap := 0, es := 1 } }

/-- mli_krn_clip_runtime.cc:113-134 `Clip::Issue`: the limits are read through the pointers into `pm`; input and output tiles are in `mem`. -/
def ClipObj.issue (o : ClipObj) (pm mem : Buf) : Option (Status × Buf) :=
  (clipParams o.es o.pb pm).bind fun p => clipIssue o.es o.es p.1 p.2 o.tin o.tout mem

/-- mli_krn_clip_runtime.cc:138-147 `Clip::Update`. -/
def ClipObj.update (o : ClipObj) : ClipObj :=
  { o with
    inp := o.inp.next
    out := o.out.next
    tin := setShape o.tin o.inp.next.sizes
    tout := setShape o.tout o.out.next.sizes }

/-- tests_mli_krn_conv2d_30.cc:620-626, tests_mli_krn_depthwise_conv_30.cc:506-511: the iterator without the group, from the iterator of the output of the
convolution. -/
def dropGroup (t : TIt) : TIt := TIt.start (dropAxis t.cfg 3) (t.shape.eraseIdx 3) (t.strides.eraseIdx 3)

/-- State of the caller: the kernels, the local buffers of the convolution (`lin`, `lw`, `lz`), the tile of sums (`acc`), the tiles of 8-bit results
(`mid`), the parameters (`pm`, and `cp` for the limits), the output tensor in global memory and the status of the calls so far. -/
structure LayerHost where
  conv : ConvObj
  map : MapObj
  clip : Option ClipObj
  lin : Buf
  lw : Buf
  lz : Buf
  acc : Buf
  mid : Buf
  pm : Buf
  cp : Buf
  gout : Buf
  status : Status

/-- The first failure. -/
def firstFailure (l : List Status) : Status := (l.find? (· ≠ .ok)).getD .ok

/-- The address of the last tile of the chain. -/
def LayerHost.lastBase (s : LayerHost) : Int :=
  match s.clip with
  | none => s.map.tout.base
  | some k => k.tout.base

/-- `Issue` of the `Clip`, if there is one. -/
def clipStage (k : Option ClipObj) (cp mem : Buf) : Option (Status × Buf) :=
  match k with
  | none => some (.ok, mem)
  | some k => k.issue cp mem

/-- tests_mli_krn_conv2d_30.cc:1100-1197 (`PRelu` and `Clip`), tests_mli_krn_depthwise_conv_30.cc:856-940 (`Rescale`): one round of the caller's loop.  The
parameters are those of the output channels of the tile, from `enc`, which holds `n` encoded sets; with a single set nothing is copied.  The output tile is
copied without the group dimension, with the strides of the output of the convolution.  Each `Update` follows its `Issue`. -/
def LayerHost.round (m : Rnd) (gin gw : Glob) (gz enc : Buf) (n : Int) (gos : List Int) (s : LayerHost) : Option LayerHost :=
  let o := s.conv
  (copyBox o.tin.shape gin.buf 0 gin.strides o.inp.getPos o.tin.base o.inp.strides (zeros o.tin.shape) s.lin).bind fun lin =>
  (copyBox o.tw.shape gw.buf 0 gw.strides o.wtsPos o.tw.base o.wts.strides (zeros o.tw.shape) s.lw).bind fun lw =>
  (copyBox [o.tw.shape.getLastD 0] gz 0 [1] [o.wtsPos.getLastD 0] o.bz [1] [0] s.lz).bind fun lz =>
  (if s.map.axis = -1 then some s.pm
    else fetchParams n (o.out.getPos.getD 4 0) s.map.parCount s.map.pb enc s.map.parSizes s.map.parOffsets 0 s.pm).bind fun pm =>
  (o.issue lin lw lz s.acc).bind fun r =>
  (s.map.issue m pm r.2 s.mid).bind fun q =>
  (clipStage s.clip s.cp q.2).bind fun u =>
  (copyBox (o.tout.shape.eraseIdx 3) u.2 s.lastBase (o.out.strides.eraseIdx 3) (zeros (o.tout.shape.eraseIdx 3)) 0 gos (o.out.getPos.eraseIdx 3) s.gout).map fun gout =>
    { conv := o.update, map := s.map.update, clip := s.clip.map ClipObj.update, lin, lw, lz, acc := r.2, mid := u.2, pm, cp := s.cp, gout
      status := firstFailure [s.status, r.1, q.1, u.1] }

/-- `k` rounds. -/
def LayerHost.run (m : Rnd) (gin gw : Glob) (gz enc : Buf) (n : Int) (gos : List Int) (k : Nat) (s : LayerHost) : Option LayerHost :=
  forRange k (fun _ s => s.round m gin gw gz enc n gos) s

end Mli.Rt
