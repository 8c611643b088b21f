import Verif.Model.LayerRuntime
import Verif.Model.TransposeTiles

/-!
# Model of a layer of run-time kernels: `TransposeConv2D`, `Rescale` and `Clip`
(`user_tests/tests/mli_krn_transpose_conv2d_30/tests_mli_krn_transpose_conv2d_30.cc`)

Each kernel works on the output tile of the kernel before it, in local memory.  `Rescale` and `Clip` have tensors of four dimensions, without the group.
-/

namespace Mli.Rt
open Mli Mli.Iter Mli.Spec

/-- State of the caller: the kernels, the local buffers of the convolution (`lin`, `lw`, `lz`), the tile of sums (`acc`), the tiles of 8-bit results
(`mid`), the parameters (`pm`, and `cp` for the limits), the output tensor in global memory and the status of the calls so far. -/
structure DcLayerHost where
  conv : DcObj
  map : MapObj
  clip : ClipObj
  lin : Buf
  lw : Buf
  lz : Buf
  acc : Buf
  mid : Buf
  pm : Buf
  cp : Buf
  gout : Buf
  status : Status

/-- tests_mli_krn_transpose_conv2d_30.cc:1116-1206: one round of the caller's loop.  The parameters are those of the output channels of the tile, from `enc`,
which holds `n` encoded sets.  The output tile is copied without the group dimension, with the strides of the output of the convolution.  Each `Update`
follows its `Issue`. -/
def DcLayerHost.round (m : Rnd) (gin gw : Glob) (gz enc : Buf) (n : Int) (gos : List Int) (s : DcLayerHost) : Option DcLayerHost :=
  let o := s.conv
  (copyBox o.tin.shape gin.buf 0 gin.strides o.inp.getPos o.tin.base o.inp.strides (zeros o.tin.shape) s.lin).bind fun lin =>
  (copyBox o.tw.shape gw.buf 0 gw.strides o.wts.getPos o.tw.base o.wts.strides (zeros o.tw.shape) s.lw).bind fun lw =>
  (copyBox [o.tw.shape.getLastD 0] gz 0 [1] [o.wts.getPos.getLastD 0] o.bz [1] [0] s.lz).bind fun lz =>
  (fetchParams n (o.out.getPos.getD 4 0) s.map.parCount s.map.pb enc s.map.parSizes s.map.parOffsets 0 s.pm).bind fun pm =>
  (o.issue lin lw lz s.acc).bind fun r =>
  (s.map.issue m pm r.2 s.mid).bind fun q =>
  (s.clip.issue s.cp q.2).bind fun u =>
  (copyBox (o.tout.shape.eraseIdx 3) u.2 s.clip.tout.base (o.out.strides.eraseIdx 3) (zeros (o.tout.shape.eraseIdx 3)) 0 gos (o.out.getPos.eraseIdx 3) s.gout).map
    fun gout =>
    { conv := o.update, map := s.map.update, clip := s.clip.update, lin, lw, lz, acc := r.2, mid := u.2, pm, cp := s.cp, gout
      status := firstFailure [s.status, r.1, q.1, u.1] }

/-- `k` rounds. -/
def DcLayerHost.run (m : Rnd) (gin gw : Glob) (gz enc : Buf) (n : Int) (gos : List Int) (k : Nat) (s : DcLayerHost) : Option DcLayerHost :=
  forRange k (fun _ s => s.round m gin gw gz enc n gos) s

end Mli.Rt
