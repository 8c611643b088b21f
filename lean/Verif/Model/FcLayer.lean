import Verif.Model.LayerRuntime
import Verif.Model.Fc

/-!
# Model of a fully connected layer of run-time kernels: `FullyConnected`, `Rescale` and `Clip`
(`user_tests/tests/mli_krn_fully_connected_30/tests_mli_krn_fully_connected_30.cc`)

The layer is not tiled: each kernel is issued once, on whole tensors.
-/

namespace Mli.Rt
open Mli Mli.Iter Mli.Spec

/-- include/mli_iterator.hpp:53-84: the configuration of four dimensions for a whole tensor as a single tile.  A tensor of lower rank has size 0 in the
other dimensions (include/mli_types.hpp:506-534). -/
def wholeCfg (shape : List Int) : List DimCfg :=
  (List.range 4).map fun i : Nat =>
    { order := (i : Int), count := 1, firstInc := 0, inc := 0, lastInc := 0
      firstSize := shape.getD i 0, size := shape.getD i 0, lastSize := shape.getD i 0, code := 0 }

/-- mli_iterator.hpp:640-647: the iterator of a whole tensor. -/
def wholeIt (shape strides : List Int) : TIt := TIt.start (wholeCfg shape) shape strides

/-- tests_mli_krn_fully_connected_30.cc:931-988: the kernels one after the other.  `acc` holds the output of `FullyConnected` and the input of `Rescale`,
`mid` the 8-bit results.  The first failure is returned with the buffers. -/
def fcLayer (m : Rnd) (src wts zps : Buf) (zpos zsize axis : Int) (tin tw tout : Tensor) (map : MapObj) (clip : ClipObj) (pm cp acc mid : Buf) :
    Option (Status × Buf × Buf) :=
  (fcIssue src wts zps zpos zsize axis tin tw tout acc).bind fun a =>
  (map.issue m pm a mid).bind fun r =>
  (clip.issue cp r.2).map fun q => (firstFailure [.ok, r.1, q.1], a, q.2)

end Mli.Rt
