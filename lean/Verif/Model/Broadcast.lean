import Verif.Model.Rescale

/-! # Model of the broadcasting move -/

namespace Mli

/-- move/mli_move_broadcast_runtime.cc:73-124 `MoveBroadcastRun` and 126-129 `Issue` for tensors of rank up to 4 with elements of the
same size (the conversion to `int32_t` and back does not change them); `tensor_read` and `tensor_write` are in lines 33-69.  The
coordinates of the missing dimensions are 0. -/
def moveBroadcast (src : Buf) (ts td : Tensor) (dst : Buf) : Option Buf :=
  forPos td (fun a b c e d =>
    let idx (k i : Nat) : Nat := if ts.gShape k ≠ td.gShape k then 0 else i
    (src.rd (ts.gPos (idx 0 a) (idx 1 b) (idx 2 c) (idx 3 e))).bind fun v => d.wr (td.gPos a b c e) v) dst

end Mli
