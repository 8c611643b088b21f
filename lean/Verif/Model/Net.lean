import Verif.Model.Fc

/-!
# A network of fully connected layers

The sequence of calls an application makes (as in examples/ and tutorials of /repo): each layer is one call of a kernel; the output tensor of one layer
is the input tensor of the next, and the application stops at the first status that is not `MLI_STATUS_OK`.
-/

namespace Mli

open Spec

/-- The arguments of one call of `mli_krn_fully_connected_fx16` or `mli_krn_fully_connected_fx8` (include/api/mli_krn_fully_connected_api.h) apart from
the input: weights, bias, output and the fractional bits of all tensors (`f`), the verdict on overlapping buffers (`apart`). -/
structure FcFxCall where
  f : FxQ
  tw : Tensor
  tb : Tensor
  tout : Tensor
  wts : Buf
  bias : Buf
  dst : Buf
  apart : Bool

/-- The calls of a network of fixed-point layers of `w` bits with accumulators of `aw` bits, each with the output of the one before. -/
def runFcFx (m : Rnd) (w aw : Nat) : List FcFxCall → Tensor → Buf → Option (Tensor × Buf)
  | [], t, src => some (t, src)
  | l :: ls, t, src =>
    (krnFcFx m w aw l.apart l.f src l.wts l.bias t l.tw l.tb l.tout l.dst).bind fun p =>
      if p.1 = .ok then runFcFx m w aw ls l.tout p.2 else none

/-- The arguments of one call of `mli_krn_fully_connected_sa8_sa8_sa32` apart from the input. -/
structure FcSaCall where
  q : Sa8Q
  tw : Tensor
  tb : Tensor
  tout : Tensor
  wts : Buf
  bias : Buf
  dst : Buf
  apart : Bool

/-- The calls of a network of 8-bit asymmetric layers. -/
def runFcSa8 (m : Rnd) (full : Bool) : List FcSaCall → Tensor → Buf → Option (Tensor × Buf)
  | [], t, src => some (t, src)
  | l :: ls, t, src =>
    (krnFcSa8 m full false l.apart l.q src l.wts l.bias t l.tw l.tb l.tout l.dst).bind fun p =>
      if p.1 = .ok then runFcSa8 m full ls l.tout p.2 else none

end Mli
