import Verif.Model.Eltwise
import Verif.Model.TileRun

/-!
# Model of the run-time element-wise kernels (`lib/src/kernels/eltwise/mli_krn_{add,sub,mul,max,min}_runtime.cc`)

Line numbers are those of `mli_krn_add_runtime.cc`; the other files have the same text up to the names, except where noted.
-/

namespace Mli.Rt
open Mli Mli.Iter Mli.Spec

/-- mli_krn_add_runtime.cc, include/api/mli_ref_runtime_api.hpp:459-468: the members.  `wi`, `wo` are the bits of input and output elements.
`fl`, `fr`, `fo` are the fractional bits in the element parameters of the three tile tensors. -/
structure EltObj where
  op : EltOp
  wi : Nat
  wo : Nat
  left : TIt
  right : TIt
  out : TIt
  tl : Operand
  tr : Operand
  tout : Tensor
  fl : Int
  fr : Int
  fo : Int
deriving Repr

/-- mli_krn_add_compiler.cc:38-41, 83-86: `m_is_left_scalar`, `m_is_right_scalar`. -/
def scalarShape (shape : List Int) : Bool := shape.all fun n => n = 1

/-- include/mli_service_functions.hpp:178-203 `ReconstructTensor`: an input tile at address `b` of the local memory.  The value of a scalar is read
here. -/
def tileOperand (it : TIt) (b : Int) (mem : Buf) : Option Operand :=
  if scalarShape it.shape then (mem.rd b).map fun v => { t := { dims := [], cap := 0, es := 1 }, imm := v }
  else some { t := { dims := List.zipWith Dim.mk it.sizes it.strides, base := b, cap := 0, es := 1 } }

/-- mli_krn_add_runtime.cc:18-122 the constructor, from the iterators and buffer addresses of the private data (mli_krn_add_compiler.cc:107-121).  The
constructor does not set the element parameters of the tile tensors: `fl`, `fr`, `fo` are what the memory of the object held before. -/
def EltObj.new (op : EltOp) (wi wo : Nat) (left right out : TIt) (bl br bo fl fr fo : Int) (mem : Buf) : Option EltObj :=
  (tileOperand left bl mem).bind fun tl =>
  (tileOperand right br mem).map fun tr =>
    { op, wi, wo, left, right, out, tl, tr, fl, fr, fo
      tout := { dims := List.zipWith Dim.mk out.sizes out.strides, base := bo, cap := 0, es := 1 } }

/-- The element operation: mli_krn_eltwise_ref.h:373-378 without conversion parameters for MUL (mli_krn_mul_runtime.cc:108-120), whose output type
differs from its input type, and with `calc_convert_params` for the other operations. -/
def EltObj.fn (m : Rnd) (o : EltObj) : Int → Int → Int :=
  if o.op = .mul then eltFx m o.wo .mul {} else eltFx m o.wi o.op (eltParamsFx o.wi o.op o.fl o.fr o.fo)

/-- mli_krn_add_runtime.cc:125-141, mli_krn_mul_runtime.cc:108-120: the supported element sizes. -/
def EltObj.supported (o : EltObj) : Bool :=
  if o.op = .mul then (o.wi = 8 || o.wi = 16) && o.wo = 32 else (o.wi = 8 || o.wi = 16 || o.wi = 32) && o.wo = o.wi

/-- mli_krn_add_runtime.cc:125-141 `Issue`. -/
def EltObj.issue (m : Rnd) (o : EltObj) (mem : Buf) : Option (Status × Buf) :=
  if o.supported then (eltwiseRun (o.fn m) o.tl o.tr o.tout mem).map fun d => (.ok, d) else some (.notSupported, mem)

/-- mli_krn_add_runtime.cc:156-160: new sizes for the dimensions in use. -/
def setShape (t : Tensor) (sizes : List Int) : Tensor := { t with dims := List.zipWith (fun d n => { d with shape := n }) t.dims sizes }

/-- mli_krn_add_runtime.cc:148-162 `Update`. -/
def EltObj.update (o : EltObj) : EltObj :=
  { o with
    left := o.left.next
    right := o.right.next
    out := o.out.next
    tl := { o.tl with t := setShape o.tl.t o.left.next.sizes }
    tr := { o.tr with t := setShape o.tr.t o.right.next.sizes }
    tout := setShape o.tout o.out.next.sizes }

/-- State of the caller: the object, the local memory with its buffers, the output tensor in global memory and the status of the calls so far. -/
structure EltHost where
  obj : EltObj
  mem : Buf
  gout : Buf
  status : Status

/-- A tensor in global memory. -/
structure Glob where
  buf : Buf
  strides : List Int

/-- user_tests/tests/mli_krn_eltwise_30/tests_mli_krn_eltwise_30.cc:1088-1101: copy of an input tile; scalars are in the local buffer from the
beginning. -/
def fetchTile (g : Glob) (it : TIt) (t : Operand) (mem : Buf) : Option Buf :=
  if t.t.dims = [] then some mem else copyBox it.sizes g.buf 0 g.strides it.getPos t.t.base it.strides (zeros it.sizes) mem

/-- user_tests/tests/mli_krn_eltwise_30/tests_mli_krn_eltwise_30.cc:1047-1114: one round of the caller's loop, with `GetIOSizesAndOffsets`
(mli_krn_add_runtime.cc:163-177). -/
def EltHost.round (m : Rnd) (gl gr : Glob) (gos : List Int) (s : EltHost) : Option EltHost :=
  let o := s.obj
  (fetchTile gl o.left o.tl s.mem).bind fun mem =>
  (fetchTile gr o.right o.tr mem).bind fun mem =>
  (o.issue m mem).bind fun r =>
  (copyBox o.out.sizes r.2 o.tout.base o.out.strides (zeros o.out.sizes) 0 gos o.out.getPos s.gout).map fun gout =>
    { obj := o.update, mem := r.2, gout, status := if s.status ≠ .ok then s.status else r.1 }

/-- `n` rounds. -/
def EltHost.run (m : Rnd) (gl gr : Glob) (gos : List Int) (n : Nat) (s : EltHost) : Option EltHost :=
  forRange n (fun _ s => s.round m gl gr gos) s

end Mli.Rt
