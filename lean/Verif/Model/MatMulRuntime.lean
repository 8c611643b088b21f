import Verif.Model.MatMul
import Verif.Model.EltRuntime
import Verif.Model.Params

/-!
# Model of the run-time kernel `MatMul` (`lib/src/kernels/convolution/mli_krn_matmul_runtime.cc`, `mli_krn_matmul_compiler.cc`)

The tiles of the two inputs and of the output are in separate buffers of elements, the zero points are in a buffer of bytes.
-/

namespace Mli.Rt
open Mli Mli.Iter Mli.Spec

/-- lib/src/kernels/convolution/mli_krn_matmul_compiler.cc:68-83 `MatMul_CS::EncodeParams`: one byte for each zero point. -/
def matMulEncode (zl zr enc : Buf) : Option Buf := encAll [(1, 1, zl), (1, 1, zr)] 0 enc

/-- include/api/mli_ref_runtime_api.hpp `MatMul`: the members; `esi` and `eso` are the bytes of an element, `pb` is the address of the local zero points. -/
structure MatMulObj where
  esi : Int
  eso : Int
  left : TIt
  right : TIt
  out : TIt
  tl : Tensor
  tr : Tensor
  tout : Tensor
  pb : Int

/-- mli_krn_matmul_runtime.cc:14-44: the constructor, from the iterators and buffer addresses of the private data. -/
def MatMulObj.new (esi eso : Int) (left right out : TIt) (bl br bo pb : Int) : MatMulObj :=
  { esi, eso, left, right, out, pb
    tl := { dims := List.zipWith Dim.mk left.sizes left.strides, base := bl, cap := 0, es := 1 }
    tr := { dims := List.zipWith Dim.mk right.sizes right.strides, base := br, cap := 0, es := 1 }
    tout := { dims := List.zipWith Dim.mk out.sizes out.strides, base := bo, cap := 0, es := 1 } }

/-- mli_krn_matmul_runtime.cc:46-59 `MatMul::Issue`; the zero points are read in mli_krn_matmul_ref.hpp:56-57. -/
def MatMulObj.issue (o : MatMulObj) (pm l r d : Buf) : Option (Status × Buf) :=
  if o.esi = 1 ∧ o.eso = 4 then
    (getLe 1 o.pb pm).bind fun zl => (getLe 1 (o.pb + 1) pm).bind fun zr => matMulIssue o.esi o.eso zl zr l r o.tl o.tr o.tout d
  else some (.notSupported, d)

/-- mli_krn_matmul_runtime.cc:63-87 `MatMul::Update`. -/
def MatMulObj.update (o : MatMulObj) : MatMulObj :=
  { o with
    left := o.left.next
    right := o.right.next
    out := o.out.next
    tl := setShape o.tl o.left.next.sizes
    tr := setShape o.tr o.right.next.sizes
    tout := setShape o.tout o.out.next.sizes }

/-- mli_krn_matmul_runtime.cc:94-96 `GetIOSizesAndOffsets`: the offsets of left input, right input and output. -/
def MatMulObj.offsets (o : MatMulObj) : List Int × List Int × List Int := (o.left.getPos, o.left.getPos, o.out.getPos)

/-- State of the caller: the object, the local buffers, the output in global memory and the status of the calls so far. -/
structure MatMulHost where
  obj : MatMulObj
  ll : Buf
  lr : Buf
  lout : Buf
  gout : Buf
  status : Status

/-- user_tests/tests/mli_krn_matmul_30/tests_mli_krn_matmul_30.cc:278-307: one round of the caller's loop: sizes and offsets, the tiles of both inputs,
`Issue`, output tile, `Update`.  `roff` is the position of the tile of the right input: the test replaces the reported one by zero (line 283). -/
def MatMulHost.round (roff : MatMulObj → List Int) (gl gr : Glob) (gos : List Int) (pm : Buf) (s : MatMulHost) : Option MatMulHost :=
  let o := s.obj
  (copyBox o.left.sizes gl.buf 0 gl.strides o.offsets.1 o.tl.base o.left.strides (zeros o.left.sizes) s.ll).bind fun ll =>
  (copyBox o.right.sizes gr.buf 0 gr.strides (roff o) o.tr.base o.right.strides (zeros o.right.sizes) s.lr).bind fun lr =>
  (o.issue pm ll lr s.lout).bind fun r =>
  (copyBox o.out.sizes r.2 o.tout.base o.out.strides (zeros o.out.sizes) 0 gos o.offsets.2.2 s.gout).map fun gout =>
    { obj := o.update, ll, lr, lout := r.2, gout, status := if s.status ≠ .ok then s.status else r.1 }

/-- `k` rounds. -/
def MatMulHost.run (roff : MatMulObj → List Int) (gl gr : Glob) (gos : List Int) (pm : Buf) (k : Nat) (s : MatMulHost) : Option MatMulHost :=
  forRange k (fun _ s => s.round roff gl gr gos pm) s

end Mli.Rt
