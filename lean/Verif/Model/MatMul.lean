import Verif.Model.Permute

/-!
# Model of the matrix multiplication kernel
-/

namespace Mli

/-- kernels/convolution/mli_krn_matmul_ref.hpp:65-75, for 8-bit inputs and 32-bit outputs: matrices of `M` by `K` and `K` by `N` with
rows `sl` and `sr` elements apart.  The differences are stored in `int8_t` variables; the sum is an `int`.  Indices are computed in
64-bit arithmetic here, in 32-bit arithmetic in the code. -/
def matMulLoops (M N K : Nat) (sl sr zl zr : Int) (left right : Buf) (bl br bo : Int) (dst : Buf) : Option Buf :=
  forRange M (fun i => forRange N (fun j d =>
    (forRange K (fun k acc =>
      (left.rd (bl + (i * sl + k))).bind fun x =>
      (right.rd (br + (k * sr + j))).bind fun y =>
      ckd 32 (acc + wrap 8 (x - zl) * wrap 8 (y - zr))) 0).bind fun v =>
    d.wr (bo + (i * N + j)) v)) dst

/-- kernels/convolution/mli_krn_matmul_ref.hpp:31-76 `MatMul_prepare_and_run` and mli_krn_matmul_runtime.cc:46-59 `MatMul::Issue`,
for elements of `esi` and `eso` bytes.  `dims` of the tensors hold the tile's dimensions and memory strides; the second stride of the
inputs and both strides of the output are not used. -/
def matMulIssue (esi eso : Int) (zl zr : Int) (left right : Buf) (tl tr tout : Tensor) (dst : Buf) : Option (Status × Buf) :=
  if esi = 1 ∧ eso = 4 then
    (matMulLoops (tl.gShape 0).toNat (tr.gShape 1).toNat (tl.gShape 1).toNat (tl.gStride 0) (tr.gStride 0) zl zr left right tl.base tr.base
      tout.base dst).map fun d => (.ok, d)
  else some (.notSupported, dst)

end Mli
