import Verif.Model.Params

/-!
# Model of buffers, of linking them to memories, and of the creation of run-time objects

At compile time a buffer is an offset in a numbered memory.  At run time `ExecutionInterface::Create` gets the base addresses of the memories and builds the
run-time object from its private data.  Memory is one buffer of bytes, indexed by address.
-/

namespace Mli.Rt
open Mli Mli.Iter Mli.Spec

/-- include/mli_types.hpp:325-387 `OffsetBuffer`: `offset_`, `mem_idx_`, `size_` (bytes) and `elem_size_`. -/
structure OffBuf where
  off : Int
  mem : Int
  size : Int
  es : Int
deriving DecidableEq

/-- include/mli_types.hpp:341-346, the constructor of a buffer inside another one.  A failing `assert` is `none`. -/
def OffBuf.sub (b : OffBuf) (r : Int) : Option OffBuf :=
  if r ≤ b.size then some { b with off := u32 (b.off + r), size := u32 (b.size - r) } else none

/-- include/mli_types.hpp:379-381 `OffsetBuffer::inc`. -/
def OffBuf.inc (b : OffBuf) (n : Int) : OffBuf := { b with off := u32 (b.off + u32 (b.es * n)) }

/-- include/mli_types.hpp:399-495 `InternalBuffer`: `ptr_` (64 bits), `size_` and `elem_size_`. -/
structure IntBuf where
  ptr : Int
  size : Int
  es : Int
deriving DecidableEq

/-- include/mli_types.hpp:415-421, the constructor from an `OffsetBuffer`; also 612-621, the buffer of a linked tensor.  A failing `assert` is `none`. -/
def OffBuf.link (b : OffBuf) (bases : List Int) : Option IntBuf :=
  if b.mem < bases.length then some { ptr := (bases.getD b.mem.toNat 0 + b.off) % 2 ^ 64, size := b.size, es := b.es } else none

/-- include/mli_types.hpp:467-471 `InternalBuffer::read`: element `i` of type `n` bytes.  The size of the buffer is not looked at. -/
def IntBuf.read (b : IntBuf) (n : Nat) (i : Int) (mem : Buf) : Option Int :=
  if (n : Int) = b.es then getLe n (b.ptr + n * i) mem else none

/-- include/mli_types.hpp:473-477 `InternalBuffer::write`. -/
def IntBuf.write (b : IntBuf) (n : Nat) (i v : Int) (mem : Buf) : Option Buf :=
  if (n : Int) = b.es then putLe n (b.ptr + n * i) v mem else none

/-- include/mli_types.hpp:486-488 `InternalBuffer::inc`: the size stays. -/
def IntBuf.inc (b : IntBuf) (n : Int) : IntBuf := { b with ptr := (b.ptr + u32 (b.es * n)) % 2 ^ 64 }

/-! ## Creation of run-time objects -/

/-- The compile-time classes `…_CS` of include/mli_compiler_api.hpp with an implementation in lib/src, and the run-time classes of the same name. -/
inductive Kernel where
  | nop | conv2d | prelu | move | dwConv2d | maxPool2D | fullyConnected | sumPool2D | add | sub | mul | max | min | rescale | clip | reduceMax
  | transConv2D | permute | reduceSum | matMul | moveBroadcast | resizeBilinear
deriving DecidableEq

/-- include/mli_types.hpp:155-181 `kernel_id_t`, as set in the private data by the compile-time classes (include/internal/mli_ref_private_types.hpp,
include/mli_compiler_api.hpp:97). -/
def Kernel.id : Kernel → Int
  | .nop => 1 | .conv2d => 2 | .prelu => 3 | .move => 4 | .dwConv2d => 5 | .maxPool2D => 6 | .fullyConnected => 7 | .sumPool2D => 8 | .add => 9 | .sub => 10
  | .mul => 11 | .max => 12 | .min => 13 | .rescale => 14 | .clip => 15 | .reduceMax => 16 | .transConv2D => 17 | .permute => 18 | .reduceSum => 19
  | .matMul => 22 | .moveBroadcast => 23 | .resizeBilinear => 24

/-- `GetKernelPrivateData` of the compile-time classes: the head of the private data (include/mli_types.hpp:189-199), the kernel id and the size of the
private data, 4 bytes each.  The rest of the private data (`b`) is that of the kernel. -/
def writeHead (k : Kernel) (size : Int) (b : Buf) : Option Buf := (putLe 4 0 k.id b).bind (putLe 4 4 size)

/-- `GetRuntimeObjectSize` of the compile-time classes, e.g. mli_krn_conv2d_compiler.cc:138-140; `Nop_CS` (include/mli_compiler_api.hpp:105) returns 0.
`sz` is the `sizeof` of the run-time classes. -/
def reportedSize (sz : Kernel → Int) : Kernel → Int
  | .nop => 0
  | k => sz k

/-- The run-time object: its class, and the arguments its constructor got. -/
structure RtObj where
  kernel : Kernel
  priv : Buf
  bases : List Int

/-- lib/src/private/src/mli_runtime.cc:60-212, the cases of the `switch`, in their order: number and class of the object. -/
def factoryTable : List (Int × Kernel) :=
  [(1, .nop), (2, .conv2d), (7, .fullyConnected), (3, .prelu), (9, .add), (10, .sub), (11, .mul), (12, .max), (13, .min), (4, .move), (5, .dwConv2d),
    (6, .maxPool2D), (8, .sumPool2D), (14, .rescale), (15, .clip), (16, .reduceMax), (17, .transConv2D), (19, .reduceSum), (18, .permute), (22, .matMul),
    (23, .moveBroadcast)]

/-- The selected case; `none` is the default case. -/
def factoryCase (id : Int) : Option Kernel := (factoryTable.find? fun p => p.1 == id).map (·.2)

/-- lib/src/private/src/mli_runtime.cc:43-215 `ExecutionInterface::Create`: `none` is a read outside the private data or a failing `assert`, `some none` the
null pointer.  `addr` is the address of the memory for the object, `alloc` its size.  `MLI_ASSERT` does nothing in the modelled configuration. -/
def create (sz : Kernel → Int) (addr alloc : Int) (priv : Buf) (bases : List Int) : Option (Option RtObj) :=
  if addr ≠ 0 ∧ addr % 4 = 0 then
    (getRaw 4 0 priv).map fun id => (factoryCase id).bind fun k => if sz k ≤ alloc then some { kernel := k, priv, bases } else none
  else none

end Mli.Rt
