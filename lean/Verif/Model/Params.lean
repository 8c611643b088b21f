import Verif.Model.Rescale
import Verif.Model.ConvTiles

/-!
# Model of the parameters of the run-time kernels `Rescale`, `PRelu` and `Clip`

At compile time `EncodeParams` writes the parameters to a buffer of bytes.  At run time the kernel object points into a local buffer of bytes, to which
the caller copies the parameters of the current tile.  A buffer of bytes has elements 0 to 255.  The target is little-endian.  Alignment of the typed
pointers is not modelled.
-/

namespace Mli.Rt
open Mli Mli.Iter Mli.Spec

/-- include/mli_types.hpp:298-303 `Buffer::write_obj`, and the byte-wise copies in mli_krn_prelu_compiler.cc:122-151: the `n` bytes of an integer. -/
def putLe : Nat → Int → Int → Buf → Option Buf
  | 0, _, _, b => some b
  | n + 1, off, v, b => (b.wr off (v % 256)).bind (putLe n (off + 1) (v / 256))

/-- The `n` bytes at an address, as a number without sign. -/
def getRaw : Nat → Int → Buf → Option Int
  | 0, _, _ => some 0
  | n + 1, off, b => (b.rd off).bind fun x => (getRaw n (off + 1) b).map fun r => x + 256 * r

/-- include/mli_types.hpp:468-472 `InternalBuffer::read`, and reads through a typed pointer: a signed integer of `n` bytes. -/
def getLe (n : Nat) (off : Int) (b : Buf) : Option Int := (getRaw n off b).map (wrap (8 * n))

/-- What a pointer to integers of `n` bytes at address `off` refers to. -/
def typed (n : Nat) (off : Int) (b : Buf) : Buf :=
  { size := if 0 ≤ off then (b.size - off) / n else 0, get := fun j => (getLe n (off + j * n) b).getD 0 }

/-! ## Compile time -/

/-- One loop of `EncodeParams`: `n` integers of `sz` bytes from address `off` on. -/
def encArr (sz n : Nat) (src : Buf) (off : Int) (b : Buf) : Option Buf :=
  forRange n (fun i b => (src.rd i).bind fun v => putLe sz (off + i * sz) v b) b

/-- The loops of `EncodeParams`, one array behind the other: bytes of an element, number of elements, source. -/
def encAll : List (Nat × Nat × Buf) → Int → Buf → Option Buf
  | [], _, b => some b
  | (sz, n, src) :: r, off, b => (encArr sz n src off b).bind (encAll r (off + n * sz))

/-- lib/src/kernels/conversion/mli_krn_rescale_compiler.cc:94-148 `Rescale_CS::EncodeParams`, with the arguments in the order of this definition; `n` is
`m_params_elem_num` (line 48), `esi` and `eso` are the bytes of the two biases. -/
def rescaleEncode (n esi eso : Nat) (inBias scale shift outBias enc : Buf) : Option Buf :=
  encAll [(esi, n, inBias), (2, n, scale), (1, n, shift), (eso, n, outBias)] 0 enc

/-- lib/src/kernels/transform/mli_krn_prelu_compiler.cc:108-154 `Prelu_CS::EncodeParams`: the number of elements of an array is that of its buffer. -/
def preluEncode (bias pos neg posShift negShift asymm enc : Buf) : Option Buf :=
  encAll [(4, bias.size.toNat, bias), (2, pos.size.toNat, pos), (2, neg.size.toNat, neg), (1, posShift.size.toNat, posShift),
    (1, negShift.size.toNat, negShift), (1, asymm.size.toNat, asymm)] 0 enc

/-- lib/src/kernels/clip/mli_krn_clip_compiler.cc:117-130 `Clip_CS::EncodeParams`: one byte for each limit. -/
def clipEncode (minV maxV enc : Buf) : Option Buf := encAll [(1, 1, minV), (1, 1, maxV)] 0 enc

/-- mli_krn_clip_compiler.cc:145-147 `GetEncodedParamsSize`. -/
def clipEncodedSize : Int := 2

/-- mli_krn_prelu_compiler.cc:66-69, 168-170 `GetEncodedParamsSize`; `c` is the size of the last dimension. -/
def preluEncodedSize (c : Int) : Int := c * (4 + 2 + 2 + 1 + 1 + 1)

/-- mli_krn_rescale_compiler.cc:105-108, 166-168 `GetEncodedParamsSize` after `EncodeParams`. -/
def rescaleEncodedSize (n esi eso : Int) : Int := n * (esi + 2 + 1 + eso)

/-! ## Run time -/

/-- lib/src/kernels/conversion/mli_krn_rescale_runtime.cc:77-158: the addresses of the four arrays; `pb` is the address of the local buffer and `np` is
`m_tile_param_max_size`. -/
def rescalePtrs (pb np esi : Int) : List Int :=
  let p1 := pb + esi * np
  let p2 := p1 + 2 * np
  let p3 := p2 + 1 * np
  [pb, p1, p2, p3]

/-- mli_krn_rescale_runtime.cc:240-247 `Rescale::GetIOSizesAndOffsets`: the four offsets. -/
def rescaleOffsets (np esi : Int) : List Int := [0, np * esi, np * (esi + 2), np * (esi + 2 + 1)]

/-- lib/src/kernels/transform/mli_krn_prelu_runtime.cc:34-57: the addresses of the six arrays. -/
def preluPtrs (pb np : Int) : List Int :=
  let p1 := pb + 4 * np
  let p2 := p1 + 2 * np
  let p3 := p2 + 2 * np
  let p4 := p3 + 1 * np
  let p5 := p4 + 1 * np
  [pb, p1, p2, p3, p4, p5]

/-- mli_krn_prelu_runtime.cc:128-137 `Prelu::GetIOSizesAndOffsets`: the six offsets. -/
def preluOffsets (np : Int) : List Int :=
  let o1 := np * 4
  let o2 := o1 + np * 2
  let o3 := o2 + np * 2
  let o4 := o3 + np * 1
  let o5 := o4 + np * 1
  [0, o1, o2, o3, o4, o5]

/-- lib/src/kernels/clip/mli_krn_clip_runtime.cc:77-110: minimum and maximum, in elements of `es` bytes. -/
def clipParams (es : Nat) (pb : Int) (pm : Buf) : Option (Int × Int) :=
  (getLe es pb pm).bind fun lo => (getLe es (pb + es) pm).map fun hi => (lo, hi)

/-- `memcpy` of `n` bytes. -/
def copyBytes (n : Nat) (src : Buf) (so : Int) (dst : Buf) (do_ : Int) : Option Buf :=
  forRange n (fun i d => (src.rd (so + i)).bind fun v => d.wr (do_ + i) v) dst

/-- user_tests/tests/mli_krn_depthwise_conv_30/tests_mli_krn_depthwise_conv_30.cc:895-919, mli_krn_conv2d_30/tests_mli_krn_conv2d_30.cc:1136-1168: the
caller's copies of the parameters `o` to `o + cnt - 1` of `n`; `szs` are the bytes of the elements of the arrays, `offs` the offsets reported by the kernel,
`g` is the sum of the sizes of the arrays before. -/
def fetchParams (n o cnt : Int) (pb : Int) (enc : Buf) : List Nat → List Int → Int → Buf → Option Buf
  | sz :: szs, off :: offs, g, pm =>
    (copyBytes (sz * cnt.toNat) enc (n * g + o * sz) pm (pb + off)).bind (fetchParams n o cnt pb enc szs offs (g + sz))
  | _, _, _, pm => some pm

end Mli.Rt
