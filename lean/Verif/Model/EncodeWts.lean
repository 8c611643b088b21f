import Verif.Model.Link
import Verif.Model.BufSize

/-!
# Model of the encoding of weights and zero points (`include/mli_service_functions.hpp`)

The elements of all buffers are 8-bit integers; a buffer of another element size has no elements here, because the encoders
do not look at them.
-/

namespace Mli.Rt
open Mli Mli.Iter Mli.Spec

/-- include/mli_types.hpp:228-309 `Buffer`: what is in memory behind `ptr_`, `size_` (bytes) and `elem_size_`. -/
structure HostBuf where
  mem : Buf
  size : Int
  es : Int

/-- include/mli_types.hpp:286-290 `Buffer::read<int8_t>`.  A failing `assert` is `none`; `size_` is not looked at. -/
def HostBuf.read8 (b : HostBuf) (i : Int) : Option Int := if b.es = 1 then b.mem.rd i else none

/-- include/mli_types.hpp:292-296 `Buffer::write` of an `int8_t`. -/
def HostBuf.write8 (b : HostBuf) (i v : Int) : Option HostBuf :=
  if b.es = 1 then (b.mem.wr i v).map fun m => { b with mem := m } else none

/-- A loop that writes `n` elements `f 0, f 1, …` from element `at_` on. -/
def HostBuf.fill (n : Nat) (f : Int → Option Int) (at_ : Int) (b : HostBuf) : Option HostBuf :=
  forRange n (fun i b => (f i).bind fun v => b.write8 (at_ + i) v) b

/-- include/mli_service_functions.hpp:64-79 `EncodeWeights`; `off` is the element offset of the weights tensor in its
buffer (include/mli_types.hpp:832-835).  Also mli_krn_fully_connected_compiler.cc:142-158. -/
def encodeWeights (w : HostBuf) (off : Int) (enc : HostBuf) : Option (Status × HostBuf) :=
  if w.es = 1 then (enc.fill w.size.toNat (fun i => w.read8 (i + off)) 0).map fun e => (.ok, e) else some (.notSupported, enc)

/-- include/mli_service_functions.hpp:82-129 `EncodeZeroPts`: `d` is the last dimension of the zero-point tensor, `axis` and `len` the
channel axis and its length, `qa` the quantisation axis before the call. -/
def encodeZeroPts (axis len : Int) (z : HostBuf) (off d : Int) (qa : Int) (enc : HostBuf) : Option (Status × Int × HostBuf) :=
  if d ≠ 1 ∧ d ≠ len then some (.shapeMismatch, qa, enc)
  else
    let qa := if d = 1 then -1 else axis
    if z.es = 1 then (enc.fill d.toNat (fun i => z.read8 (i + off)) 0).map fun e => (.ok, qa, e) else some (.notSupported, qa, enc)

/-- include/mli_service_functions.hpp:131-154 `EncodeWeightsAndZeroPts` (through `get_buf()`: the tensors' offsets do not count);
the position behind the weights is a `uint32_t`. -/
def encodeWz (w z enc : HostBuf) : Option (Status × HostBuf) :=
  if w.es = 1 ∧ z.es = 1 then
    (enc.fill w.size.toNat (fun i => w.read8 i) 0).bind fun e =>
    (e.fill z.size.toNat (fun i => z.read8 i) w.size).map fun e => (.ok, e)
  else some (.notSupported, enc)

/-- mli_krn_fully_connected_compiler.cc:125-134 `FullyConnected_CS::AttachBufferOffsets`: the buffer of the zero points inside of
the buffer of the encoded weights. -/
def fcZpBuf (shape strides : List Int) (wz : OffBuf) : Option OffBuf := wz.sub (u32 (bufSize shape strides * wz.es))

/-- mli_krn_fully_connected_compiler.cc:170-172, 207-209 `GetEncodedWeightsSize` (and mli_krn_conv2d_compiler.cc:233-235,
mli_krn_depthwise_conv2d_compiler.cc:234-236, mli_krn_transpose_conv_compiler.cc:122-124): the weights only. -/
def encodedWeightsSize (shape strides : List Int) : Int := bufSize shape strides

/-- mli_krn_conv2d_compiler.cc:249-256 `Conv2d_CS::EncodeInpZeroPts`, mli_krn_transpose_conv_compiler.cc:138-143: the axis is
`kTensorChannelDim` = 3 of an input with the dimensions batch, height, width, group, channel. -/
def convInpZp (inShape : List Int) (z : HostBuf) (d qa : Int) (enc : HostBuf) : Option (Status × Int × HostBuf) :=
  encodeZeroPts 3 (inShape.getD 3 0) z 0 d qa enc

/-- mli_krn_depthwise_conv2d_compiler.cc:251-258 `DepthwiseConv2d_CS::EncodeInpZeroPts`: the axis is `kGroupTensorChannelDim` = 4. -/
def dwInpZp (inShape : List Int) (z : HostBuf) (d qa : Int) (enc : HostBuf) : Option (Status × Int × HostBuf) :=
  encodeZeroPts 4 (inShape.getD 4 0) z 0 d qa enc

end Mli.Rt
