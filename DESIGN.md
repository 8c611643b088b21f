# Design of the embarc_mli formal model

The model covers the *reference* (`lib/src/pal/ref`, `*_ref.h`) implementation of embarc_mli as built for the x86 host,
in the configuration that evaluates parameter checks and returns their codes (`DBG_MODE_RET_CODES`): asserts are compiled out, so an assert is never a guard the model may rely on.

## Layout

* `lean/Verif/Spec/*` - small independent specifications (clamp, rounding, multi-index addressing, ...). No reference to the model.
* `lean/Verif/Model/*` - the model, function by function, each definition citing file and lines in `/repo`.
* `lean/Verif/Lemmas/*` - helper lemmas.
* `lean/Verif/Props/*` - the property theorems (names `cNN_...`) with a non-vacuity `example` beside each.
* `seeded/LOG.jsonl` - mutation experiments.

## Modelling conventions

* A C++ integer type is a width `w` together with `Int`; a value is in range when `-2^(w-1) <= x < 2^(w-1)`. Narrowing conversions are `wrap w` (two's complement, as gcc/clang define it). `>>` on negative values is floor division, `<<` on negative values is multiplication (C++20 rule; gcc/clang behaviour).
* Signed overflow, out-of-bounds access, division by zero are an explicit outcome: functions which can hit them return `Option`, `none` meaning undefined behaviour.
* Memory is a bounds-checked buffer of cells; a read or write outside it is `none`.
* Loops are a `forRange` combinator over `Option`, with an invariant rule proved once.

## Properties

| id | title | approach |
|---|---|---|
| C01 | Saturating add and subtract are exact up to clamping | Model `addFx/subFx` with explicit overflow outcome for the guard arithmetic; prove equal to `clamp w (x+y)` for every width. |
| C02 | Left shift saturates to the exact scaled value | Model `aslFx/asrFx`; prove equal to clamp of x*2^n / floor division for every width w>=1 and every Int shift. |
| C03 | Convergent right shift is round-half-to-even | Model `asrRndFx` with the bit tests written as in C (`&` on two's complement); prove equal to an independent round-half-even spec. |
| C04 | Round-up right shift is round-half-up | Same model in UP mode; negation with witness, `_partial` theorem for x <= MAX-2^(n-1). |
| C05 | Narrowing casts saturate and round, never wrap | All cast instances are compositions of asr_rnd and sat; prove each equals clamp(round). |
| C06 | Narrowing casts are monotone | Monotonicity from the closed forms. |
| C07 | Normalisation keeps the value and uses the whole range | Loop of norm as fuelled search; prove exact sign-bit count and mantissa law. |
| C08 | Tensor acceptance implies in-bounds elements | Model the loop of check_tensor_private with int32 arithmetic where overflow is an explicit UB outcome; induction over the rank. |
| C09 | Accepted tensors do not alias their own elements | Mixed-radix injectivity by induction over dimensions from the stride condition proved from acceptance. |
| C10 | Tensor check is exactly its documented decision | Decision theorem (iff) against a declarative well-formedness predicate. |
| C11 | Element count is the product of dimensions | uint32 wrapping product vs. List product. |
| C12 | Sub-tensor creation is a window into the parent | Address equation by induction; wrap-around of offset+size as negation. |
| C13 | Permute moves every element to its permuted place | Kernel as nested loops over bounds-checked memory with running pointers; invariant proof. |
| C14 | Permute by a permutation and then its inverse is the identity | Composition of two C13 results. |
| C15 | Data movement implements copy/slice/concat/subsample/permute/pad | Nested loops over bounds-checked memory; element-wise postcondition. |
| C16 | Data movement writes only the destination window | Same run, frame part of the postcondition. |
| C17 | The contiguous fast path of data movement is invisible | Negation with concrete witness; `_partial` for configurations without offsets/sizes. |
| C18 | DMA channels are never owned by two handles | Transition system over pool states and live handles; invariant by induction on histories. |
| C19 | DMA channel allocation succeeds exactly when a contiguous run is free | Scan loop vs. existence of a run of available channels. |
| C20 | Transfer callbacks belong to the handle that registered them | Callback table in the state; negation with witness history; `_partial` under re-registration. |
| C21 | Tiles partition the tensor | Closed form of tile position/size; existence and uniqueness of the covering tile. |
| C22 | Tile iteration visits every tile exactly once and restarts | Odometer refinement to a counter modulo product of counts. |
| C23 | Tile increments return to the start | Sum of increments by induction over a pass. |
| C24 | Tile-variant index identifies the tile size | Mixed radix of diff codes, injectivity on size classes. |
| C25 | Input tiles of a sliding-window kernel contain the receptive field | Closed form of the kernel-aware config; containment theorem. |
| C26 | Tensor views address the same elements | Address equations for each view constructor; negation for combine. |
| C27 | Contiguous tensors address [0,n) bijectively | Mixed-radix bijection. |
| C28 | Activation lookups never leave the table | Index clamp bounds from bound_range. |
| C29 | Interpolated activations stay between neighbouring table entries | Rounding of frac*diff/2^n bounded by diff. |
| C30 | ReLU clamps each element to its limits and touches nothing else | Element loop over memory; limits from the fixed-point closed forms. |
| C31 | Fixed-point element-wise arithmetic is exact up to rounding and clamping | Closed form of eltwise operation vs rational-free spec (scaled integers). |
| C32 | Element-wise kernels traverse every element once, with scalar broadcast | Traversal loop over memory with scalar operands. |
| C33 | Dimension squashing is invisible | Squash of two/three tensors: address-enumeration equality. |
| C34 | Max pooling is the maximum over the valid window | Reduce-max loop over window, window from C35; whole-plane loop with border/centre decomposition. |
| C35 | Convolution window clipping is exact | Pure integer arithmetic: tap in clipped window iff input coordinate valid. |
| C36 | Convolution accumulates the exact zero-point corrected sum | Loops as sums; algebra of four sums; overflow as UB outcome. |
| C37 | Dilated convolution with a weights zero point | Negation with witness; `_partial` for dilation 1 or w_zp = 0. |
| C38 | Implicit padding equals explicit padding | Corollary of C35/C36. |
| C39 | Fully connected layer is a matrix-vector product | Same machinery in 1-D; accumulator bound by induction. |
| C40 | Arg-max returns the top-k elements in descending order | Heap invariants (sift-down), selection invariant, sort. |
| C41 | Rescale computes the biased, scaled, rounded and clamped value | Closed form from C01-C05. |
| C42 | Clip and reductions | Fold laws. |
| C43 | Bilinear resize reads inside the input and interpolates convexly | Clamped indices; negation for the second neighbour with large negative offsets. |
| C44 | Matrix multiplication | Sum law with narrowing of the difference modelled. |
| C45 | Transpose convolution equals its scatter definition | Bijection between (sub-kernel, tap) and scatter pairs. |
| C46 | Re-quantisation parameters represent the scale ratio | Bounds on normalised integer division. |
| C47 | Buffer overlap check is sound | Interval reasoning; negation for 64-bit addresses. |
| C48 | Broadcast move | Loop postcondition. |
| C49 | Average pooling multiplier tables | Finite table by kernel evaluation over all 31 entries plus bound for the computed branch for all d. |
| C50 | Format conversion round trip | Closed form from C03/C05. |
| C51 | The runtime Move kernel copies tile by tile | Element iterator refined to a counter; `moveTiles` loop by induction over tiles with C21; negation for uncut dimensions. |
| C52 | The buffer offset of a tile iterator follows the tile position | Invariant of `Next()` by induction over steps and dimensions; negations with witnesses. |
| C53 | Activations are monotone | Monotonicity of the interpolation in the table from rounding monotonicity; tables by kernel evaluation; negation with witness for the sigmoid. |
| C54 | Sum pooling is the exact sum | Window traversal lemma of C34 with the summing window operation; the accumulator bound follows from byte-sized windows. |
| C55 | Average pooling divides the window sum by its count | Window traversal lemma of C34 with the averaging window operation; accuracy from C49; negation with witness for accumulator overflow. |
| C56 | Batch elements are processed independently | Loop over shifted tensors (Model/Batch.lean); the per-element theorems C34/C54 for each iteration, disjoint outputs by the capacity bound. DepthwiseConv2d::Issue advances copies of its buffers: shown violated for two elements. |
| C57 | Group convolution convolves each filter with the channels of its own group | Model the kernel loop; show that one element is an ordinary convolution element over a channel sub-view and reuse the window lemmas of C35/C36. Partial: same overflow conditions as C36; the check divides by zero when the input has fewer channels than the weights (`c57_check_violated`). |
| C58 | Leaky and parametric ReLU | Model both kernels; element lemma by bounding the relative error of the normalised scales; the PReLU loops are loops over slices (Lemmas/Slices). Partial: violated for one tie in rounding mode UP, for SA8 scale ratios above 2^14 in the negative branch, for slopes not adjacent in memory, and axis < -1. |
| C59 | Element-wise arithmetic of SA8 tensors is accurate | Element lemma by relative error of the normalised scale ratio and a case split on the limited shift (in range, too small, too large), combined with the traversal theorem C32. |
| C60 | Average pooling of SA8 tensors is accurate | Window traversal lemma of C34; relative error of the normalised multiplier from C49 and C46; accumulator bound; negations with witnesses for accumulator overflow and for the rounding error. |
| C61 | Run-time fully connected layer subtracts the encoded weights zero points | Loop invariants for the dot product and the input additive as in C39; byte-level model of the encoded zero points; negations with witnesses for the one-byte encoding and for zero points that differ. |
| C62 | Sigmoid and tanh kernels are close to the real functions | exp(-1/32) is enclosed by rationals with 64 bits (Taylor polynomial with remainder); all table entries are compared with powers of the enclosure by kernel evaluation; the chord error follows from convexity of M x^2/2 ± g; Lipschitz bounds cover input rounding; composed with C29. Real functions are those of Mathlib. |
| C63 | Softmax kernels compute the softmax | The loops over the non-axis dimensions and the squashed axis tensor are shown to partition the tensor into slices (AxisSlices); inside a slice: maximum, exponentials (error bound from C62), sum without overflow, reciprocal of the normalised sum, product. The error is propagated through the quotient over the reals. |
| C64 | L2 normalisation divides by the Euclidean length | The slices of C63; the sum of squares is bounded by the number of elements (below 2^31) and does not overflow 64 bits; the even normalisation shift brings it into [2^13, 2^15], on which the interpolated inverse square root is compared with the exact one for all arguments by kernel evaluation; the error is propagated through the product over the reals. |
| C65 | RNN dense adds the contributions of all inputs | Each output is computed by a loop over the inputs; the dot products are those of C39. The terms are bounded by the number of elements, so that neither the accumulators nor the running sum saturates, and the sum of the rounded terms is compared with the exact one. Overflows for large biases and the limited shift are shown by witnesses. |
| C66 | The LSTM cell runs over the sequence step by step | All tensors of element type share one memory. One step is shown to write the scratch rows, the cell and one output row only, with values given by functions of the inputs (the dense part of C65, the activations of C62, the elementwise operations of C31 and C46); an invariant of the loop carries them over the steps. The specification of a step is a relation on elements with the error of each operation. Splitting is a statement about the traces of those functions. |
| C67 | The GRU cell runs over the sequence step by step | As C66: one step is shown to write scratch rows and one output row only, the loop invariant of C66 carries outputs over the steps, splitting is a statement about traces. Shown violated for 8-bit weights with one scale for all gates, where the kernel advances a pointer that is in fact the scale itself. |
| C68 | Tile-by-tile execution of the run-time element-wise kernels gives the result for the whole tensors | The object with its iterators and tile tensors, Issue and Update are modelled, together with the loop of the caller as in the user tests. The traversal of a tile is shown to be row-major for any strides with innermost stride 1 (no tensor check is made here), a round is shown to write exactly its tile, and the tiles cover the tensor (C21). Shown violated: iteration orders other than that of the dimensions (offsets are returned in iteration order), fractional bits of the tile tensors that the constructor leaves uninitialised, a scalar that changes after construction. Not modelled: operands broadcast along one axis, which the assertions of the compile-time class allow but the kernel does not support. |
| C69 | Tile-by-tile execution of the run-time pooling kernels gives the result for the whole tensor | The object with its iterators, tile tensors and paddings, Issue and Update are modelled on top of the pooling kernels of C34 and C54, together with the loop of the caller as in the user tests. For each tile the window in the tile with the paddings of the tile is shown to be the window in the whole tensor, and the tiles cover the output (C21). Shown violated: a last output tile with fewer rows than windows beyond the end of the input (writes before the tile), the padding SumPool2D keeps for the second tile when it starts at input row 0, local buffers of the size callers compute, element sizes other than 8 and 16 bits in MaxPool2D, windows of 256 or more, other iteration orders. |
| C70 | Tile-by-tile execution of the run-time convolution kernels gives the result for the whole tensor | The objects with their iterators for input, weights and output, tile tensors and paddings, Issue and Update are modelled on top of the convolution of C37, together with the loop of the caller as in the user tests. For each tile the window in the tile with the paddings of the tile is shown to be the window in the whole tensor, the weights tile to be the channels of the output tile, and the tiles cover the output (C21). Shown violated: tiles of more than one batch element, tiles of more than one group, different weight zero points in one tile (DepthwiseConv2d), weight zero points other than 0 (Conv2d). |
| C71 | Encoded parameters reach the run-time kernels | Buffers of bytes: integers are written and read byte by byte (little-endian). EncodeParams, the addresses of the arrays at run time, the reported offsets and the copies of the caller are modelled; the theorems follow the bytes by induction over arrays and elements. Shown violated: CLIP for 32-bit elements (out-of-bounds reads, wrong limits) and PRELU with one set of parameters for several channels. Not modelled: alignment of the pointers. The public header documents another order of the arguments of Rescale_CS::EncodeParams (include/mli_compiler_api.hpp:804-819) than the implementation has; the model follows the implementation. |
| C72 | RESCALE and PRELU kernels executed tile by tile | Model: the two run-time objects with iterators, tensors of the tile and parameter addresses, and the caller loop of the user tests with encoding (C71) before it. Proof: invariant of the object over the rounds, one round from the fetched parameters (C71) and the kernel on a tile, and the cover of the tensor by tiles (C55). Shown violated: PRELU does nothing and reports OK for other element sizes than 32 to 8 bits; a single RESCALE parameter set is read when the object is created and not when it is used; PRELU overflows int32 for large differences. |
| C73 | Reductions and PERMUTE executed tile by tile | Model: the three run-time objects with iterators and tile descriptors, and the caller loop of the user tests. Proof: closed form of the tile number along a dimension in round n, correspondence of input and output tiles, the kernels on one tile (C13, C42 for unchecked descriptors), cover of the tensor by tiles. Shown violated: REDUCE-MAX uses the shape of the whole tensor for the first tile and leaves the local buffers; PERMUTE gives wrong results if the permutation exchanges two tiled dimensions, and does nothing for elements of 16 bits. |
| C74 | Matrix multiplication executed tile by tile | Model: the run-time object with three iterators, the encoded zero points and the caller loop of the user test. Proof: closed form of the current tile of each matrix, the kernel loops on one tile, cover of the output by tiles. Shown violated: the kernel reports the position of the left tile for the right input; a last tile with fewer columns is written densely and lands in the wrong places. |
| C75 | A layer of three kernels executed tile by tile | Model: the caller loop of the user tests with the objects of all three kernels. Proof: the iterator without the group is at the same tile as that of the convolution; the stages of one round from C70, C72 and C42; tile loop. Shown violated: with skew or another order of dimensions the iterator without the group is on another tile. |
| C76 | Buffer sizes cover the tensors they are asked for | Model: the size loops in 32-bit arithmetic, strides computed backwards. Proof: the size is 1 + the largest offset by induction over dimensions; tiles bounded through GetSubTensor. Shown violated: sizes wrap at 2^32, tensors without elements, iteration orders other than that of the tensor, a last tile larger than the others. |
| C77 | A shrunk buffer holds the tiles it was made for | Model: the dimension loop in 32-bit arithmetic. Proof: each dimension of the new buffer is at least the largest tile, slots and rings by induction over dimensions and the bounds of windows of tiles. Shown violated: the size is multiplied once per iteration dimension; a stride larger than the kernel makes two tiles collide in a ring; middle tiles are no longer limited to the tensor. |
| C78 | Run-time transposed convolution tile by tile | Model: GetDeconvTensorIterators, the kernel object and the loop of the caller. Proof: positions of input, output and weight tiles from the tile indices, equality of scattered sums in a tile and in the whole tensor, cover of the output, loop invariant. Shown violated: output tiles overlap and overwrite each other if the kernel is larger than the stride; zero points of the weights. |
| C79 | Buffers keep their places when they are linked | Model: OffsetBuffer, InternalBuffer with byte addressing. Proof: byte-wise write and read lemmas, address arithmetic. Also shown: accesses outside of a buffer are not refused, inc moves a buffer past its end. |
| C80 | Run-time objects are created for the kernel they were compiled for | Model: the head of the private data as bytes, the switch of Create as a table. Proof: the number read from the head is that of the kernel, case analysis of the table. Shown violated: Nop_CS reports size 0; no case for the bilinear resize. |
| C81 | The configuration helpers of the data movement do what they say | Model: the helpers as functions from arrays to the configuration record (an array with fewer than four entries is undefined behaviour), composed with the movement of C15. Proof: each configuration meets the hypotheses of C15 (a slice or concatenation with an offset never looks like a flat copy), then the positions are translated. |
| C82 | Created look-up tables behave like those of the library | Model: descriptor with pointer and capacity, element-wise copy of the library table. Proof: loop invariant of the copy; every lookup reads only entries below the length, so equal entries give equal kernels. |
| C83 | Specialised kernels agree with the general ones | Model: the convolution kernels with the size they are specialised for as a parameter (weights size and padding replaced as the code does); pooling traversed with the fixed size. Proof: the check forces the replaced values to be the ones of the arguments; behind the first columns of a border area the kept window is the whole kernel width. |
| C84 | The reported guard bits are enough | Model: the three functions of the reference; the multiply-accumulate step of the kernels. Proof: induction over the list of products with a bound on the absolute value; the kernels by the exactness lemmas of C36 and C39. |
| C85 | Pointing to a sub-tensor is indexing | Model: the check and the helper, with the strides the caller left in the output as an argument. Proof: products of the shape are the strides of a packed tensor; the offset stays below 2^32 because the element is inside of the capacity. |
| C86 | Encoded weights and zero points are the ones the user gave | Model: the three encoders on byte buffers, the zero-point buffer of a fully connected layer. Proof: a loop of stores; linking by C79. |
| C87 | Removing the overlap of adjacent tiles | Model: the function on one iteration dimension, on the configurations of C25. Proof: closed form of positions and sizes, then a partition argument. |
| C88 | A transposed iterator visits the transposed tiles | Model: transpose_order and the transposed shape. Proof: induction over the iteration dimensions; a cyclic permutation as counterexample. |
| C89 | Converting the granularity keeps the bytes | Model: both functions. Proof: the converted tiling equals the tiling of the converted tensor but for the last increment; offsets by induction over the dimensions. |
| C90 | Positions of input tiles in the padded tensor | Model: the function on the configurations of C25. Proof: closed form of the positions per dimension, induction over dimensions. |
| C91 | Conversion to floating point gives the nearest number | Model: IEEE single precision on bit patterns (Model/Float.lean) and the function. Proof: rounding lemmas over the rationals, exactness of every step but the last, loops as in C50. |
| C92 | Conversion from floating point rounds and saturates | Model: as C91. Proof: error bounds of the five operations; a large element as counterexample. |
| C93 | Converting to floating point and back changes nothing | Model: as C91. Proof: from the error bounds of C91 and C92, the result is within less than 1 of an integer. |
| C94 | A fully connected layer of three kernels | Model: the three kernel objects issued in turn (Model/FcLayer.lean). Proof: C61, C71 and the element-wise lemmas of C72 composed through the buffers. |
| C95 | A transposed-convolution layer of three kernels tile by tile | Model: the loop of the caller over the three kernel objects (Model/DcLayer.lean). Proof: dropping the group from the iterator keeps the tile sizes (not the positions); then the invariant of C78 extended by the tiles of RESCALE and CLIP. |
| C96 | Kernels accept exactly the documented arguments | Model: the checks of each kernel, as already used by C08 to C95. Specification: one predicate for the arguments of each kernel, with exact arithmetic (Spec/Accept.lean). Proof: each check is shown equivalent to its part of the predicate; a step of the kernel after the checks cannot change the status. |
| C97 | A sub-tensor stands for the same numbers as its parent | Model: the three containers of el_params.sa as value or pointer into a parameter memory, the loop of mli_hlp_create_subtensor over kept and dropped dimensions, the parameter check (Model/QuantMem.lean). Specification: the number an element stands for, a rational (Spec/QuantMem.lean). Proof: induction over the dimensions for the position of the quantized one; the parent's array read from the offset. |
| C98 | Permutation keeps the numbers of quantized tensors | Model: the check and copy of the parameters of the permutation kernel (Model/QuantMem.lean `chkPermutePar`, `permuteSa`). Proof: the copy loop as a range write, the new dimension is the position of the quantized one in the permutation; combined with C13. |
| C99 | Data movement keeps the numbers of quantized tensors | Model: the check, allocation and copy of the parameters in mli_mov_prepare (Model/QuantMem.lean `chkMovPar`, `movParams`, `movPrepareSa`). Proof: the copy loop as a range write with the same coordinate map as the elements; combined with C15. |
| C100 | The convolution and fully connected kernels compute the real-valued layer to a stated accuracy | Specification: the layer over the rationals, without any fixed point (Spec/RealLayer.lean). Proof: from the exact theorems C36, C39, C45 and C57 by linearity of the sums, the error of the rounding, and the ReLU and the limits being 1-Lipschitz (Lemmas/RealLayer.lean). |
| C101 | The RNN dense kernel computes the real-valued layer to a stated accuracy | The layer over the rationals (Spec/RealLayer.lean, rnnReal). Proof: from C65 by linearity of the sums, the error of each rounding, and the limits being 1-Lipschitz. |
| C102 | The error of a network of fully connected layers | The sequence of calls (Model/Net.lean) and the network over the rationals (Spec/Net.lean). Proof: induction over the layers; one layer from C39/C100, ReLU and limits being 1-Lipschitz, and the inner product being Lipschitz with the sum of absolute weights. |
| C103 | The error of a convolutional network | The sequence of calls (Model/Cnn.lean, Model/CnnW.lean, Model/CnnSa.lean), maxima, means and convolutions over the rationals (Spec/Cnn.lean, Spec/RealLayer.lean). Proof: induction over the layers; one layer from C34, C36, C39, C55 and C100, and each layer in real numbers being Lipschitz. |
| C104 | The CIFAR-10 example network | The calls with their tensors, formats and buffers (Model/Cifar.lean; with 8-bit weights Model/CifarW.lean), the network in real numbers (Spec/Cifar.lean). Proof: C103 with buffers that take turns, by induction over the layers; then C63 for the softmax in place. |
| C105 | The human activity recognition example network | The calls with their tensors, formats and arrays (Model/Har.lean, Model/HarLstm.lean, Model/HarW.lean, Model/HarWLstm.lean), what the layers compute (Spec/Har.lean, Spec/Rnn.lean). Proof: C39 by induction over the samples, C31 for the clearing, C66 for the LSTM layers; for the LSTM of the application C65, C62 and C31 call by call; C92 for the conversion of the input. |

## Source files and modules

Each definition cites file and lines; this table lists which files of `/repo` each module of `Verif/Model` reads from (generated from those citations).

| source file | modules |
|---|---|
| `include/api/mli_helpers_api.h` | MovCfg |
| `include/api/mli_mov_api.h` | Dma |
| `include/api/mli_ref_runtime_api.hpp` | ConvTiles, EltRuntime, LayerRuntime, MapRuntime, MatMulRuntime, PoolRuntime, TransposeTiles, UnRuntime |
| `include/internal/mli_ref_private_types.hpp` | Link |
| `include/mli_compiler_api.hpp` | Link |
| `include/mli_config.h` | Conv |
| `include/mli_iterator.hpp` | BufSize, ConvTiles, FcLayer, Iter, IterOps, MoveCs, TileRun, TransposeTiles |
| `include/mli_service_functions.hpp` | BufSize, EltRuntime, EncodeWts, Fc |
| `include/mli_types.h` | Conv, Convert, ConvertFloat, Lut, LutCreate, Mov, Permute, PointSub, Quant, QuantMem, Relu, Tensor |
| `include/mli_types.hpp` | Batch, BufSize, EncodeWts, Fc, FcLayer, IterOps, Link, Params, PoolRuntime, Resize, View |
| `lib/src/bricks/impl/mli_krn_dotprod_ref.h` | Conv, Fc |
| `lib/src/bricks/impl/mli_krn_reduce_max2d_ref.h` | Pool |
| `lib/src/bricks/impl/mli_krn_reduce_sum2d_ref.h` | AvePool, Conv |
| `lib/src/bricks/impl/mli_krn_rnn_dense_op_ref.h` | Gru, Lstm, Rnn, RnnCell |
| `lib/src/bricks/impl/mli_prv_lut_ref.h` | Lut, Softmax |
| `lib/src/bricks/impl/mli_prv_quant_ref.h` | Conv, ConvTiles, Fc, LeakyRelu, Lut, Quant, Rnn, RnnCell, TransposeTiles |
| `lib/src/bricks/mli_prv_quant_decl.h` | Lut |
| `lib/src/helpers/src/impl/mli_hlp_convert_tensor_ref.h` | Convert, ConvertFloat, Float |
| `lib/src/helpers/src/mli_helpers.cc` | Convert, ConvertFloat, PointSub, QuantMem, Tensor |
| `lib/src/helpers/src/mli_helpers_30.cc` | TransposeTiles |
| `lib/src/kernels/clip/impl/mli_krn_clip_ref.hpp` | Rescale |
| `lib/src/kernels/clip/mli_krn_clip_compiler.cc` | BufSize, Params |
| `lib/src/kernels/clip/mli_krn_clip_runtime.cc` | LayerRuntime, Params, Rescale |
| `lib/src/kernels/common/impl/mli_krn_fully_connected_compiler.cc` | BufSize, EncodeWts, Fc |
| `lib/src/kernels/common/impl/mli_krn_fully_connected_ref.h` | Fc |
| `lib/src/kernels/common/impl/mli_krn_fully_connected_runtime.cc` | Fc |
| `lib/src/kernels/common/impl/mli_krn_gru_cell_ref.h` | Gru, RnnCell |
| `lib/src/kernels/common/impl/mli_krn_lstm_cell_ref.h` | Lstm, RnnCell |
| `lib/src/kernels/common/mli_krn_fully_connected.cc` | CnnW, Fc |
| `lib/src/kernels/common/mli_krn_gru_cell.cc` | Gru |
| `lib/src/kernels/common/mli_krn_lstm_cell.cc` | Lstm |
| `lib/src/kernels/common/mli_krn_rnn_dense.cc` | Rnn |
| `lib/src/kernels/common/mli_krn_rnn_dense.h` | Rnn |
| `lib/src/kernels/conversion/impl/mli_krn_rescale_ref.hpp` | Rescale |
| `lib/src/kernels/conversion/impl/mli_reduce_max_ref.hpp` | Reduce |
| `lib/src/kernels/conversion/impl/mli_reduce_sum_ref.hpp` | Reduce |
| `lib/src/kernels/conversion/impl/mli_resize_bilinear_ref.hpp` | Resize |
| `lib/src/kernels/conversion/mli_krn_rescale_compiler.cc` | BufSize, Params |
| `lib/src/kernels/conversion/mli_krn_rescale_runtime.cc` | MapRuntime, Params, Rescale |
| `lib/src/kernels/conversion/mli_reduce_max_runtime.cc` | Reduce, UnRuntime |
| `lib/src/kernels/conversion/mli_reduce_sum_runtime.cc` | Reduce, UnRuntime |
| `lib/src/kernels/conversion/mli_resize_bilinear_runtime.cc` | Resize |
| `lib/src/kernels/convolution/impl/mli_krn_convolution_ref.h` | Conv, TransposeConv |
| `lib/src/kernels/convolution/impl/mli_krn_group_conv2d_ref.h` | GroupConv |
| `lib/src/kernels/convolution/impl/mli_krn_transpose_conv_ref.h` | TransposeConv |
| `lib/src/kernels/convolution/mli_krn_conv2d_compiler.cc` | BufSize, EncodeWts, Link |
| `lib/src/kernels/convolution/mli_krn_conv2d_hwcn.cc` | CnnW, Conv |
| `lib/src/kernels/convolution/mli_krn_conv2d_runtime.cc` | Conv, ConvTiles |
| `lib/src/kernels/convolution/mli_krn_depthwise_conv2d_compiler.cc` | BufSize, EncodeWts |
| `lib/src/kernels/convolution/mli_krn_depthwise_conv2d_hwcn.cc` | CnnW, Conv |
| `lib/src/kernels/convolution/mli_krn_depthwise_conv2d_runtime.cc` | Batch, Conv, ConvTiles |
| `lib/src/kernels/convolution/mli_krn_group_conv2d_hwcn.cc` | GroupConv |
| `lib/src/kernels/convolution/mli_krn_matmul_compiler.cc` | MatMulRuntime |
| `lib/src/kernels/convolution/mli_krn_matmul_ref.hpp` | MatMul, MatMulRuntime |
| `lib/src/kernels/convolution/mli_krn_matmul_runtime.cc` | MatMul, MatMulRuntime |
| `lib/src/kernels/convolution/mli_krn_transpose_conv2d_hwcn.cc` | TransposeConv |
| `lib/src/kernels/convolution/mli_krn_transpose_conv_compiler.cc` | BufSize, EncodeWts |
| `lib/src/kernels/convolution/mli_krn_transpose_conv_runtime.cc` | TransposeConv, TransposeTiles |
| `lib/src/kernels/diverse/impl/mli_krn_argmax_ref.h` | Argmax |
| `lib/src/kernels/diverse/impl/mli_krn_permute_ref.h` | Permute, QuantMem |
| `lib/src/kernels/diverse/mli_krn_argmax.cc` | Argmax |
| `lib/src/kernels/diverse/mli_krn_permute_compiler.cc` | BufSize |
| `lib/src/kernels/diverse/mli_krn_permute_fx.cc` | QuantMem |
| `lib/src/kernels/diverse/mli_krn_permute_runtime.cc` | UnRuntime |
| `lib/src/kernels/eltwise/impl/mli_krn_eltwise_ref.h` | EltRuntime, Eltwise, Gru, RnnCell, Squash |
| `lib/src/kernels/eltwise/mli_krn_add_compiler.cc` | BufSize, EltRuntime |
| `lib/src/kernels/eltwise/mli_krn_add_runtime.cc` | EltRuntime |
| `lib/src/kernels/eltwise/mli_krn_eltwise_decl.h` | Eltwise |
| `lib/src/kernels/eltwise/mli_krn_mul_runtime.cc` | EltRuntime |
| `lib/src/kernels/pooling/impl/mli_krn_avepool_hwc_ref.h` | AvePool, FixedKernel |
| `lib/src/kernels/pooling/mli_krn_avepool_hwc_fx16.cc` | AvePool, FixedKernel |
| `lib/src/kernels/pooling/mli_krn_avepool_hwc_fx8.cc` | AvePool, FixedKernel |
| `lib/src/kernels/pooling/mli_krn_avepool_hwc_sa8.cc` | AvePool, FixedKernel |
| `lib/src/kernels/pooling/mli_krn_maxpool_compiler.cc` | BufSize |
| `lib/src/kernels/pooling/mli_krn_maxpool_hwc_fx16.cc` | FixedKernel |
| `lib/src/kernels/pooling/mli_krn_maxpool_hwc_fx8.cc` | FixedKernel, Pool |
| `lib/src/kernels/pooling/mli_krn_maxpool_hwc_sa8.cc` | FixedKernel |
| `lib/src/kernels/pooling/mli_krn_maxpool_runtime.cc` | Batch, PoolRuntime |
| `lib/src/kernels/pooling/mli_krn_pool_hwc.h` | AvePool, Cifar, Cnn, CnnSa, FixedKernel, Pool |
| `lib/src/kernels/pooling/mli_krn_sumpool_compiler.cc` | BufSize |
| `lib/src/kernels/pooling/mli_krn_sumpool_runtime.cc` | AvePool, Batch, PoolRuntime |
| `lib/src/kernels/transform/impl/mli_krn_l2_normalize_ref.h` | L2Norm, Softmax |
| `lib/src/kernels/transform/impl/mli_krn_leaky_relu_ref.h` | LeakyRelu |
| `lib/src/kernels/transform/impl/mli_krn_prelu_ref.h` | LeakyRelu, MapRuntime |
| `lib/src/kernels/transform/impl/mli_krn_relu_ref.h` | Relu, Squash |
| `lib/src/kernels/transform/impl/mli_krn_softmax_ref.h` | Softmax |
| `lib/src/kernels/transform/mli_krn_l2_normalize.cc` | L2Norm, LutCreate |
| `lib/src/kernels/transform/mli_krn_leaky_relu_fx.cc` | LeakyRelu |
| `lib/src/kernels/transform/mli_krn_prelu.cc` | LeakyRelu |
| `lib/src/kernels/transform/mli_krn_prelu_compiler.cc` | MapRuntime, Params |
| `lib/src/kernels/transform/mli_krn_prelu_runtime.cc` | MapRuntime, Params |
| `lib/src/kernels/transform/mli_krn_relu_fx.cc` | Relu |
| `lib/src/kernels/transform/mli_krn_sigm_fx.cc` | Lut, LutCreate |
| `lib/src/kernels/transform/mli_krn_softmax_fx.cc` | LutCreate, Softmax |
| `lib/src/kernels/transform/mli_krn_tanh_fx.cc` | Lut, LutCreate |
| `lib/src/move/impl/mli_mov_ref.h` | Mov, QuantMem |
| `lib/src/move/mli_mov_api.cc` | Dma, Mov, MovCfg, QuantMem |
| `lib/src/move/mli_mov_decl.h` | Dma |
| `lib/src/move/mli_mov_runtime.cc` | MoveCs |
| `lib/src/move/mli_move_broadcast_runtime.cc` | Broadcast |
| `lib/src/pal/ref/mli_math.h` | Float, Math, Rnn |
| `lib/src/pal/ref/mli_prv_dsp.h` | AvePool |
| `lib/src/private/mli_math_macros.h` | BufSize, Iter, IterOps, Mov, Pool |
| `lib/src/private/mli_private_types.h` | Conv, Pool |
| `lib/src/private/mli_prv_layout.h` | Pool |
| `lib/src/private/mli_prv_tensor.h` | Argmax, Conv, ConvTiles, Eltwise, LeakyRelu, Permute, Pool, Relu, Rescale, Resize, Softmax, Squash, Tensor |
| `lib/src/private/src/mli_check.cc` | Argmax, AvePool, Conv, Convert, ConvertFloat, Eltwise, Fc, FixedKernel, GroupConv, Gru, L2Norm, LeakyRelu, Lstm, Lut, LutCreate, Mov, Permute, PointSub, Pool, Quant, QuantMem, Relu, Rnn, RnnCell, Softmax, Squash, Tensor, TransposeConv |
| `lib/src/private/src/mli_prv_activation_lut.cc` | Lut, LutCreate |
| `lib/src/private/src/mli_runtime.cc` | Link |

The caller loops of `Verif/Model/TileRun`, `EltRuntime`, `PoolRuntime`, `ConvTiles`, `MapRuntime`, `UnRuntime`, `MatMulRuntime`, `LayerRuntime` follow the user tests (`user_tests/tests/*_30`).
Declarations (`*_decl.h`, `mli_krn_*.h` without `impl`) only select the implementation; the entry points `mli_krn_eltwise_*_fx.cc`, `mli_krn_maxpool_hwc_*.cc`, `mli_krn_permute_fx.cc` only instantiate the templates modelled.

## Findings in the code

The code does not have these parts of the properties; each is a theorem with a concrete witness (generated from the comments of the theorems).

| theorem | finding |
|---|---|
| `c04_mul_high_violated` | The fractional product of the two smallest numbers, -1 times -1, is -1. |
| `c04_round_up_violated` | In the round-up configuration the half is added with saturation *before* the shift, so values near the top of the range are rounded down: `127 / 2` gives 63, not 64. |
| `c05_acc40_violated` | The 16-bit to 40-bit-accumulator conversion goes through `int32_t` and wraps. |
| `c05_cast_up_violated` | The C04 deviation is visible through a cast too. |
| `c08_wrap_violated` | The size in bytes is computed modulo 2^32, so a tensor of 2^30 four-byte elements is accepted with a buffer of zero bytes. |
| `c104_average_violated` | In the 16-bit CIFAR-10 example the input of the average pooling of layer 2 has a format for numbers below 32, but its output keeps the format maximum pooling has left in the tensor, for numbers below 8: where all activations are 20, every average is given as less than 8. |
| `c12_wrap_violated` | `offset + size` is tested modulo 2^32, so a configuration whose window leaves the parent is accepted. |
| `c17_flat_transfer_violated` | A contiguous copy of the first 3 of 4 elements to position 1 is performed as a flat copy of all 4 elements to position 0: wrong values in the window and a changed element outside. |
| `c18_outside_pool_violated` | Channels left over from an earlier, larger pool are handed out although they are outside the pool now configured. |
| `c18_reconfigure_violated` | Reconfiguring the pool while a handle is held hands the same channel out twice. |
| `c19_out_of_table_violated` | With all 16 channels in the pool, a failing request for two channels reads past the end of the channel table. |
| `c19_unconfigured_violated` | Before any configuration the pool claims 16 channels but none can be acquired. |
| `c20_stale_callback_violated` | Releasing a handle leaves its callback behind; the next owner of the channel who registers nothing fires the previous owner's callback. |
| `c20_sync_fires_foreign_callback_violated` | A *synchronous* copy (which needs no channel) fires the callback of whoever owns the first channel of the pool. |
| `c21_drop_axis_violated` | Dropping an axis exchanges the first and the regular increment (lines 205-206), so with a skewed tiling the coordinates 2 and 3 are in no tile. |
| `c21_full_skew_violated` | The constructor's own assertion allows a skew equal to the tile size; the first tile is then empty. |
| `c22_skipped_dim_violated` | `Next(pos_inc)` never reports completion when the slowest iteration dimension is marked as skipped (order -1, as written by `set_config` for the surplus dimensions). |
| `c22_smaller_rank_violated` | The single-tile configuration for a tensor whose rank is smaller than the iteration rank has a negative tile count, and `Next()` never reports completion. |
| `c24_clipped_violated` | For the input tiling of a kernel of size 5 with 4 elements of post-padding, the middle tiles are clipped to different sizes (4 and 3) while the update index is the same. |
| `c26_combine_violated` | The code violates C26 for `combine(axis, reverse_order = false)`: the asserted condition (`stride[axis] = shape[axis+1] * stride[axis+1]`) holds, but the combined dimension gets the stride of the outer dimension: position 1 of the combined view of a contiguous 2x3 tensor is element 3, position 5 is outside of the buffer. |
| `c26_slice_size_violated` | The code violates C26 for `slice(size)`: the offset of the sliced view is lost, the first element of the new view is not the first element of the sliced one. |
| `c28_short_table_violated` | With a table of one entry the interpolating lookup reads outside of the table; the sigmoid and tanh kernels accept such a table. |
| `c29_steep_table_violated` | When two neighbouring entries are `2^15` or more apart, the difference wraps around and the result is not between the entries. |
| `c30_rank0_violated` | A tensor of rank 0 passes the parameter check, and the kernel then reads outside of its shape. |
| `c30_relu1_violated` | With 30 fractional bits ReLU1 changes the admissible element -128 of a fixed-point tensor. |
| `c30_relu6_violated` | With 28 fractional bits of the scale and zero point -100, ReLU6 cuts an admissible element (120 stands for about 0.0000008) down to 27. |
| `c31_add_shift_violated` | Adding 1 (no fraction bits) and 0 (20 fraction bits) gives 32 in fx8 instead of 1: the result shift is limited to 15 bits although the operand was shifted left by 20. |
| `c31_max_shift_violated` | MAX of -128 and -128 with 8 fraction bits is -1 instead of 0 when the result has none. |
| `c31_max_up_violated` | In round-up mode, MAX of two elements 127 with 7 fraction bits is 63 instead of 64 when the result has 6. |
| `c31_mul_up_violated` | In round-up mode, the product of two elements -128 with 8 fraction bits each is 1 instead of 0 when the result has no fraction bits. |
| `c32_scalar_order_violated` | A tensor with one element and a scalar of rank 0 are rejected when the scalar is the second operand, although the same call with the operands exchanged is accepted. |
| `c34_left_padding_violated` | The padding before the input may be so large that no output position is free of it; the kernel then writes outside of the output: here into the element behind the single element of the output. |
| `c34_right_padding_violated` | The same with the padding behind the input: the kernel writes the element before the output. |
| `c36_bias_violated` | C36 fails for a bias shifted left by more than 16 bits: with zero input the output should be the bias, 0.5 * 2^2 = 16384 in the output format, and is its negation. |
| `c36_empty_window_violated` | C36 fails if all taps of a window fall into the padding: the compiler is told that this cannot happen. |
| `c36_fx8_overflow_violated` | C36 fails for 512 taps with 8-bit weights: the 32-bit accumulator overflows. |
| `c36_narrow_violated` | C36 fails for `Conv2d::Issue` with a stride of 257 (the field has 32 bits): the second output is element 1 of the input, not element 257. |
| `c37_conv2d_runtime_violated` | C36 and C37 fail for `Conv2d::Issue` with a non-zero weights zero point: with `x = w = zw = 1` and input zero point 0 the output is 1, not `(1 - 0) * (1 - 1) = 0`. |
| `c38_conv2d_runtime_violated` | C38 fails for `Conv2d::Issue` with a non-zero weights zero point: input 7 padded on the left, or the input 2, 7 with the zero point 2 in front. |
| `c39_bias_violated` | C39 fails for a bias shifted left by more than 16 bits: with zero input the output should be the bias, and is its negation. |
| `c39_fx16_fx8_overflow_violated` | C39 fails for 512 inputs with 8-bit weights: the 32-bit accumulator overflows. |
| `c40_output_rank_violated` | The rank of the output is not checked: with rank 1 and a stale second dimension the accepted call writes behind the output. |
| `c41_bias_violated` | C41 is violated when `x - b_in` leaves the input type: 127 - (-128) is limited to 127 before the multiplication. |
| `c41_i32_i32_violated` | C41 is violated for 32-bit outputs: the operation reports success and writes nothing, whatever the data. |
| `c43_negative_offset_violated` | C43 is violated for offsets below minus one pixel, which the assertions of the caller allow: the second row is not limited to the image, and the code reads before the input. |
| `c44_narrowing_violated` | C44 is violated when a difference from the zero point is not an 8-bit number, although operands and zero points are: `127 - (-128)` is stored as -1. |
| `c44_output_stride_violated` | C44 is violated when the rows of the output are not adjacent: its strides are ignored. |
| `c45_runtime_violated` | C45 fails for `TransposeConv2D::Issue` with a non-zero weights zero point: with `x = w = zw = 1` and input zero point 0 the output should be `x * (w - zw) = 0`, and is 1. |
| `c46_result_cast_violated` | In the default build the theorem fails beyond 24 bits: here the real result is `-128 + 2^24 * 2^-16 = 128`, the stored value is 0. |
| `c47_overflow_violated` | With wrapping address sums the check declares overlapping buffers disjoint. |
| `c50_in_place_violated` | C50 is false for a conversion in place between tensors with different strides: the check compares the pointers only for equal element types, so it accepts the call, and an element is overwritten before it is read. |
| `c51_uncut_dim_violated` | The code violates C51 when a dimension of more than one element is not cut: tensor 2x4 moved in two tiles of 2x2 puts the second tile at the wrong place. |
| `c52_order_violated` | The code violates C52 for an iteration order other than the natural one: the increments are stored by axis and read by iteration level (tensor 4x6, tiles 2x2, inner dimension first: the second tile starts at element 2, the buffer offset is 12). |
| `c52_reset_violated` | `Reset()` in the middle of a pass does not reset the buffer offset. |
| `c52_second_pass_violated` | The same for an inner uncut dimension: after a complete pass the buffer offset is 1, not 0, and every further pass adds one more. |
| `c52_skip_uninitialised_violated` | With a skipped iteration dimension (order `kSkipIterDim`) `Next()` reads uninitialised members. |
| `c52_uncut_dim_violated` | The code violates C52 when a dimension of more than one element is not cut (one tile along it): moving to the second tile along the other dimension adds the stride of the uncut dimension to the buffer offset. Tensor 4x4, tiles 4x2: the second tile starts at element 2, the buffer offset is 6. |
| `c53_sigmoid_violated` | Sigmoid is not monotone: far below the range of the table the value oscillates between the first two entries, and tanh does the same far above it. |
| `c55_accumulator_violated` | An 8-bit window of 33 by 33 elements overflows the 32-bit accumulator: the behaviour of the kernel is undefined although its check accepts the parameters. |
| `c55_rounding_violated` | In round-up mode the rounding constant is added with saturation: the mean of 1024 elements equal to 127, stored with one fractional bit less, is 63.5; 63 is stored instead of 64. |
| `c56_depthwise_violated` | C56 fails for `DepthwiseConv2d::Issue`: batch elements after the first are never written. 1 by 1 kernel with weight 1, input batch 5, 6; the output should become 5, 6. |
| `c57_check_violated` | An input with fewer channels than the weights should be refused; the check divides by zero, for well-formed tensors. |
| `c58_axis_violated` | `axis = -2` with a slope tensor of ones passes the check; the kernel then reads `shape[-2]`. |
| `c58_sa8_violated` | SA8 with an input scale of 1, a slope of 1/1024 and an output scale of 1/131072: element -1 should become -128 and becomes -32. |
| `c58_stride_violated` | The slopes 32/128 and 64/128 lie at addresses 0 and 2; the kernel takes what lies at address 1 for the second slope: -10 becomes -8 and not -5. |
| `c58_tie_violated` | Rounding mode UP: -32768 times -1/65536 is one half, which is to be rounded up to 1; the kernel gives 0. |
| `c60_accumulator_violated` | If the scale of the output is much larger than that of the input, its zero point alone fills the accumulator: a window of 3 by 3 elements overflows it. |
| `c60_constant_violated` | With the 8-bit multiplier of the default build, the mean of 29 elements equal to 120 is stored as 121, although input and output have the same scale and zero point. |
| `c60_offset_violated` | With an input scale of 1024 output scales, the zero point of the input does not fit the 16-bit offset: a window over the element 100, which is the zero point of the input and stands for 0, gives 127 instead of the zero point 5 of the output, for either width of the multiplier. |
| `c60_ratio_violated` | With an input scale of 129.5 output scales, a 1 by 1 window over the element 0 (input zero point 1, output zero point 127) should give 127 - 129.5 = -2.5; -4 is stored with the 8-bit multiplier, further away than the bound allows. |
| `c61_channel_violated` | C61 does not hold for zero points that differ between outputs: the first one, here 1, is used for all of them. |
| `c61_encoding_violated` | C61 does not hold for zero points encoded by `EncodeWeightsAndZeroPts`: they take one byte each, but are read as 16-bit values. A single zero point 3 makes the kernel read past the end of the encoded weights. With zero point 1 for each of four outputs, the kernel subtracts 257. |
| `c63_fx8_violated` | C63 fails for 8-bit fixed point: whatever the input, every element of the output is 0 (all slices of at most 16909320 elements). |
| `c63_overflow_violated` | C63 fails for more than 65538 elements: the softmax of a tensor of 65539 or more equal 16-bit elements overflows its 32-bit sum (undefined behaviour), for any shape. |
| `c64_axis_violated` | C64, the axis: an axis of -2 or less passes the checks, but the kernel then reads outside of the array of sizes. |
| `c65_bias_overflow_violated` | C65 fails for 8-bit weights when the bias and the products exceed 32 bits together, here a bias of 127 with a shift of 24 bits and four products: the accumulator overflows, although the fully connected kernel adds the same bias with saturation. |
| `c65_sa8_overflow_violated` | C65 fails for 8-bit calls with a bias close to the limits of 32 bits: one product is enough for an overflow. |
| `c65_shift_violated` | C65 fails for 16-bit calls whose product has more than 39 fractional bits more than the output: the shift is limited to 39, and the sum of 1024 products of `2^30` gives 2 instead of 1. |
| `c66_capacity_violated` | C66 fails for large outputs: the sizes are multiplied in 32 bits, so that a call with `2^30` outputs of 4 bytes each, `2^32` bytes in all, passes the check with an output tensor of 4 bytes. |
| `c66_dim_violated` | C66 fails for 8-bit weights whose quantized dimension is below -1: the call is accepted, but has no result. |
| `c67_dim_violated` | C67 fails for 8-bit weights whose quantized dimension is below -1: the call is accepted, but has no result. |
| `c67_scale_violated` | C67 fails for 8-bit weights with a single scale: `exGruQ1` and `exGruQ3` give the same numbers to the weights, and both calls are accepted, but with the single scale the new information is computed with about a quarter of the weights, and the outputs differ. |
| `c68_fraction_violated` | ADD reads the numbers of fractional bits of the tile tensors, which the constructor does not set: with `4` in the memory that the object is created in, the result of `2 + 2` is 64. |
| `c68_order_violated` | With an iteration order other than that of the dimensions the offsets of the tiles are given in the order of the iteration. The caller's loop moves other elements than those of the tile: here element 3 is never written, although all calls succeed. |
| `c68_scalar_violated` | A scalar is read when the object is created; a value that the caller writes to its buffer before `Issue` is not used. |
| `c69_buffer_violated` | The last input tile can be larger than the sizes of the first and of the other tiles, from which the callers compute the size of the local buffer: 2 windows of 2 rows with stride 2 on 5 rows in tiles of one output row. The caller's copy of the last tile goes beyond a buffer of 2 rows. |
| `c69_bytes_violated` | The sizes of the kernel are kept in bytes: the maximum over a window of 257 rows is that of the first row. |
| `c69_last_tile_violated` | Windows of 5 rows with padding 2 on 5 rows, in tiles of 2 output rows. The last tile has one output row, but two rows of windows go beyond the end of the input. The kernel then writes before the start of the output tile: undefined behaviour with the tile at the start of its buffer, and another value of the buffer is changed if there is something before the tile. |
| `c69_order_violated` | With an iteration order other than that of the dimensions the offsets of the tiles are those of other dimensions: 2 by 2 elements in tiles of one row, with the columns before the rows in the order; the last element of the output is never written. |
| `c69_sum_padding_violated` | `SumPool2D` with windows of 3 rows and padding 1 in tiles of one output row. The input of the second tile starts at row 0 too, and `Update` keeps the top padding for it: the sum for row 1 is 3 instead of 6. |
| `c69_width_violated` | `MaxPool2D::Issue` with elements that are neither 8 nor 16 bits wide returns OK and does nothing. |
| `c70_batch_violated` | With tiles of two batch elements only the first one is computed. `Conv2d` reports both, so that the caller copies what the local buffer held before; `DepthwiseConv2d` reports one, and the other one is never written. |
| `c70_conv2d_zero_point_violated` | `Conv2d` with a zero point of the weights other than 0; the first element, where the window goes beyond the input, differs from the sum. |
| `c70_group_violated` | With tiles of two groups `Conv2d` only computes the first one. |
| `c70_group_weights_violated` | With two groups and tiles of one group the weights stay at the first group, because the weights are only advanced with the output channels: the second element is `4 * 5` instead of `4 * 6`. |
| `c70_zero_points_violated` | `DepthwiseConv2d` uses the zero point of the first channel of the tile for all of its channels: the second channel of the first element is 1 instead of 2. |
| `c71_clip32_values_violated` | And if the buffer is larger, the limits are wrong: the encoder writes the low byte of each limit only, behind each other. Here the limits -1000 and 1000 of the user become 59416 and 0. |
| `c71_clip32_violated` | CLIP for elements of 32 bits reads two integers of four bytes, but the encoded buffer has the size of two bytes: the reads are out of bounds. |
| `c71_prelu_tensor_violated` | PRELU with one set of parameters (axis -1) for a tensor with two channels. The encoder writes the arrays without gaps, the kernel expects room for two elements in each: it reads the positive scale (5) where the bytes of another array are, and so on. |
| `c72_captured_violated` | A single set of RESCALE parameters is read when the kernel is created. Here the caller's copy of the scale 3 comes after this, and the kernel uses the 0 that was there before: the result is 0 in place of 3 * 100. |
| `c72_prelu_overflow_violated` | PRELU computes `x - b_in` in `int32_t` without a check; for `x = -2^31` and `b_in = 1` it overflows. |
| `c72_prelu_sizes_violated` | For all element sizes other than 32 bits to 8 bits, PRELU reports success and writes nothing. |
| `c73_permute_16_violated` | For elements of 16 bits PERMUTE reports success and writes nothing. |
| `c73_permute_order_violated` | PERMUTE of a 2x2 tensor in tiles of one element with the dimensions exchanged. Input and output iterators both visit dimension 0 first, so the tiles do not correspond: all calls succeed and the output is the input, not its transpose. |
| `c73_reduce_max_first_violated` | The constructor of reduce-max gives the tiles the shape of the whole tensors. With local buffers of the size of a tile (as in the user tests) the first call of `Issue` reads and writes outside of them. Reduce-sum works for the same buffers. |
| `c74_narrow_tile_violated` | 2x1 times 1x3 with the columns in tiles of two. The second tile has one column; the kernel writes its two elements side by side instead of into different rows of the local buffer, so the element (1, 2) of the output is not 9. |
| `c74_right_position_violated` | The kernel reports the position of the left tile for the right input. With the rows tiled as above, a caller that uses the reported position reads behind the right matrix in the second round (here nothing follows it). The user test replaces the position by zero. |
| `c75_order_violated` | Nor does it keep the order of the dimensions: the convolution goes through the rows first, RESCALE and CLIP through the batch. |
| `c75_skew_violated` | With a first tile that is smaller than the others (skew) the iterator without the group leaves the iterator of the convolution: the second tile of the convolution has two batch elements from element 1, that of RESCALE and CLIP has two from element 2. Hence the condition that the tiles have no skew. |
| `c76_empty_violated` | For a tensor without elements (a dimension of 0) and for negative strides the reported size is close to 2^32. |
| `c76_last_tile_violated` | The code violates C76 for the input tiles of a strided kernel: the last tile reaches to the end of the tensor and can be larger than the regular one, which alone is looked at. Input of 6 rows of 2, kernel 1, stride 3, one output row per tile: the last tile has 3 rows, the reported buffer 1. |
| `c76_order_violated` | The code violates C76 for an iteration order other than the natural one: sizes are read by iteration level and strides written by tensor dimension. A 4x6x8 tensor in tiles of 2x3x4, iterated in the order 1, 2, 0: all strides get tile sizes of other dimensions, and two elements of one tile share a place. |
| `c76_wrap_violated` | The code violates C76 for tensors that span more than 2^32 elements: the reported size is the remainder (a tensor of 2x2 elements with a row stride of 2^31 - 1 is still right, three rows report 0 elements). |
| `c77_clip_violated` | A shrunk iterator no longer limits a middle tile to the rows that the tensor has: in a convolution with 5 taps and 2 rows of padding the second tile has 6 rows, with the shrunk iterator 7. |
| `c77_size_violated` | The size is not that of `nTiles` tiles when the first dimension of the tensor is not the last one of the iteration: two tiles of 36 elements get 288 elements, more than the whole tensor has. |
| `c77_stride_violated` | With two tiles and a stride larger than the kernel the ring is too small: rows 0 and 4 are held at the same time, and share their place. |
| `c78_overlap_violated` | A kernel larger than the stride, height in two tiles. The output tiles overlap in two rows, and what the first tile adds there is overwritten by the second: rows 3 and 4 are 4 and 9 instead of 9 and 12. In one tile they are right. |
| `c78_zero_point_violated` | A zero point of the weights other than 0, in one tile. All weights are equal to it, so that all sums should be 0; it is as if the zero point were 0. |
| `c80_nop_violated` | The property is false for the no-operation: its compile-time class reports 0 bytes, which is too little for any object. |
| `c80_resize_violated` | The property is false for the bilinear resize: its compile-time class exists, but no memory is enough to get an object. |
| `c85_empty_violated` | C85 fails for the size 0: the call reports success, the result is a tensor the library refuses. |
| `c85_float_violated` | C85 fails for floating-point tensors: the call reports success, the data pointer is no address of the tensor. |
| `c85_rank_violated` | C85 fails for results with more than one dimension: every call with fewer coordinates than dimensions is refused. |
| `c86_input_axis_violated` | C86 fails for the input zero points of a convolution (and a transposed convolution): the number of channels is read from the group dimension, so one zero point for each of several channels is refused, for all inputs with one group. |
| `c86_size_violated` | C86 fails for a buffer of the size that `GetEncodedWeightsSize` reports: the zero points are written behind it. |
| `c86_window_violated` | C86 fails for a weights tensor that is a window of its buffer: `EncodeWeights` reads behind the buffer. |
| `c87_wrap_violated` | When the last tile needs nothing new (here a kernel of size 5 with post-padding), its remaining size is negative and wraps around to almost 2^32 elements. |
| `c88_cycle_violated` | For a cyclic permutation the tensor and its tiles are transposed in opposite directions. Dimension `a` of the transposed tensor is dimension `no[a]` of the original; the tiles along dimension `d` of the original become tiles along `no[d]`. Here 2 tiles of 1×3×4 become tiles with 3 elements along a dimension of 2. |
| `c89_buffer_size_violated` | The size of the buffer, which counts bytes, is scaled as if it counted elements. |
| `c89_drift_violated` | Seen by a caller that adds up the increments: after every pass the position along the converted dimension is one vector further. |
| `c89_last_increment_violated` | After the conversion of any tiling with more than one tile along the dimension, to units of two or more bytes, the last increment is one unit too large: a caller of `Next(pos_inc)` does not come back to the start. |
| `c89_offset_violated` | The position of a sub-tensor is not converted: the tensor of the second half of the first row (bytes 4 to 7) becomes the one of vector 4, bytes 16 to 19. |
| `c89_stride_violated` | An outer stride that is a whole number of vectors, but not of rows, is rounded down: the second plane of a 2×2×4 tensor with rows of 8 and planes of 20 bytes is looked for at byte 16. |
| `c91_sa32_violated` | For `SA_32` the number is not always the nearest one: the element is rounded before it is multiplied. |
| `c92_overflow_violated` | C92 is false for elements that are too large: instead of the limit of the type the result is undefined, because the quotient is converted to a 32-bit integer before it is limited. Here `2^24` is converted to 8 bits with 7 fractional bits; infinities and NaN are the same. |
| `c96_argmax_rank_violated` | An output with one dimension passes in the argmax kernel if the caller left the number of positions behind the only size; the call succeeds, although the documented shape is `[1, 1]`. |
| `c96_bias_scale_violated` | A bias with a scale 2^32 times smaller than the product of the scales of input and weights is accepted, because the expected scale is computed modulo `2^32`. |
| `c96_prelu_rank_violated` | A slope tensor with one dimension passes for an input with two dimensions if the caller left a 1 behind the only size, and the call succeeds; the documented shape is `[2, 1]`. |
| `c96_window_violated` | The size of the output times the stride is computed in 32 bits: a pooling of 4 elements into `2^29` elements with stride 8 is accepted. |
| `c97_capacity_violated` | The capacities of the parameter arrays are not reduced when their start is moved, so the sub-tensor claims memory behind the end of the arrays (and a function that fills the parameters of this tensor relies on it). |
| `c97_dropped_violated` | When the quantized dimension is one of the dimensions of size 1 that the sub-tensor drops, the parameters are not turned into the parameters of the selected index: no number can be read off the sub-tensor, and every function that checks the parameters refuses it, although each of its elements stands for a number in the parent. |
| `c97_pointed_violated` | With per-axis quantization the deprecated `mli_hlp_point_to_subtensor` copies the parameters as they are: a fragment that starts at index 1 is read with the parameters of index 0. |
| `c98_per_tensor_violated` | For per-tensor quantization the three values are copied but not the capacities, which are 0 in the input: an output tensor that was per-axis before keeps its capacities, and every function that checks the parameters refuses it. |
| `c99_dim_violated` | The documentation and the checks of the kernels take any negative quantized dimension for per-tensor quantization, the data movement only -1: with another negative value it indexes the configuration in front of its arrays. |
| `c99_padding_violated` | Padded samples are zeros, not the zero point: in a per-tensor quantized tensor with zero point 3 and scale 1 the padding stands for -3 (the documentation: "Padded samples are set to zero"). |

Seen while reading, without a theorem:

* `mli_hlp_convert_tensor`: the status of the floating-point path is discarded (mli_helpers.cc:287); an output scale of 0 divides by zero.
* `Prelu_CS::GetParamsBufferSize` reports 0; `Rescale_CS::EncodeParams` is declared with another order of arguments than it is defined with.
* `MatMul_CS::EncodeParams` asserts `a == b == 1`, which compares a truth value with 1.
* `PerfEstimator::Create` returns a null pointer. There is no run-time class for arg-max, table and bilinear-resize objects, although identifiers exist.
* `IteratorCfg::set_config` reads private members of another instantiation of the template; it does not compile when used with different ranks.
* The pooling kernels read `params` (default `nullptr`) before the assertion that it is not null.
* `mli_hlp_...` functions that fill move configurations read four entries of each array, whatever the rank.
* `FullyConnected::Update` does nothing, so the object cannot be used for more than one tile.
* The run-time tests of convolutions copy the weight zero points without the channel offset of the tile; `mli_krn_matmul_30` passes the zero point of the first input for both.

## Trusted base

* Lean 4.33.0 kernel; axioms `propext`, `Classical.choice`, `Quot.sound` only (checked with `#print axioms`). No `sorry`, no own axioms, no `native_decide`/`bv_decide`.
* The correspondence between the C++ text and the definitions in `Verif/Model` (by reading; nothing was compiled).
* The meaning of C++ assumed in "Modelling conventions" (two's complement, arithmetic shift, wrap on narrowing), and a little-endian 32-bit-`int` host for encoded parameters (C71).

### Not modelled

* The optimised back-ends for ARC processors: all `*_dsp.h`, `*_vdsp.h`, `lib/src/pal/dsp`, `lib/src/pal/vdsp`. They rest on intrinsics whose meaning is not in the repository. Theorems say nothing about them.
* Payloads of NaN. `float` occurs only in the conversion to and from FP_32; it is modelled with IEEE 754 binary32, rounding to nearest, without excess precision (Model/Float.lean).
* Layout of objects in memory: `sizeof`, padding, virtual tables, alignment of parameter pointers (a misaligned `int32_t*` is not an error in the model), caches, and DMA hardware (the move functions are the reference `memcpy` versions; events and callbacks of `mli_mov_api.cc` are modelled in `Dma`).
* Compiler-side objects beyond the data they produce: constructors copy arguments, and are modelled as the functions from arguments to private data that the run-time object reads.
* `include/mli_perf_estim.hpp`, `lib/src/private/src/mli_perf_estim.cc`, `mli_platform_desc.hpp`, `mli_sync_interface.hpp`, `mli_debug.h`: estimates, descriptors, debug output.
* Debug-only checks (`MLI_ASSERT`, `assert`): they are no-ops in the modelled configuration.
