{"id": "C01", "title": "Saturating add and subtract are exact up to clamping", "statement": "The saturating addition and subtraction used for every element value of the fixed-point kernels return the mathematically exact sum/difference clamped to the range of the element type, and never overflow internally.", "quantifier": "all pairs of operands of every signed width (8/16/32/64 bits)", "why_tests_cant": "2^64..2^128 operand pairs; overflow guards are only exercised at the extreme corners.", "anchors": ["lib/src/pal/ref/mli_math.h: mli_math_add_fx, mli_math_sub_fx"]}
{"id": "C02", "title": "Left shift saturates to the exact scaled value", "statement": "Scaling a value up by a power of two yields x*2^n clamped to the element type for every shift amount, including amounts at or beyond the type width, and a negative amount divides by 2^n rounding towards minus infinity.", "quantifier": "all values of every width and all shift amounts", "why_tests_cant": "Shift amounts come from arbitrary differences of fractional-bit parameters; edge amounts (width-1, width, beyond) are rarely hit.", "anchors": ["lib/src/pal/ref/mli_math.h: mli_math_asl_fx, mli_math_asr_pos_nbits_fx, mli_math_asr_fx"]}
{"id": "C03", "title": "Convergent right shift is round-half-to-even", "statement": "In the convergent rounding configuration, scaling down by 2^n returns the integer nearest to x/2^n with ties going to the even integer, for every x and every n >= 0; a negative n scales up with saturation.", "quantifier": "all values of every width and all shift amounts", "why_tests_cant": "Ties and n >= width cases are a vanishing fraction of inputs.", "anchors": ["lib/src/pal/ref/mli_math.h: mli_math_asr_rnd_fx (ROUND_MODE_CONVERGENT)"]}
{"id": "C04", "title": "Round-up right shift is round-half-up", "statement": "In the round-up configuration, scaling down by 2^n returns floor(x/2^n + 1/2) for every x and n >= 0 (the correctly rounded value always fits the type, so no saturation is involved). The fractional 32-bit multiplication rounds L*R/2^31 the same way.", "quantifier": "all values of every width and all shift amounts", "why_tests_cant": "The only wrong inputs are the top 2^(n-1)-1 values of the type.", "anchors": ["lib/src/pal/ref/mli_math.h: mli_math_asr_rnd_fx (ROUND_MODE_UP); mli_math_mul_fx_high"]}
{"id": "C05", "title": "Narrowing casts saturate and round, never wrap", "statement": "Every conversion of a wider intermediate to an element type (8/16/32 bit results of kernels) equals the correctly rounded, scaled value clamped to the destination range; a large positive value can never come out negative.", "quantifier": "all source values of every source/destination type pair used by the kernels and all shift amounts", "why_tests_cant": "Wrap-around occurs on isolated out-of-range intermediates that sample data does not reach.", "anchors": ["lib/src/pal/ref/mli_math.h: mli_math_cast_fx, mli_math_acc_cast_fx, mli_math_sat_fx"]}
{"id": "C06", "title": "Narrowing casts are monotone", "statement": "If x <= y then converting x and y with the same shift yields results in the same order, so kernels built from add/max/cast preserve ordering of their inputs.", "quantifier": "all pairs of source values, all shift amounts", "why_tests_cant": "A property of pairs over a 2^64 domain.", "anchors": ["lib/src/pal/ref/mli_math.h: mli_math_cast_fx, mli_math_asr_rnd_fx, mli_math_asl_fx"]}
{"id": "C07", "title": "Normalisation keeps the value and uses the whole range", "statement": "Normalising a value (used for all scale factors) returns a shift count s and a mantissa m such that m is the value scaled by 2^-s with correct rounding/saturation, the count of redundant sign bits is exact, and for non-zero inputs the mantissa has no redundant sign bit (or is saturated).", "quantifier": "all values of the source type", "why_tests_cant": "The bit-search loop must terminate and be exact for each of 2^32/2^64 values.", "anchors": ["lib/src/pal/ref/mli_math.h: mli_math_norm_fx, mli_math_norm_cast_fx"]}
{"id": "C08", "title": "Tensor acceptance implies in-bounds elements", "statement": "If the tensor check accepts a tensor, then for every multi-index inside its shape the addressed element lies completely inside the tensor's data buffer (offset*element size + element size <= capacity), for every rank up to the maximum.", "quantifier": "all tensor descriptors (rank, shapes, strides, capacity, element size) and all multi-indices", "why_tests_cant": "Descriptors range over 2^256 combinations; the check does 32-bit arithmetic that can wrap.", "anchors": ["lib/src/private/src/mli_check.cc: check_tensor_private, mli_chk_tensor", "include/mli_types.h: mli_tensor"]}
{"id": "C09", "title": "Accepted tensors do not alias their own elements", "statement": "If the tensor check accepts a tensor, two different multi-indices inside its shape never address the same element, so writing one element never changes another.", "quantifier": "all accepted tensor descriptors and all pairs of multi-indices", "why_tests_cant": "A pairwise property over unbounded shapes.", "anchors": ["lib/src/private/src/mli_check.cc: check_tensor_private"]}
{"id": "C10", "title": "Tensor check is exactly its documented decision", "statement": "The tensor check returns OK exactly when the rank is at most 4, every stride is positive, every dimension is in 1..2^31-1, strides are non-overlapping from inner to outer dimension and the buffer is large enough; otherwise it returns the documented error code (bad tensor / not enough memory).", "quantifier": "all tensor descriptors", "why_tests_cant": "Decision procedure over an unbounded descriptor space.", "anchors": ["lib/src/private/src/mli_check.cc: check_tensor_private"]}
{"id": "C11", "title": "Element count is the product of dimensions", "statement": "The element-count query returns the product of the dimensions from the given start dimension whenever that product is below 2^32; for accepted tensors with memory for all elements it never wraps.", "quantifier": "all shapes of all ranks, all start dimensions", "why_tests_cant": "Wrap-around needs shapes whose product exceeds 2^32.", "anchors": ["lib/src/helpers/src/mli_helpers.cc: mli_hlp_count_elem_num", "lib/src/private/mli_prv_tensor.h: mli_prv_count_elem_num_part"]}
{"id": "C12", "title": "Sub-tensor creation is a window into the parent", "statement": "For every accepted configuration, element (i0,..) of the created sub-tensor is element (offset0+i0,..) of the parent, dropped/merged dimensions included; every element of the sub-tensor lies inside the parent's buffer.", "quantifier": "all parents, all offset/size/rank configurations, all sub-tensor indices", "why_tests_cant": "Address arithmetic over unbounded shapes and strides; the acceptance check adds two unsigned numbers that can wrap.", "anchors": ["lib/src/helpers/src/mli_helpers.cc: mli_hlp_create_subtensor", "lib/src/private/src/mli_check.cc: mli_chk_create_subtensor"]}
{"id": "C13", "title": "Permute moves every element to its permuted place", "statement": "After permute, output element (j0..j3) equals the input element whose coordinate along dimension perm[k] is j_k, for every input, every stride layout and every permutation; nothing outside the output tensor's elements is written and no read or write leaves the buffers.", "quantifier": "all inputs, ranks, shapes, strides and permutations", "why_tests_cant": "The kernel walks with precomputed increments whose correctness depends on all shapes at once.", "anchors": ["lib/src/kernels/diverse/impl/mli_krn_permute_ref.h: mli_krn_permute_calc, mli_krn_permute_run"]}
{"id": "C14", "title": "Permute by a permutation and then its inverse is the identity", "statement": "Permuting with P and then with the inverse of P reproduces the original tensor.", "quantifier": "all tensors and all permutations", "why_tests_cant": "Quantifies over all tensors and composition of two calls.", "anchors": ["lib/src/kernels/diverse/impl/mli_krn_permute_ref.h"]}
{"id": "C15", "title": "Data movement implements copy/slice/concat/subsample/permute/pad", "statement": "After a data movement, each destination element inside the written region equals the source element given by the configured offset, subsampling and permutation, or the pad value when that coordinate falls in the padding area.", "quantifier": "all source tensors, all configurations (offset, size, subsample, dst offset, permutation, padding) and all coordinates", "why_tests_cant": "Configuration space is unbounded in nine 4-vectors.", "anchors": ["lib/src/move/impl/mli_mov_ref.h: mov_inner_loop, mli_mov_basic_operation, mli_mov_prepare_run", "lib/src/move/mli_mov_api.cc: mli_mov_prepare"]}
{"id": "C16", "title": "Data movement writes only the destination window", "statement": "A data movement changes only those destination elements that belong to the window [dst_offset, dst_offset+size) of the destination; everything else in the destination buffer keeps its value, and no access leaves the source or destination buffers.", "quantifier": "all sources, destinations and configurations", "why_tests_cant": "Frame property over all addresses.", "anchors": ["lib/src/move/impl/mli_mov_ref.h"]}
{"id": "C17", "title": "The contiguous fast path of data movement is invisible", "statement": "Whether or not the library decides that a movement can be done as one flat transfer, the destination content is the one defined by the configuration.", "quantifier": "all sources, destinations and configurations", "why_tests_cant": "The shortcut is taken on a coincidence of shapes that tests do not enumerate.", "anchors": ["lib/src/move/mli_mov_api.cc: mli_mov_prepare"]}
{"id": "C18", "title": "DMA channels are never owned by two handles", "statement": "Over any sequence of acquire/release calls, the channel sets of the live handles are pairwise disjoint and inside the configured pool.", "quantifier": "all call histories of pool configuration, acquire and release, with any channel counts", "why_tests_cant": "A safety invariant over unbounded histories.", "anchors": ["lib/src/move/mli_mov_api.cc: mli_mov_set_num_dma_ch, mli_mov_acquire_handle, mli_mov_release_handle"]}
{"id": "C19", "title": "DMA channel allocation succeeds exactly when a contiguous run is free", "statement": "Acquiring n channels succeeds iff the pool contains n consecutive free channels, and releasing everything makes the whole pool acquirable again (no leak).", "quantifier": "all pool states reachable by any history and all n", "why_tests_cant": "Completeness over all reachable allocation patterns.", "anchors": ["lib/src/move/mli_mov_api.cc: mli_mov_acquire_handle, mli_mov_release_handle"]}
{"id": "C20", "title": "Transfer callbacks belong to the handle that registered them", "statement": "Starting a transfer on a handle calls the callback registered by the current owner of that handle, exactly once, after the data is in place, and never a callback registered by an earlier owner of the same channel.", "quantifier": "all call histories of acquire/register/start/release", "why_tests_cant": "Needs a particular history of reuse of a channel.", "anchors": ["lib/src/move/mli_mov_api.cc: mli_mov_registercallback, mli_mov_start, mli_mov_release_handle"]}
{"id": "C21", "title": "Tiles partition the tensor", "statement": "For the tiling configuration built from a tensor shape and a tile size, the tiles along each dimension cover every coordinate exactly once, lie inside the tensor, and are non-empty.", "quantifier": "all tensor shapes, tile sizes and skews", "why_tests_cant": "Off-by-one errors depend on remainders of arbitrary sizes.", "anchors": ["include/mli_iterator.hpp: IteratorCfg(Tensor, tile_size, order), TensorIterator::GetSubTensor"]}
{"id": "C22", "title": "Tile iteration visits every tile exactly once and restarts", "statement": "Calling next from the start visits each tile of the grid exactly once, signals completion exactly at the last one, and leaves the iterator in its initial state so that a second pass is identical.", "quantifier": "all ranks, all tile counts, all numbers of steps", "why_tests_cant": "Termination and exactly-once over unbounded grids.", "anchors": ["include/mli_iterator.hpp: TensorIterator::Next, Reset, GetTotalCount"]}
{"id": "C23", "title": "Tile increments return to the start", "statement": "For each dimension the sum of all position increments over one full pass (first, middle, last) is zero, so accumulated buffer offsets never drift between passes.", "quantifier": "all tilings and any number of passes", "why_tests_cant": "Drift only shows after full passes with particular remainders.", "anchors": ["include/mli_iterator.hpp: IteratorCfg, TensorIterator::Next(pos_inc)"]}
{"id": "C24", "title": "Tile-variant index identifies the tile size", "statement": "Two tiles with the same update index have the same size in every dimension, so a descriptor prepared for one is valid for the other.", "quantifier": "all tilings and all pairs of tiles", "why_tests_cant": "Pairwise over unbounded grids, several coding cases.", "anchors": ["include/mli_iterator.hpp: TensorIterator::get_update_idx, IteratorCfg::CalcDiffCode"]}
{"id": "C25", "title": "Input tiles of a sliding-window kernel contain the receptive field", "statement": "For every output tile, the input tile produced for a kernel with given effective size, stride and padding lies inside the input and contains every input coordinate that some output coordinate of the tile looks at; it starts exactly at the first needed coordinate and, except for the last tile along a dimension (which runs to the end of the tensor), ends exactly at the last needed one (both clipped to the tensor).", "quantifier": "all output tilings, kernel sizes, strides, dilations, paddings and tiles", "why_tests_cant": "Depends on remainders of several unbounded parameters at once.", "anchors": ["include/mli_iterator.hpp: IteratorCfg(IteratorCfg, Tensor, effective_kernel_size, stride, pre_padding)"]}
{"id": "C26", "title": "Tensor views address the same elements", "statement": "Slicing, transposing, splitting and combining dimensions of a tensor descriptor produce a view whose elements are the corresponding elements of the original tensor; transpose by a permutation and its inverse is the identity.", "quantifier": "all tensors, positions, sizes, permutations and split factors", "why_tests_cant": "Address equations over unbounded shapes.", "anchors": ["include/mli_types.hpp: Tensor::slice, transpose, split, combine, get_offset"]}
{"id": "C27", "title": "Contiguous tensors address [0,n) bijectively", "statement": "A tensor constructed from a buffer and a shape alone (contiguous strides) maps its multi-indices one-to-one onto 0..n-1 where n is the number of elements.", "quantifier": "all shapes of all ranks", "why_tests_cant": "Bijection over unbounded index sets.", "anchors": ["include/mli_types.hpp: Tensor(buf, shape)", "lib/src/helpers/src/mli_helpers.cc: mli_hlp_set_tensor_mem_strides"]}
{"id": "C28", "title": "Activation lookups never leave the table", "statement": "Every table-driven activation (sigmoid, tanh, softmax exponent, ...) reads only valid entries of its lookup table for every input value and every fractional-bit setting, provided the table has at least the documented minimum length.", "quantifier": "all input values, fractional bits, table lengths, offsets", "why_tests_cant": "Index depends on shifts by arbitrary parameters.", "anchors": ["lib/src/bricks/impl/mli_prv_lut_ref.h: activation_lut_one_elem_interpolate, activation_lut_one_elem_no_interpolate"]}
{"id": "C29", "title": "Interpolated activations stay between neighbouring table entries", "statement": "The interpolated activation value lies between the two table entries it interpolates (no overshoot), and equals the table entry when the fractional part is zero.", "quantifier": "all inputs and all tables whose neighbouring entries differ by less than 2^15", "why_tests_cant": "Rounding of every product must be considered.", "anchors": ["lib/src/bricks/impl/mli_prv_lut_ref.h: activation_lut_one_elem_interpolate"]}
{"id": "C30", "title": "ReLU clamps each element to its limits and touches nothing else", "statement": "ReLU/ReLU1/ReLU6 outputs min(max(x, lo), hi) at every element with the limits that correspond to 0, +-1, 6 in the tensor's quantisation, works in place, is idempotent and monotone, and writes only output elements.", "quantifier": "all inputs, strides, shapes, quantisation parameters", "why_tests_cant": "Limits are computed by saturating conversions of arbitrary scale parameters.", "anchors": ["lib/src/kernels/transform/impl/mli_krn_relu_ref.h", "lib/src/private/mli_prv_tensor.h: mli_prv_get_relu_limits"]}
{"id": "C31", "title": "Fixed-point element-wise arithmetic is exact up to rounding and clamping", "statement": "For fx tensors, element-wise add/sub/mul/min/max return the exact real result of the operation on the represented numbers, rounded once to the output format and clamped.", "quantifier": "all operand values and fractional bits in the documented range", "why_tests_cant": "Product of operand and format domains.", "anchors": ["lib/src/kernels/eltwise/impl/mli_krn_eltwise_ref.h: eltwise_perform_operation, calc_convert_params"]}
{"id": "C32", "title": "Element-wise kernels traverse every element once, with scalar broadcast", "statement": "Element-wise kernels compute out[i] = op(a[i], b[i]) for each multi-index i, a one-element operand acts as a constant operand for all i, and nothing else is written.", "quantifier": "all shapes, stride layouts and operand values", "why_tests_cant": "Traversal shortcuts (dimension squashing) depend on stride coincidences.", "anchors": ["lib/src/kernels/eltwise/impl/mli_krn_eltwise_ref.h: eltwise_op_basic, eltwise_prepare_and_run", "lib/src/private/mli_prv_tensor.h: mli_prv_squash_generic_tensor, mli_prv_squash_tensor_to_one_dim"]}
{"id": "C33", "title": "Dimension squashing is invisible", "statement": "Merging contiguous dimensions before traversal visits exactly the same multiset of element addresses, paired identically between input and output.", "quantifier": "all shapes and stride layouts", "why_tests_cant": "Depends on coincidences between strides and shapes of two or three tensors.", "anchors": ["lib/src/private/mli_prv_tensor.h: mli_prv_squash_generic_tensor, mli_prv_squash_tensor_to_one_dim"]}
{"id": "C34", "title": "Max pooling is the maximum over the valid window", "statement": "Each max-pool output equals the maximum of the input elements inside the window clipped to the input, each output element is written, and no access leaves the input.", "quantifier": "all inputs, kernel sizes, strides, paddings", "why_tests_cant": "The kernel splits the output into central and border regions; all geometries must be covered.", "anchors": ["lib/src/kernels/pooling/mli_krn_pool_hwc.h", "lib/src/bricks/impl/mli_krn_reduce_max2d_ref.h"]}
{"id": "C35", "title": "Convolution window clipping is exact", "statement": "For every output position the clipped window used by convolution and pooling selects exactly the kernel taps whose (dilated, strided, padded) input coordinate is inside the input - none missing, none outside.", "quantifier": "all input sizes, kernel sizes, strides, dilations, paddings, output positions", "why_tests_cant": "Integer division/rounding corner cases over unbounded parameters.", "anchors": ["lib/src/private/mli_prv_layout.h: mli_prv_valid_area_compensations"]}
{"id": "C36", "title": "Convolution accumulates the exact zero-point corrected sum", "statement": "Without accumulator overflow the convolution accumulator equals sum over valid taps of (x - x_zp)*(w - w_zp) plus bias, i.e. the expanded four-sum computation used by the code equals the defining sum.", "quantifier": "all inputs, weights, zero points, biases, geometries", "why_tests_cant": "Algebraic identity over unbounded sums; border positions use different code.", "anchors": ["lib/src/kernels/convolution/impl/mli_krn_convolution_ref.h: convolution2D", "lib/src/bricks/impl/mli_prv_quant_ref.h: weights_additive, in_additive, zp_additive, bias_additive", "lib/src/bricks/impl/mli_krn_dotprod_ref.h"]}
{"id": "C37", "title": "Dilated convolution with a weights zero point", "statement": "The zero-point correction of a dilated convolution is computed over the same input elements as the dot product, so results with a non-zero weights zero point are correct for every dilation.", "quantifier": "all dilations, inputs, zero points", "why_tests_cant": "Only visible with dilation > 1 and a non-zero weights zero point together.", "anchors": ["lib/src/kernels/convolution/impl/mli_krn_convolution_ref.h: convolution2D (line 109)"]}
{"id": "C38", "title": "Implicit padding equals explicit padding", "statement": "Convolving with implicit padding gives the same result as convolving the input explicitly extended with its zero point and no padding.", "quantifier": "all inputs and geometries", "why_tests_cant": "Relation between two whole runs.", "anchors": ["lib/src/kernels/convolution/impl/mli_krn_convolution_ref.h"]}
{"id": "C39", "title": "Fully connected layer is a matrix-vector product", "statement": "Each fully-connected output is the correctly rounded, clamped value of sum_i (x_i - x_zp)*(w_io - w_zp) + b_o, for every size, absent accumulator overflow; and the accumulator cannot overflow for sizes within the documented guard-bit budget.", "quantifier": "all sizes, inputs and weights", "why_tests_cant": "Sums of unbounded length.", "anchors": ["lib/src/kernels/common/impl/mli_krn_fully_connected_ref.h: inner_product"]}
{"id": "C40", "title": "Arg-max returns the top-k elements in descending order", "statement": "Arg-max over a tensor (or slice) returns k pairwise different element indices whose values are in descending order and such that no unselected element is larger than a selected one.", "quantifier": "all tensors, k, axes", "why_tests_cant": "Heap algorithm correctness over all inputs and sizes.", "anchors": ["lib/src/kernels/diverse/impl/mli_krn_argmax_ref.h: heapify, heap_select_k, heap_sort, fill_dst_array"]}
{"id": "C41", "title": "Rescale computes the biased, scaled, rounded and clamped value", "statement": "Rescale returns clamp(round((x - b_in)*s / 2^k) + b_out) for each element, with the per-axis parameters selected by the element's coordinate.", "quantifier": "all inputs, biases, scales and shifts", "why_tests_cant": "64-bit intermediate corner cases.", "anchors": ["lib/src/kernels/conversion/impl/mli_krn_rescale_ref.hpp"]}
{"id": "C42", "title": "Clip and reductions", "statement": "Clip returns min(max(x,lo),hi); reduce-max returns the maximum along the axis and reduce-sum the exact sum along the axis (absent overflow), for every axis and every position; outputs elsewhere untouched.", "quantifier": "all tensors, axes", "why_tests_cant": "All shapes and axes; axis reordering logic.", "anchors": ["lib/src/kernels/clip/impl/mli_krn_clip_ref.hpp", "lib/src/kernels/conversion/impl/mli_reduce_max_ref.hpp", "lib/src/kernels/conversion/impl/mli_reduce_sum_ref.hpp"]}
{"id": "C43", "title": "Bilinear resize reads inside the input and interpolates convexly", "statement": "Every read of bilinear resize is inside the input and each output is a convex combination (scaled by 2^(2*shift)) of the four neighbours.", "quantifier": "all input/output sizes, strides, offsets, shifts", "why_tests_cant": "Offsets may be negative; clipping of the second neighbour is asymmetric.", "anchors": ["lib/src/kernels/conversion/impl/mli_resize_bilinear_ref.hpp"]}
{"id": "C44", "title": "Matrix multiplication", "statement": "MatMul output (i,j) equals sum_k (A[i,k]-za)*(B[k,j]-zb) for every size and zero point absent overflow of the element and accumulator types.", "quantifier": "all sizes, values and zero points", "why_tests_cant": "Sums of unbounded length; narrowing of the zero-point difference.", "anchors": ["lib/src/kernels/convolution/mli_krn_matmul_ref.hpp"]}
{"id": "C45", "title": "Transpose convolution equals its scatter definition", "statement": "Transposed convolution output (absent overflow) equals the sum over all (input pixel, kernel tap) pairs that map onto that output pixel.", "quantifier": "all inputs, weights, strides, paddings", "why_tests_cant": "The implementation decomposes the kernel into stride*stride mirrored sub-kernels.", "anchors": ["lib/src/kernels/convolution/impl/mli_krn_transpose_conv_ref.h"]}
{"id": "C46", "title": "Re-quantisation parameters represent the scale ratio", "statement": "The (scale, shift) pair computed for a re-quantisation represents in_scale/out_scale with a relative error below the precision of the 16-bit mantissa and never overflows or divides by zero for accepted (positive) scales.", "quantifier": "all positive 16-bit scales and fractional bits", "why_tests_cant": "2^30 scale pairs times shifts; truncation in a normalised division.", "anchors": ["lib/src/bricks/impl/mli_prv_quant_ref.h: define_requant_params"]}
{"id": "C47", "title": "Buffer overlap check is sound", "statement": "If the overlap check says two buffers are not overlapped then no byte address belongs to both.", "quantifier": "all buffer addresses and capacities", "why_tests_cant": "Addresses are truncated to 32 bits in the comparison.", "anchors": ["lib/src/private/src/mli_check.cc: check_two_containers_not_overlapped (containers check)"]}
{"id": "C48", "title": "Broadcast move", "statement": "Broadcast copies each destination element from the source element obtained by replacing coordinates of broadcast dimensions with 0.", "quantifier": "all shapes and coordinates", "why_tests_cant": "All broadcast patterns and shapes.", "anchors": ["lib/src/move/mli_move_broadcast_runtime.cc: MoveBroadcastRun"]}
{"id": "C49", "title": "Average pooling multiplier tables", "statement": "The (multiplier, shift) pair used for division by a window size d represents 1/d with relative error below 2^-14 for every d, and the resulting average never leaves the range spanned by the window values by more than the rounding error.", "quantifier": "all window sizes", "why_tests_cant": "Table entries and a computed branch for all larger sizes.", "anchors": ["lib/src/kernels/pooling/impl/mli_krn_avepool_hwc_ref.h: get_mul_shift_value, calc_mul"]}
{"id": "C50", "title": "Format conversion round trip", "statement": "Converting a tensor between fixed-point formats gives the correctly rounded clamped value, and converting to a format with at least as many integer and fractional bits and back is the identity.", "quantifier": "all values and formats", "why_tests_cant": "Round-trip over all values and formats.", "anchors": ["lib/src/helpers/src/impl/mli_hlp_convert_tensor_ref.h: compute_convert_quantized_data"]}
{"id": "C51", "title": "The runtime Move kernel copies tile by tile", "statement": "Issuing the MLI 3.0 Move kernel copies every element of the current source tile to the same position of the destination tile and changes no other destination byte; issuing it once per tile with Update in between copies the whole tensor, whatever the strides of the two tensors.", "quantifier": "all ranks, shapes, strides, tilings and buffer contents", "why_tests_cant": "Element and tile iteration interact with arbitrary shapes and strides.", "anchors": ["lib/src/move/mli_mov_runtime.cc: Move::Issue, Move::Update", "include/mli_iterator.hpp: BufferIterator, TensorIterator::GetSubTensorIterator"]}
{"id": "C52", "title": "The buffer offset of a tile iterator follows the tile position", "statement": "After any number of Next() and Reset() calls the buffer offset of a tensor iterator is the memory offset of the position of its current tile.", "quantifier": "all iterator configurations, shapes, strides and call histories", "why_tests_cant": "Must hold after every history of Next/Reset for all configurations.", "anchors": ["include/mli_iterator.hpp: BufferIterator, TensorIterator::Next, TensorIterator::Reset"]}
{"id": "C53", "title": "Activations are monotone", "statement": "Sigmoid, tanh and the exponential used by softmax are monotone: a larger input never gives a smaller output.", "quantifier": "all pairs of inputs, all input formats", "why_tests_cant": "All pairs of inputs for all input formats.", "anchors": ["lib/src/bricks/impl/mli_prv_lut_ref.h: activation_lut", "lib/src/private/src/mli_prv_activation_lut.cc"]}
{"id": "C54", "title": "Sum pooling is the exact sum", "statement": "Every output element of sum pooling is the exact sum of the input elements its window covers; nothing else is written.", "quantifier": "all shapes, strides, window geometries and input values", "why_tests_cant": "Window sums over unbounded shapes, and the accumulator must not overflow for any values.", "anchors": ["lib/src/kernels/pooling/mli_krn_sumpool_runtime.cc: SumPool2D::Issue", "lib/src/kernels/pooling/mli_krn_pool_hwc.h"]}
{"id": "C55", "title": "Average pooling divides the window sum by its count", "statement": "Every output element of fixed-point average pooling is the sum of the input elements its window covers (padding excluded), divided by their number and scaled to the output format, rounded once and saturated; nothing else is written.", "quantifier": "all shapes, strides, window geometries, formats and input values", "why_tests_cant": "Unbounded shapes and values, every clipped window.", "anchors": ["lib/src/kernels/pooling/impl/mli_krn_avepool_hwc_ref.h: compute_avepool_func", "lib/src/kernels/pooling/mli_krn_pool_hwc.h"]}
{"id": "C56", "title": "Batch elements are processed independently", "statement": "Running an MLI 3.0 kernel on a batch gives, for every batch element, the result of running the kernel on that element alone, and writes nothing else.", "quantifier": "all batch sizes, batch strides, inputs", "why_tests_cant": "Relation between whole runs for every batch size; strides with gaps are rarely tested.", "anchors": ["lib/src/kernels/pooling/mli_krn_maxpool_runtime.cc: MaxPool2D::Issue", "lib/src/kernels/pooling/mli_krn_sumpool_runtime.cc: SumPool2D::Issue", "lib/src/kernels/convolution/mli_krn_depthwise_conv2d_runtime.cc: DepthwiseConv2d::Issue"]}
{"id": "C57", "title": "Group convolution convolves each filter with the channels of its own group", "statement": "For g groups of kc input channels and n filters, output channel j*n+i of a group convolution is the convolution of filter j*n+i with input channels j*kc .. j*kc+kc-1 only (padding counting as zero), plus bias, requantized to the output format and limited by the built-in ReLU. Calls whose channel counts are not whole multiples are refused with an error status and without a write.", "quantifier": "every accepted shape, number of groups, stride, padding, dilation, kernel size, data and quantization parameters of the fx16, fx16_fx8_fx8 and sa8 kernels", "why_tests_cant": "The group a filter belongs to follows from two integer divisions; a wrong stride or divisor shows only for particular group/filter counts.", "anchors": ["lib/src/kernels/convolution/impl/mli_krn_group_conv2d_ref.h:group_convolution2D", "lib/src/kernels/convolution/mli_krn_group_conv2d_hwcn.cc", "lib/src/private/src/mli_check.cc:mli_chk_group_conv2d_hwcn"]}
{"id": "C58", "title": "Leaky and parametric ReLU", "statement": "Leaky ReLU returns each non-negative element unchanged and each negative element times the slope, rounded and limited to the element type; parametric ReLU does the same with the slope of the element's index along the chosen axis. For SA8 tensors the result is the same function of the real numbers the elements stand for, within 5/8 of an output step. Nothing outside the output elements is written, in-place calls included, and refused calls write nothing.", "quantifier": "every shape, stride, slope, axis, position of the binary point, quantization parameters and data accepted by the fx8, fx16 and sa8 kernels, in both rounding modes", "why_tests_cant": "The slope is normalised and requantized before use, and the traversal is rearranged around the axis, so errors show only for particular slopes, scales and strides.", "anchors": ["lib/src/kernels/transform/impl/mli_krn_leaky_relu_ref.h", "lib/src/kernels/transform/impl/mli_krn_prelu_ref.h", "lib/src/private/src/mli_check.cc:mli_chk_leaky_relu", "lib/src/private/src/mli_check.cc:mli_chk_prelu"]}
{"id": "C59", "title": "Element-wise arithmetic of SA8 tensors is accurate", "statement": "For SA8 tensors, element-wise multiplication, maximum and minimum return the operation on the real numbers the elements stand for, in the format of the output, within 3/5 of an output step and limited to 8 bits; addition and subtraction within one step plus 2^-13 of the magnitudes of the two operands. Nothing outside the output elements is written, in place and with a scalar operand too, and refused calls write nothing.", "quantifier": "all shapes, strides, element values, zero points, scales and scale fraction bits accepted by the sa8 kernels, both rounding modes, in place or not, scalar operands included", "why_tests_cant": "The scale ratio is normalised, divided, rounded and its shift limited in several regimes; saturations in between are harmless only because of the interplay of the limits, over a domain of some 2^100 parameter combinations.", "anchors": ["lib/src/kernels/eltwise/impl/mli_krn_eltwise_ref.h: eltwise_perform_operation, calc_convert_params, eltwise_prepare_and_run", "lib/src/private/src/mli_check.cc: mli_chk_eltwise_sa8, mli_chk_eltwise_maxmin_sa8"]}
{"id": "C60", "title": "Average pooling of SA8 tensors is accurate", "statement": "Every output element of SA8 average pooling is the mean of the real numbers that the input elements its window covers stand for (padding excluded), in the format of the output and limited to 8 bits, within one output step plus a relative error of the stored mean of 2^-7 (2^-15 with the build option AVEPOOL_16BIT_MUL) plus 2^-12, and 2^-13 of the input zero point. Nothing else is written, and refused calls write nothing.", "quantifier": "all shapes, strides, window geometries, zero points, scales, fraction bits and element values accepted by the sa8 kernel, both rounding modes, both multiplier widths", "why_tests_cant": "Unbounded shapes, every clipped window and some 2^80 parameter combinations; the scale is normalised three times.", "anchors": ["lib/src/kernels/pooling/mli_krn_pool_hwc.h: mli_krn_pool_hwc_nopad, mli_krn_pool_hwc_pad", "lib/src/kernels/pooling/impl/mli_krn_avepool_hwc_ref.h: compute_avepool_func", "lib/src/bricks/impl/mli_prv_quant_ref.h: define_requant_params", "lib/src/private/src/mli_check.cc: mli_chk_avepool_hwc_sa8"]}
{"id": "C61", "title": "Run-time fully connected layer subtracts the encoded weights zero points", "statement": "After the zero points of the weights were encoded with the compiler class and attached, issuing the run-time fully connected kernel writes for each output channel o the exact 32-bit sum over the inputs of x[i] * (w[i,o] - z[o]), where z[o] is the zero point the user gave for that channel, and writes nothing else.", "quantifier": "all input and output sizes for which the sum cannot leave 32 bits, all element values, all zero points, all memory strides, both encoding functions", "why_tests_cant": "The sizes and 8-bit values are unbounded; the encoding and the decoding of the zero points are in different classes that are tested with zero points equal to 0.", "anchors": ["lib/src/kernels/common/impl/mli_krn_fully_connected_runtime.cc: FullyConnected::FullyConnected, FullyConnected::Issue", "lib/src/kernels/common/impl/mli_krn_fully_connected_compiler.cc: EncodeWtsZeroPts, EncodeWeightsAndZeroPts, GetKernelPrivateData", "lib/src/kernels/common/impl/mli_krn_fully_connected_ref.h: inner_product", "include/mli_service_functions.hpp: EncodeWeightsAndZeroPts"]}
{"id": "C62", "title": "Sigmoid and tanh kernels are close to the real functions", "statement": "With the tables of the library, every element the sigmoid kernel writes is within 2.7 units of the last place (16 bits) of the mathematical sigmoid of the real value of the input element, and every element of the tanh kernel within 4.4; with 8-bit outputs (fixed point or SA8) it is within 0.53 units of the real value limited to the output range.", "quantifier": "all tensor shapes, strides and in-place uses, all element values, all numbers of fractional bits of the input, all SA8 scales and zero points, both rounding modes", "why_tests_cant": "The input format has 256 scalings and SA8 scales have 2^24 values; a test compares a few hundred points of one scaling with a floating-point library.", "anchors": ["lib/src/bricks/impl/mli_prv_lut_ref.h: activation_lut", "lib/src/private/src/mli_prv_activation_lut.cc: sigmoid_lut_fx16, tanh_lut_fx16, expneg_lut_fx16", "lib/src/kernels/transform/mli_krn_sigm_fx.cc", "lib/src/kernels/transform/mli_krn_tanh_fx.cc"]}
{"id": "C63", "title": "Softmax kernels compute the softmax", "statement": "Along the chosen axis (or over the whole tensor) the softmax kernels write, for every element, the value exp(x_i)/sum exp(x_j) of the real values of the slice, in the documented output format, up to a stated error; no result is negative and a larger input of a slice never gets a smaller output.", "quantifier": "all tensor shapes, strides, axes and in-place uses, all element values, all numbers of fractional bits, all SA8 scales and zero points, slices of up to 65535 elements, both rounding modes", "why_tests_cant": "The result of one element depends on all elements of its slice through a normalised sum; tests compare a handful of vectors with a tolerance.", "anchors": ["lib/src/kernels/transform/impl/mli_krn_softmax_ref.h: mli_krn_softmax_fx_run, mli_krn_softmax_sa8_run, mli_krn_softmax_run", "lib/src/kernels/transform/mli_krn_softmax_fx.cc", "lib/src/private/mli_prv_tensor.h: mli_prv_get_axis_tensor, mli_prv_get_non_axis_tensor", "lib/src/private/src/mli_check.cc: mli_chk_softmax_fx8, mli_chk_softmax_fx16, mli_chk_softmax_sa8"]}
{"id": "C64", "title": "L2 normalisation divides by the Euclidean length", "statement": "Along the chosen axis (or over the whole tensor for axis -1) the L2 normalisation kernels write, for every element, x_i / sqrt(sum x_j^2) of the real values of the slice in the documented output format, within half a unit plus a relative error of 0.00018, and 0 for slices of zeros; the result does not depend on the scale of the input; an axis outside of -1 .. rank-1 is refused.", "quantifier": "all tensor shapes, strides, axes and in-place uses, slices of any length, all element values, all numbers of fractional bits, all SA8 scales and zero points, both rounding modes", "why_tests_cant": "The result of one element depends on all elements of its slice through a normalised 64-bit sum and an interpolated inverse square root; tests compare a few vectors with a tolerance.", "anchors": ["lib/src/kernels/transform/impl/mli_krn_l2_normalize_ref.h: normalize_sum, compute_normalized_sum_square, normalize_tensor, mli_krn_l2_normalize_run", "lib/src/kernels/transform/mli_krn_l2_normalize.cc", "lib/src/private/src/mli_check.cc: mli_chk_l2_normalize_fx16, mli_chk_l2_normalize_sa8"]}
{"id": "C65", "title": "RNN dense adds the contributions of all inputs", "statement": "For every accepted call of the RNN dense kernels with one to four inputs, output o is the sum over the inputs of the dot product of the input with column o of its weights, plus the bias once, in the number format of the output: each input is brought to the output format from its own format with the documented rounding, the sum is limited to the range of the output, and no accumulation overflows; a call that is refused writes nothing.", "quantifier": "all numbers of inputs (1 to 4), all sizes and strides, all element values, all combinations of fractional bits, scales and zero points, both rounding modes", "why_tests_cant": "Bias, inputs and weights meet in one accumulator with its own format for each input; the margins depend on the sizes and formats together, tests use two inputs of one size.", "anchors": ["lib/src/kernels/common/mli_krn_rnn_dense.h: rnn_dense_prepare_and_run", "lib/src/kernels/common/mli_krn_rnn_dense.cc", "lib/src/bricks/impl/mli_krn_rnn_dense_op_ref.h: rnn_dense_op", "lib/src/bricks/impl/mli_prv_quant_ref.h: ir_rnn_result_requantize, ir_result_cast_relu_store", "lib/src/private/src/mli_check.cc: mli_chk_rnn_dense"]}
{"id": "C66", "title": "The LSTM cell runs over the sequence step by step", "statement": "For every accepted call of the LSTM cell kernels, step t computes the four gates from input t (from the end in the backward direction) and the output of the step before (the previous output given, for the first step), applies the activations, and updates cell and output as an LSTM does, with a stated error for every operation; the outputs of all steps, or of the last, are in the output tensor, the final cell replaces the cell, and nothing else but the scratch buffer changes. Processing a sequence in two calls, the second starting from the last output and the cell of the first, gives the same outputs and cell as one call. A call that is refused writes nothing.", "quantifier": "all sequence lengths, numbers of inputs and outputs, element values, directions and result modes, all combinations of fractional bits, scales and zero points, all three output activations, both rounding modes, all placements of the tensors in one memory that keep the areas written apart", "why_tests_cant": "The state is carried through any number of steps in memory shared by input, output, cell and scratch buffer; a test sees a few steps of one layout.", "anchors": ["lib/src/kernels/common/impl/mli_krn_lstm_cell_ref.h: lstm_cell_prepare_and_run", "lib/src/kernels/common/mli_krn_lstm_cell.cc", "lib/src/bricks/impl/mli_krn_rnn_dense_op_ref.h: rnn_dense_op_stacked", "lib/src/private/src/mli_check.cc: mli_chk_lstm_cell"]}
{"id": "C67", "title": "The GRU cell runs over the sequence step by step", "statement": "For every accepted call of the GRU cell kernels, step t computes update and reset gate from input t (from the end in the backward direction) and the output of the step before (the previous output given, for the first step), the new information from input t and the product of reset gate and that output, and the next output as new information and that output weighted by one minus the update gate and by the update gate, with a stated error for every operation; the outputs of all steps, or of the last, are in the output tensor, and nothing else but the scratch buffer changes. Processing a sequence in two calls, the second starting from the last output of the first, gives the same outputs as one call. A call that is refused writes nothing.", "quantifier": "all sequence lengths, numbers of inputs and outputs, element values, directions and result modes, all combinations of fractional bits, scales and zero points, both rounding modes, all placements of the tensors in one memory that keep the areas written apart (the previous output may be the first output row)", "why_tests_cant": "The state is carried through any number of steps in memory shared by input, output and scratch buffer; a test sees a few steps of one layout and one quantization.", "anchors": ["lib/src/kernels/common/impl/mli_krn_gru_cell_ref.h: gru_cell_prepare_and_run", "lib/src/kernels/common/mli_krn_gru_cell.cc", "lib/src/bricks/impl/mli_krn_rnn_dense_op_ref.h: rnn_dense_op, rnn_dense_op_stacked", "lib/src/private/src/mli_check.cc: mli_chk_gru_cell"]}
{"id": "C68", "title": "Tile-by-tile execution of the run-time element-wise kernels gives the result for the whole tensors", "statement": "When a caller goes through all tiles of an Add, Sub, Mul, Max or Min run-time kernel - ask for sizes and offsets, copy the input tiles to the local buffers, Issue, copy the output tile back, Update - every element of the output tensor in global memory ends up as the operation applied to the input elements at its position (or to the scalar), exactly or limited to the range of the element type, every call returns OK and nothing else in the output buffer changes. For unsupported element sizes Issue returns an error and writes nothing.", "quantifier": "all tensor shapes of rank 1 to 4, all tile sizes that fit and starting skews, all element values, strides and placements of the local buffers without overlap (the output tile may replace an input tile), all strides of the tensors in global memory, one operand scalar or none", "why_tests_cant": "The result depends on the sequence of all rounds: sizes, positions and buffers of each tile have to fit together for every shape and tile size; tests use a few tilings.", "anchors": ["lib/src/kernels/eltwise/mli_krn_add_runtime.cc: Add::Add, Issue, Update, GetIOSizesAndOffsets", "lib/src/kernels/eltwise/mli_krn_mul_runtime.cc", "lib/src/kernels/eltwise/mli_krn_sub_runtime.cc", "lib/src/kernels/eltwise/mli_krn_max_runtime.cc", "lib/src/kernels/eltwise/mli_krn_min_runtime.cc", "include/mli_iterator.hpp: TensorIterator", "include/mli_service_functions.hpp: ReconstructTensor"]}
{"id": "C69", "title": "Tile-by-tile execution of the run-time pooling kernels gives the result for the whole tensor", "statement": "When a caller goes through all tiles of a MaxPool2D or SumPool2D run-time kernel - ask for sizes and offsets, copy the input tile to the local buffer, Issue, copy the output tile back, Update - every element of the output tensor in global memory ends up as the maximum or the sum of the input elements in its window of the whole input tensor (padding does not count), every call returns OK and nothing else in the output buffer changes. SumPool2D::Issue with unsupported element sizes returns an error and writes nothing.", "quantifier": "all batch sizes, heights, widths and channels, all window sizes, strides and paddings, all tile sizes that fit, all element values, strides and placements of the local buffers, all strides of the tensors in global memory", "why_tests_cant": "Each tile has its own input position, size and padding; a wrong size or padding at one border for one combination of shape, window, stride, padding and tile size gives wrong values only there.", "anchors": ["lib/src/kernels/pooling/mli_krn_maxpool_runtime.cc: MaxPool2D::MaxPool2D, Issue, Update, GetIOSizesAndOffsets", "lib/src/kernels/pooling/mli_krn_sumpool_runtime.cc", "lib/src/kernels/pooling/mli_krn_maxpool_runtime.cc: MaxPool2D::UpdateTilePaddings", "include/mli_iterator.hpp: TensorIterator"]}
{"id": "C70", "title": "Tile-by-tile execution of the run-time convolution kernels gives the result for the whole tensor", "statement": "When a caller goes through all tiles of a Conv2d or DepthwiseConv2d run-time kernel - ask for sizes and offsets, copy the tiles of input, weights and weight zero points to the local buffers, Issue, copy the output tile back, Update - every element of the output tensor in global memory ends up as the convolution sum over its window of the whole input tensor, with the input zero point outside of the input and the weight zero points subtracted from the weights, every call returns OK and nothing else in the output buffer changes. Issue with unsupported element sizes returns an error and writes nothing.", "quantifier": "all batch sizes, heights, widths and channels, all kernel sizes, strides, dilations and paddings, all tile sizes in height, width and channels that fit, all element values and zero points, strides and placements of the local buffers, all strides of the tensors in global memory", "why_tests_cant": "Each tile has its own input position, size, paddings and slice of the weights; a wrong offset or padding at one border for one combination of shape, kernel, stride, dilation, padding and tile size gives wrong values only there.", "anchors": ["lib/src/kernels/convolution/mli_krn_conv2d_runtime.cc: Conv2d::Conv2d, Issue, Update, UpdateTilePaddings, GetIOSizesAndOffsets", "lib/src/kernels/convolution/mli_krn_depthwise_conv2d_runtime.cc", "include/mli_iterator.hpp: TensorIterator, SetZeroIncrements, DisableTiling, UpdateOrder, is_first_tile, is_last_tile", "user_tests/tests/mli_krn_conv2d_30/tests_mli_krn_conv2d_30.cc"]}
{"id": "C71", "title": "Encoded parameters reach the run-time kernels", "statement": "The parameter buffer that EncodeParams writes at compile time, copied tile by tile to the offsets that the run-time object reports (GetIOSizesAndOffsets), gives the RESCALE, PRELU and CLIP run-time kernels exactly the parameters of the user: element j of each parameter array that the kernel reads for a tile that begins at parameter set o is element o + j of the array of the user. EncodeParams writes all parameters and nothing behind the size that GetEncodedParamsSize reports.", "quantifier": "all numbers of parameter sets, all parameter values of the element types, all tiles, all capacities and addresses of the local parameter buffer, all element sizes of the biases", "why_tests_cant": "Compiler and run time compute the places of the arrays independently from element sizes, number of sets and tile capacity; an error appears only for some combination, such as a last tile that is smaller than the others or a parameter whose higher bytes differ from zero.", "anchors": ["lib/src/kernels/conversion/mli_krn_rescale_compiler.cc: Rescale_CS::EncodeParams, GetEncodedParamsSize", "lib/src/kernels/conversion/mli_krn_rescale_runtime.cc: Rescale::Rescale, GetIOSizesAndOffsets", "lib/src/kernels/transform/mli_krn_prelu_compiler.cc: Prelu_CS::EncodeParams", "lib/src/kernels/transform/mli_krn_prelu_runtime.cc: Prelu::Prelu, GetIOSizesAndOffsets", "lib/src/kernels/clip/mli_krn_clip_compiler.cc: Clip_CS::EncodeParams", "lib/src/kernels/clip/mli_krn_clip_runtime.cc: Clip::Clip", "include/mli_types.hpp: Buffer::write, InternalBuffer::read"]}
{"id": "C72", "title": "RESCALE and PRELU kernels executed tile by tile", "statement": "A tensor that is processed by the run-time kernel RESCALE or PRELU in tiles - for each tile: copy the input tile and the encoded parameters of the tile to local memory, Issue, copy the output tile back, Update - gets in every element the value that the user specified for the whole tensor: round((x - input bias) * scale / 2^shift) + output bias, limited to the output type, with the parameters that the user passed for the channel of the element to EncodeParams (for PRELU the scale and shift for the sign of x - input bias). All calls return OK and no other element of the output buffer changes.", "quantifier": "all tensor sizes, tile sizes, strides and places of the local buffers, all parameters and all input values (with x - input bias in the range of the input type)", "why_tests_cant": "The result depends on compile-time encoding, tile iterators, the reported offsets and the addresses in the run-time objects together; an error shows only for particular combinations such as a last tile with fewer channels.", "anchors": ["lib/src/kernels/conversion/mli_krn_rescale_runtime.cc: Rescale::Rescale, Issue, Update, GetIOSizesAndOffsets", "lib/src/kernels/conversion/mli_krn_rescale_compiler.cc: Rescale_CS::EncodeParams", "lib/src/kernels/transform/mli_krn_prelu_runtime.cc: Prelu::Prelu, Issue, Update", "lib/src/kernels/transform/mli_krn_prelu_compiler.cc: Prelu_CS::EncodeParams", "lib/src/kernels/transform/impl/mli_krn_prelu_ref.h: mli_krn_prelu (MLI 3)", "lib/src/kernels/conversion/impl/mli_krn_rescale_ref.hpp: mli_krn_rescale"]}
{"id": "C73", "title": "Reductions and PERMUTE executed tile by tile", "statement": "A tensor that is processed by the run-time kernels REDUCE-SUM, REDUCE-MAX or PERMUTE in tiles - for each tile: copy the input tile to local memory, Issue, copy the output tile back, Update - gives the result for the whole tensor: every output element is the sum or the maximum of all input elements along the reduced dimension, or the input element that the permutation moves there. All calls return OK and no other element of the output buffer changes.", "quantifier": "all tensor sizes, all tilings (the reduced dimension is not tiled), strides and places of the local buffers, and all input values (sums in the range of the element type)", "why_tests_cant": "Input and output have different shapes and separate iterators; that tile n of one belongs to tile n of the other depends on the tile counts of all dimensions.", "anchors": ["lib/src/kernels/conversion/mli_reduce_sum_runtime.cc: ReduceSum::ReduceSum, Issue, Update, GetIOSizesAndOffsets", "lib/src/kernels/conversion/mli_reduce_max_runtime.cc: ReduceMax::ReduceMax, Issue, Update, GetIOSizesAndOffsets", "lib/src/kernels/diverse/mli_krn_permute_runtime.cc: Permute::Permute, Issue, Update, GetIOSizesAndOffsets", "lib/src/kernels/conversion/impl/mli_reduce_sum_ref.hpp: mli_reduce_sum", "lib/src/kernels/conversion/impl/mli_reduce_max_ref.hpp: mli_reduce_max", "lib/src/kernels/diverse/impl/mli_krn_permute_ref.h: mli_krn_permute_run"]}
{"id": "C74", "title": "Matrix multiplication executed tile by tile", "statement": "Two matrices that are multiplied by the run-time kernel MATMUL in tiles of rows or of columns - for each tile: ask for sizes and positions, copy the input tiles to local memory, Issue, copy the output tile back, Update - give the product of the whole matrices, with the zero points that were encoded at compile time. All calls return OK and no other element of the output buffer changes.", "quantifier": "all matrix sizes, all heights or widths of the tiles, strides and places of the local buffers, all zero points and input values whose differences are 8-bit numbers", "why_tests_cant": "The three iterators advance separately and the kernel derives addresses from the size of the current tile; that the tiles of a round belong together, for a last tile of any size, depends on all tile counts.", "anchors": ["lib/src/kernels/convolution/mli_krn_matmul_runtime.cc: MatMul::MatMul, Issue, Update, GetIOSizesAndOffsets", "lib/src/kernels/convolution/mli_krn_matmul_compiler.cc: MatMul_CS::EncodeParams, GetEncodedParamsSize", "lib/src/kernels/convolution/mli_krn_matmul_ref.hpp: MatMul_prepare_and_run"]}
{"id": "C75", "title": "A layer of three kernels executed tile by tile", "statement": "A convolution (full or depthwise) with a 32-bit result, followed by RESCALE or PRELU to 8 bits and optionally by CLIP, that are run one after the other on each tile in local memory, give the layer that a user expects: every element of the output tensor is the rescaled sum over its window in the whole input tensor, with the parameters that the user encoded for its channel, limited to 8 bits and to the limits of CLIP. All calls return OK and no other element of the output buffer changes.", "quantifier": "all sizes, strides, paddings, dilations, tile sizes, zero points, parameters of the channels, limits, places of the local buffers and input values", "why_tests_cant": "Three kernels with their own iterators must stay on the same tile through all rounds, although the first has five dimensions and the others four; parameters are fetched again for each tile. Tests run a few shapes with one tile size.", "anchors": ["lib/src/kernels/convolution/mli_krn_conv2d_runtime.cc: Conv2d::Issue, Update", "lib/src/kernels/convolution/mli_krn_depthwise_conv2d_runtime.cc: DepthwiseConv2d::Issue, Update", "lib/src/kernels/conversion/mli_krn_rescale_runtime.cc: Rescale::Issue, Update", "lib/src/kernels/transform/mli_krn_prelu_runtime.cc: Prelu::Issue, Update", "lib/src/kernels/clip/mli_krn_clip_runtime.cc: Clip::Clip, Issue, Update", "include/mli_iterator.hpp: IteratorCfg (constructor that drops an axis)", "user_tests/tests/mli_krn_conv2d_30/tests_mli_krn_conv2d_30.cc", "user_tests/tests/mli_krn_depthwise_conv_30/tests_mli_krn_depthwise_conv_30.cc"]}
{"id": "C76", "title": "Buffer sizes cover the tensors they are asked for", "statement": "The buffer size that a tensor reports is enough for all its elements and not larger than needed; for a densely stored tensor it is the number of its elements. The size computed for a tile buffer, with the strides computed for it, covers every tile of the iterator, and different elements of a tile get different places.", "quantifier": "all shapes, strides, tile sizes, iteration orders and all rounds of the iterator", "why_tests_cant": "Which element has the largest offset depends on all dimensions and strides, and the largest tile on the whole iteration; tests allocate fixed, generous buffers.", "anchors": ["include/mli_iterator.hpp: UpdateMemstrides, ComputeTiledMaxBufferSize", "include/mli_types.hpp: Tensor::get_total_elem_num", "include/mli_service_functions.hpp: GetBufferSize"]}
{"id": "C77", "title": "A shrunk buffer holds the tiles it was made for", "statement": "After the buffer of an iterator is shrunk to a number of tiles, that many tiles fit in it: in a plain buffer each tile has its own slot, in a cyclic buffer the tiles that follow each other are held at the same time without overwriting an element that is still needed. All places are below the returned size, the size is that of the tiles, and the tiles themselves do not change.", "quantifier": "all tensor shapes, tile sizes, iteration orders, alignments, numbers of tiles, rounds of the iterator and elements", "why_tests_cant": "Whether two tiles collide depends on all sizes, increments and overlaps at once; the repository has no test of the function.", "anchors": ["include/mli_iterator.hpp: TensorIterator::ShrinkBuffer, IteratorCfg::ShrinkCfg", "include/mli_types.hpp: Tensor (strides), get_total_elem_num"]}
{"id": "C78", "title": "Run-time transposed convolution tile by tile", "statement": "A transposed convolution that is executed tile by tile, with the iterators the library returns for it, gives the same output tensor as on the whole tensors: every output element is the sum over all input elements that are scattered to it, all calls succeed, and nothing outside of the output tensor changes.", "quantifier": "all tensor shapes, kernel sizes, strides, paddings, tile sizes, zero points, element values, memory strides and local buffers, and all rounds of the loop", "why_tests_cant": "A tile shares output rows with its neighbours depending on kernel, stride, padding and tile size, and the library changes the tiling for some sizes; the tests use a few fixed shapes.", "anchors": ["lib/src/kernels/convolution/mli_krn_transpose_conv_runtime.cc: TransposeConv2D::Issue, Update, UpdateTilePaddings, GetIOSizesAndOffsets", "lib/src/helpers/src/mli_helpers_30.cc: GetDeconvTensorIterators", "include/mli_iterator.hpp: IteratorCfg::OverrideIncrements, SetCount, DisableTiling, SetZeroIncrements", "user_tests/tests/mli_krn_transpose_conv2d_30/tests_mli_krn_transpose_conv2d_30.cc"]}
{"id": "C79", "title": "Buffers keep their places when they are linked", "statement": "A buffer that the compiler attached to an offset in a numbered memory is, in the run-time object, at the base address of that memory plus the offset: a value written to an element inside the buffer is read back from that element, no other element and no buffer that the compiler kept apart from it changes. A buffer inside another one is exactly the rest of it, or is refused.", "quantifier": "all memory maps, buffers, element sizes, indices inside the buffer and values", "why_tests_cant": "The base addresses are only known at run time and the plan of the compiler is arbitrary; tests use one memory map.", "anchors": ["include/mli_types.hpp: OffsetBuffer, InternalBuffer"]}
{"id": "C80", "title": "Run-time objects are created for the kernel they were compiled for", "statement": "ExecutionInterface::Create, given the private data of a compile-time object and aligned memory of the size that the object reports, returns a run-time object of the same kernel, built from these private data and base addresses; with too little memory it returns the null pointer; it never returns an object of another kernel or one that does not fit.", "quantifier": "all kernels, private data, object sizes, memory sizes and base addresses", "why_tests_cant": "The sizes depend on the platform and the compiler; tests create a few kernels with the sizes of one platform.", "anchors": ["lib/src/private/src/mli_runtime.cc: ExecutionInterface::Create", "include/mli_types.hpp: kernel_id_t, PrivateData", "include/internal/mli_ref_private_types.hpp", "include/mli_compiler_api.hpp: Nop_CS", "lib/src/kernels/**/*_compiler.cc: GetRuntimeObjectSize, GetKernelPrivateData"]}
{"id": "C81", "title": "The configuration helpers of the data movement do what they say", "statement": "A data movement with the configuration made by the copy, slice, concat, subsample, permute or 2-D padding helper gives the destination the documented shape and exactly the documented elements - the source elements at the same position, shifted by the slice or destination offset, at every step-th position, with permuted dimensions, or surrounded by zeros - and changes nothing else in the destination buffer. Two tensors moved with concat configurations end up one after the other. The general helper with neutral values for the other arguments equals the special ones.", "quantifier": "all accepted source and destination tensors of rank 1 to 4 with any strides, all offsets, sizes and steps inside the source, all permutations, all padding sizes, all buffer contents", "why_tests_cant": "The number of shapes, strides, offsets and permutations is unbounded; a unit test uses a few fixed tensors.", "anchors": ["lib/src/move/mli_mov_api.cc: mli_mov_cfg_for_copy, mli_mov_cfg_for_slice, mli_mov_cfg_for_concat, mli_mov_cfg_for_subsample, mli_mov_cfg_for_permute, mli_mov_cfg_for_padding2d_chw, mli_mov_cfg_for_padding2d_hwc, mli_mov_cfg_all, mli_mov_prepare"]}
{"id": "C82", "title": "Created look-up tables behave like those of the library", "statement": "A look-up table created for sigmoid, tanh, softmax or L2 normalisation in memory of at least the reported size makes every table-driven kernel return the same status and the same output as the table of the library, for all tensors and parameters; the creation writes the table and nothing else. With less memory the creation is refused and no memory is touched.", "quantifier": "all descriptors, memory contents, positions and capacities, all kernels that take a table, all tensors, element values and parameters", "why_tests_cant": "The table is used with unboundedly many tensors and scalings; a test compares a few outputs and one memory size.", "anchors": ["lib/src/kernels/transform/mli_krn_sigm_fx.cc: mli_krn_sigm_get_lut_size, mli_krn_sigm_create_lut", "lib/src/kernels/transform/mli_krn_tanh_fx.cc: mli_krn_tanh_get_lut_size, mli_krn_tanh_create_lut", "lib/src/kernels/transform/mli_krn_softmax_fx.cc: mli_krn_softmax_get_lut_size, mli_krn_softmax_create_lut", "lib/src/kernels/transform/mli_krn_l2_normalize.cc: mli_krn_l2_normalize_get_lut_size, mli_krn_l2_normalize_create_lut", "lib/src/private/src/mli_check.cc: mli_chk_lut", "lib/src/private/src/mli_prv_activation_lut.cc"]}
{"id": "C83", "title": "Specialised kernels agree with the general ones", "statement": "A convolution, depthwise, group or transposed convolution or pooling kernel that is specialised for one kernel size (and, for transposed convolution, stride 2) returns the same status and writes the same output as the general kernel whenever the arguments have that size, and otherwise returns an error and leaves the output as it was.", "quantifier": "all kernel sizes a kernel may be specialised for, all tensors (accepted or not), configurations, element values and parameters", "why_tests_cant": "The specialised functions fix sizes, skip padding and override window widths at compile time; tests compare them for a few shapes.", "anchors": ["include/api/mli_kernels_api.h: *_k1x1, *_k2x2, *_k3x3, *_k5x5, *_k2x2_str2, *_k4x4_str2", "lib/src/kernels/convolution/impl/mli_krn_convolution_ref.h: conv2d_run", "lib/src/kernels/pooling/mli_krn_pool_hwc.h: mli_krn_pool_hwc_compute_pad, mli_krn_pool_hwc", "lib/src/private/mli_prv_tensor.h: mli_prv_get_conv2d_weights_tensor_hwcn, mli_prv_get_conv2d_weights_tensor_hw1n", "lib/src/private/src/mli_check.cc: mli_chk_conv2d_hwcn, mli_chk_maxpool_hwc, mli_chk_transpose_conv2d_hwcn_k2x2_str2"]}
{"id": "C84", "title": "The reported guard bits are enough", "statement": "If the library reports g accumulator guard bits for a combination of operand formats, accumulating up to 2^g products of arbitrary operand values never overflows the accumulator and gives the exact sum, also on top of an initial value; an accepted fully connected layer with at most 2^g inputs, or convolution of 16-bit data with 8-bit weights with at most 2^g taps, has a defined result for all element values.", "quantifier": "all lists of operand pairs up to the reported length, all initial accumulator values below a quarter of the range, all accepted tensors", "why_tests_cant": "Overflow needs extreme values in every one of thousands of products; tests use moderate data.", "anchors": ["include/api/mli_helpers_api.h: mli_hlp_accu_guard_bits_sa8_sa8, mli_hlp_accu_guard_bits_fx16_fx16, mli_hlp_accu_guard_bits_fx16_fx8", "lib/src/helpers/src/mli_helpers.cc:335-346", "lib/src/pal/ref/mli_math.h: mli_math_mac_fx"]}
{"id": "C85", "title": "Pointing to a sub-tensor is indexing", "statement": "After a successful call of the point-to-sub-tensor helper each element of the result is the element of the input at the start coordinates plus its own index, inside of the input, and the capacity is the size of the result; the call succeeds for every coordinate prefix and size that lies inside of a packed tensor, and otherwise reports an error.", "quantifier": "all accepted tensors, element types, coordinates, numbers of coordinates and sizes", "why_tests_cant": "The helper has no test in the repository; it computes positions from the shape with wrapping arithmetic.", "anchors": ["include/api/mli_helpers_api.h: mli_hlp_point_to_subtensor", "include/mli_types.h: mli_point_to_subtsr_cfg", "lib/src/helpers/src/mli_helpers.cc:122-171", "lib/src/private/src/mli_check.cc: mli_chk_point_to_subtensor, check_layout_is_contiguous"]}
{"id": "C86", "title": "Encoded weights and zero points are the ones the user gave", "statement": "Encoding weights and zero points writes the weights and, behind them, the zero points to a buffer of the reported size, and nothing else; the number of zero points decides between one for the tensor and one per channel, any other number is refused without effect; a fully connected layer that is attached to the encoded buffer finds weight i and zero point j at run time.", "quantifier": "all weights, zero points, shapes, strides, memory maps and buffer placements", "why_tests_cant": "Positions are computed separately in the encoder, in the attach function and at link time; tests use one layout.", "anchors": ["include/mli_service_functions.hpp: EncodeWeights, EncodeZeroPts, EncodeWeightsAndZeroPts", "lib/src/kernels/common/impl/mli_krn_fully_connected_compiler.cc: AttachBufferOffsets, EncodeWeightsAndZeroPts, GetEncodedWeightsSize", "lib/src/kernels/convolution/mli_krn_conv2d_compiler.cc: EncodeInpZeroPts"]}
{"id": "C87", "title": "Removing the overlap of adjacent tiles", "statement": "After the overlap of adjacent input tiles is removed along the first iteration dimension, every row that a pass needs belongs to exactly one tile of the pass, the rows of every original tile are in the new tiles reached so far, tiles are not empty and inside the tensor, the other dimensions are as before, and the increments of a pass add up to zero.", "quantifier": "all tensors, tilings, kernel sizes, strides, paddings and steps", "why_tests_cant": "Rows are shifted between tiles by sizes that depend on kernel, stride, padding and position; tests look at a few shapes.", "anchors": ["include/mli_iterator.hpp: IteratorCfg::RemoveOverlapAdjacentTiles"]}
{"id": "C88", "title": "A transposed iterator visits the transposed tiles", "statement": "Transposing the dimensions of an iterator gives an iterator whose tile, at every step, is the transposed tile of the original iterator: position and size along a dimension of the transposed tensor are those along the dimension it came from.", "quantifier": "all tensors, tilings, permutations and steps", "why_tests_cant": "Tests transpose with permutations that are their own inverses; tensor and tiling are transposed by separate functions.", "anchors": ["include/mli_iterator.hpp: IteratorCfg::transpose_order", "include/mli_types.hpp: Tensor::transpose"]}
{"id": "C89", "title": "Converting the granularity keeps the bytes", "statement": "Converting a tensor and its tiling from elements of one size to vectors of another gives the tensor and the tiling of the same bytes: every vector is at the byte address of its first element, and at every step the tile covers the same bytes as before; the increments of a pass still add up to zero.", "quantifier": "all shapes, strides, tilings, element and vector sizes for which all sizes are whole numbers of vectors, all positions and steps", "why_tests_cant": "Sizes, increments and strides are converted one by one with different roundings; tests use one vector size.", "anchors": ["include/mli_iterator.hpp: IteratorCfg::ConvertGran", "include/mli_types.hpp: Tensor::ConvertGran"]}
{"id": "C90", "title": "Positions of input tiles in the padded tensor", "statement": "After the pre-padding is applied to the tiling of an input, the position of the input tile at every step is the position of the output tile times the stride, i.e. counted from the start of the padding, and the increments of a pass add up to zero.", "quantifier": "all tensors, tilings, kernel sizes, strides, paddings and steps", "why_tests_cant": "Only the first increment contains the padding; an error shows in the second tile or in the second pass.", "anchors": ["include/mli_iterator.hpp: IteratorCfg::ApplyPrePadding"]}
{"id": "C91", "title": "Conversion to floating point gives the nearest number", "statement": "Converting an 8- or 16-bit tensor to floating point stores for every element the single-precision number nearest to (element - zero point) * scale, if that is in the range of single precision; it is exact for fixed point and for SA_8 with 8-bit zero points. For SA_32 the relative error is at most 2^-22. Floating-point tensors are copied bit by bit. Nothing else is changed, and a rejected call changes nothing.", "quantifier": "all shapes, strides, element types, scales, shifts, zero points and elements", "why_tests_cant": "Scale, shift and element form a product that is rounded up to three times; tests compare a few values with a tolerance.", "anchors": ["lib/src/helpers/src/impl/mli_hlp_convert_tensor_ref.h: convert_float_data", "lib/src/helpers/src/mli_helpers.cc: mli_hlp_convert_tensor", "lib/src/private/src/mli_check.cc: mli_chk_convert_tensor"]}
{"id": "C92", "title": "Conversion from floating point rounds and saturates", "statement": "Converting a floating-point tensor stores for every element the value element / scale + zero point rounded to an integer (within half a step, up to the precision of a float) and limited to the type of the destination. Nothing else is changed.", "quantifier": "all shapes, strides, destination types, scales, shifts, zero points and finite elements", "why_tests_cant": "Reciprocal, power of two, product, sum and cast each round or overflow; tests use values inside of the range.", "anchors": ["lib/src/helpers/src/impl/mli_hlp_convert_tensor_ref.h: convert_float_data", "lib/src/helpers/src/mli_helpers.cc: mli_hlp_convert_tensor", "lib/src/pal/ref/mli_math.h: mli_math_float_scale"]}
{"id": "C93", "title": "Converting to floating point and back changes nothing", "statement": "Converting an 8- or 16-bit tensor to floating point and the result back to the same format gives the original elements, if they are in the range of single precision.", "quantifier": "all shapes, strides, scales, shifts, zero points and elements", "why_tests_cant": "All 2^16 values of an element times all scales and shifts; tests convert in one direction.", "anchors": ["lib/src/helpers/src/impl/mli_hlp_convert_tensor_ref.h: convert_float_data", "lib/src/helpers/src/mli_helpers.cc: mli_hlp_convert_tensor"]}
{"id": "C94", "title": "A fully connected layer of three kernels", "statement": "Encode the zero point of the weights, the parameters of RESCALE and the limits of CLIP, put them in place, create FULLY-CONNECTED, RESCALE and CLIP objects on them and issue the three. Every issue ends with status OK, and each output is round((sum of x * (w - z) - b_in) * scale / 2^shift) + b_out, limited to 8 bits and then to the limits of CLIP, with the parameters the user gave for that output (or the one set given for all). Nothing but the outputs of the kernels is changed.", "quantifier": "all numbers of inputs and outputs, all inputs, weights, zero points, parameters and limits, both placements of RESCALE parameters, all buffer positions, CLIP in place or not", "why_tests_cant": "The result goes through three kernels and three encodings whose layouts depend on the number of outputs; tests run a few fixed layers.", "anchors": ["user_tests/tests/mli_krn_fully_connected_30/tests_mli_krn_fully_connected_30.cc: execution_phase", "lib/src/kernels/common/impl/mli_krn_fully_connected_runtime.cc: FullyConnected::Issue", "lib/src/kernels/conversion/mli_krn_rescale_runtime.cc: Rescale::Issue", "lib/src/kernels/clip/mli_krn_clip_runtime.cc: Clip::Issue"]}
{"id": "C95", "title": "A transposed-convolution layer of three kernels tile by tile", "statement": "Encode the RESCALE parameters of the output channels and the limits of CLIP, create TransposeConv2D, RESCALE and CLIP objects that work on tiles in local memory, and go through all tiles: copy the tiles of input, weights and zero points and the parameters of the channels of the tile, issue the three kernels, copy the last tile to the output tensor. Every issue ends with status OK, each output element is round((sum - b_in) * scale / 2^shift) + b_out limited to 8 bits and then to the limits of CLIP, where sum is what the transposed convolution of the whole tensors gives there and the parameters are those of its channel, and nothing else in the output buffer changes.", "quantifier": "all tensor, kernel, stride, padding and tile sizes of C78, all data, parameters, limits and local buffer layouts", "why_tests_cant": "Which parameters and which part of the tensors a round uses depends on iterators that are rebuilt for each kernel from those of the convolution; tests run a few tilings.", "anchors": ["user_tests/tests/mli_krn_transpose_conv2d_30/tests_mli_krn_transpose_conv2d_30.cc: execution_phase", "lib/src/kernels/convolution/mli_krn_transpose_conv_runtime.cc: TransposeConv2D::Issue", "lib/src/kernels/conversion/mli_krn_rescale_runtime.cc: Rescale::Issue", "lib/src/kernels/clip/mli_krn_clip_runtime.cc: Clip::Issue"]}
{"id": "C96", "title": "Kernels accept exactly the documented arguments", "statement": "A kernel call that returns reports success exactly when its arguments fit the documentation: each tensor is consistent by itself, the shapes fit each other and the geometry (the window inside input and padding, the output sizes, groups, axis, permutation, scratch memory), the elements of the innermost dimension are adjacent, operands that must not overlap do not, the number formats can be combined and the quantization parameters are complete, with positive scales and zero points in range and a bias scale that is the product of the scales of input and weights up to one unit. A refused call changes no memory.", "quantifier": "all tensors, geometries, formats, quantization parameters and memory contents, for every kernel of the C API and the conversions", "why_tests_cant": "The space of wrong arguments is open; tests try a few for each kernel, and cannot show that no valid call is refused or that no invalid one slips through.", "anchors": ["lib/src/private/src/mli_check.cc: mli_chk_tensor", "lib/src/private/src/mli_check.cc: mli_chk_conv2d_hwcn", "lib/src/private/src/mli_check.cc: mli_chk_bias_scale_asym", "lib/src/private/src/mli_check.cc: mli_chk_tensor_quant_params", "lib/src/private/src/mli_check.cc: mli_chk_argmax", "lib/src/private/src/mli_check.cc: mli_chk_avepool_hwc", "lib/src/private/src/mli_check.cc: mli_chk_basic_activation", "lib/src/private/src/mli_check.cc: mli_chk_convert_tensor", "lib/src/private/src/mli_check.cc: mli_chk_depthwise_conv2d_hwcn", "lib/src/private/src/mli_check.cc: mli_chk_eltwise", "lib/src/private/src/mli_check.cc: mli_chk_eltwise_maxmin", "lib/src/private/src/mli_check.cc: mli_chk_fully_connected", "lib/src/private/src/mli_check.cc: mli_chk_group_conv2d_hwcn", "lib/src/private/src/mli_check.cc: mli_chk_gru_cell", "lib/src/private/src/mli_check.cc: mli_chk_l2_normalize", "lib/src/private/src/mli_check.cc: mli_chk_leaky_relu", "lib/src/private/src/mli_check.cc: mli_chk_lstm_cell", "lib/src/private/src/mli_check.cc: mli_chk_maxpool_hwc", "lib/src/private/src/mli_check.cc: mli_chk_permute", "lib/src/private/src/mli_check.cc: mli_chk_prelu", "lib/src/private/src/mli_check.cc: mli_chk_relu", "lib/src/private/src/mli_check.cc: mli_chk_rnn_dense", "lib/src/private/src/mli_check.cc: mli_chk_softmax", "lib/src/private/src/mli_check.cc: mli_chk_transpose_conv2d_hwcn", "lib/src/private/src/mli_check.cc: mli_chk_transpose_conv2d_hwcn_k2x2_str2", "lib/src/private/src/mli_check.cc: mli_chk_transpose_conv2d_hwcn_k4x4_str2"]}
{"id": "C97", "title": "A sub-tensor stands for the same numbers as its parent", "statement": "Every element of a sub-tensor of a tensor with zero points and scales (sa8, sa32), per tensor or per axis, stands for the same real number (element minus zero point, times scale, divided by the power of two) as the element of the parent at the offset position, without copying any parameter, and the kernels accept the parameters of the sub-tensor when they accept those of the parent. The same holds for the deprecated mli_hlp_point_to_subtensor.", "quantifier": "all shapes, strides, offsets, sizes, sub-tensor ranks, quantized dimensions, parameter arrays and memory contents", "why_tests_cant": "The quantized dimension interacts with the offsets, with sizes of 1 and with dropped dimensions; a test covers one combination, and comparing raw elements does not see wrong parameters.", "anchors": ["lib/src/helpers/src/mli_helpers.cc: mli_hlp_create_subtensor", "lib/src/helpers/src/mli_helpers.cc: mli_hlp_point_to_subtensor", "lib/src/private/src/mli_check.cc: mli_chk_tensor_quant_params"]}
{"id": "C98", "title": "Permutation keeps the numbers of quantized tensors", "statement": "mli_krn_permute_sa8 accepts a per-axis quantized tensor exactly when the output either has no parameter arrays (then it shares those of the input) or has its own arrays of sufficient size; after the call each output element stands for the same real number as the input element it is a copy of, nothing but the output and its own arrays is changed, and the parameters of the input are the same as before.", "quantifier": "all shapes, strides, permutations, quantized dimensions, parameter arrays and memory contents", "why_tests_cant": "Whether the right array entries go with the moved dimension depends on permutation, quantized dimension and sharing at once; tests check raw elements of a few permutations.", "anchors": ["lib/src/kernels/diverse/mli_krn_permute_fx.cc: mli_krn_permute_sa8", "lib/src/private/src/mli_check.cc: mli_chk_permute_sa8"]}
{"id": "C99", "title": "Data movement keeps the numbers of quantized tensors", "statement": "When a tensor with zero points and scales is moved (slice, concatenation, sub-sampling, padding, transposition in any combination), each element that comes from the source stands for the same real number in the destination, whether the destination shares the parameter arrays or has its own; sharing is accepted exactly when the quantized dimension is moved whole, own arrays exactly when they are large enough for the destination; padding stands for zero.", "quantifier": "all shapes, strides, transfer configurations, quantized dimensions, parameter arrays and memory contents", "why_tests_cant": "Offset, step, padding and destination offset along the quantized dimension must be applied to the parameters in the same way as to the elements; tests compare raw elements.", "anchors": ["lib/src/move/mli_mov_api.cc: mli_mov_prepare", "lib/src/private/src/mli_check.cc: mli_chk_data_movement"]}
{"id": "C100", "title": "The convolution and fully connected kernels compute the real-valued layer to a stated accuracy", "statement": "Reading each element of input, weights, bias and output as the real number it stands for, the output of a convolution (2D, depthwise, group, transposed) or fully connected kernel is the sum of products plus bias, limited by the ReLU and by the range of the output type, up to half an output step in fixed point and 0.6 of a step for asymmetric 8-bit data (one step for ReLU6 and ReLU1, whose limits need not be multiples of the step), plus the bias times the difference between its scale and the product of the input and weight scales; padding counts as the real number 0.", "quantifier": "all shapes, strides, layouts, formats, zero points, scales, ReLU variants, rounding modes and tensor contents", "why_tests_cant": "A network designer needs an error bound for every input; a test compares finitely many outputs with a tolerance found by trying.", "anchors": ["lib/src/kernels/convolution/mli_krn_conv2d_hwcn.cc: mli_krn_conv2d_hwcn_sa8_sa8_sa32", "lib/src/kernels/convolution/mli_krn_depthwise_conv2d_hwcn.cc: mli_krn_depthwise_conv2d_hwcn_sa8_sa8_sa32", "lib/src/kernels/convolution/mli_krn_group_conv2d_hwcn.cc: mli_krn_group_conv2d_hwcn_sa8_sa8_sa32", "lib/src/kernels/convolution/mli_krn_transpose_conv2d_hwcn.cc: mli_krn_transpose_conv2d_hwcn_sa8_sa8_sa32", "lib/src/kernels/common/mli_krn_fully_connected.cc: mli_krn_fully_connected_sa8_sa8_sa32"]}
{"id": "C101", "title": "The RNN dense kernel computes the real-valued layer to a stated accuracy", "statement": "Reading each element of inputs, weights, bias and output as the real number it stands for, the output of the RNN dense kernel is the sum, over its one to four inputs, of the inner products with the weights, plus the bias, limited to the range of the output type, up to half an output step for each input in fixed point; for asymmetric 8-bit data up to half a step and a relative error of 2^-13 for each input, plus the bias times the difference between its scale and the product of the scales of first input and weights.", "quantifier": "all numbers of inputs, shapes, strides, formats, zero points, scales, rounding modes and tensor contents", "why_tests_cant": "Each input is rounded on its own, so the errors of several inputs add up; tests compare finitely many outputs.", "anchors": ["lib/src/kernels/common/mli_krn_rnn_dense.cc: mli_krn_rnn_dense_fx16, mli_krn_rnn_dense_fx16_fx8_fx8, mli_krn_rnn_dense_sa8_sa8_sa32", "lib/src/bricks/impl/mli_krn_rnn_dense_op_ref.h: rnn_dense_op_stacked, rnn_dense_op"]}
{"id": "C102", "title": "The error of a network of fully connected layers", "statement": "If an application calls fully connected kernels one after the other, each with the output tensor of the one before as input and matching formats, all calls succeed and every element of the final output stands for a number that differs from what the network computes in real numbers by at most E, where E starts with the error of the input and each layer multiplies it by the largest sum of absolute weights of one of its outputs and adds its own error (half an output step in fixed point, 0.6 of a step plus the cost of the bias format in asymmetric 8 bits).", "quantifier": "all numbers of layers, all layer sizes, strides, formats, weights, biases, ReLU variants, rounding modes and inputs", "why_tests_cant": "The errors of the layers feed into each other; a test of a network runs one network on finitely many inputs and cannot bound the error for all.", "anchors": ["lib/src/kernels/common/mli_krn_fully_connected.cc: mli_krn_fully_connected_fx16, mli_krn_fully_connected_fx16_fx8_fx8, mli_krn_fully_connected_fx8, mli_krn_fully_connected_sa8_sa8_sa32", "lib/src/kernels/common/impl/mli_krn_fully_connected_ref.h: inner_product, fully_connected_prepare_and_run"]}
{"id": "C103", "title": "The error of a convolutional network", "statement": "If an application calls kernels for 16-bit fixed point (with 16-bit or 8-bit weights) or for 8-bit asymmetric elements one after the other (2D and depthwise convolution, maximum and average pooling, fully connected), each with the output tensor of the one before as input, all calls succeed and every element of the final output stands for a number that differs from what the network computes in real numbers by at most E. E starts with the error of the input; a convolution or fully connected layer multiplies it by the largest sum of absolute weights of one of its outputs and adds half an output step (8-bit asymmetric: 0.6 of a step and the cost of the bias format), maximum pooling keeps it, average pooling adds half an output step and two input steps (8-bit asymmetric: an output step and a little more than an input step).", "quantifier": "all numbers and orders of layers, all sizes, strides, paddings, dilations, formats, weights, biases, ReLU variants, rounding modes and inputs", "why_tests_cant": "The errors of the layers feed into each other; a test of a network runs one network on finitely many inputs and cannot bound the error for all.", "anchors": ["lib/src/kernels/convolution/mli_krn_conv2d_hwcn.cc: mli_krn_conv2d_hwcn_fx16", "lib/src/kernels/convolution/mli_krn_depthwise_conv2d_hwcn.cc: mli_krn_depthwise_conv2d_hwcn_fx16", "lib/src/kernels/pooling/mli_krn_maxpool_hwc_fx16.cc: mli_krn_maxpool_hwc_fx16", "lib/src/kernels/pooling/mli_krn_avepool_hwc_fx16.cc: mli_krn_avepool_hwc_fx16", "lib/src/kernels/common/mli_krn_fully_connected.cc: mli_krn_fully_connected_fx16", "lib/src/kernels/convolution/mli_krn_conv2d_hwcn.cc: mli_krn_conv2d_hwcn_sa8_sa8_sa32", "lib/src/kernels/pooling/mli_krn_maxpool_hwc_sa8.cc: mli_krn_maxpool_hwc_sa8", "lib/src/kernels/pooling/mli_krn_avepool_hwc_sa8.cc: mli_krn_avepool_hwc_sa8"]}
{"id": "C104", "title": "The CIFAR-10 example network", "statement": "Run in 16-bit fixed point with any weights (or with 8-bit weights that are small enough together for the 32-bit sums), any image and any contents of its two intermediate buffers, every library call of the CIFAR-10 example succeeds. The ten results are the softmax of ten scores (up to a stated error); the scores differ from those of the network in real numbers by at most E, where E depends on the weights through the largest sums of absolute values per output. The results are the probabilities of the network in real numbers up to a factor of exp(2E) and that error. If one class leads another by more than 2E in real numbers, its result is not smaller. More generally, a network of any depth whose layers read and write two buffers in turn gives what it gives with a buffer for each layer.", "quantifier": "all weights, biases, images, contents of the buffers and rounding modes; for the two buffers all depths, layers and sizes", "why_tests_cant": "The example is tested with a few images and one set of weights; that no call is refused and how far the scores can be off holds for all of them only by an argument over all layers.", "anchors": ["examples/example_cifar10_caffe/cifar10_model_hwcn.c: cifar10_cf_net", "examples/example_cifar10_caffe/cifar10_constants.h: CONV1_OUT_FRAQ", "lib/src/kernels/pooling/mli_krn_pool_hwc.h: mli_krn_pool_hwc", "lib/src/kernels/transform/mli_krn_softmax_fx.cc: mli_krn_softmax_fx16"]}
{"id": "C105", "title": "The human activity recognition example network", "statement": "Run in 16-bit fixed point with any weights, any input and any contents of its arrays, every library call of the human activity recognition example succeeds, although the example lets the previous output of an LSTM layer share its memory with the output and the two layers share cell and scratch memory. The input is converted from floating point with an error of about half a unit. The first layer gives the fully connected outputs of each of the 128 samples; the two LSTM layers run over the 128 steps from a cell and an output of zeros, the second over all outputs of the first; the six results are the fully connected outputs of the last output. This holds for the LSTM layer the application makes of other kernels as for that of the library.", "quantifier": "all weights, biases, inputs, contents of the arrays and rounding modes", "why_tests_cant": "The example is tested with a few samples and one set of weights; that no call is refused and no layer overwrites what a later one reads holds for all of them only by an argument over all layers and steps.", "anchors": ["examples/example_har_smartphone/har_smartphone_model_fx.c: har_smartphone_net", "examples/example_har_smartphone/har_smartphone_model_fx.c: user_fc_on_multiple_samples", "examples/example_har_smartphone/har_smartphone_model_fx.c: user_lstm", "examples/example_har_smartphone/har_smartphone_constants.h: LSTM2_CELL_FRAQ", "lib/src/kernels/common/mli_krn_lstm_cell.cc: mli_krn_lstm_cell_fx16", "lib/src/helpers/src/mli_helpers.cc: mli_hlp_convert_tensor"]}
