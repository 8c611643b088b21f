{
 "claims": [
  {
   "property": "C01",
   "status": "proved",
   "theorems": [
    "Mli.c01_add_exact",
    "Mli.c01_sub_exact",
    "Mli.c01_neg_exact",
    "Mli.c01_abs_exact"
   ],
   "note": "All widths."
  },
  {
   "property": "C02",
   "status": "proved",
   "theorems": [
    "Mli.c02_asl_clamp",
    "Mli.c02_asl_neg_floor",
    "Mli.c02_asr_floor",
    "Mli.c02_asr_neg_clamp"
   ],
   "note": "All widths and amounts."
  },
  {
   "property": "C03",
   "status": "proved",
   "theorems": [
    "Mli.c03_convergent_round_half_even",
    "Mli.c03_negative_amount",
    "Mli.c03_spec_unique",
    "Mli.c03_asl_rnd_up",
    "Mli.c03_asl_rnd_down"
   ],
   "note": "All widths >= 2 and amounts."
  },
  {
   "property": "C04",
   "status": "partial",
   "theorems": [
    "Mli.c04_round_half_up_partial",
    "Mli.c04_round_up_violated",
    "Mli.c04_round_up_excluded",
    "Mli.c04_asl_rnd_partial",
    "Mli.c04_mul_high_partial",
    "Mli.c04_mul_high_violated"
   ],
   "note": "The code violates the property for x > MAX - 2^(n-1) (half added with saturation before the shift): c04_round_up_violated is the witness, c04_round_up_excluded says the result is then exactly one too small. The fractional multiplication is right except for -1 times -1 (c04_mul_high_violated)."
  },
  {
   "property": "C05",
   "status": "partial",
   "theorems": [
    "Mli.c05_cast_convergent",
    "Mli.c05_cast_up_partial",
    "Mli.c05_cast_up_violated",
    "Mli.c05_acc_cast_is_cast",
    "Mli.c05_cast_sign",
    "Mli.c05_acc40_partial",
    "Mli.c05_acc40_violated",
    "Mli.c05_acc_cast32"
   ],
   "note": "Full in the convergent configuration for all integer conversions except int16->acc40, which wraps through int32 (c05_acc40_violated). Round-up configuration inherits the C04 deviation for shifts > wi-wo."
  },
  {
   "property": "C06",
   "status": "proved",
   "theorems": [
    "Mli.c06_cast_monotone",
    "Mli.c06_shift_monotone"
   ],
   "note": "Both rounding modes."
  },
  {
   "property": "C07",
   "status": "proved",
   "theorems": [
    "Mli.c07_norm_defined",
    "Mli.c07_norm_cast_value",
    "Mli.c07_norm_cast_full_range"
   ],
   "note": "Both rounding modes."
  },
  {
   "property": "C08",
   "status": "partial",
   "theorems": [
    "Mli.c08_accepted_in_bounds_partial",
    "Mli.c08_accepted_in_bounds_int8",
    "Mli.c08_wrap_violated"
   ],
   "note": "Proved for tensors whose byte extent is at most 2^31-1 (and for 8-bit elements without that restriction). The required size is computed modulo 2^32: c08_wrap_violated is a 2^30-element int32 tensor accepted with capacity 0."
  },
  {
   "property": "C09",
   "status": "proved",
   "theorems": [
    "Mli.c09_accepted_no_alias"
   ],
   "note": "All accepted descriptors."
  },
  {
   "property": "C10",
   "status": "partial",
   "theorems": [
    "Mli.c10_check_decision_partial",
    "Mli.c10_overflow"
   ],
   "note": "Iff for all descriptors whose running extent fits in int; c10_overflow shows the check itself overflows (undefined behaviour) otherwise."
  },
  {
   "property": "C100",
   "status": "partial",
   "theorems": [
    "Mli.c100_conv2d_sa8_partial",
    "Mli.c100_depthwise_sa8_partial",
    "Mli.c100_group_sa8_partial",
    "Mli.c100_transpose_sa8_partial",
    "Mli.c100_fc_sa8_partial",
    "Mli.c100_bias_scale_partial",
    "Mli.c100_conv2d_fx16_partial",
    "Mli.c100_depthwise_fx16_partial",
    "Mli.c100_group_fx16_partial",
    "Mli.c100_transpose_fx16_partial",
    "Mli.c100_conv2d_fx16_fx8_partial",
    "Mli.c100_depthwise_fx16_fx8_partial",
    "Mli.c100_group_fx16_fx8_partial",
    "Mli.c100_transpose_fx16_fx8_partial",
    "Mli.c100_fc_fx16_partial",
    "Mli.c100_fc_fx16_fx8_partial",
    "Mli.c100_fc_fx8_partial"
   ],
   "note": "For all five kernels and all their types. Missing: the conditions of the theorems they rest on (bias shifts, taps, windows), sums beyond the accumulator (32 bits, 24 bits in the default asymmetric build), and for c100_bias_scale_partial, which bounds the difference of the scales by 3/2 units of the bias format, the scales of c96_bias_scale_violated."
  },
  {
   "property": "C101",
   "status": "partial",
   "theorems": [
    "Mli.c101_fx16_partial",
    "Mli.c101_fx16_fx8_partial",
    "Mli.c101_sa8_partial"
   ],
   "note": "For all types of the kernel. Missing: the conditions of the C65 theorems they rest on (bias and output shifts, accumulator range), outside of which the code is wrong."
  },
  {
   "property": "C102",
   "status": "partial",
   "theorems": [
    "Mli.c102_fx16_partial",
    "Mli.c102_fx8_partial",
    "Mli.c102_fx16_fx8_partial",
    "Mli.c102_fx16_fx8_weights_partial",
    "Mli.c102_sa8_partial"
   ],
   "note": "For all types of the kernel and any number of layers. Missing: sums that do not fit the accumulator (assumed to fit, from sizes and biases alone; outside the kernel is wrong, C39) and the shift limits of the C39 theorems."
  },
  {
   "property": "C103",
   "status": "partial",
   "theorems": [
    "Mli.c103_cnn_fx16_partial",
    "Mli.c103_cnn_fx16_fx8_partial",
    "Mli.c103_cnn_sa8_partial"
   ],
   "note": "For any number and order of layers and all types of the kernels: 16-bit fixed point, 16-bit data with 8-bit weights, 8-bit asymmetric elements (there with the errors of C100 and C60 per layer). Missing: the conditions of the single kernels (bias shifts up to 16, sums that fit the accumulator, windows that meet the input, paddings of C34, scale ratios of C60)."
  },
  {
   "property": "C104",
   "status": "partial",
   "theorems": [
    "Mli.c104_cifar10_partial",
    "Mli.c104_cifar10_fx8_partial",
    "Mli.c104_cifar10_probability_partial",
    "Mli.c104_cifar10_fx8_probability_partial",
    "Mli.c104_cifar10_runs",
    "Mli.c104_two_buffers_partial",
    "Mli.c104_two_buffers_fx8_partial",
    "Mli.c104_average_violated"
   ],
   "note": "The network in real numbers limits the averages to the range of the format the example leaves in the tensor (c104_average_violated: activations of up to 32 are averaged to less than 8). Both configurations with 16-bit data; with 8-bit weights for all weights whose absolute values add up to at most 65519/256 per output of the second convolution and of the fully connected layer (the weights of the example reach 34). Missing: the configuration with 8-bit asymmetric elements."
  },
  {
   "property": "C105",
   "status": "partial",
   "theorems": [
    "Mli.c105_har_float_partial",
    "Mli.c105_har_user_partial",
    "Mli.c105_har_partial",
    "Mli.c105_har_8w16d_float_partial",
    "Mli.c105_har_8w16d_user_partial",
    "Mli.c105_har_8w16d_partial"
   ],
   "note": "Configurations with 16-bit data and 16-bit or (8w16d) 8-bit weights, with either LSTM for layer 3 (that of the application, which is the default, or that of the library); the float theorems include the conversion of the input, for numbers of at most 2^17 (larger ones may be converted wrongly, c92_overflow_violated). Missing: the configuration with 8-bit asymmetric elements."
  },
  {
   "property": "C11",
   "status": "proved",
   "theorems": [
    "Mli.c11_count_is_product",
    "Mli.c11_accepted_count"
   ],
   "note": "All ranks."
  },
  {
   "property": "C12",
   "status": "partial",
   "theorems": [
    "Mli.c12_window_partial",
    "Mli.c12_onto_partial",
    "Mli.c12_in_parent_partial",
    "Mli.c12_wrap_violated"
   ],
   "note": "Proved when offset+size does not wrap in uint32; c12_wrap_violated is an accepted configuration that does."
  },
  {
   "property": "C13",
   "status": "proved",
   "theorems": [
    "Mli.c13_permute",
    "Mli.c13_source_exists",
    "Mli.c13_rank_unchecked"
   ],
   "note": "For all accepted tensors of equal rank spanning less than 2 GiB. c13_rank_unchecked shows that the check does not compare the ranks, and a larger-rank output is only partly written."
  },
  {
   "property": "C14",
   "status": "proved",
   "theorems": [
    "Mli.c14_permute_inverse"
   ],
   "note": ""
  },
  {
   "property": "C15",
   "status": "partial",
   "theorems": [
    "Mli.c15_no_offsets_partial",
    "Mli.c15_with_offsets_partial",
    "Mli.c17_flat_transfer_violated"
   ],
   "note": "Exact for every sane configuration without offsets, and with offsets whenever the flat-transfer test fails; the remaining case (contiguous, equal shapes, offsets) is violated by the code: c17_flat_transfer_violated."
  },
  {
   "property": "C16",
   "status": "partial",
   "theorems": [
    "Mli.c16_window_only_partial",
    "Mli.c15_with_offsets_partial",
    "Mli.c17_flat_transfer_violated"
   ],
   "note": "Frame condition and in-bounds accesses on the same domain as C15; violated by the flat transfer with offsets."
  },
  {
   "property": "C17",
   "status": "partial",
   "theorems": [
    "Mli.c17_flat_path_invisible_partial",
    "Mli.c17_flat_transfer_violated"
   ],
   "note": "Flat path and loops agree on the whole buffer without offsets; concrete violation with offsets."
  },
  {
   "property": "C18",
   "status": "partial",
   "theorems": [
    "Mli.Dma.c18_channels_disjoint_partial",
    "Mli.Dma.c18_channels_in_pool_partial",
    "Mli.Dma.c18_reconfigure_violated",
    "Mli.Dma.c18_outside_pool_violated"
   ],
   "note": "All histories without reconfiguring a live pool / within the 16-entry table; violations for the rest."
  },
  {
   "property": "C19",
   "status": "partial",
   "theorems": [
    "Mli.Dma.c19_acquire_iff_partial",
    "Mli.Dma.c19_acquire_defined_partial",
    "Mli.Dma.c19_no_leak",
    "Mli.Dma.c19_out_of_table_violated",
    "Mli.Dma.c19_unconfigured_violated"
   ],
   "note": "Iff for pools inside the channel table; a pool exceeding it reads outside the table."
  },
  {
   "property": "C20",
   "status": "partial",
   "theorems": [
    "Mli.Dma.c20_start_calls_owner_partial",
    "Mli.Dma.c20_done_after_start",
    "Mli.Dma.c20_stale_callback_violated",
    "Mli.Dma.c20_sync_fires_foreign_callback_violated"
   ],
   "note": "Holds when each owner registers before starting; stale callbacks of earlier owners fire otherwise."
  },
  {
   "property": "C21",
   "status": "partial",
   "theorems": [
    "Mli.Iter.c21_tiles_partition",
    "Mli.Iter.c21_full_skew_violated",
    "Mli.Iter.c21_drop_axis_violated"
   ],
   "note": "Full partition (existence and uniqueness of the covering tile, non-emptiness, containment) for every rank, shape, tile size and skew < tile. A skew equal to the tile size (accepted by the constructor) yields an empty first tile (c21_full_skew_violated); dropping an axis loses the coverage of the skipped dimension (c21_drop_axis_violated)."
  },
  {
   "property": "C22",
   "status": "partial",
   "theorems": [
    "Mli.Iter.c22_visits",
    "Mli.Iter.c22_smaller_rank_violated",
    "Mli.Iter.c22_skipped_dim_violated"
   ],
   "note": "Exactly-once visiting, completion signal and restart for every configuration in which all dimensions are iterated. With dimensions of order kSkipIterDim or a rank below the template rank the total count or pass signal are wrong: the two violations."
  },
  {
   "property": "C23",
   "status": "proved",
   "theorems": [
    "Mli.Iter.c23_increments",
    "Mli.Iter.c23_tiling_closed",
    "Mli.Iter.c23_offset_increments"
   ],
   "note": "Any number of passes, for Next(pos_inc) and Next(offset_inc); c23_tiling_closed shows the hypothesis holds for every configuration the tiling constructor builds."
  },
  {
   "property": "C24",
   "status": "partial",
   "theorems": [
    "Mli.Iter.c24_update_idx_partial",
    "Mli.Iter.c24_update_idx_tiling",
    "Mli.Iter.c24_clipped_violated"
   ],
   "note": "For tilings: same index => same nominal size in every dimension. Middle tiles clipped by the tensor end (kernel-aware input tilings) share an index with unclipped ones: c24_clipped_violated."
  },
  {
   "property": "C25",
   "status": "proved",
   "theorems": [
    "Mli.Iter.c25_receptive_field",
    "Mli.Iter.c25_tile_extent"
   ],
   "note": "c25_tile_extent gives the exact extent along one dimension, c25_receptive_field the lockstep statement for tensors of any rank. Hypotheses (KernOk): pre-padding below the kernel size and within the first step (the constructor's assertion), last window starts inside the input, no 2^30 overflow."
  },
  {
   "property": "C26",
   "status": "partial",
   "theorems": [
    "Mli.Cs.c26_slice",
    "Mli.Cs.c26_slice_inside",
    "Mli.Cs.c26_slice_offset",
    "Mli.Cs.c26_slice_size_partial",
    "Mli.Cs.c26_slice_size_violated",
    "Mli.Cs.c26_transpose",
    "Mli.Cs.c26_transpose_inverse",
    "Mli.Cs.c26_split",
    "Mli.Cs.c26_combine_reverse",
    "Mli.Cs.c26_combine_violated",
    "Mli.Cs.c26_access"
   ],
   "note": "All view constructors for every rank. The code violates the property for slice(size) of a view that already has an offset (the offset is lost) and for combining dimensions with reverse_order=false (outer stride used instead of the inner one)."
  },
  {
   "property": "C27",
   "status": "proved",
   "theorems": [
    "Mli.Cs.c27_contiguous",
    "Mli.Cs.c27_set_mem_strides"
   ],
   "note": "Bijection between positions and [0,n) for every rank; set_mem_strides of the C API gives the same strides."
  },
  {
   "property": "C28",
   "status": "partial",
   "theorems": [
    "Mli.c28_interpolate_in_table",
    "Mli.c28_plain_in_table",
    "Mli.c28_short_table_violated",
    "Mli.c29_activation_kernel_fx",
    "Mli.c29_activation_kernel_sa"
   ],
   "note": "Every read is in the table for tables of two or more entries; a one-entry table is read past its end (c28_short_table_violated)."
  },
  {
   "property": "C29",
   "status": "partial",
   "theorems": [
    "Mli.c29_interpolated",
    "Mli.c29_activation_kernel_fx",
    "Mli.c29_activation_kernel_plain",
    "Mli.c29_activation_kernel_sa",
    "Mli.c29_activation_status",
    "Mli.c29_steep_table_violated"
   ],
   "note": "For tables whose neighbouring entries differ by less than 2^15 (all library tables); for steeper tables the int16 difference wraps (c29_steep_table_violated)."
  },
  {
   "property": "C30",
   "status": "partial",
   "theorems": [
    "Mli.c30_relu_partial",
    "Mli.c30_relu_status",
    "Mli.c30_nearest_self",
    "Mli.c30_relu6_violated",
    "Mli.c30_relu1_violated",
    "Mli.c30_rank0_violated"
   ],
   "note": "Proved for scale shifts whose limits are representable; the limits are wrong for extreme SA8 shifts and rank-0 tensors are left untouched."
  },
  {
   "property": "C31",
   "status": "partial",
   "theorems": [
    "Mli.c31_fx_exact_partial",
    "Mli.c31_kernel_partial",
    "Mli.c31_exact_unique",
    "Mli.c31_add_shift_violated",
    "Mli.c31_max_shift_violated",
    "Mli.c31_max_up_violated",
    "Mli.c31_mul_up_violated"
   ],
   "note": "Exact for all elements, with explicit bounds on the distance of fraction bits; beyond these bounds the code is wrong (violated theorems)."
  },
  {
   "property": "C32",
   "status": "partial",
   "theorems": [
    "Mli.c32_traversal",
    "Mli.c32_scalar_order_violated"
   ],
   "note": "Traversal, scalar broadcast on either side, in place or disjoint. Violated: a one-element tensor with a rank-0 scalar is accepted or rejected depending on the operand order (c32_scalar_order_violated)."
  },
  {
   "property": "C33",
   "status": "proved",
   "theorems": [
    "Mli.c33_squash_invisible",
    "Mli.c33_squash_invisible3",
    "Mli.c33_traverse_invisible",
    "Mli.c33_traverse_invisible3",
    "Mli.c33_row_major_complete"
   ],
   "note": "For every rank and every pair or triple of accepted tensors of one shape: loops over the squashed dimensions run the loop body on exactly the positions of the row-major traversal of the unsquashed tensors, in the same order, for any loop body."
  },
  {
   "property": "C34",
   "status": "partial",
   "theorems": [
    "Mli.c34_maxpool_partial",
    "Mli.c34_left_padding_violated",
    "Mli.c34_right_padding_violated"
   ],
   "note": "Every output position holds the window maximum and nothing else is written, for paddings up to output size times stride and sizes below 2^31; for larger paddings the accepted call writes outside the output (violated theorems)."
  },
  {
   "property": "C35",
   "status": "proved",
   "theorems": [
    "Mli.c35_valid_area"
   ],
   "note": "All sizes, strides, paddings, dilations >= 1 and output positions."
  },
  {
   "property": "C36",
   "status": "partial",
   "theorems": [
    "Mli.c36_conv2d_fx16_partial",
    "Mli.c36_conv2d_fx16_fx8_partial",
    "Mli.c36_conv2d_fx16_fx8_weights_partial",
    "Mli.c36_depthwise_fx16_partial",
    "Mli.c36_depthwise_fx16_fx8_partial",
    "Mli.c36_conv2d_sa8_partial",
    "Mli.c36_depthwise_sa8_partial",
    "Mli.c36_conv2d_runtime_partial",
    "Mli.c36_depthwise_runtime_partial",
    "Mli.c36_check",
    "Mli.c36_rows_meet",
    "Mli.c36_status_fx",
    "Mli.c36_status_sa8",
    "Mli.c36_bias_violated",
    "Mli.c36_empty_window_violated",
    "Mli.c36_fx8_overflow_violated",
    "Mli.c36_narrow_violated"
   ],
   "note": "All kernels of both APIs, any geometry, strides and dilation that is accepted. Limits, each shown necessary by a _violated theorem: number of products (or, for convolutions with 8-bit weights, sum of the absolute values of the weights) so that the accumulator cannot overflow; bias shift <= 16 with 16-bit weights; windows meet the input (general convolution); run-time configuration below 256."
  },
  {
   "property": "C37",
   "status": "partial",
   "theorems": [
    "Mli.c36_depthwise_runtime_partial",
    "Mli.c37_conv2d_runtime_violated"
   ],
   "note": "Depthwise run-time kernel: all dilations and weights zero points. The general run-time kernel ignores the weights zero point (violated); the library-2 kernels only accept weights zero point 0 (c36_*_sa8_partial)."
  },
  {
   "property": "C38",
   "status": "partial",
   "theorems": [
    "Mli.c38_conv2d_fx_partial",
    "Mli.c38_depthwise_fx_partial",
    "Mli.c38_conv2d_sa8_partial",
    "Mli.c38_depthwise_sa8_partial",
    "Mli.c38_conv2d_runtime_partial",
    "Mli.c38_depthwise_runtime_partial",
    "Mli.c38_conv2d_runtime_violated"
   ],
   "note": "Both runs write the same values; limits on the number of products as for C36. Violated for the general run-time kernel with a weights zero point."
  },
  {
   "property": "C39",
   "status": "partial",
   "theorems": [
    "Mli.c39_fx16_partial",
    "Mli.c39_fx16_fx8_partial",
    "Mli.c39_fx16_fx8_weights_partial",
    "Mli.c39_fx8_partial",
    "Mli.c39_sa8_partial",
    "Mli.c39_ext_bias_partial",
    "Mli.c39_check",
    "Mli.c39_status_fx",
    "Mli.c39_status_sa8",
    "Mli.c39_bias_violated",
    "Mli.c39_fx16_fx8_overflow_violated"
   ],
   "note": "All library-2 kernels, any accepted shapes; the sizes covered include the guard-bit budget of each element type (any size for 16-bit, 511 for 16-bit by 8-bit, 65536 for 8-bit). Limits: bias shift <= 16 with 16-bit weights (violated beyond). The run-time kernel without bias is C61. With 8-bit weights and 16-bit input also for any number of inputs if the absolute values of the weights of an output add up to at most 65535."
  },
  {
   "property": "C40",
   "status": "proved",
   "theorems": [
    "Mli.c40_argmax",
    "Mli.c40_status",
    "Mli.c40_output_rank_violated"
   ],
   "note": "Every accepted call with the documented output rank 2, every axis including 'whole tensor', every k. The rank-2 requirement is documented but not checked: c40_output_rank_violated shows the consequence."
  },
  {
   "property": "C41",
   "status": "partial",
   "theorems": [
    "Mli.c41_rescale_partial",
    "Mli.c41_saturating",
    "Mli.c41_bias_violated",
    "Mli.c41_i32_i32_violated"
   ],
   "note": "For 32-to-8 and 8-to-8 bit rescaling, any shape, strides, axis and shift amounts: the ideal value whenever x - b_in fits the input type. The code saturates x - b_in in the input type, so the property is false otherwise (witness); 32-to-32 bit rescaling returns OK without writing (witness)."
  },
  {
   "property": "C42",
   "status": "proved",
   "theorems": [
    "Mli.c42_clip",
    "Mli.c42_reduce_max",
    "Mli.c42_reduce_sum"
   ],
   "note": "Clip also in place; the sum is exact whenever the final sum fits the element type."
  },
  {
   "property": "C43",
   "status": "partial",
   "theorems": [
    "Mli.c43_resize_partial",
    "Mli.c43_convex_partial",
    "Mli.c43_negative_offset_violated"
   ],
   "note": "All sizes, strides, shifts 1..11 and offsets of at least minus one pixel. Below that the code reads outside the input (witness), so the full property is false."
  },
  {
   "property": "C44",
   "status": "partial",
   "theorems": [
    "Mli.c44_matmul_partial",
    "Mli.c44_no_overflow_partial",
    "Mli.c44_narrowing_violated",
    "Mli.c44_output_stride_violated"
   ],
   "note": "All sizes and row strides of the inputs. Differences from the zero point that leave 8 bits are truncated and strides of the output are ignored (witnesses), so the property is false there."
  },
  {
   "property": "C45",
   "status": "partial",
   "theorems": [
    "Mli.c45_fx16",
    "Mli.c45_fx16_fx8",
    "Mli.c45_sa8",
    "Mli.c45_shape",
    "Mli.c45_status_fx",
    "Mli.c45_status_sa8",
    "Mli.c45_runtime_partial",
    "Mli.c45_runtime_violated"
   ],
   "note": "Proved for the fixed-point and 8-bit asymmetric HWCN kernels for all shapes, strides, paddings and kernel sizes (the stated bounds exclude overflow), including the shapes accepted and the effect of a refused call. The run-time kernel is proved for weights zero point 0 and configuration values below 256; with another weights zero point the property fails (witness)."
  },
  {
   "property": "C46",
   "status": "proved",
   "theorems": [
    "Mli.c46_in_to_out",
    "Mli.c46_requant_params",
    "Mli.c46_result_cast_full",
    "Mli.c46_result_cast_partial",
    "Mli.c46_result_cast_violated",
    "Mli.c46_bias"
   ],
   "note": "Both ratio computations (kernels with weights, format conversion), all positive 16-bit scales and all fractional bits. Beyond the parameters: the accumulator conversion is within 3/5 of a step of the exact result (FULL_ACCU: always; default build: 24-bit accumulators, violated beyond)."
  },
  {
   "property": "C47",
   "status": "partial",
   "theorems": [
    "Mli.c47_not_overlapped_sound",
    "Mli.c47_overflow_violated"
   ],
   "note": "Sound when the 32-bit end addresses do not overflow; c47_overflow_violated otherwise."
  },
  {
   "property": "C48",
   "status": "proved",
   "theorems": [
    "Mli.c48_broadcast"
   ],
   "note": "All shapes, strides and ranks up to 4 of accepted tensors in separate buffers."
  },
  {
   "property": "C49",
   "status": "proved",
   "theorems": [
    "Mli.c49_multiplier",
    "Mli.c49_recip_error",
    "Mli.c49_avepool_accuracy"
   ],
   "note": "All window sizes up to 65536 (the sides are bytes, so 65025 is the largest)."
  },
  {
   "property": "C50",
   "status": "proved",
   "theorems": [
    "Mli.c50_fx",
    "Mli.c50_round_trip",
    "Mli.c50_accuracy",
    "Mli.c50_accuracy_in_place",
    "Mli.c50_rejected",
    "Mli.c50_in_place_violated"
   ],
   "note": "All shapes, strides, fractional bits and both rounding modes; also all pairs of integer formats with per-tensor or per-axis scales (accuracy) and conversion in place with equal strides. Floating-point tensors are not modelled. A call in place with different strides is accepted and corrupts data (witness)."
  },
  {
   "property": "C51",
   "status": "partial",
   "theorems": [
    "Mli.MoveCs.c51_issue",
    "Mli.MoveCs.c51_tiled_move_partial",
    "Mli.MoveCs.c51_uncut_dim_violated"
   ],
   "note": "c51_issue: one tile, unrestricted. Whole tensor: for tilings in natural order in which every dimension of more than one element is cut; otherwise the code moves tiles to wrong offsets (c51_uncut_dim_violated)."
  },
  {
   "property": "C52",
   "status": "partial",
   "theorems": [
    "Mli.MoveCs.c52_buffer_offset_partial",
    "Mli.MoveCs.c52_uncut_dim_violated",
    "Mli.MoveCs.c52_second_pass_violated",
    "Mli.MoveCs.c52_order_violated",
    "Mli.MoveCs.c52_reset_violated",
    "Mli.MoveCs.c52_skip_uninitialised_violated"
   ],
   "note": "Proved for any number of steps for tilings in natural order in which every dimension of more than one element is cut. Violated for uncut dimensions, other orders, Reset in mid-pass and skipped dimensions."
  },
  {
   "property": "C53",
   "status": "partial",
   "theorems": [
    "Mli.c53_monotone_partial",
    "Mli.c53_library_tables",
    "Mli.c53_sigmoid_violated"
   ],
   "note": "Monotone for inputs that fall inside the table, for all library tables; outside it the extrapolation oscillates between the two end entries (c53_sigmoid_violated)."
  },
  {
   "property": "C54",
   "status": "partial",
   "theorems": [
    "Mli.c54_sumpool_partial"
   ],
   "note": "Exact for all values; geometry restricted as in C34."
  },
  {
   "property": "C55",
   "status": "partial",
   "theorems": [
    "Mli.c55_avepool_fx_partial",
    "Mli.c55_status",
    "Mli.c55_accumulator_violated",
    "Mli.c55_rounding_violated"
   ],
   "note": "FX8 and FX16; geometry restricted as in C34. For FX8 windows of more than 1024 elements the accumulator overflows (c55_accumulator_violated); in round-up mode, windows of more than 512 elements with an output of fewer fractional bits may be rounded wrongly (c55_rounding_violated). Everything else is proved."
  },
  {
   "property": "C56",
   "status": "partial",
   "theorems": [
    "Mli.c56_maxpool_partial",
    "Mli.c56_sumpool_partial",
    "Mli.c56_depthwise_partial",
    "Mli.c56_depthwise_violated"
   ],
   "note": "Pooling kernels: any batch size (conditions on the geometry as in C34/C54). DepthwiseConv2d processes element 0 only (violated for batch size 2)."
  },
  {
   "property": "C57",
   "status": "partial",
   "theorems": [
    "Mli.c57_fx16_partial",
    "Mli.c57_fx16_fx8_partial",
    "Mli.c57_sa8_partial",
    "Mli.c57_shape",
    "Mli.c57_status_fx",
    "Mli.c57_status_sa8",
    "Mli.c57_check_violated"
   ],
   "note": "Proved for all accepted calls under the conditions of C36 (bias shift, tap count, accumulator range, windows that meet the input). Refusal fails for an input with fewer channels than the weights: the check divides by zero (witness)."
  },
  {
   "property": "C58",
   "status": "partial",
   "theorems": [
    "Mli.c58_leaky_fx_partial",
    "Mli.c58_leaky_sa8_partial",
    "Mli.c58_prelu_fx_partial",
    "Mli.c58_prelu_sa8_partial",
    "Mli.c58_prelu_scalar_fx",
    "Mli.c58_prelu_scalar_sa8",
    "Mli.c58_status_leaky_fx",
    "Mli.c58_status_leaky_sa8",
    "Mli.c58_status_prelu_fx",
    "Mli.c58_status_prelu_sa8",
    "Mli.c58_tie_violated",
    "Mli.c58_sa8_violated",
    "Mli.c58_stride_violated",
    "Mli.c58_axis_violated"
   ],
   "note": "Proved for all accepted calls of rank at least 1, except the cases the violation theorems show: one product that mode UP rounds down, SA8 input/output scale ratios above 2^14 for negative elements, slopes not adjacent in memory along the axis, and axis < -1 (accepted, then reads shape[-2])."
  },
  {
   "property": "C59",
   "status": "proved",
   "theorems": [
    "Mli.c59_eltwise_sa8",
    "Mli.c59_status"
   ],
   "note": "All five operations, every accepted call. In the regime where an operand of an addition exceeds 2^21 output steps the stated bound exceeds 256 steps and says nothing; there the code saturates intermediate sums."
  },
  {
   "property": "C60",
   "status": "partial",
   "theorems": [
    "Mli.c60_avepool_sa8_partial",
    "Mli.c60_status",
    "Mli.c60_constant_violated",
    "Mli.c60_accumulator_violated",
    "Mli.c60_ratio_violated",
    "Mli.c60_offset_violated"
   ],
   "note": "Proved with the stated bound for every accepted call whose window size and scale ratio keep the 32-bit accumulator in range, and a scale ratio of at most 126 (254 with AVEPOOL_16BIT_MUL). Missing: geometries outside PoolGeo (C34 violated there). The code violates the property for larger ratios (c60_ratio_violated, c60_offset_violated), when the accumulator overflows (c60_accumulator_violated), and does not round the mean correctly: 29 elements equal to 120 give 121 (c60_constant_violated)."
  },
  {
   "property": "C61",
   "status": "partial",
   "theorems": [
    "Mli.c61_issue_partial",
    "Mli.c61_encoding_violated",
    "Mli.c61_channel_violated"
   ],
   "note": "Proved for one zero point encoded with EncodeWtsZeroPts, all sizes and values that fit 32 bits, one batch, adjacent channels. The code violates the property for zero points encoded with EncodeWeightsAndZeroPts (bytes read as 16-bit values) and for zero points that differ between channels (only the first is used). The strides of the channels are not used by the code."
  },
  {
   "property": "C62",
   "status": "proved",
   "theorems": [
    "Mli.c62_sigmoid_fx",
    "Mli.c62_tanh_fx",
    "Mli.c62_sigmoid_sa8",
    "Mli.c62_tanh_sa8"
   ],
   "note": "For the tables of the library (the user may pass other tables; C29 covers those). Status codes of rejected calls are c29_activation_status. The parameters the kernels write into the output descriptor (fractional bits, zero point, scale) are constants of the code and are the ones in the statements."
  },
  {
   "property": "C63",
   "status": "partial",
   "theorems": [
    "Mli.c63_softmax_fx16",
    "Mli.c63_softmax_sa8",
    "Mli.c63_fx8_violated",
    "Mli.c63_overflow_violated",
    "Mli.c63_status"
   ],
   "note": "Proved for 16-bit fixed point and SA8 (table of the library). The property is false of the code for 8-bit fixed point (c63_fx8_violated: every output is 0, because the mantissa and the reciprocal are kept in 8 bits) and for slices of more than 65538 elements (c63_overflow_violated: the 32-bit sum overflows)."
  },
  {
   "property": "C64",
   "status": "partial",
   "theorems": [
    "Mli.c64_l2norm_fx16_partial",
    "Mli.c64_l2norm_sa8_partial",
    "Mli.c64_axis_violated",
    "Mli.c64_status"
   ],
   "note": "The accuracy is proved in full for axis -1 and every axis of the tensor. What is missing is false of the code: an axis of -2 or less passes the check and reads outside of the array of sizes (c64_axis_violated)."
  },
  {
   "property": "C65",
   "status": "partial",
   "theorems": [
    "Mli.c65_fx16_partial",
    "Mli.c65_fx16_fx8_partial",
    "Mli.c65_sa8_partial",
    "Mli.c65_status_fx",
    "Mli.c65_status_sa8",
    "Mli.c65_check",
    "Mli.c65_shift_violated",
    "Mli.c65_bias_overflow_violated",
    "Mli.c65_sa8_overflow_violated"
   ],
   "note": "What is missing is false of the code: shifts above 39 bits are limited to 39 (c65_shift_violated), and the accumulator starts from the bias without a check, so bias and products can overflow 32 bits (c65_bias_overflow_violated, c65_sa8_overflow_violated). The theorems state the bounds under which none of this happens; for SA8 the contributions must stay below 2^28 output steps."
  },
  {
   "property": "C66",
   "status": "partial",
   "theorems": [
    "Mli.c66_lstm_fx16_partial",
    "Mli.c66_lstm_fx16_fx8_partial",
    "Mli.c66_lstm_sa8_partial",
    "Mli.c66_split_fx16_partial",
    "Mli.c66_split_fx16_fx8_partial",
    "Mli.c66_split_sa8_partial",
    "Mli.c66_status_fx",
    "Mli.c66_status_sa8",
    "Mli.c66_check",
    "Mli.c66_capacity_violated",
    "Mli.c66_dim_violated"
   ],
   "note": "What is missing is false of the code: shifts above 39 bits and overflowing accumulators as in C65, an output capacity check that wraps at 2^32 (c66_capacity_violated), quantized dimensions of the weights below -1 (c66_dim_violated). The theorems ask for output room, for areas kept apart (only input and scratch buffer are checked by the library), and for bounds under which sums fit."
  },
  {
   "property": "C67",
   "status": "partial",
   "theorems": [
    "Mli.c67_gru_fx16_partial",
    "Mli.c67_gru_fx16_fx8_partial",
    "Mli.c67_gru_sa8_partial",
    "Mli.c67_split_fx16_partial",
    "Mli.c67_split_fx16_fx8_partial",
    "Mli.c67_split_sa8_partial",
    "Mli.c67_status_fx",
    "Mli.c67_status_sa8",
    "Mli.c67_check",
    "Mli.c67_scale_violated",
    "Mli.c67_dim_violated"
   ],
   "note": "What is missing is false of the code: 8-bit weights with a single scale are computed with a wrong scale for the new information (c67_scale_violated), quantized dimensions of the weights below -1 (c67_dim_violated), and the conditions on shifts, accumulators and output capacity of C65 and C66."
  },
  {
   "property": "C68",
   "status": "partial",
   "theorems": [
    "Mli.Rt.c68_tiled_partial",
    "Mli.Rt.c68_element",
    "Mli.Rt.c68_status",
    "Mli.Rt.c68_order_violated",
    "Mli.Rt.c68_fraction_violated",
    "Mli.Rt.c68_scalar_violated"
   ],
   "note": "What is missing is false of the code: other iteration orders (c68_order_violated), element parameters of the tile tensors other than zero, which the constructor leaves as found in memory (c68_fraction_violated), and scalars written after construction (c68_scalar_violated)."
  },
  {
   "property": "C69",
   "status": "partial",
   "theorems": [
    "Mli.Rt.c69_maxpool_tiled_partial",
    "Mli.Rt.c69_sumpool_tiled_partial",
    "Mli.Rt.c69_status",
    "Mli.Rt.c69_last_tile_violated",
    "Mli.Rt.c69_sum_padding_violated",
    "Mli.Rt.c69_buffer_violated",
    "Mli.Rt.c69_width_violated",
    "Mli.Rt.c69_bytes_violated",
    "Mli.Rt.c69_order_violated"
   ],
   "note": "What is missing is false of the code: see the violated theorems for the last tile, the padding of the second tile in SumPool2D, the size of the local buffer, other element sizes, windows of 256 or more and other iteration orders."
  },
  {
   "property": "C70",
   "status": "partial",
   "theorems": [
    "Mli.Rt.c70_conv2d_tiled_partial",
    "Mli.Rt.c70_depthwise_tiled_partial",
    "Mli.Rt.c70_status",
    "Mli.Rt.c70_batch_violated",
    "Mli.Rt.c70_group_violated",
    "Mli.Rt.c70_group_weights_violated",
    "Mli.Rt.c70_zero_points_violated",
    "Mli.Rt.c70_conv2d_zero_point_violated"
   ],
   "note": "What is missing is false of the code: see the violated theorems for tiles of several batch elements or groups, several groups with one group per tile (the weights stay at the first group), different weight zero points in a tile (DepthwiseConv2d) and weight zero points other than 0 (Conv2d). The bound on the number of taps excludes overflow of the 32-bit accumulator; the tiles are visited in the order of the dimensions (for other orders see Mli.Rt.c69_order_violated)."
  },
  {
   "property": "C71",
   "status": "partial",
   "theorems": [
    "Mli.Rt.c71_rescale",
    "Mli.Rt.c71_prelu",
    "Mli.Rt.c71_clip_partial",
    "Mli.Rt.c71_clip32_violated",
    "Mli.Rt.c71_clip32_values_violated",
    "Mli.Rt.c71_prelu_tensor_violated"
   ],
   "note": "Missing parts are false of the code: CLIP with 32-bit elements and PRELU with one parameter set for a tensor tile of several channels (violated theorems)."
  },
  {
   "property": "C72",
   "status": "partial",
   "theorems": [
    "Mli.Rt.c72_rescale_tiled_partial",
    "Mli.Rt.c72_rescale_tensor_tiled_partial",
    "Mli.Rt.c72_prelu_tiled_partial",
    "Mli.Rt.c72_status",
    "Mli.Rt.c72_prelu_sizes_violated",
    "Mli.Rt.c72_captured_violated",
    "Mli.Rt.c72_prelu_overflow_violated"
   ],
   "note": "Missing parts are false of the code (other element sizes, PRELU with one parameter set, parameters written after creation, overflow of the difference) or not covered: iteration orders other than that of the dimensions (violated for all run-time kernels, see C68)."
  },
  {
   "property": "C73",
   "status": "partial",
   "theorems": [
    "Mli.Rt.c73_reduce_sum_tiled",
    "Mli.Rt.c73_reduce_max_tiled_partial",
    "Mli.Rt.c73_permute_tiled_partial",
    "Mli.Rt.c73_status",
    "Mli.Rt.c73_reduce_max_first_violated",
    "Mli.Rt.c73_permute_order_violated",
    "Mli.Rt.c73_permute_16_violated"
   ],
   "note": "Reduce-sum is complete. The missing parts of reduce-max (local buffers of tile size) and permute (tiled dimensions exchanged, 16-bit elements) are false of the code."
  },
  {
   "property": "C74",
   "status": "partial",
   "theorems": [
    "Mli.Rt.c74_matmul_tiled_partial",
    "Mli.Rt.c74_no_overflow_partial",
    "Mli.Rt.c74_zero_points",
    "Mli.Rt.c74_status",
    "Mli.Rt.c74_right_position_violated",
    "Mli.Rt.c74_narrow_tile_violated"
   ],
   "note": "Proved for tiled rows, or tiled columns of one width, with the position of the right tile taken from its iterator. The missing parts (position reported by the kernel, narrower last tile, differences outside 8 bits) are false of the code."
  },
  {
   "property": "C75",
   "status": "partial",
   "theorems": [
    "Mli.Rt.c75_rescale_layer_partial",
    "Mli.Rt.c75_prelu_layer_partial",
    "Mli.Rt.c75_status",
    "Mli.Rt.c75_skew_violated",
    "Mli.Rt.c75_order_violated"
   ],
   "note": "Proved under the conditions of C70 (one group, one batch element per tile, zero points of weights as the kernels use them) and for sums whose difference to the input bias has 32 bits. Skew and other orders of dimensions are false of the code; several groups are false of the convolution itself (Mli.Rt.c70_group_violated, Mli.Rt.c70_group_weights_violated)."
  },
  {
   "property": "C76",
   "status": "partial",
   "theorems": [
    "Mli.Iter.c76_buffer_size_partial",
    "Mli.Iter.c76_contiguous",
    "Mli.Iter.c76_tile_buffer_partial",
    "Mli.Iter.c76_wrap_violated",
    "Mli.Iter.c76_empty_violated",
    "Mli.Iter.c76_order_violated",
    "Mli.Iter.c76_last_tile_violated"
   ],
   "note": "Proved for non-empty tensors whose offsets fit 32 bits, and for tile buffers whose iterator goes through the dimensions in their own order with no tile larger than the middle ones. Outside of that the property is false of the code (witness theorems)."
  },
  {
   "property": "C77",
   "status": "partial",
   "theorems": [
    "Mli.Iter.c77_block_partial",
    "Mli.Iter.c77_cyclic_partial",
    "Mli.Iter.c77_size_violated",
    "Mli.Iter.c77_clip_violated",
    "Mli.Iter.c77_stride_violated"
   ],
   "note": "Proved: capacity and separate places, for sizes that fit 32 bits and, in a ring, for tiles that do not leave gaps within one pass along the first iteration dimension. Exactness of the size, gaps with two tiles and unchanged tiles are false of the code (witness theorems)."
  },
  {
   "property": "C78",
   "status": "partial",
   "theorems": [
    "Mli.Rt.c78_transpose_tiled_partial",
    "Mli.Rt.c78_status",
    "Mli.Rt.c78_overlap_violated",
    "Mli.Rt.c78_zero_point_violated"
   ],
   "note": "Proved for one group, tiles of one batch element, zero points of the weights that are 0, and a kernel of the size of the stride where an axis really is tiled (an axis in one tile may have any kernel). The other cases of overlap and zero points are false of the code (witness theorems)."
  },
  {
   "property": "C79",
   "status": "proved",
   "theorems": [
    "Mli.Rt.c79_link",
    "Mli.Rt.c79_sub",
    "Mli.Rt.c79_inc",
    "Mli.Rt.c79_unchecked",
    "Mli.Rt.c79_inc_unchecked"
   ],
   "note": "Accesses outside of the buffer are outside of the property; the code does not refuse them (c79_unchecked)."
  },
  {
   "property": "C80",
   "status": "partial",
   "theorems": [
    "Mli.Rt.c80_create_partial",
    "Mli.Rt.c80_create_small",
    "Mli.Rt.c80_create_only",
    "Mli.Rt.c80_nop_violated",
    "Mli.Rt.c80_resize_violated"
   ],
   "note": "Creation is proved for all kernels but the no-operation and the bilinear resize, for which the property is false of the code (witness theorems)."
  },
  {
   "property": "C81",
   "status": "proved",
   "theorems": [
    "Mli.c81_copy",
    "Mli.c81_slice",
    "Mli.c81_concat",
    "Mli.c81_concat_two",
    "Mli.c81_subsample",
    "Mli.c81_permute",
    "Mli.c81_pad_chw",
    "Mli.c81_pad_hwc",
    "Mli.c81_all_neutral"
   ],
   "note": "Tensors without per-axis quantisation parameters; build without DMA."
  },
  {
   "property": "C82",
   "status": "proved",
   "theorems": [
    "Mli.c82_create_lut"
   ],
   "note": "The table lies in memory that the tensors of the kernel do not share."
  },
  {
   "property": "C83",
   "status": "proved",
   "theorems": [
    "Mli.c83_conv_fx",
    "Mli.c83_conv_sa8",
    "Mli.c83_group",
    "Mli.c83_transpose",
    "Mli.c83_pool"
   ],
   "note": "Pooling: the sizes with padding and stride are below 2^31 (the check wraps beyond)."
  },
  {
   "property": "C84",
   "status": "proved",
   "theorems": [
    "Mli.c84_sa8_sa8",
    "Mli.c84_fx16_fx16",
    "Mli.c84_fx16_fx8",
    "Mli.c84_tight",
    "Mli.c84_fc_fx16",
    "Mli.c84_fc_fx16_fx8",
    "Mli.c84_fc_sa8",
    "Mli.c84_conv_fx16_fx8"
   ],
   "note": "Reference platform (32-bit and 64-bit accumulators)."
  },
  {
   "property": "C85",
   "status": "partial",
   "theorems": [
    "Mli.c85_points_partial",
    "Mli.c85_status",
    "Mli.c85_rank_violated",
    "Mli.c85_float_violated",
    "Mli.c85_empty_violated"
   ],
   "note": "The check refuses every result of more than one dimension; the pointer of float tensors is computed as a float; size 0 is accepted. All other calls are fully characterised."
  },
  {
   "property": "C86",
   "status": "partial",
   "theorems": [
    "Mli.Rt.c86_weights_and_zp",
    "Mli.Rt.c86_unsupported",
    "Mli.Rt.c86_weights_partial",
    "Mli.Rt.c86_zero_points",
    "Mli.Rt.c86_fc_delivers",
    "Mli.Rt.c86_size_violated",
    "Mli.Rt.c86_window_violated",
    "Mli.Rt.c86_input_axis_violated",
    "Mli.Rt.c86_depthwise_input"
   ],
   "note": "The reported size does not include the zero points; the deprecated EncodeWeights reads behind the buffer for windows; Conv2d and TransposeConv2D compare the number of input zero points with the number of groups. The rest is proved."
  },
  {
   "property": "C87",
   "status": "partial",
   "theorems": [
    "Mli.Iter.c87_no_overlap_partial",
    "Mli.Iter.c87_wrap_violated"
   ],
   "note": "Proved when the last tile needs at least one new row (HeadOk); otherwise the code computes a size that wraps around to almost 2^32."
  },
  {
   "property": "C88",
   "status": "partial",
   "theorems": [
    "Mli.Iter.c88_transpose_partial",
    "Mli.Iter.c88_cycle_violated"
   ],
   "note": "Proved for permutations that are their own inverse. For other permutations the code transposes tensor and tiling in opposite directions."
  },
  {
   "property": "C89",
   "status": "partial",
   "theorems": [
    "Mli.Iter.c89_tiles_partial",
    "Mli.Iter.c89_last_increment_violated",
    "Mli.Iter.c89_drift_violated",
    "Mli.Cs.c89_tensor_partial",
    "Mli.Cs.c89_offset_violated",
    "Mli.Cs.c89_stride_violated",
    "Mli.Cs.c89_buffer_size_violated"
   ],
   "note": "Proved for Next() and for tensors at the start of their buffer with outer strides that are multiples of the row stride. The code gets the last increment wrong for every vector size above 1, does not convert the offset, rounds other strides and scales the byte size of the buffer."
  },
  {
   "property": "C90",
   "status": "proved",
   "theorems": [
    "Mli.Iter.c90_pre_padding"
   ],
   "note": "For every configuration built by the kernel-aware constructor."
  },
  {
   "property": "C91",
   "status": "proved",
   "theorems": [
    "Mli.c91_nearest",
    "Mli.c91_exact",
    "Mli.c91_accuracy",
    "Mli.c91_copy",
    "Mli.c91_rejected",
    "Mli.c91_sa32_violated"
   ],
   "note": "c91_sa32_violated shows why the SA_32 claim has a tolerance: the result is not always the nearest number."
  },
  {
   "property": "C92",
   "status": "partial",
   "theorems": [
    "Mli.c92_accuracy_partial",
    "Mli.c92_overflow_violated"
   ],
   "note": "Proved for elements whose quotient by the scale fits 32 bits with a margin of 1024. For larger ones the code converts an out-of-range float to int32_t, which is undefined."
  },
  {
   "property": "C93",
   "status": "proved",
   "theorems": [
    "Mli.c93_round_trip"
   ],
   "note": "Every 8- or 16-bit format, one scale or one per slice."
  },
  {
   "property": "C94",
   "status": "partial",
   "theorems": [
    "Mli.Rt.c94_fc_layer_partial"
   ],
   "note": "One zero point, encoded with EncodeWtsZeroPts (the other encoding is wrong, see C61), and differences sum - b_in of 32 bits (larger ones are limited first, see C41)."
  },
  {
   "property": "C95",
   "status": "partial",
   "theorems": [
    "Mli.Rt.c95_transpose_layer_partial"
   ],
   "note": "The conditions of C78 (outside of them the sums themselves are wrong), and differences sum - b_in of 32 bits (larger ones are limited first, see C41)."
  },
  {
   "property": "C96",
   "status": "partial",
   "theorems": [
    "Mli.c96_relu",
    "Mli.c96_activation_fx",
    "Mli.c96_activation_sa",
    "Mli.c96_softmax_fx",
    "Mli.c96_softmax_sa",
    "Mli.c96_l2_fx",
    "Mli.c96_l2_sa",
    "Mli.c96_bias_scale_violated",
    "Mli.c96_conv_fx_partial",
    "Mli.c96_conv_sa8_partial",
    "Mli.c96_group_partial",
    "Mli.c96_transpose_partial",
    "Mli.c96_fc_partial",
    "Mli.c96_maxpool_partial",
    "Mli.c96_avepool_fx_partial",
    "Mli.c96_avepool_sa8_partial",
    "Mli.c96_eltwise_fx_partial",
    "Mli.c96_eltwise_sa_partial",
    "Mli.c96_leaky_partial",
    "Mli.c96_prelu_partial",
    "Mli.c96_permute",
    "Mli.c96_argmax_partial",
    "Mli.c96_rnn_partial",
    "Mli.c96_lstm_partial",
    "Mli.c96_gru_partial",
    "Mli.c96_convert",
    "Mli.c96_convert_float",
    "Mli.c96_prelu_rank_violated",
    "Mli.c96_argmax_rank_violated",
    "Mli.c96_window_violated"
   ],
   "note": "Sizes of dimensions below 2^22 and tensors below 2^31 elements in all but the activation, permutation and conversion theorems: the checks compute products and sums in 32 bits, and do not notice a wrap (c96_window_violated). c96_bias_scale_violated: a bias scale that is wrong by a multiple of 2^32 is accepted. PReLU and argmax do not compare the ranks, so equal ranks are assumed there (c96_prelu_rank_violated, c96_argmax_rank_violated). Calls whose checks have no defined result (uninitialised or missing parameter arrays) are outside of the theorems. Which of several errors is reported is left open."
  },
  {
   "property": "C97",
   "status": "partial",
   "theorems": [
    "Mli.c97_same_numbers_partial",
    "Mli.c97_accepted_partial",
    "Mli.c97_missing_refused",
    "Mli.c97_dropped_violated",
    "Mli.c97_capacity_violated",
    "Mli.c97_pointed_partial",
    "Mli.c97_pointed_violated"
   ],
   "note": "c97_same_numbers_partial and c97_accepted_partial: per-tensor, or the quantized dimension is kept in the sub-tensor. c97_dropped_violated: for every sub-tensor that drops the quantized dimension the pointers stay in place and are read as values, no element has a number and every check refuses it. c97_capacity_violated: the capacities of the parameter arrays are not reduced by the offset. c97_pointed_violated: mli_hlp_point_to_subtensor keeps the arrays of the parent from their start, so a per-axis tensor gets the parameters of other slices."
  },
  {
   "property": "C98",
   "status": "partial",
   "theorems": [
    "Mli.c98_accepts",
    "Mli.c98_accepts_per_tensor",
    "Mli.c98_same_numbers",
    "Mli.c98_per_tensor_violated"
   ],
   "note": "c98_same_numbers is the full statement about the numbers, c98_accepts and c98_accepts_per_tensor about the check. c98_per_tensor_violated: for per-tensor tensors the capacities of the parameter containers of the output are left as they were, so the result can be refused by the next kernel."
  },
  {
   "property": "C99",
   "status": "partial",
   "theorems": [
    "Mli.c99_accepts",
    "Mli.c99_no_offsets_partial",
    "Mli.c99_with_offsets_partial",
    "Mli.c99_dim_violated",
    "Mli.c99_padding_violated"
   ],
   "note": "With the conditions of the two C15 theorems (the two partial theorems cover all transfers without offsets, and all with offsets that cannot be mistaken for a flat copy). c99_dim_violated: a negative dimension other than -1, which the documentation and the other functions take for per-tensor, leads to accesses in front of the configuration arrays. c99_padding_violated: padding is written as raw zeros and does not stand for zero when there is a zero point."
  }
 ]
}