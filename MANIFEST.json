{
 "claims": [
  {
   "property": "C01",
   "status": "proved",
   "theorems": [
    "Gemmlowp.C01_documented_pipeline",
    "Gemmlowp.C01_gemm",
    "Gemmlowp.C01_gemm_with_output_pipeline"
   ],
   "note": "All shapes, orders, strides, contents, kernels meeting the kernel contract, tunings, scratch contents, thread counts and schedules. Wrapping arithmetic: any offsets, accumulator modulo 2^32; C++ overflow rule: offsets in [-255,0], depth at most 33024."
  },
  {
   "property": "C02",
   "status": "proved",
   "theorems": [
    "Gemmlowp.C02_stores_exactly_the_result"
   ],
   "note": "Every outcome stores exactly once to each address of the result and nowhere else."
  },
  {
   "property": "C03",
   "status": "proved",
   "theorems": [
    "Gemmlowp.C03_no_fault"
   ],
   "note": "Out-of-range access, failed assertion, division by zero, overflow are faults of the model; no well-formed call ends in one. Memory outside of the entries of the inputs may be unreadable."
  },
  {
   "property": "C04",
   "status": "proved",
   "theorems": [
    "Gemmlowp.C04_no_overflow"
   ],
   "note": "With the C++ rule that signed overflow is a fault; depth bound 33024 explained in DESIGN.md."
  },
  {
   "property": "C05",
   "status": "proved",
   "theorems": [
    "Gemmlowp.C05_tuning_independent"
   ],
   "note": "Any two environments (kernel format, register size, cache sizes, factor, scratch contents, thread limits)."
  },
  {
   "property": "C06",
   "status": "proved",
   "theorems": [
    "Gemmlowp.C06_multi_thread_equals_single_thread"
   ],
   "note": "Any number of threads and any schedule of the pool against max_num_threads = 1. Together with the pool theorems (C17-C19) which show that every schedule completes."
  },
  {
   "property": "C07",
   "status": "proved",
   "theorems": [
    "Gemmlowp.C07_row_split"
   ],
   "note": "Under the condition that rows * tasks fits in int, as computed by the code."
  },
  {
   "property": "C08",
   "status": "proved",
   "theorems": [
    "Gemmlowp.C08_transposition_invisible"
   ],
   "note": ""
  },
  {
   "property": "C09",
   "status": "partial",
   "theorems": [
    "Gemmlowp.C09_empty_result_partial",
    "Gemmlowp.C09_zero_depth_fails",
    "Gemmlowp.C09_zero_depth_stores_nothing"
   ],
   "note": "Empty results: nothing is read or stored. Depth 0: the code leaves the result unwritten, so the claim about depth 0 is false (C09_zero_depth_fails)."
  },
  {
   "property": "C10",
   "status": "proved",
   "theorems": [
    "Gemmlowp.C10_addr_bounds",
    "Gemmlowp.C10_block_addr",
    "Gemmlowp.C10_block_exists",
    "Gemmlowp.C10_contiguous",
    "Gemmlowp.C10_distinct",
    "Gemmlowp.C10_nested_blocks",
    "Gemmlowp.C10_transpose",
    "Gemmlowp.C10_vector_block",
    "Gemmlowp.C10_vector_nested",
    "Gemmlowp.C10_vector_transpose"
   ],
   "note": "Matrix and vector views; natural-number addresses."
  },
  {
   "property": "C11",
   "status": "proved",
   "theorems": [
    "Gemmlowp.C11_only_entries_matter"
   ],
   "note": "Stale lanes beyond the depth or the width, and stale scratch, do not matter either (C05)."
  },
  {
   "property": "C12",
   "status": "proved",
   "theorems": [
    "Gemmlowp.C12_cell_layout"
   ],
   "note": "Also onto: the cell is exactly filled."
  },
  {
   "property": "C13",
   "status": "proved",
   "theorems": [
    "Gemmlowp.C13_block_params"
   ],
   "note": "Cache sizes are arbitrary integers, the float factor an arbitrary function."
  },
  {
   "property": "C14",
   "status": "proved",
   "theorems": [
    "Gemmlowp.C14_aligned_in_bounds",
    "Gemmlowp.C14_disjoint",
    "Gemmlowp.C14_wrap_fails"
   ],
   "note": "All call histories whose pending reservations total at most half of the range of size_t, which may have 32 or 64 bits; beyond that the size computation wraps (C14_wrap_fails). The address returned by aligned_alloc is a parameter."
  },
  {
   "property": "C15",
   "status": "proved",
   "theorems": [
    "Gemmlowp.C15_checked",
    "Gemmlowp.C15_stale_handle"
   ],
   "note": "Builds with assertions enabled; fewer calls of Decommit than size_t has values; size_t of 32 and 64 bits."
  },
  {
   "property": "C16",
   "status": "proved",
   "theorems": [
    "Gemmlowp.C16_allocation_failure",
    "Gemmlowp.C16_commit",
    "Gemmlowp.C16_no_leak",
    "Gemmlowp.C16_power_of_two",
    "Gemmlowp.C16_power_of_two_fails"
   ],
   "note": "All call histories; sizes up to half of the range of size_t (32 or 64 bits). Above 2^32 the size is not a power of two (C16_power_of_two_fails). Also: no leak and no double free."
  },
  {
   "property": "C17",
   "status": "proved",
   "theorems": [
    "Gemmlowp.Pool.C17_all_done",
    "Gemmlowp.Pool.C17_each_task_runs_exactly_once",
    "Gemmlowp.Pool.C17_no_task_runs_between_calls"
   ],
   "note": "Invariant of the pool transition system over all interleavings."
  },
  {
   "property": "C18",
   "status": "proved",
   "theorems": [
    "Gemmlowp.Pool.C18_bounded_work",
    "Gemmlowp.Pool.C18_fair_runs_terminate",
    "Gemmlowp.Pool.C18_no_assertion_fails",
    "Gemmlowp.Pool.C18_no_deadlock"
   ],
   "note": "No deadlock state; every fair run with finitely many spurious wakeups completes; work bounded."
  },
  {
   "property": "C19",
   "status": "proved",
   "theorems": [
    "Gemmlowp.Pool.C19_pool_grows_on_demand_and_is_idle_after_each_call",
    "Gemmlowp.Pool.C19_workersNeeded_succ"
   ],
   "note": ""
  },
  {
   "property": "C20",
   "status": "proved",
   "theorems": [
    "Gemmlowp.Pool.C20_destruction_stops_every_worker",
    "Gemmlowp.Pool.C20_no_use_after_destruction"
   ],
   "note": ""
  },
  {
   "property": "C21",
   "status": "proved",
   "theorems": [
    "Gemmlowp.Pool.C21_blocking_counter",
    "Gemmlowp.Pool.C21_counter_in_pool"
   ],
   "note": ""
  },
  {
   "property": "C22",
   "status": "proved",
   "theorems": [
    "Gemmlowp.C22_thread_count"
   ],
   "note": "Under the condition that the row computation fits in int."
  },
  {
   "property": "C23",
   "status": "partial",
   "theorems": [
    "Gemmlowp.C23_documented_formula_fails",
    "Gemmlowp.C23_documented_formula_partial",
    "Gemmlowp.C23_quantizeDown",
    "Gemmlowp.C23_quantizeDownPC"
   ],
   "note": "The value of the code for all inputs (rounding ties away from zero). The documented formula rounds ties up: holds except for ties of negative values (C23_documented_formula_partial), fails there (C23_documented_formula_fails)."
  },
  {
   "property": "C24",
   "status": "proved",
   "theorems": [
    "Gemmlowp.C24_byFixedPoint",
    "Gemmlowp.C24_error_bound",
    "Gemmlowp.C24_monotone",
    "Gemmlowp.C24_zero"
   ],
   "note": ""
  },
  {
   "property": "C25",
   "status": "proved",
   "theorems": [
    "Gemmlowp.C25_byExponent",
    "Gemmlowp.C25_byExponentPC",
    "Gemmlowp.C25_nonpositive_exponent"
   ],
   "note": ""
  },
  {
   "property": "C26",
   "status": "proved",
   "theorems": [
    "Gemmlowp.C26_saturating_casts",
    "Gemmlowp.OutSimd.C26_vector_casts"
   ],
   "note": "Scalar cast stages for all inputs; the vector casts of every build, all block shapes (C26_vector_casts)."
  },
  {
   "property": "C27",
   "status": "proved",
   "theorems": [
    "Gemmlowp.C27_bias_col",
    "Gemmlowp.C27_bias_row",
    "Gemmlowp.C27_clamp",
    "Gemmlowp.C27_truncating_cast"
   ],
   "note": ""
  },
  {
   "property": "C28",
   "status": "proved",
   "theorems": [
    "Gemmlowp.C28_empty",
    "Gemmlowp.C28_pipeline_composes",
    "Gemmlowp.C28_tile_independent"
   ],
   "note": ""
  },
  {
   "property": "C29",
   "status": "proved",
   "theorems": [
    "Gemmlowp.Fx.C29_srdhm",
    "Gemmlowp.Fx.C29_srdhm_comm",
    "Gemmlowp.Fx.C29_srdhm_no_overflow"
   ],
   "note": "Scalar int32 and int16 versions."
  },
  {
   "property": "C30",
   "status": "partial",
   "theorems": [
    "Gemmlowp.Fx.C30_rdpot",
    "Gemmlowp.Fx.C30_rdpot_int16_large_exponent_fails",
    "Gemmlowp.Fx.C30_rdpot_neg"
   ],
   "note": "int32 for all exponents 0..31; int16 for exponents up to 15. For larger int16 exponents the claim fails (C30_rdpot_int16_large_exponent_fails)."
  },
  {
   "property": "C31",
   "status": "proved",
   "theorems": [
    "Gemmlowp.Fx.C31_multiplyByPOT_neg",
    "Gemmlowp.Fx.C31_multiplyByPOT_pos",
    "Gemmlowp.Fx.C31_multiplyByPOT_zero"
   ],
   "note": ""
  },
  {
   "property": "C32",
   "status": "partial",
   "theorems": [
    "Gemmlowp.Fx.C32_roundingHalfSum",
    "Gemmlowp.Simd.C32_scalar_simd_fails",
    "Gemmlowp.Simd.C32_simd"
   ],
   "note": "Exact nearest half sum for scalar (ties away from zero) and for every vector version (ties up), all inputs. Agreement fails between scalar and vector versions exactly on negative odd sums (C32_scalar_simd_fails)."
  },
  {
   "property": "C33",
   "status": "partial",
   "theorems": [
    "Gemmlowp.Fx.C33_all_any",
    "Gemmlowp.Fx.C33_masks",
    "Gemmlowp.Fx.C33_select",
    "Gemmlowp.Simd.C33_all_sse_avx_fails",
    "Gemmlowp.Simd.C33_any_avx_fails",
    "Gemmlowp.Simd.C33_equality_partial",
    "Gemmlowp.Simd.C33_equality_sse_avx_fails",
    "Gemmlowp.Simd.C33_reductions_partial"
   ],
   "note": "Masks and selection: scalar and, through C34, every vector version. Reductions and equality: all versions but SSE/AVX All and AVX Any, which are constantly true (C33_all_sse_avx_fails, C33_any_avx_fails, C33_equality_sse_avx_fails)."
  },
  {
   "property": "C34",
   "status": "partial",
   "theorems": [
    "Gemmlowp.Simd.C34_avx16_partial",
    "Gemmlowp.Simd.C34_avx32_partial",
    "Gemmlowp.Simd.C34_composite16_lanes",
    "Gemmlowp.Simd.C34_exp_lanes",
    "Gemmlowp.Simd.C34_logistic_lanes",
    "Gemmlowp.Simd.C34_msa16_partial",
    "Gemmlowp.Simd.C34_msa32_partial",
    "Gemmlowp.Simd.C34_neon16_partial",
    "Gemmlowp.Simd.C34_neon32_partial",
    "Gemmlowp.Simd.C34_neon_rdpotVec",
    "Gemmlowp.Simd.C34_shiftLeft_fails",
    "Gemmlowp.Simd.C34_srdhm_all",
    "Gemmlowp.Simd.C34_srdhm_sse_min_fails",
    "Gemmlowp.Simd.C34_sse16_partial",
    "Gemmlowp.Simd.C34_sse32_partial",
    "Gemmlowp.Simd.C34_tanh_lanes",
    "Gemmlowp.Simd.C34_trap_lanes",
    "Gemmlowp.Simd.C34_wasm16_partial",
    "Gemmlowp.Simd.C34_wasm32_partial"
   ],
   "note": "Ten vector types, all primitives, every lane and value; exp, logistic and tanh on all ten. Exceptions, each refuted by a witness: overflowing left shifts (C34_shiftLeft_fails), negative odd half sums (C32_scalar_simd_fails), square of the least int32 on SSE/AVX (C34_srdhm_sse_min_fails). Exponents limited to the lane width."
  },
  {
   "property": "C35",
   "status": "proved",
   "theorems": [
    "Gemmlowp.Fx.C35_rescale"
   ],
   "note": "All widths up to 32 and all pairs of formats whose shift amount is at most 30."
  },
  {
   "property": "C36",
   "status": "proved",
   "theorems": [
    "Gemmlowp.Fx.C36_exp",
    "Gemmlowp.Fx.C36_thirty_bits",
    "Gemmlowp.Fx16.C36_exp16",
    "Gemmlowp.Fx16.C36_fourteen_bits",
    "Gemmlowp.Simd.C36_exp_vector"
   ],
   "note": "int32 (0 to 29 integer bits) and int16 (0 to 13) raw values, scalar and vector; one more integer bit is not supported by the code (C36_thirty_bits, C36_fourteen_bits)."
  },
  {
   "property": "C37",
   "status": "partial",
   "theorems": [
    "Gemmlowp.Fx.C37_logistic_partial",
    "Gemmlowp.Fx.C37_logistic_undefined",
    "Gemmlowp.Fx.C37_symmetry",
    "Gemmlowp.Fx16.C37_logistic16_partial",
    "Gemmlowp.Fx16.C37_logistic16_side_fails",
    "Gemmlowp.Fx16.C37_symmetry16",
    "Gemmlowp.Simd.C37_logistic_vector"
   ],
   "note": "int32, 0 to 29 integer bits, every input except the least one in C++ arithmetic, where the negation overflows (C37_logistic_undefined). The five vector versions (C37_logistic_vector) are covered for every input, since vector negation wraps. int16: every input, up to 13 integer bits; the side of one half only from 3 integer bits on, refuted below (C37_logistic16_side_fails, F18)."
  },
  {
   "property": "C38",
   "status": "partial",
   "theorems": [
    "Gemmlowp.Fx.C38_helper_negative",
    "Gemmlowp.Fx.C38_odd",
    "Gemmlowp.Fx.C38_tanh_partial",
    "Gemmlowp.Fx.C38_tanh_undefined",
    "Gemmlowp.Fx16.C38_odd16",
    "Gemmlowp.Fx16.C38_tanh16_partial",
    "Gemmlowp.Fx16.C38_tanh16_sign_fails",
    "Gemmlowp.Simd.C38_tanh_vector"
   ],
   "note": "int32, 0 to 28 integer bits, every input except the least one in C++ arithmetic, where the negation overflows (C38_tanh_undefined). The five vector versions (C38_tanh_vector) are covered for every input, since vector negation wraps. int16: every input, up to 12 integer bits; the sign only from 3 integer bits on, refuted below (C38_tanh16_sign_fails, F18)."
  },
  {
   "property": "C39",
   "status": "partial",
   "theorems": [
    "Gemmlowp.Fx.C39_shiftLeft_31_fails",
    "Gemmlowp.Fx.C39_shiftLeft_31_wraps_wrong",
    "Gemmlowp.Fx.C39_shiftLeft_partial"
   ],
   "note": "Scalar ShiftLeft for shifts 0..30 (C39_shiftLeft_partial); shift 31 is undefined / wrong (C39_shiftLeft_31_fails)."
  },
  {
   "property": "C40",
   "status": "proved",
   "theorems": [
    "Gemmlowp.C40_eight_bit_int_gemm",
    "Gemmlowp.C40_float",
    "Gemmlowp.C40_float_scratch_fails"
   ],
   "note": "Both functions, all flags, on every modelled architecture, without the meta fast path (see C55 for that). The float one needs scratch memory below 2^31 bytes (C40_float_scratch_fails)."
  },
  {
   "property": "C41",
   "status": "partial",
   "theorems": [
    "Gemmlowp.C41_default_is_one",
    "Gemmlowp.C41_free_resets",
    "Gemmlowp.C41_history_invisible",
    "Gemmlowp.C41_persistent",
    "Gemmlowp.C41_scratch",
    "Gemmlowp.C41_set_stays_fails",
    "Gemmlowp.C41_set_stays_partial"
   ],
   "note": "FreePersistentResources resets the maximum to 1 (C41_free_resets, C41_set_stays_fails: finding F7) and the documented default is wrong (C41_default_is_one: F22). Proved: the maximum stays in force until set again or freed; no history changes what a product stores."
  },
  {
   "property": "C42",
   "status": "partial",
   "theorems": [
    "Gemmlowp.C42_ambiguous_iff",
    "Gemmlowp.C42_ambiguous_witness",
    "Gemmlowp.C42_casts_compile",
    "Gemmlowp.C42_default_kernels",
    "Gemmlowp.C42_gemm_partial",
    "Gemmlowp.C42_kernel_exists",
    "Gemmlowp.C42_lhs_nonzero_kernels",
    "Gemmlowp.C42_plain_build_partial",
    "Gemmlowp.C42_signed_kernel_iff",
    "Gemmlowp.C42_sixteen_products",
    "Gemmlowp.C42_two_products_fail",
    "Gemmlowp.C42_two_products_fail_witness",
    "Gemmlowp.C42_two_products_partial",
    "Gemmlowp.C42_unsigned_7bit_wrong"
   ],
   "note": "Fails exactly if both declared ranges start at zero and the left one ends by 127 (C42_two_products_fail, C42_two_products_fail_witness, C42_unsigned_7bit_wrong: finding F8). Otherwise proved, for all architectures and ranges, down to the result of the entry points with the chosen kernel (uint8 inputs; for int8 see C61)."
  },
  {
   "property": "C43",
   "status": "partial",
   "theorems": [
    "Gemmlowp.C43_float_exact",
    "Gemmlowp.C43_multiplier_fails",
    "Gemmlowp.C43_multiplier_partial",
    "Gemmlowp.C43_shift",
    "Gemmlowp.C43_shift_fails",
    "Gemmlowp.C43_stage"
   ],
   "note": "Over exact rationals (float arithmetic is exact here). Proved for all multipliers below 1 - 2^-32, and exact for all floats; above, the assertion s >= 0 fails (C43_multiplier_fails: finding F24)."
  },
  {
   "property": "C44",
   "status": "proved",
   "theorems": [
    "Gemmlowp.Meta.C44_dispatch",
    "Gemmlowp.Meta.C44_dispatch_transform"
   ],
   "note": ""
  },
  {
   "property": "C45",
   "status": "partial",
   "theorems": [
    "Gemmlowp.Meta.C45_gemm_tasks_partial",
    "Gemmlowp.Meta.C45_tasks_overflow",
    "Gemmlowp.Meta.C45_tasks_partial",
    "Gemmlowp.Meta.C45_transform_tasks"
   ],
   "note": "Proved if m*n*k fits in an int; otherwise computing the number of tasks overflows (C45_tasks_overflow: finding F29)."
  },
  {
   "property": "C46",
   "status": "partial",
   "theorems": [
    "Gemmlowp.Meta.C46_last_piece_fails",
    "Gemmlowp.Meta.C46_pieces_partial"
   ],
   "note": "The pieces cover the panel and all but the last fit; the last one may not (C46_last_piece_fails: finding F9)."
  },
  {
   "property": "C47",
   "status": "proved",
   "theorems": [
    "Gemmlowp.Meta.C47_chunks",
    "Gemmlowp.Meta.C47_overflow"
   ],
   "note": "For sizes that fit in an int; n*k beyond that overflows (C47_overflow: finding F29)."
  },
  {
   "property": "C48",
   "status": "partial",
   "theorems": [
    "Gemmlowp.C48_children",
    "Gemmlowp.C48_leaf",
    "Gemmlowp.C48_paths",
    "Gemmlowp.C48_profile",
    "Gemmlowp.C48_record",
    "Gemmlowp.C48_samples_partial",
    "Gemmlowp.C48_sorted",
    "Gemmlowp.C48_too_deep",
    "Gemmlowp.C48_update_fails",
    "Gemmlowp.C48_weight"
   ],
   "note": "The tree is proved for all sample sequences (fewer than 2^64) and all orders std::sort may leave among equal weights. The stacks fed to it are proved to be the enclosing labels unless Update is called on a label that is not the innermost (C48_update_fails: finding F27)."
  },
  {
   "property": "C49",
   "status": "proved",
   "theorems": [
    "Gemmlowp.C49_check",
    "Gemmlowp.C49_decode",
    "Gemmlowp.C49_executes",
    "Gemmlowp.C49_fix",
    "Gemmlowp.C49_injective",
    "Gemmlowp.C49_rejects",
    "Gemmlowp.C49_sources",
    "Gemmlowp.C49_zero_word_fails",
    "Gemmlowp.C49_zero_word_grows"
   ],
   "note": "The regular expressions are not modelled. Also: the words in the sources are right, the script with and without --fix."
  },
  {
   "property": "C50",
   "status": "proved",
   "theorems": [
    "Gemmlowp.Fx.C50_exp_accuracy",
    "Gemmlowp.Fx.C50_exp_relative",
    "Gemmlowp.Fx16.C50_exp16_accuracy",
    "Gemmlowp.Simd.C50_vector16_accuracy"
   ],
   "note": "Against the real exponential of Mathlib, int32 and int16, scalar and vector; certified Taylor bounds and rounding error analysis."
  },
  {
   "property": "C51",
   "status": "proved",
   "theorems": [
    "Gemmlowp.Fx.C51_logistic_accuracy",
    "Gemmlowp.Fx16.C51_logistic16_accuracy"
   ],
   "note": "Against real functions of Mathlib, int32 and int16, scalar and vector."
  },
  {
   "property": "C52",
   "status": "proved",
   "theorems": [
    "Gemmlowp.Fx.C52_tanh_accuracy",
    "Gemmlowp.Fx16.C52_tanh16_accuracy"
   ],
   "note": "Against real functions of Mathlib, int32 and int16, scalar and vector."
  },
  {
   "property": "C53",
   "status": "partial",
   "theorems": [
    "Gemmlowp.C53_avx2_fails",
    "Gemmlowp.C53_avx2_gemm_partial",
    "Gemmlowp.C53_avx2_kernel_partial",
    "Gemmlowp.C53_avx2_reads_beyond",
    "Gemmlowp.C53_sse32_gemm",
    "Gemmlowp.C53_sse32_kernel",
    "Gemmlowp.C53_sse64_extra_cell",
    "Gemmlowp.C53_sse64_gemm",
    "Gemmlowp.C53_sse64_kernel",
    "Gemmlowp.C53_sse64_needs_padding"
   ],
   "note": "SSE4 kernels proved for all zero-padded packed data (needed: C53_sse64_needs_padding). The AVX2 kernel reads 8 bytes beyond the packed right-hand side (C53_avx2_reads_beyond, C53_avx2_fails), so its theorems assume those bytes can be read."
  },
  {
   "property": "C54",
   "status": "proved",
   "theorems": [
    "Gemmlowp.C54_dotprod_kernel",
    "Gemmlowp.C54_gemm",
    "Gemmlowp.C54_lhs_nonzero_gemm",
    "Gemmlowp.C54_msa_kernel",
    "Gemmlowp.C54_msa_lhs_nonzero_kernel",
    "Gemmlowp.C54_msa_lhs_nonzero_restricted",
    "Gemmlowp.C54_neon32_int8_inputs_kernel",
    "Gemmlowp.C54_neon32_kernel",
    "Gemmlowp.C54_neon32_lhs_nonzero_kernel",
    "Gemmlowp.C54_neon32_lhs_nonzero_restricted",
    "Gemmlowp.C54_neon64_int8_inputs_kernel",
    "Gemmlowp.C54_neon64_kernel",
    "Gemmlowp.C54_neon64_lhs_nonzero_kernel",
    "Gemmlowp.C54_neon64_lhs_nonzero_restricted",
    "Gemmlowp.C54_twelve_bit_gemm",
    "Gemmlowp.C54_twelve_bit_kernel",
    "Gemmlowp.C54_twelve_bit_restricted"
   ],
   "note": "All ten kernels. The kernels that add in 16 bits have a restriction on the operands, part of the statement; it is needed (C54_*_restricted).  The kernels for int8 inputs are those for int8 operands (C54_*_int8_inputs_kernel)."
  },
  {
   "property": "C55",
   "status": "partial",
   "theorems": [
    "Gemmlowp.C55_depths",
    "Gemmlowp.C55_fast_path_fails",
    "Gemmlowp.C55_fast_path_partial",
    "Gemmlowp.C55_taken"
   ],
   "note": "False for one-row or one-column matrices with a larger leading dimension (C55_fast_path_fails: finding F23); otherwise proved."
  },
  {
   "property": "C56",
   "status": "partial",
   "theorems": [
    "Gemmlowp.C56_entry",
    "Gemmlowp.C56_error",
    "Gemmlowp.C56_example",
    "Gemmlowp.C56_find_min_max",
    "Gemmlowp.C56_monotone",
    "Gemmlowp.C56_params",
    "Gemmlowp.C56_round_trip",
    "Gemmlowp.C56_zero_exact",
    "Gemmlowp.C56_zero_range_fails"
   ],
   "note": "In exact arithmetic (C71 has the roundings of the float operations). The range [0, 0] is undefined (C56_zero_range_fails: finding F25). Proved down to the result of the multiplication and its distance from the exact product."
  },
  {
   "property": "C57",
   "status": "partial",
   "theorems": [
    "Gemmlowp.C57_exit_order_fails",
    "Gemmlowp.C57_samples_live_partial",
    "Gemmlowp.C57_start_finish"
   ],
   "note": "Proved if ThreadExitCallback runs before DeleteThreadInfo; the code does not ensure that order (C57_exit_order_fails: finding F26)."
  },
  {
   "property": "C58",
   "status": "partial",
   "theorems": [
    "Gemmlowp.Meta.C58_cache_friendly_packLHS",
    "Gemmlowp.Meta.C58_cache_friendly_packRHS",
    "Gemmlowp.Meta.C58_cache_friendly_size_partial",
    "Gemmlowp.Meta.C58_estimate_packLHS",
    "Gemmlowp.Meta.C58_estimate_packRHS",
    "Gemmlowp.Meta.C58_gemm_packLHS",
    "Gemmlowp.Meta.C58_gemm_packRHS",
    "Gemmlowp.Meta.C58_legacy",
    "Gemmlowp.Meta.C58_memory",
    "Gemmlowp.Meta.C58_multi_thread",
    "Gemmlowp.Meta.C58_scratch_fails",
    "Gemmlowp.Meta.C58_scratch_fails_depth8",
    "Gemmlowp.Meta.C58_shift_zero_fails"
   ],
   "note": "Given that the generated packing and multiplication code does what its interface says (MetaOps.Meets; proved for 64-bit ARM: C62). The legacy drivers from depth 12 (8 if the panel is not cut) to 2048; below, the scratch memory is too small (C58_scratch_fails: finding F28). Shift 0 is undefined (C58_shift_zero_fails: finding F31)."
  },
  {
   "property": "C59",
   "status": "proved",
   "theorems": [
    "Gemmlowp.C59_block_effect",
    "Gemmlowp.C59_chosen",
    "Gemmlowp.C59_pairwise_add",
    "Gemmlowp.C59_same_as_generic",
    "Gemmlowp.C59_side"
   ],
   "note": "uint8 and int8 inputs. The packing is joined to the kernel that the library chooses (C59_chosen), and the theorems on entry points in C42, C53 and C54 use the packing of their build."
  },
  {
   "property": "C60",
   "status": "partial",
   "theorems": [
    "Gemmlowp.C60_plain_pipelines",
    "Gemmlowp.C60_same_as_scalar_partial",
    "Gemmlowp.OutSimd.C60_left_shift_differs",
    "Gemmlowp.OutSimd.C60_sse_square_differs",
    "Gemmlowp.OutSimd.C60_tanh_differs"
   ],
   "note": "For all pipelines that compile, on all accumulators except those at which the versions differ: an overflowing left shift (C60_left_shift_differs, C60_tanh_differs, findings F32, F33) and the square of the least number under SSE (C60_sse_square_differs). No exception for pipelines without positive exponents, tanh and the multiplier -2^31 (C60_plain_pipelines)."
  },
  {
   "property": "C61",
   "status": "proved",
   "theorems": [
    "Gemmlowp.C61_documented",
    "Gemmlowp.C61_gemm",
    "Gemmlowp.C61_same_as_uint8"
   ],
   "note": "NEON builds, left-hand side row-major and right-hand side column-major: nothing else compiles for int8 (the generic packing does not, nor do declared ranges that reach -128). The environment conditions are those of C01."
  },
  {
   "property": "C62",
   "status": "proved",
   "theorems": [
    "Gemmlowp.Meta.C62_cache_friendly_packLHS",
    "Gemmlowp.Meta.C62_cache_friendly_packRHS",
    "Gemmlowp.Meta.C62_depth_fails",
    "Gemmlowp.Meta.C62_gemm_packLHS",
    "Gemmlowp.Meta.C62_gemm_packRHS",
    "Gemmlowp.Meta.C62_legacy_f32",
    "Gemmlowp.Meta.C62_legacy_i32",
    "Gemmlowp.Meta.C62_legacy_q8",
    "Gemmlowp.Meta.C62_legacy_q8_wrapping",
    "Gemmlowp.Meta.C62_multi_thread",
    "Gemmlowp.Meta.C62_packing"
   ],
   "note": "The 8-bit, 32-bit and float kernels of all 15 sizes, the row-major and column-major packing of 1 to 8 lanes and every remainder, 64-bit and 32-bit ARM; on 32-bit ARM the scratch memory must be aligned (C66). Depths up to 2056, as the property says; beyond, the 16-bit counters of the packing code wrap (C62_depth_fails: finding F35). The float conversion and multiplication are parameters."
  },
  {
   "property": "C63",
   "status": "partial",
   "theorems": [
    "Gemmlowp.Meta.C63_eight_bit_int_gemm_partial",
    "Gemmlowp.Meta.C63_fast_path_partial",
    "Gemmlowp.Meta.C63_fast_path_wrapping_partial",
    "Gemmlowp.Meta.C63_float_partial",
    "Gemmlowp.Meta.C63_float_same_partial",
    "Gemmlowp.Meta.C63_rounding_fails",
    "Gemmlowp.Meta.C63_scratch_fails"
   ],
   "note": "64-bit and 32-bit ARM (the alignment that C66 asks for is proved from Scratch). Proved under FastOk, which excludes what the fast path gets wrong: leading dimensions of vectors (F23), scratch memory for depths 8 to 11 (F28), products m*n*k beyond int (F29), shift 0 (F31), 2048 threads (C63_scratch_fails), and entries at which the rounding constant overflows (C63_rounding_fails: finding F36)."
  },
  {
   "property": "C64",
   "status": "proved",
   "theorems": [
    "Gemmlowp.Meta.C64_bias_add",
    "Gemmlowp.Meta.C64_dequantize",
    "Gemmlowp.Meta.C64_dequantize_threads",
    "Gemmlowp.Meta.C64_minmax",
    "Gemmlowp.Meta.C64_minmax_threads",
    "Gemmlowp.Meta.C64_no_elements",
    "Gemmlowp.Meta.C64_quantize",
    "Gemmlowp.Meta.C64_quantize_threads",
    "Gemmlowp.Meta.C64_requantize",
    "Gemmlowp.Meta.C64_requantize_threads"
   ],
   "note": "64-bit ARM, all five transformations, all 16 remainders, kernel size 16. The floating-point operations are parameters. Without any element the loops miss their end (C64_no_elements: finding F39), so the property asks for at least one."
  },
  {
   "property": "C65",
   "status": "partial",
   "theorems": [
    "Gemmlowp.Meta.C65_bias_add",
    "Gemmlowp.Meta.C65_dequantize",
    "Gemmlowp.Meta.C65_dequantize_threads",
    "Gemmlowp.Meta.C65_minmax",
    "Gemmlowp.Meta.C65_minmax_threads",
    "Gemmlowp.Meta.C65_no_elements",
    "Gemmlowp.Meta.C65_quantize",
    "Gemmlowp.Meta.C65_quantize_threads",
    "Gemmlowp.Meta.C65_requantize_fails",
    "Gemmlowp.Meta.C65_requantize_partial",
    "Gemmlowp.Meta.C65_requantize_threads_partial"
   ],
   "note": "32-bit ARM, all five transformations, all 16 remainders, kernel size 16. The property is false for Requantize, which leaves out the offset of the output and rounds to zero where the 64-bit code rounds to nearest (C65_requantize_fails: finding F38); the _partial theorems say what it stores. The floating-point operations are parameters."
  },
  {
   "property": "C66",
   "status": "proved",
   "theorems": [
    "Gemmlowp.Meta.C66_cache_friendly_faults",
    "Gemmlowp.Meta.C66_gemm_packLHS_faults",
    "Gemmlowp.Meta.C66_gemm_packRHS_faults",
    "Gemmlowp.Meta.C66_packing",
    "Gemmlowp.Meta.C66_packing_faults"
   ],
   "note": "Row-major and column-major streams with sums, 1 to 8 lanes, every remainder. The accesses of a misaligned Gemm are shown to fault for the executors PackRHS, PackLHS and PackRHSCacheFriendly with one task (finding F40); that aligned scratch memory suffices is C62, that EightBitIntGemm has it is C41_scratch and C63."
  },
  {
   "property": "C67",
   "status": "partial",
   "theorems": [
    "Gemmlowp.F32.C67_add",
    "Gemmlowp.F32.C67_affine",
    "Gemmlowp.F32.C67_bias_add",
    "Gemmlowp.F32.C67_dequantize",
    "Gemmlowp.F32.C67_dequantize_order",
    "Gemmlowp.F32.C67_float_result",
    "Gemmlowp.F32.C67_flush",
    "Gemmlowp.F32.C67_mul",
    "Gemmlowp.F32.C67_ofInt",
    "Gemmlowp.F32.C67_quantize",
    "Gemmlowp.F32.C67_quantize_inf",
    "Gemmlowp.F32.C67_quantize_nan",
    "Gemmlowp.F32.C67_quantize_order",
    "Gemmlowp.F32.C67_requantize",
    "Gemmlowp.F32.C67_requantize32_partial",
    "Gemmlowp.F32.C67_requantize_order",
    "Gemmlowp.F32.C67_round_trip",
    "Gemmlowp.F32.C67_sub",
    "Gemmlowp.Meta.C67_dequantize_run",
    "Gemmlowp.Meta.C67_gemm_f",
    "Gemmlowp.Meta.C67_quantize_run",
    "Gemmlowp.Meta.C67_requantize_run",
    "Gemmlowp.Meta.C67_requantize_test_fails",
    "Gemmlowp.Meta.C67_round_trip_fails",
    "Gemmlowp.Meta.C67_round_trip_run"
   ],
   "note": "Proved for both architectures. Partial: Requantize on 32-bit ARM leaves out the offset of the output and rounds to zero (C67_requantize32_partial says what it stores; C65_requantize_fails). C67_round_trip_fails and C67_requantize_test_fails are findings F41 and F42. The unit is the model F32.ieee; C67_add, C67_sub, C67_mul and C67_ofInt prove it correctly rounded, C67_flush that flushing only matters for subnormal numbers."
  },
  {
   "property": "C68",
   "status": "proved",
   "theorems": [
    "Gemmlowp.Weak.C68_all_visible_after_destruction",
    "Gemmlowp.Weak.C68_each_task_runs_exactly_once",
    "Gemmlowp.Weak.C68_fair_runs_exist",
    "Gemmlowp.Weak.C68_fair_runs_terminate",
    "Gemmlowp.Weak.C68_gemm",
    "Gemmlowp.Weak.C68_inputs_visible",
    "Gemmlowp.Weak.C68_needs_acquire",
    "Gemmlowp.Weak.C68_needs_release",
    "Gemmlowp.Weak.C68_no_race",
    "Gemmlowp.Weak.C68_results_visible",
    "Gemmlowp.Weak.C68_states_are_sc"
   ],
   "note": "For all memory orders in which the decrement releases and the waiting load acquires. The hypothesis that tasks of one call do not conflict is proved for matrix products (C68_gemm, from C01). C68_needs_release and C68_needs_acquire: neither order can be left out. wholeCall_runs, stale_read_possible and C68_fair_runs_exist show that the hypotheses are met and that stale reads occur."
  },
  {
   "property": "C69",
   "status": "partial",
   "theorems": [
    "Gemmlowp.C69_gemm_partial",
    "Gemmlowp.TanhStage.C69_negative_amplitude",
    "Gemmlowp.TanhStage.C69_powers_of_two",
    "Gemmlowp.TanhStage.C69_scalar_blocks",
    "Gemmlowp.TanhStage.C69_scalar_defined_partial",
    "Gemmlowp.TanhStage.C69_test_tolerance",
    "Gemmlowp.TanhStage.C69_undefined",
    "Gemmlowp.TanhStage.C69_undefined_inside",
    "Gemmlowp.TanhStage.C69_vector_fails",
    "Gemmlowp.TanhStage.C69_vector_partial",
    "Gemmlowp.TanhStage.C69_zero_amplitude"
   ],
   "note": "Proved for scalars modulo 2^32 (C69_scalar_blocks). The code violates the property in two ways, so two theorems are partial: signed overflow at and below the lower cutoff (C69_undefined, C69_undefined_inside, finding F43), and the wrong sign in vector registers just below the upper cutoff (C69_vector_fails, C60_tanh_differs, finding F33). C69_negative_amplitude and C69_zero_amplitude: what happens for other amplitudes."
  },
  {
   "property": "C70",
   "status": "proved",
   "theorems": [
    "Gemmlowp.Fx.C70_accurate_exists",
    "Gemmlowp.Fx.C70_checks_pass",
    "Gemmlowp.Fx.C70_fromDouble_nearest",
    "Gemmlowp.Fx.C70_inaccurate_caught",
    "Gemmlowp.Fx.C70_round_trip",
    "Gemmlowp.Fx.C70_toDouble_exact"
   ],
   "note": "Doubles are rationals; the exponent range is not bounded. C70_accurate_exists: the assumption on std::exp can be met. C70_inaccurate_caught: a check fails when std::exp is off by a unit. Scalar types only; a vector constant is the scalar one in every lane."
  },
  {
   "property": "C71",
   "status": "proved",
   "theorems": [
    "Gemmlowp.FloatExample.C71_entry",
    "Gemmlowp.FloatExample.C71_error",
    "Gemmlowp.FloatExample.C71_find_min_max",
    "Gemmlowp.FloatExample.C71_first_nan",
    "Gemmlowp.FloatExample.C71_monotone",
    "Gemmlowp.FloatExample.C71_multiplier",
    "Gemmlowp.FloatExample.C71_multiplier_rejects",
    "Gemmlowp.FloatExample.C71_no_quotient",
    "Gemmlowp.FloatExample.C71_params",
    "Gemmlowp.FloatExample.C71_range_fails",
    "Gemmlowp.FloatExample.C71_real_multiplier",
    "Gemmlowp.FloatExample.C71_reference",
    "Gemmlowp.FloatExample.C71_round_trip",
    "Gemmlowp.FloatExample.C71_special",
    "Gemmlowp.FloatExample.C71_zero_exact"
   ],
   "note": "Proved as stated, for widths from 2^-117 to 2^127. Beyond them, and when the first entry is NaN, the code has no usable result (C71_range_fails, C71_first_nan, finding F44). Rounding to nearest, no excess precision and no contraction to fused operations are assumed."
  },
  {
   "property": "C72",
   "status": "proved",
   "theorems": [
    "Gemmlowp.IntSizes.C72_addresses",
    "Gemmlowp.IntSizes.C72_addresses_needed",
    "Gemmlowp.IntSizes.C72_block_params",
    "Gemmlowp.IntSizes.C72_limit",
    "Gemmlowp.IntSizes.C72_multi",
    "Gemmlowp.IntSizes.C72_refuted_block_params",
    "Gemmlowp.IntSizes.C72_refuted_packed_size",
    "Gemmlowp.IntSizes.C72_refuted_scalar_product",
    "Gemmlowp.IntSizes.C72_seek",
    "Gemmlowp.IntSizes.C72_single",
    "Gemmlowp.IntSizes.C72_unpack_addresses"
   ],
   "note": "The limits are hypotheses; that the limit on the packed LHS is real is C72_limit, with the witnesses C72_refuted_* (finding F45). The inner loops of the SIMD packers and kernels are represented by the generic ones; sums of pointers and int products are taken as unbounded."
  },
  {
   "property": "C73",
   "status": "proved",
   "theorems": [
    "Gemmlowp.Shim.C73_blocked",
    "Gemmlowp.Shim.C73_no_lost_mutex",
    "Gemmlowp.Shim.C73_refines",
    "Gemmlowp.Shim.C73_threads_leak",
    "Gemmlowp.Shim.C73_wait_returns_owning",
    "Gemmlowp.Shim.C73_worker_leaks"
   ],
   "note": "Relative to a model of the C++ classes with their preconditions and to a specification of the POSIX functions. Every function but pthread_cond_wait is one step. That the thread objects are never freed is C73_threads_leak (finding F46)."
  },
  {
   "property": "C74",
   "status": "proved",
   "theorems": [
    "Gemmlowp.Shim.C74_all_destroyed",
    "Gemmlowp.Shim.C74_blocked",
    "Gemmlowp.Shim.C74_pool_uses_posix",
    "Gemmlowp.Shim.C74_windows"
   ],
   "note": "Joins the pool of C17-C21 to the specification of the pthread functions of C73: view reads a state of the one as a state of the other. A move of the pool makes its pthread calls without interruption."
  },
  {
   "property": "C75",
   "status": "proved",
   "theorems": [
    "Gemmlowp.GemmAlloc.C75_buffers",
    "Gemmlowp.GemmAlloc.C75_exact_32",
    "Gemmlowp.GemmAlloc.C75_fits_64",
    "Gemmlowp.GemmAlloc.C75_protocol",
    "Gemmlowp.GemmAlloc.C75_refuted_32"
   ],
   "note": "The order and number of the calls of GetPointer is left open. The bound on 32-bit systems is a hypothesis; that it is needed is C75_exact_32, with the witness C75_refuted_32 (finding F47). Disjointness of the storage of different allocators is the business of aligned_alloc."
  },
  {
   "property": "C76",
   "status": "partial",
   "theorems": [
    "Gemmlowp.Bench.C76_accum_eight_intrinsics",
    "Gemmlowp.Bench.C76_accum_eight_partial",
    "Gemmlowp.Bench.C76_accum_two_partial",
    "Gemmlowp.Bench.C76_dotproduct_A55_partial",
    "Gemmlowp.Bench.C76_int425_intrinsics",
    "Gemmlowp.Bench.C76_refuted_accum_eight",
    "Gemmlowp.Bench.C76_refuted_accum_two",
    "Gemmlowp.Bench.C76_refuted_dotproduct_A55",
    "Gemmlowp.Bench.C76_refuted_int425",
    "Gemmlowp.Bench.C76_refuted_int425_deep",
    "Gemmlowp.Bench.C76_uint8_intrinsics",
    "Gemmlowp.Bench.C76_uint8_kernels"
   ],
   "note": "Proved for eight assembly kernels (C76_uint8_kernels) and for four kernels with intrinsics (C76_uint8_intrinsics, C76_accum_eight_intrinsics, C76_int425_intrinsics). For the others that are modelled the property fails: five overflow 16 bits when both operands are -128 (C76_refuted_accum_two, F48; C76_accum_two_partial for right operands from -127), two read outside their buffers at every depth (C76_refuted_accum_eight, C76_refuted_dotproduct_A55, F49; the _partial theorems have larger buffers), and the 4.25-bit assembly kernel counts its passes wrongly: up to depth 1024 it reads outside the buffers, from depth 1088 it leaves out levels (C76_refuted_int425, C76_refuted_int425_deep, F50; depth 1056 is not covered). The kernels for int32 and float operands are C77."
  },
  {
   "property": "C77",
   "status": "partial",
   "theorems": [
    "Gemmlowp.BenchW.C77_float_A55r1_partial",
    "Gemmlowp.BenchW.C77_int32",
    "Gemmlowp.BenchW.C77_refuted_float_A55r1",
    "Gemmlowp.BenchW.C77_word_kernels"
   ],
   "note": "Proved for fifteen of the sixteen kernels (C77_word_kernels; C77_int32 with the overflows of int32). The sixteenth reads 32 bytes after its LHS at every depth, where the buffers have 16 bytes of padding (C77_refuted_float_A55r1, F51); with 32 bytes it would agree (C77_float_A55r1_partial). What a multiply-add of floats computes is not modelled: the theorems hold for any operation."
  },
  {
   "property": "C78",
   "status": "partial",
   "theorems": [
    "Gemmlowp.BenchDepth.C78_default_partial",
    "Gemmlowp.BenchDepth.C78_greatest_partial",
    "Gemmlowp.BenchDepth.C78_refuted_big",
    "Gemmlowp.BenchDepth.C78_refuted_small",
    "Gemmlowp.BenchDepth.C78_refuted_zero"
   ],
   "note": "Proved whenever some allowed depth fits and the size is at most 2097151 KB (C78_greatest_partial), so for all kernels with the default of 16 KB (C78_default_partial). Otherwise the property fails: if 64 levels do not fit, the depth is 0 or negative (C78_refuted_small), and then the assembly kernels for int32 and float operands leave their buffers (C78_refuted_zero); larger sizes overflow int (C78_refuted_big). F52."
  },
  {
   "property": "C79",
   "status": "proved",
   "theorems": [
    "Gemmlowp.CacheCount.C79_main",
    "Gemmlowp.CacheCount.C79_workload"
   ],
   "note": "The period 2^32-1 is proved by linear algebra over the field of two elements: a table of the 32 repeated squares of the step is checked by the kernel, and the prime factors of 2^32-1 are ruled out."
  },
  {
   "property": "C80",
   "status": "partial",
   "theorems": [
    "Gemmlowp.CacheCount.C80_charts_partial",
    "Gemmlowp.CacheCount.C80_ideal_partial",
    "Gemmlowp.CacheCount.C80_refuted_hypothesis1",
    "Gemmlowp.CacheCount.C80_refuted_hypothesis3",
    "Gemmlowp.CacheCount.C80_refuted_ideal",
    "Gemmlowp.CacheCount.C80_refuted_overflow"
   ],
   "note": "For counters up to 500 million: no overflow, no abort, all charts add up, Hypothesis5 has no negative share (C80_charts_partial); with ideal counters four of the five charts are true (C80_ideal_partial). Otherwise the property fails: Hypothesis1 is true only if everything is found in the first cache (C80_refuted_ideal) and has negative shares (C80_refuted_hypothesis1), the correction of Hypothesis3 is not complete (C80_refuted_hypothesis3), large counters overflow (C80_refuted_overflow). F53."
  },
  {
   "property": "C81",
   "status": "partial",
   "theorems": [
    "Gemmlowp.RegAlloc.C81_arm32_partial",
    "Gemmlowp.RegAlloc.C81_arm64",
    "Gemmlowp.RegAlloc.C81_refuted_half",
    "Gemmlowp.RegAlloc.C81_refuted_sp"
   ],
   "note": "Proved for 64 bits (C81_arm64), and for 32 bits (C81_arm32_partial) but for the last sentence, which fails: the 14th and 16th general register held are the stack pointer and the program counter (C81_refuted_sp). A generator that returns half of a quad register passes the assertion and can get the half again (C81_refuted_half). F54."
  },
  {
   "property": "C82",
   "status": "partial",
   "theorems": [
    "Gemmlowp.TestMatrix.C82_assign_partial",
    "Gemmlowp.TestMatrix.C82_equal_partial",
    "Gemmlowp.TestMatrix.C82_refl_partial",
    "Gemmlowp.TestMatrix.C82_refuted_equal",
    "Gemmlowp.TestMatrix.C82_refuted_int32"
   ],
   "note": "Proved: copies, for all sizes of scalars (C82_assign_partial), comparison of one-byte scalars (C82_equal_partial), equal matrices compare equal (C82_refl_partial). The property fails for larger scalars: operator== compares too few bytes (C82_refuted_equal, C82_refuted_int32). F55."
  },
  {
   "property": "C83",
   "status": "proved",
   "theorems": [
    "Gemmlowp.BenchAll.C83_shuffle",
    "Gemmlowp.BenchAll.C83_table"
   ],
   "note": "Latencies are rational numbers. The sizes themselves, which are computed with floating point, and the measurement are not modelled."
  },
  {
   "property": "C84",
   "status": "partial",
   "theorems": [
    "Gemmlowp.TestRandom.C84_msvc_partial",
    "Gemmlowp.TestRandom.C84_other_partial",
    "Gemmlowp.TestRandom.C84_refuted_range",
    "Gemmlowp.TestRandom.C84_refuted_reach"
   ],
   "note": "Proved with compilers other than MSVC, for a distribution that keeps its range (C84_other_partial); that it reaches each value is a property of the library and not modelled. With MSVC only the places, the number of draws and the range if it contains 0 are proved (C84_msvc_partial); the property fails there: zero is drawn for the range without zero (C84_refuted_range), the greatest and the negative values never (C84_refuted_reach). F56."
  }
 ]
}