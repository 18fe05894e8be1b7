#!/usr/bin/env python3
"""Writes MANIFEST.json. Edit CLAIMS and rerun."""
import json, os

def E(*names):
    return ["Essay." + n for n in names]

CLAIMS = [
    ("C01", "proved", E("C01_from_slice", "C01_from_vec", "C01_from_usize", "C01_vector", "C01_truncates"),
     "Dimensions of 2^32 and more are truncated by the code (C01_truncates)."),
    ("C02", "partial", E("C02_append_read", "C02_insert", "C02_rinsert_partial", "C02_remove", "C02_rremove", "C02_replace", "C02_rreplace",
                        "C02_with_cols_rows", "C02_push_pop", "C02_rinsert_beyond_rank_violates", "C02_rinsert_beyond_rank_actual", "C02_rinsert_panics", "C02_append_violates", "C02_append_actual"),
     "Everything but rinsert at a position beyond the rank, which is accepted and loses the dimension (proved). Conditions for panics are exact. What append does instead is proved too."),
    ("C03", "proved", E("C03_remove_insert"), ""),
    ("C04", "partial", E("C04_eq_iff_as_vec_partial", "built_wf", "C04_scalar_with_cols_violates"),
     "Proved for all histories except the operations for which it is false (witness given)."),
    ("C05", "partial", E("C05_expand_dims", "C05_squeeze", "C05_tensor_expand_dims", "C05_tensor_squeeze", "C05_no_axis",
                         "C05_expand_dims_panics", "C05_tensor_expand_dims_panics", "C05_squeeze_axis_actual",
                         "C05_squeeze_axis_violates", "C05_squeeze_axis_not_inverse"),
     "expand_dims and squeeze proved; squeeze_axis is off by one in the code (witness given)."),
    ("C06", "proved", E("C06_from_vec", "C06_from_scalar", "C06_from_slice", "C06_from_slice_too_long"), "Element counts below 2^32."),
    ("C07", "partial", E("C07_inside_partial", "C07_size_partial", "C07_size_violates", "C07_fields_violates"),
     "Every history of calls of every safe public function. The tensor always lies inside its buffer; the size is the "
     "product of the dimensions unless subslice_flat was given a shape of size 0 for a slice of length 1. Both are false "
     "for programs that assign the public fields shape, offset and size (proved)."),
    ("C08", "proved", E("C08_reshape", "C08_reshape_back", "C08_flatten"), ""),
    ("C09", "proved", E("C09_subslice", "C09_subslice_scalar", "C09_subslice_empty_panics", "C09_subslice_subslice"),
     "A range of rows without elements counts as empty: with a zero among the inner dimensions every call panics."),
    ("C10", "partial", E("C10_index1", "C10_index2_partial", "C10_index2_actual", "C10_index2_violates", "C10_index3_partial", "C10_index4_partial", "C10_index5",
                         "C10_index3_violates", "C10_index4_violates", "C10_index2_rank3", "C10_small_actual", "C10_rank_rejects"),
     "Arity 3 and 4 are proved where the code is right; witnesses show where it panics wrongly. Arity 2: accesses inside are proved; outside a view the panic message prints the tensor and can read outside the buffer (proved exactly when)."),
    ("C11", "partial", E("C11_get_partial", "C11_get_actual", "C11_view_violates", "C11_view_out_of_bounds"),
     "get is right only for views that start at the buffer's beginning (the code adds the offset twice)."),
    ("C12", "proved", E("C12_vec1", "C12_scalar", "C12_vec2", "C12_vec2_rejects", "C12_rows", "C12_vec2_rows",
                        "C12_vec2_rows_rejects", "C12_vec3", "C12_vec4", "C12_vec5", "C12_vec3_rejects", "C12_vec4_rejects",
                        "C12_vec5_rejects", "C12_arr2", "C12_arr3", "C12_arr4"), "Nesting lengths below 2^32."),
    ("C13", "proved", E("C13_tensors", "C13_rejects"), ""),
    ("C14", "proved", E("C14_map", "C14_map_pure", "C14_identity_and_composition"), ""),
    ("C15", "proved", E("C15_map2_left", "C15_map2_right", "C15_map2_at"), ""),
    ("C16", "proved", E("C16_incompatible", "C16_empty", "C16_map3"), ""),
    ("C17", "proved", E("C17_map3"), ""),
    ("C18", "proved", E("C18_tensor_tensor_left", "C18_tensor_tensor_right", "C18_at", "C18_rejects", "C18_tensor_scalar",
                        "C18_scalar_tensor", "C18_unary", "C18_square", "C18_min_max", "C18_abs_sub"),
     "The element operators are parameters (any functions that may panic)."),
    ("C19", "proved", E("C19_too_large", "C19_init", "C19_init_rindexed"), ""),
    ("C20", "proved", E("C20_map_row", "C20_map_row_scalar", "C20_map_expand", "C20_map_row_rejects", "C20_map_expand_rejects"),
     "Rows without elements (and scalars) panic in map_row, six-dimensional tensors in map_expand."),
    ("C21", "proved", E("C21_fold", "C21_reduce", "C21_fold_axis", "C21_fold_axis_none", "C21_reduce_axis", "C21_reduce_axis_none", "C21_axis_rejects",
                        "C21_zero_axis"),
     "Along an axis, a zero among the other dimensions panics (C21_axis_rejects); over an axis of length 0 folding gives "
     "the initial value and reducing panics (C21_zero_axis)."),
    ("C22", "proved", E("C22_reduce_axis_total", "C86_axis_then_rest", "C86_no_axis", "C75_unsigned_axis_first"), "Non-empty tensors."),
    ("C23", "partial", E("C23_fold_row_partial", "C23_fold_row_axis_partial", "C23_view_violates",
                         "C23_vector_axis_violates", "C23_view_actual", "C23_vector_axis_actual"),
     "False for views with an offset and for vectors with an axis (witnesses given)."),
    ("C24", "partial", E("C24_last_axis_partial", "C24_no_axis", "C24_actual", "C21_axis_rejects", "C24_inner_axis_violates"),
     "False for axes other than the innermost (witness given); C24_actual says what the code does there."),
    ("C25", "partial", E("C25_valid_axis_partial", "C25_out_of_range_violates", "C25_beyond_rank_actual",
                         "C25_array_operations", "C25_fold_operations", "C25_scalar", "C25_statistics"),
     "Out of range axes are not rejected (witness given)."),
    ("C26", "proved", E("C26_transpose", "C26_transpose_twice", "C26_transpose_vector", "C26_transpose_scalar",
                        "C26_empty_vector", "C26_empty_actual"), "Matrices without elements panic or not as C26_empty_actual says."),
    ("C27", "partial", E("C27_concatenate_partial", "C27_concatenate_outer_partial", "C27_rejects_empty", "C27_rejects",
                         "C27_rank6_violates", "C27_rank6_actual", "C27_too_large"),
     "Six-dimensional tensors panic along axis 0 (witness given); everything else proved."),
    ("C28", "partial", E("C28_stack_partial", "C28_stack_outer_partial", "C28_rejects", "C28_rank5_violates",
                         "C28_empty_violates", "C28_too_large", "C28_deep_actual"),
     "Five-dimensional tensors panic along axis 0 (witness given), and tensors with a 0 behind the new axis always (proved)."),
    ("C29", "partial", E("C29_vstack_partial", "C29_hstack_vectors", "C29_hstack", "C29_dstack_vectors", "C29_dstack_matrices",
                         "C29_dstack", "C29_scalars_panic", "C29_vstack_deep", "C29_vstack_rejects", "C29_hstack_rejects",
                         "C29_dstack_rejects"),
     "vstack: up to four dimensions (five panic); stack differs on tensors without elements (it panics); scalars panic in hstack and dstack."),
    ("C30", "partial", E("C30_split_cuts", "C30_split_concat_partial", "C30_split_equal", "C30_split_equal_uneven",
                         "C30_uneven_violates", "C30_empty_violates", "C30_zero_axis", "C30_methods", "C30_missing_axis_violates",
                         "C30_split_equal_actual", "C30_zero_axis_rejects"),
     "Pieces, order and coverage proved in full for tensors with elements, others panic or give no pieces (proved); joining the pieces again excludes six dimensions along axis 0."),
    ("C31", "partial", E("C31_unstack_outer_violates", "C31_unstack_inner_violates", "C31_unstack_empty"),
     "False for every input: the code never fills its list of cuts. What it returns instead is proved."),
    ("C32", "partial", E("C32_tile_partial", "C32_zero_multiple", "C32_scalar_multiples", "C32_matrix_multiples_violates",
                         "C32_empty_violates", "C32_too_large", "C32_nothing", "C32_multiples_undefined", "C32_multiples_vector",
                         "C32_multiples_panic"),
     "Proved for a vector of multiples; a matrix of multiples causes undefined behaviour from safe code (witness given). For "
     "multiples of any rank: exactly when that happens, when the call panics, and when it is tiling by a vector."),
    ("C33", "partial", E("C33_too_large", "C33_wraps", "C33_eye_partial", "C33_eye_zero_violates", "C33_diagflat", "C33_diagflat_rejects", "C33_tri",
                         "C33_tril_partial", "C33_triu_partial", "C33_empty_violates", "C33_tril_triu_reject"),
     "eye(0) is a scalar and tril/triu panic on empty matrices (witnesses given); everything else proved."),
    ("C34", "proved", E("C34_too_large", "C34_meshgrid_ij", "C34_meshgrid", "C34_rejects", "C34_mgrid"), "Empty axes panic (C34_rejects)."),
    ("C35", "partial", E("C35_linspace_partial", "C35_exact_partial", "C35_rounded_partial", "C35_rejects",
                         "C35_rank5_violates"),
     "Ends of rank 5 panic (witness given). Exact arithmetic, plus any float arithmetic and monotone rounding."),
    ("C36", "partial", E("C36_logspace_rejects", "C36_geomspace_rejects", "C36_logspace_partial", "C36_logspace_real_partial", "C36_geomspace_partial",
                         "C36_geomspace_real_partial"),
     "Ends of rank 5 panic, as for linspace. Any float arithmetic, and real arithmetic."),
    ("C37", "partial", E("C37_too_many", "C37_ascending_any", "C37_ascending_partial", "C37_rejects", "C37_descending_violates",
                         "C37_stuck_violates"),
     "Positive steps proved; a negative step never returns (proved), nor does a step lost to rounding."),
    ("C38", "proved", E("C38_too_large", "C38_one_hot", "C38_rejects"), ""),
    ("C39", "partial", E("C39_matmul_partial", "C39_exact_partial", "C39_square", "C39_rejects", "C39_shape_violates",
                         "C39_library_partial", "C39_any_order_partial", "C39_exact_any_order_partial",
                         "C39_orders_agree", "C39_too_large"),
     "All product entries proved in row order, for the simple loops and for any library kernel that sums the right "
     "products in any order; the dimensions come out swapped unless the product is square (proved)."),
    ("C40", "partial", E("C40_safe_partial", "C40_batch_violates", "C40_pointer_violates", "C40_ub_iff", "C40_more_left", "C40_too_many"),
     "Safe unless the left operand has more matrices; then the code reads out of bounds (proved, with the exact condition: C40_ub_iff)."),
    ("C41", "partial", E("C41_matvec_partial", "C41_matrix_partial", "C41_rejects", "C41_safe", "C41_empty_violates",
                         "C41_library_partial", "C41_any_order_partial", "C41_exact_any_order_partial"),
     "For the simple loops and any library kernel. Everything but operands without elements, which panic (proved)."),
    ("C42", "proved", E("C42_whole", "C42_axis", "C42_axis_none", "C42_mean_any"),
     "Exact arithmetic, as the property says; the mean also in any float arithmetic."),
    ("C43", "proved", E("C43_whole", "C43_axis", "C43_order", "C43_empty_panics"), "Any float order with NaN."),
    ("C44", "proved", E("C44_exact", "C44_rounded"), "Exact arithmetic, and monotone rounding."),
    ("C45", "partial", E("C45_histogram_partial", "C45_counts", "C45_bins_in_order", "C45_saturation_violates", "C45_rejects"),
     "Exact arithmetic; with rounding the counts are right up to the largest exact count (2^24), wrong beyond (proved)."),
    ("C46", "partial", E("C46_violates", "C46_rest_partial"),
     "False: histogram2d panics on every input, where it reads the minima (proved). The rest of the function is right when given the minima and maxima of the columns, in exact arithmetic."),
    ("C47", "proved", E("C47_rand32", "C47_rand64"), ""),
    ("C48", "proved", E("C48_rand32", "C48_rand64"), ""),
    ("C49", "proved", E("C49_normal", "C49_uniform", "C49_prefix", "C49_seed_kept"), "Any float arithmetic."),
    ("C50", "partial", E("C50_next_uniform32", "C50_next_uniform64_violates", "C50_random_uniform_violates"),
     "Proved for the 32-bit generator under monotone rounding; next_uniform of Rand64 exceeds 1 and random_uniform leaves "
     "its interval (both proved)."),
    ("C51", "proved", E("C51_unseeded", "C51_seeding"), "Every interleaving, stale reads allowed; as long as the seed chain does not hit 0."),
    ("C52", "partial", E("C52_fresh_partial", "C52_values_partial", "C52_used_thread_violates", "C52_violates"),
     "Threads without a generator; a thread that has one ignores random_seed (proved)."),
    ("C53", "proved", E("C53_decode", "C53_exact"), "Any float arithmetic, and exactly sample/32768 under rounding."),
    ("C54", "proved", E("C54_rejects"), "Bytes after the samples are accepted and ignored."),
    ("C55", "partial", E("C55_vector", "C55_rows_partial", "C55_batch_violates", "C55_rejects", "C55_safe"),
     "Any float arithmetic and any transform. Batches always panic in the code (C55_batch_violates): the row count is computed as len()/cols()."),
    ("C56", "partial", E("C56_outside_write", "C56_missing_write", "C56_no_ub_partial", "C56_at_most_once_partial", "C56_live_partial", "C56_once_partial", "C56_last_partial",
                         "C56_values_kept_partial", "C56_refines_partial", "C56_rejected_partial", "C56_panicking_init_leaks",
                         "C56_zero_length_violates"),
     "All histories and interleavings, including panicking calls, but for initialisers of length 0, which allocate 0 bytes "
     "(undefined in Rust, proved). A buffer whose initialising closure panics never becomes a tensor and leaks (proved)."),
    ("C57", "partial", E("C57_lexicographic", "C57_consistent_partial", "C57_shape_violates"),
     "Lexicographic order proved; consistency with == fails for different shapes (witness given)."),
    ("C58", "proved", E("C58_eq", "C58_clone", "C58_eq_any", "C58_clone_any"), "For any equality of elements, also one that is not reflexive (floats)."),
    ("C59", "partial", E("C59_debug_partial", "C59_debug_actual", "C59_view_violates", "C59_view_out_of_bounds"),
     "Tensors starting at the beginning of their buffer; false on views. What it prints for every view is proved."),
    ("C60", "partial", E("C60_checked_partial", "C60_truncation_violates", "C60_release_size", "C60_release_new", "C60_release_violates"),
     "Exact with overflow checks and dimensions below 2^32; dimensions are cut to 32 bits and release builds wrap (proved)."),
    ("C61", "proved", E("C61_fill", "C61_zeros", "C61_ones", "C61_init_default"), ""),
    ("C62", "partial", E("C62_from_merge", "C62_append", "C62_append_rejects", "C62_append_reshapes", "C62_join_vec"),
     "append checks only the trailing product (C62_append_reshapes)."),
    ("C63", "partial", E("C63_iter_row_partial", "C63_vector", "C63_empty_rows"),
     "Zero-length rows panic in the code."),
    ("C64", "partial", E("C64_safe_partial", "C64_flat_violates", "C64_scalar_cols_violates", "C64_view_get_violates",
                         "C64_view_debug_violates", "C64_view_index_violates", "C64_tile_violates", "C64_matmul_violates", "C64_fold_row_violates",
                         "C64_fields_violates", "C64_release_violates"),
     "Every call after every history. False in general: safe code can read or write out of bounds, or drop memory never written, "
     "in nine ways, each with a witness; proved for programs that avoid exactly those calls (Rules in "
     "Spec/Reach). Allocations of 0 bytes are under C56. Release builds: C64_release_violates."),
    ("C65", "proved", E("Opt.C65_last_write_wins", "Opt.C65_commute", "Opt.C65_default", "Opt.C65_compiles", "Opt.C65_signatures", "Opt.C65_means_unique"),
     "The macro is modelled as a generator of setters with a meaning; token parsing and printing are not modelled."),
    ("C66", "partial", E("C66_slice_violates"), "False in the code: every call ends in todo!() (proved)."),
    ("C67", "partial", E("C67_frame_violates"), "False in the code: every call ends in todo!() or an earlier panic (proved)."),
    ("C68", "partial", E("C68_whole_partial", "C68_short_read_violates", "C68_errors"),
     "One read call; a short read leaves zeros in place of the rest (proved)."),
    ("C69", "proved", E("C69_tensors", "C69_converted"), ""),
    ("C70", "proved", E("C70_rand32", "C70_rand64"), ""),
    ("C71", "partial", E("C71_rand32_partial", "C71_rand32_violates", "C71_rand64_partial", "C71_rand64_violates"),
     "Exactly which states fail is proved: 1 in 2^32 for Rand32, all but 1 in 2^32 for Rand64 (it draws uniforms above 1)."),
    ("C72", "proved", E("C72_unary", "C72_binary", "C72_rejects", "C72_powi", "C72_sin_cos", "C72_mul_add"),
     "The scalar functions (num_traits, std) are parameters."),
    ("C73", "proved", E("C73_rotate", "C73_rotate_bits", "C73_counts", "C73_count_reverse", "C73_leading_trailing", "C73_involutions", "C73_bytes"),
     "Bit vectors of every width; little-endian target."),
    ("C74", "proved", E("C74_parts", "C74_unary", "C74_polar", "C74_polar_back", "C74_binary"),
     "num_complex formulas over the reals (exact arithmetic)."),
    ("C75", "proved", E("C75_sum", "C75_product", "C75_axis", "C75_sum_unsigned", "C75_sum_wrapping", "C75_order", "C75_empty",
                        "C75_unsigned_axis_first"), ""),
    ("C76", "proved", E("C76_hypot", "C76_norm", "C76_scale"), "Exact real arithmetic."),
    ("C77", "proved", E("C77_sum", "C77_sum_axis", "C77_mean", "C77_matmul", "C77_matvec", "C77_hypot", "C77_sum_saturates",
                        "C77_mean_saturates", "C77_matmul_any_order", "C77_matvec_any_order"),
     "Every binary format (f32 and f64 are instances, Lemmas/Ieee), overflow excluded. Products for every order of "
     "additions, with or without fused multiply-adds. The bounds are real: the f32 mean of 2^25 ones is 0.5 (proved)."),
    ("C78", "partial", E("C78_nonneg_partial", "C78_nonneg_axis_partial", "C78_constant", "C82_variance_partial",
                         "C82_variance_overflow_violates"),
     "Every binary format with gradual underflow, if no difference of two elements overflows; if one does, the variance "
     "of two numbers is -inf (proved)."),
    ("C79", "partial", E("C79_concatenate_axis_partial", "C79_concatenate_partial", "C79_stack_partial", "C79_vstack_partial",
                         "C79_dstack_matrices", "C79_dstack_vectors", "C79_conversion_panics", "C79_meshgrid", "C79_spaces"),
     "Partial where C27 and C28 are: below the rank limit, no 0 behind a new axis."),
    ("C80", "proved", E("Random.C80_normal", "Random.C80_uniform", "C80_logspace_forms", "C80_logspace_partial", "Stats.C80_hist_args",
                        "Stats.C80_histogram_zero_bins", "Stats.C80_histogram"),
     "logspace below rank 5, at least 2 points, exact arithmetic (as C36)."),
    ("C81", "proved", E("Macro.C81_ten", "Macro.C81_rejects", "Macro.C81_parentheses"),
     "Element counts below 2^32. Matching, type inference and the choice of the From impl are modelled."),
    ("C82", "partial", E("C82_nan_whole", "C82_nan_axis", "C82_nan_matmul", "C82_nan_matvec", "C82_nan_single_violates",
                         "C82_min_max", "C82_sum_nonneg", "C82_sum", "C82_mean", "C82_matmul", "C82_variance_partial",
                         "C82_variance_overflow_violates", "C82_hypot_overflow_violates",
                         "C82_normalize_constant_violates", "C82_normalize_overflow_violates", "C82_normalize_nan",
                         "C82_histogram_nan_violates", "C82_nan_matmul_any_order", "C82_nan_matvec_any_order",
                         "C82_matmul_any_order", "C82_matvec_any_order"),
     "IEEE arithmetic with NaN, infinities, signed zeros and overflow, any binary format. Sums, means, products, minima and "
     "maxima as stated; the variance of one NaN, variances and norms with overflow, normalize_unit of a constant and "
     "histograms with NaN behave otherwise (all proved)."),
    ("C83", "proved", E("C83_expression", "C83_identity", "C83_commutes", "C83_associates", "C83_ring", "C83_scalar_tensor"),
     "Element functions without undefined behaviour (they may panic). The tensor form of a scalar operand rejects empty "
     "tensors, which the scalar form accepts (part of C83_scalar_tensor)."),
    ("C84", "proved", E("C84_concatenate_nested", "C84_split_of_concatenate", "C84_map_commutes", "C84_map_concatenate",
                        "C84_map_stack", "C84_transpose_concatenate", "C84_triangles", "C84_fold_transpose",
                        "C84_tile_concatenate", "C84_append_concatenate", "C84_rows", "C84_stack_subslice",
                        "C84_meshgrid_transpose"),
     "Sizes below 2^32, ranks below the limit, at least one element where stated."),
    ("C85", "partial", E("C85_associates_partial", "C85_associates_square", "C85_distributes", "C85_factor",
                         "C85_transpose_partial", "C85_options", "C85_identity_partial", "C85_identity_rounded_partial",
                         "C85_matvec_matmul", "C85_matvec_column", "C85_matvec_composes", "C85_matvec_adds",
                         "C85_matvec_diagonal", "C85_diagonal", "C85_diagonal_scales", "C85_inner", "C85_rectangular_violates"),
     "matmul returns m x n products with the dimensions [n, m] (C39), so for matrices that are not square associativity, "
     "the transpose of a product and the identity laws hold after reshaping each product to [m, n], and (a b) c panics "
     "without (C85_rectangular_violates). Nonempty matrices, sizes below 2^32."),
    ("C86", "proved", E("C86_rearranged", "C86_transpose_reshape", "C86_concatenate", "C86_stack", "C86_axis_then_rest",
                        "C86_total_variance", "C86_affine", "C86_affine_axis", "C86_affine_std", "C86_bounds", "C86_negate",
                        "C86_normalize", "C86_no_axis"),
     "Exact arithmetic over any ordered field (real numbers for the standard deviation under scaling). Under rounding C77, C78 "
     "and C82 apply."),
    ("C87", "partial", E("C87_idim", "C87_idim_scalar", "C87_idim_out_of_range_violates", "C87_sublen", "C87_rsublen",
                         "C87_rsublen_beyond_rank", "C87_batch_len_actual", "C87_batch_len_violates", "C87_broadcast",
                         "C87_broadcast_min", "C87_reduce"),
     "False for batch_len, which multiplies the innermost instead of the outermost dimensions, for idim out of range, "
     "which wraps around, and for rsublen beyond the rank, which gives 0 (all proved)."),
    ("C88", "proved", E("C88_isolated", "C88_first_use"),
     "Calls are atomic, as each touches the shared seed at most once; races in first use are C52 and Model/Random SeedStep."),
    ("C89", "partial", E("C89_violates", "C89_prepared_one_partial", "C89_prepared_many_violates"),
     "Both functions are unimplemented (todo!()); proved that every call panics. The implementation prepared for map2_row, which "
     "nothing calls, is right for one value per pair of rows and never returns for more (both proved)."),
    ("C90", "proved", E("Sharing.C90_threads", "Sharing.C90_confined", "Sharing.C90_usable", "Sharing.C90_kept_or_dropped",
                        "Sharing.C90_all_dropped"),
     "The auto trait rules of the language and of Arc are in the model."),
    ("C91", "partial", E("Alloc.C91_layouts_partial", "Alloc.C91_ub_iff", "Alloc.C91_blocks", "Alloc.C91_all_freed", "Alloc.C91_too_large",
                         "Alloc.C91_boxes", "Alloc.C91_out_of_memory_violates", "Alloc.C91_zero_sized_violates"),
     "Layouts match and nothing leaks unless a closure panics. Initialisers are undefined exactly when the buffer has no bytes "
     "(length 0, or an element type of size 0) or the allocator refuses (proved)."),
    ("C92", "partial", E("C92_actual", "C92_neighbours", "C92_tone", "C92_energy", "C92_scale", "C92_first_sample", "C92_bound",
                         "C92_window_violates"),
     "False in the code, which applies a Hann window the tests do not expect (proved for every constant). What it computes is "
     "proved exactly, in real arithmetic with the discrete Fourier transform in place of rustfft."),
    ("C93", "partial", E("C93_call_partial", "C93_program_partial", "C93_view_violates", "C93_matmul_violates"),
     "Proved for all programs over the whole API except get, Debug, as_wrap_slice_n, fold_row and t[(i, j)] outside the matrix on "
     "tensors with an offset, and matmul with more matrices on the left, for which it is false (witnesses)."),
    ("C94", "partial", E("C94_dims", "C94_shape", "C94_elements_partial", "C94_view_violates", "C94_text_violates"),
     "The dimensions are determined for every tensor. The elements are determined for tensors at the start of their buffer "
     "whose element texts all have the same number of spaces (numbers, booleans, complex numbers); false for views and for "
     "element texts with varying numbers of spaces (witnesses)."),
    ("C95", "proved", E("C95_models_agree", "C95_from_slice", "C95_fill", "C95_transpose", "C95_split", "C95_split_views",
                        "C95_concatenate", "C95_stack", "C95_tile", "C95_meshgrid", "C95_meshgrid_ij", "C95_from_merge",
                        "C95_append", "C95_from", "C95_from_tensors", "C95_count", "C95_panic"),
     "For calls that succeed when clone is a plain copy, and a clone that is any function with state and panics."),
    ("C96", "proved", E("C96_f32", "C96_f64", "C96_f32_whole", "C96_f32_limit", "C96_sum", "C96_sum_order", "C96_sum_axis",
                        "C96_product", "C96_mean", "C96_hypot", "C96_matmul", "C96_matvec", "C96_add", "C96_sub", "C96_mul",
                        "C96_linspace", "C96_mgrid", "C96_arange", "C96_arange_violates"),
     "Float arithmetic is exact arithmetic followed by a rounding; Ieee.f32 and Ieee.f64 are proved to meet the hypothesis on the rounding."),
    ("C97", "partial", E("C97_uniform32_distribution", "C97_uniform32_mean", "C97_uniform32_mean_square", "C97_uniform64_mean_violates",
                         "C97_normal32", "C97_normal64", "C97_normal_period", "C97_random_normal", "C97_random_uniform_actual",
                         "C97_f32_ends", "C97_f32_ends_count"),
     "Proved for Rand32. Rand64::next_uniform divides 64-bit outputs by 2^32 - 1, so its mean is (2^32 + 1) / 2 (proved). The first four are in exact arithmetic, the last two in f32."),
    ("C98", "proved", E("C98_shapes", "C98_constructors", "C98_views", "C98_arrays", "C98_numbers", "C98_closures", "C98_operators",
                        "C98_history", "C98_subslice_actual"),
     "One lemma for each function of the model that can overflow (Lemmas/BuildModel), one for each kind of call (Lemmas/BuildCalls)."),
    ("C99", "partial", E("C99_models_agree", "C99_matrices_agree", "C99_fold", "C99_fold_axis", "C99_fold_axis_none", "C99_fold_row_partial",
                        "C99_fold_row_axis_partial", "C99_normalize", "C99_normalize_none", "C99_reduce", "C99_reduce_axis",
                        "C99_reduce_axis_none", "C99_reduce_count", "C99_axis_rejects", "C99_zero_axis", "C99_eye", "C99_eye_zero", "C99_tri", "C99_diagflat", "C99_tril",
                        "C99_triu"),
     "fold_row on tensors that start at their buffer's beginning, normalize along a given axis in the order of the lanes: the known defects of C23 and C24 are stated there."),
    ("C100", "proved", E("C100_models_agree", "C100_vectors", "C100_single", "C100_blocks", "C100_axis", "C100_axis_none", "C100_copies",
                         "C100_from", "C100_merge", "C100_split", "C100_split_views", "C100_meshgrid", "C100_models_agree_closures", "C100_rows",
                         "C100_fold_row", "C100_normalize", "C100_models_agree_matrices", "C100_matrices"),
     "Closures given to a call are assumed to take care of the values handed to them. The order in which one panic drops several values is not modelled. fold and normalize are taken with states that are their own results, fold_row with an array as state."),
    ("C101", "proved", E("C101_once", "C101_twice", "C101_map", "C101_elements", "C101_axis", "C101_broadcast", "C101_statistics"),
     "Vectors of multiples. What tile does with a matrix of multiples is C32."),
    ("C102", "proved", E("C102_map", "C102_binary", "C102_nested", "C102_tile", "C102_concatenate"),
     "For tensors with elements, and for concatenations whose result fits and which are not along axis 0 of six dimensions (C27); splits of empty tensors are C30."),
    ("C103", "proved", E("C103_order", "C103_affine", "C103_joined", "C103_tiled", "C103_ends", "C103_refined"),
     "The order law for any rounding of a linearly ordered field; the others in exact arithmetic, up to 2^32 - 2 bins. NaN samples are in C82."),
    ("C104", "proved", E("C104_map_row", "C104_map_row_one", "C104_map_expand", "C104_fold_axis", "C104_reduce_axis", "C104_normalize", "C104_statistics", "C104_transpose", "C104_binary_right", "C104_binary_left"),
     "For pure functions, results that fit and at most five inner dimensions (six-dimensional concatenation is C27). Statistics for any rounding."),
    ("C105", "proved", E("C105_linspace_affine", "C105_linspace_run", "C105_linspace_refined", "C105_linspace_symmetric", "C105_linspace_mean", "C105_arange_affine", "C105_arange_joined", "C105_arange_linspace", "C105_eye", "C105_tri", "C105_diagflat",
                        "C105_logspace", "C105_geomspace", "C105_geomspace_logspace", "C105_geomspace_scaled"),
     "For ends of rank at most 4 with start at most end, and ascending arange (the other cases are defects shown in C35 and C37)."),
]

here = os.path.dirname(os.path.abspath(__file__))
out = {"claims": [{"property": p, "status": s, "theorems": t, "note": n} for p, s, t, n in CLAIMS]}
with open(os.path.join(here, "..", "MANIFEST.json"), "w") as f:
    json.dump(out, f, indent=1)
    f.write("\n")
