{
 "claims": [
  {
   "property": "C01",
   "status": "proved",
   "theorems": [
    "Essay.C01_from_slice",
    "Essay.C01_from_vec",
    "Essay.C01_from_usize",
    "Essay.C01_vector",
    "Essay.C01_truncates"
   ],
   "note": "Dimensions of 2^32 and more are truncated by the code (C01_truncates)."
  },
  {
   "property": "C02",
   "status": "partial",
   "theorems": [
    "Essay.C02_append_read",
    "Essay.C02_insert",
    "Essay.C02_rinsert_partial",
    "Essay.C02_remove",
    "Essay.C02_rremove",
    "Essay.C02_replace",
    "Essay.C02_rreplace",
    "Essay.C02_with_cols_rows",
    "Essay.C02_push_pop",
    "Essay.C02_rinsert_beyond_rank_violates",
    "Essay.C02_rinsert_beyond_rank_actual",
    "Essay.C02_rinsert_panics",
    "Essay.C02_append_violates",
    "Essay.C02_append_actual"
   ],
   "note": "Everything but rinsert at a position beyond the rank, which is accepted and loses the dimension (proved). Conditions for panics are exact. What append does instead is proved too."
  },
  {
   "property": "C03",
   "status": "proved",
   "theorems": [
    "Essay.C03_remove_insert"
   ],
   "note": ""
  },
  {
   "property": "C04",
   "status": "partial",
   "theorems": [
    "Essay.C04_eq_iff_as_vec_partial",
    "Essay.built_wf",
    "Essay.C04_scalar_with_cols_violates"
   ],
   "note": "Proved for all histories except the operations for which it is false (witness given)."
  },
  {
   "property": "C05",
   "status": "partial",
   "theorems": [
    "Essay.C05_expand_dims",
    "Essay.C05_squeeze",
    "Essay.C05_tensor_expand_dims",
    "Essay.C05_tensor_squeeze",
    "Essay.C05_no_axis",
    "Essay.C05_expand_dims_panics",
    "Essay.C05_tensor_expand_dims_panics",
    "Essay.C05_squeeze_axis_actual",
    "Essay.C05_squeeze_axis_violates",
    "Essay.C05_squeeze_axis_not_inverse"
   ],
   "note": "expand_dims and squeeze proved; squeeze_axis is off by one in the code (witness given)."
  },
  {
   "property": "C06",
   "status": "proved",
   "theorems": [
    "Essay.C06_from_vec",
    "Essay.C06_from_scalar",
    "Essay.C06_from_slice",
    "Essay.C06_from_slice_too_long"
   ],
   "note": "Element counts below 2^32."
  },
  {
   "property": "C07",
   "status": "partial",
   "theorems": [
    "Essay.C07_inside_partial",
    "Essay.C07_size_partial",
    "Essay.C07_size_violates",
    "Essay.C07_fields_violates"
   ],
   "note": "Every history of calls of every safe public function. The tensor always lies inside its buffer; the size is the product of the dimensions unless subslice_flat was given a shape of size 0 for a slice of length 1. Both are false for programs that assign the public fields shape, offset and size (proved)."
  },
  {
   "property": "C08",
   "status": "proved",
   "theorems": [
    "Essay.C08_reshape",
    "Essay.C08_reshape_back",
    "Essay.C08_flatten"
   ],
   "note": ""
  },
  {
   "property": "C09",
   "status": "proved",
   "theorems": [
    "Essay.C09_subslice",
    "Essay.C09_subslice_scalar",
    "Essay.C09_subslice_empty_panics",
    "Essay.C09_subslice_subslice"
   ],
   "note": "A range of rows without elements counts as empty: with a zero among the inner dimensions every call panics."
  },
  {
   "property": "C10",
   "status": "partial",
   "theorems": [
    "Essay.C10_index1",
    "Essay.C10_index2_partial",
    "Essay.C10_index2_actual",
    "Essay.C10_index2_violates",
    "Essay.C10_index3_partial",
    "Essay.C10_index4_partial",
    "Essay.C10_index5",
    "Essay.C10_index3_violates",
    "Essay.C10_index4_violates",
    "Essay.C10_index2_rank3",
    "Essay.C10_small_actual",
    "Essay.C10_rank_rejects"
   ],
   "note": "Arity 3 and 4 are proved where the code is right; witnesses show where it panics wrongly. Arity 2: accesses inside are proved; outside a view the panic message prints the tensor and can read outside the buffer (proved exactly when)."
  },
  {
   "property": "C11",
   "status": "partial",
   "theorems": [
    "Essay.C11_get_partial",
    "Essay.C11_get_actual",
    "Essay.C11_view_violates",
    "Essay.C11_view_out_of_bounds"
   ],
   "note": "get is right only for views that start at the buffer's beginning (the code adds the offset twice)."
  },
  {
   "property": "C12",
   "status": "proved",
   "theorems": [
    "Essay.C12_vec1",
    "Essay.C12_scalar",
    "Essay.C12_vec2",
    "Essay.C12_vec2_rejects",
    "Essay.C12_rows",
    "Essay.C12_vec2_rows",
    "Essay.C12_vec2_rows_rejects",
    "Essay.C12_vec3",
    "Essay.C12_vec4",
    "Essay.C12_vec5",
    "Essay.C12_vec3_rejects",
    "Essay.C12_vec4_rejects",
    "Essay.C12_vec5_rejects",
    "Essay.C12_arr2",
    "Essay.C12_arr3",
    "Essay.C12_arr4"
   ],
   "note": "Nesting lengths below 2^32."
  },
  {
   "property": "C13",
   "status": "proved",
   "theorems": [
    "Essay.C13_tensors",
    "Essay.C13_rejects"
   ],
   "note": ""
  },
  {
   "property": "C14",
   "status": "proved",
   "theorems": [
    "Essay.C14_map",
    "Essay.C14_map_pure",
    "Essay.C14_identity_and_composition"
   ],
   "note": ""
  },
  {
   "property": "C15",
   "status": "proved",
   "theorems": [
    "Essay.C15_map2_left",
    "Essay.C15_map2_right",
    "Essay.C15_map2_at"
   ],
   "note": ""
  },
  {
   "property": "C16",
   "status": "proved",
   "theorems": [
    "Essay.C16_incompatible",
    "Essay.C16_empty",
    "Essay.C16_map3"
   ],
   "note": ""
  },
  {
   "property": "C17",
   "status": "proved",
   "theorems": [
    "Essay.C17_map3"
   ],
   "note": ""
  },
  {
   "property": "C18",
   "status": "proved",
   "theorems": [
    "Essay.C18_tensor_tensor_left",
    "Essay.C18_tensor_tensor_right",
    "Essay.C18_at",
    "Essay.C18_rejects",
    "Essay.C18_tensor_scalar",
    "Essay.C18_scalar_tensor",
    "Essay.C18_unary",
    "Essay.C18_square",
    "Essay.C18_min_max",
    "Essay.C18_abs_sub"
   ],
   "note": "The element operators are parameters (any functions that may panic)."
  },
  {
   "property": "C19",
   "status": "proved",
   "theorems": [
    "Essay.C19_too_large",
    "Essay.C19_init",
    "Essay.C19_init_rindexed"
   ],
   "note": ""
  },
  {
   "property": "C20",
   "status": "proved",
   "theorems": [
    "Essay.C20_map_row",
    "Essay.C20_map_row_scalar",
    "Essay.C20_map_expand",
    "Essay.C20_map_row_rejects",
    "Essay.C20_map_expand_rejects"
   ],
   "note": "Rows without elements (and scalars) panic in map_row, six-dimensional tensors in map_expand."
  },
  {
   "property": "C21",
   "status": "proved",
   "theorems": [
    "Essay.C21_fold",
    "Essay.C21_reduce",
    "Essay.C21_fold_axis",
    "Essay.C21_fold_axis_none",
    "Essay.C21_reduce_axis",
    "Essay.C21_reduce_axis_none",
    "Essay.C21_axis_rejects",
    "Essay.C21_zero_axis"
   ],
   "note": "Along an axis, a zero among the other dimensions panics (C21_axis_rejects); over an axis of length 0 folding gives the initial value and reducing panics (C21_zero_axis)."
  },
  {
   "property": "C22",
   "status": "proved",
   "theorems": [
    "Essay.C22_reduce_axis_total",
    "Essay.C86_axis_then_rest",
    "Essay.C86_no_axis",
    "Essay.C75_unsigned_axis_first"
   ],
   "note": "Non-empty tensors."
  },
  {
   "property": "C23",
   "status": "partial",
   "theorems": [
    "Essay.C23_fold_row_partial",
    "Essay.C23_fold_row_axis_partial",
    "Essay.C23_view_violates",
    "Essay.C23_vector_axis_violates",
    "Essay.C23_view_actual",
    "Essay.C23_vector_axis_actual"
   ],
   "note": "False for views with an offset and for vectors with an axis (witnesses given)."
  },
  {
   "property": "C24",
   "status": "partial",
   "theorems": [
    "Essay.C24_last_axis_partial",
    "Essay.C24_no_axis",
    "Essay.C24_actual",
    "Essay.C21_axis_rejects",
    "Essay.C24_inner_axis_violates"
   ],
   "note": "False for axes other than the innermost (witness given); C24_actual says what the code does there."
  },
  {
   "property": "C25",
   "status": "partial",
   "theorems": [
    "Essay.C25_valid_axis_partial",
    "Essay.C25_out_of_range_violates",
    "Essay.C25_beyond_rank_actual",
    "Essay.C25_array_operations",
    "Essay.C25_fold_operations",
    "Essay.C25_scalar",
    "Essay.C25_statistics"
   ],
   "note": "Out of range axes are not rejected (witness given)."
  },
  {
   "property": "C26",
   "status": "proved",
   "theorems": [
    "Essay.C26_transpose",
    "Essay.C26_transpose_twice",
    "Essay.C26_transpose_vector",
    "Essay.C26_transpose_scalar",
    "Essay.C26_empty_vector",
    "Essay.C26_empty_actual"
   ],
   "note": "Matrices without elements panic or not as C26_empty_actual says."
  },
  {
   "property": "C27",
   "status": "partial",
   "theorems": [
    "Essay.C27_concatenate_partial",
    "Essay.C27_concatenate_outer_partial",
    "Essay.C27_rejects_empty",
    "Essay.C27_rejects",
    "Essay.C27_rank6_violates",
    "Essay.C27_rank6_actual",
    "Essay.C27_too_large"
   ],
   "note": "Six-dimensional tensors panic along axis 0 (witness given); everything else proved."
  },
  {
   "property": "C28",
   "status": "partial",
   "theorems": [
    "Essay.C28_stack_partial",
    "Essay.C28_stack_outer_partial",
    "Essay.C28_rejects",
    "Essay.C28_rank5_violates",
    "Essay.C28_empty_violates",
    "Essay.C28_too_large",
    "Essay.C28_deep_actual"
   ],
   "note": "Five-dimensional tensors panic along axis 0 (witness given), and tensors with a 0 behind the new axis always (proved)."
  },
  {
   "property": "C29",
   "status": "partial",
   "theorems": [
    "Essay.C29_vstack_partial",
    "Essay.C29_hstack_vectors",
    "Essay.C29_hstack",
    "Essay.C29_dstack_vectors",
    "Essay.C29_dstack_matrices",
    "Essay.C29_dstack",
    "Essay.C29_scalars_panic",
    "Essay.C29_vstack_deep",
    "Essay.C29_vstack_rejects",
    "Essay.C29_hstack_rejects",
    "Essay.C29_dstack_rejects"
   ],
   "note": "vstack: up to four dimensions (five panic); stack differs on tensors without elements (it panics); scalars panic in hstack and dstack."
  },
  {
   "property": "C30",
   "status": "partial",
   "theorems": [
    "Essay.C30_split_cuts",
    "Essay.C30_split_concat_partial",
    "Essay.C30_split_equal",
    "Essay.C30_split_equal_uneven",
    "Essay.C30_uneven_violates",
    "Essay.C30_empty_violates",
    "Essay.C30_zero_axis",
    "Essay.C30_methods",
    "Essay.C30_missing_axis_violates",
    "Essay.C30_split_equal_actual",
    "Essay.C30_zero_axis_rejects"
   ],
   "note": "Pieces, order and coverage proved in full for tensors with elements, others panic or give no pieces (proved); joining the pieces again excludes six dimensions along axis 0."
  },
  {
   "property": "C31",
   "status": "partial",
   "theorems": [
    "Essay.C31_unstack_outer_violates",
    "Essay.C31_unstack_inner_violates",
    "Essay.C31_unstack_empty"
   ],
   "note": "False for every input: the code never fills its list of cuts. What it returns instead is proved."
  },
  {
   "property": "C32",
   "status": "partial",
   "theorems": [
    "Essay.C32_tile_partial",
    "Essay.C32_zero_multiple",
    "Essay.C32_scalar_multiples",
    "Essay.C32_matrix_multiples_violates",
    "Essay.C32_empty_violates",
    "Essay.C32_too_large",
    "Essay.C32_nothing",
    "Essay.C32_multiples_undefined",
    "Essay.C32_multiples_vector",
    "Essay.C32_multiples_panic"
   ],
   "note": "Proved for a vector of multiples; a matrix of multiples causes undefined behaviour from safe code (witness given). For multiples of any rank: exactly when that happens, when the call panics, and when it is tiling by a vector."
  },
  {
   "property": "C33",
   "status": "partial",
   "theorems": [
    "Essay.C33_too_large",
    "Essay.C33_wraps",
    "Essay.C33_eye_partial",
    "Essay.C33_eye_zero_violates",
    "Essay.C33_diagflat",
    "Essay.C33_diagflat_rejects",
    "Essay.C33_tri",
    "Essay.C33_tril_partial",
    "Essay.C33_triu_partial",
    "Essay.C33_empty_violates",
    "Essay.C33_tril_triu_reject"
   ],
   "note": "eye(0) is a scalar and tril/triu panic on empty matrices (witnesses given); everything else proved."
  },
  {
   "property": "C34",
   "status": "proved",
   "theorems": [
    "Essay.C34_too_large",
    "Essay.C34_meshgrid_ij",
    "Essay.C34_meshgrid",
    "Essay.C34_rejects",
    "Essay.C34_mgrid"
   ],
   "note": "Empty axes panic (C34_rejects)."
  },
  {
   "property": "C35",
   "status": "partial",
   "theorems": [
    "Essay.C35_linspace_partial",
    "Essay.C35_exact_partial",
    "Essay.C35_rounded_partial",
    "Essay.C35_rejects",
    "Essay.C35_rank5_violates"
   ],
   "note": "Ends of rank 5 panic (witness given). Exact arithmetic, plus any float arithmetic and monotone rounding."
  },
  {
   "property": "C36",
   "status": "partial",
   "theorems": [
    "Essay.C36_logspace_rejects",
    "Essay.C36_geomspace_rejects",
    "Essay.C36_logspace_partial",
    "Essay.C36_logspace_real_partial",
    "Essay.C36_geomspace_partial",
    "Essay.C36_geomspace_real_partial"
   ],
   "note": "Ends of rank 5 panic, as for linspace. Any float arithmetic, and real arithmetic."
  },
  {
   "property": "C37",
   "status": "partial",
   "theorems": [
    "Essay.C37_too_many",
    "Essay.C37_ascending_any",
    "Essay.C37_ascending_partial",
    "Essay.C37_rejects",
    "Essay.C37_descending_violates",
    "Essay.C37_stuck_violates"
   ],
   "note": "Positive steps proved; a negative step never returns (proved), nor does a step lost to rounding."
  },
  {
   "property": "C38",
   "status": "proved",
   "theorems": [
    "Essay.C38_too_large",
    "Essay.C38_one_hot",
    "Essay.C38_rejects"
   ],
   "note": ""
  },
  {
   "property": "C39",
   "status": "partial",
   "theorems": [
    "Essay.C39_matmul_partial",
    "Essay.C39_exact_partial",
    "Essay.C39_square",
    "Essay.C39_rejects",
    "Essay.C39_shape_violates",
    "Essay.C39_library_partial",
    "Essay.C39_any_order_partial",
    "Essay.C39_exact_any_order_partial",
    "Essay.C39_orders_agree",
    "Essay.C39_too_large"
   ],
   "note": "All product entries proved in row order, for the simple loops and for any library kernel that sums the right products in any order; the dimensions come out swapped unless the product is square (proved)."
  },
  {
   "property": "C40",
   "status": "partial",
   "theorems": [
    "Essay.C40_safe_partial",
    "Essay.C40_batch_violates",
    "Essay.C40_pointer_violates",
    "Essay.C40_ub_iff",
    "Essay.C40_more_left",
    "Essay.C40_too_many"
   ],
   "note": "Safe unless the left operand has more matrices; then the code reads out of bounds (proved, with the exact condition: C40_ub_iff)."
  },
  {
   "property": "C41",
   "status": "partial",
   "theorems": [
    "Essay.C41_matvec_partial",
    "Essay.C41_matrix_partial",
    "Essay.C41_rejects",
    "Essay.C41_safe",
    "Essay.C41_empty_violates",
    "Essay.C41_library_partial",
    "Essay.C41_any_order_partial",
    "Essay.C41_exact_any_order_partial"
   ],
   "note": "For the simple loops and any library kernel. Everything but operands without elements, which panic (proved)."
  },
  {
   "property": "C42",
   "status": "proved",
   "theorems": [
    "Essay.C42_whole",
    "Essay.C42_axis",
    "Essay.C42_axis_none",
    "Essay.C42_mean_any"
   ],
   "note": "Exact arithmetic, as the property says; the mean also in any float arithmetic."
  },
  {
   "property": "C43",
   "status": "proved",
   "theorems": [
    "Essay.C43_whole",
    "Essay.C43_axis",
    "Essay.C43_order",
    "Essay.C43_empty_panics"
   ],
   "note": "Any float order with NaN."
  },
  {
   "property": "C44",
   "status": "proved",
   "theorems": [
    "Essay.C44_exact",
    "Essay.C44_rounded"
   ],
   "note": "Exact arithmetic, and monotone rounding."
  },
  {
   "property": "C45",
   "status": "partial",
   "theorems": [
    "Essay.C45_histogram_partial",
    "Essay.C45_counts",
    "Essay.C45_bins_in_order",
    "Essay.C45_saturation_violates",
    "Essay.C45_rejects"
   ],
   "note": "Exact arithmetic; with rounding the counts are right up to the largest exact count (2^24), wrong beyond (proved)."
  },
  {
   "property": "C46",
   "status": "partial",
   "theorems": [
    "Essay.C46_violates",
    "Essay.C46_rest_partial"
   ],
   "note": "False: histogram2d panics on every input, where it reads the minima (proved). The rest of the function is right when given the minima and maxima of the columns, in exact arithmetic."
  },
  {
   "property": "C47",
   "status": "proved",
   "theorems": [
    "Essay.C47_rand32",
    "Essay.C47_rand64"
   ],
   "note": ""
  },
  {
   "property": "C48",
   "status": "proved",
   "theorems": [
    "Essay.C48_rand32",
    "Essay.C48_rand64"
   ],
   "note": ""
  },
  {
   "property": "C49",
   "status": "proved",
   "theorems": [
    "Essay.C49_normal",
    "Essay.C49_uniform",
    "Essay.C49_prefix",
    "Essay.C49_seed_kept"
   ],
   "note": "Any float arithmetic."
  },
  {
   "property": "C50",
   "status": "partial",
   "theorems": [
    "Essay.C50_next_uniform32",
    "Essay.C50_next_uniform64_violates",
    "Essay.C50_random_uniform_violates"
   ],
   "note": "Proved for the 32-bit generator under monotone rounding; next_uniform of Rand64 exceeds 1 and random_uniform leaves its interval (both proved)."
  },
  {
   "property": "C51",
   "status": "proved",
   "theorems": [
    "Essay.C51_unseeded",
    "Essay.C51_seeding"
   ],
   "note": "Every interleaving, stale reads allowed; as long as the seed chain does not hit 0."
  },
  {
   "property": "C52",
   "status": "partial",
   "theorems": [
    "Essay.C52_fresh_partial",
    "Essay.C52_values_partial",
    "Essay.C52_used_thread_violates",
    "Essay.C52_violates"
   ],
   "note": "Threads without a generator; a thread that has one ignores random_seed (proved)."
  },
  {
   "property": "C53",
   "status": "proved",
   "theorems": [
    "Essay.C53_decode",
    "Essay.C53_exact"
   ],
   "note": "Any float arithmetic, and exactly sample/32768 under rounding."
  },
  {
   "property": "C54",
   "status": "proved",
   "theorems": [
    "Essay.C54_rejects"
   ],
   "note": "Bytes after the samples are accepted and ignored."
  },
  {
   "property": "C55",
   "status": "partial",
   "theorems": [
    "Essay.C55_vector",
    "Essay.C55_rows_partial",
    "Essay.C55_batch_violates",
    "Essay.C55_rejects",
    "Essay.C55_safe"
   ],
   "note": "Any float arithmetic and any transform. Batches always panic in the code (C55_batch_violates): the row count is computed as len()/cols()."
  },
  {
   "property": "C56",
   "status": "partial",
   "theorems": [
    "Essay.C56_outside_write",
    "Essay.C56_missing_write",
    "Essay.C56_no_ub_partial",
    "Essay.C56_at_most_once_partial",
    "Essay.C56_live_partial",
    "Essay.C56_once_partial",
    "Essay.C56_last_partial",
    "Essay.C56_values_kept_partial",
    "Essay.C56_refines_partial",
    "Essay.C56_rejected_partial",
    "Essay.C56_panicking_init_leaks",
    "Essay.C56_zero_length_violates"
   ],
   "note": "All histories and interleavings, including panicking calls, but for initialisers of length 0, which allocate 0 bytes (undefined in Rust, proved). A buffer whose initialising closure panics never becomes a tensor and leaks (proved)."
  },
  {
   "property": "C57",
   "status": "partial",
   "theorems": [
    "Essay.C57_lexicographic",
    "Essay.C57_consistent_partial",
    "Essay.C57_shape_violates"
   ],
   "note": "Lexicographic order proved; consistency with == fails for different shapes (witness given)."
  },
  {
   "property": "C58",
   "status": "proved",
   "theorems": [
    "Essay.C58_eq",
    "Essay.C58_clone",
    "Essay.C58_eq_any",
    "Essay.C58_clone_any"
   ],
   "note": "For any equality of elements, also one that is not reflexive (floats)."
  },
  {
   "property": "C59",
   "status": "partial",
   "theorems": [
    "Essay.C59_debug_partial",
    "Essay.C59_debug_actual",
    "Essay.C59_view_violates",
    "Essay.C59_view_out_of_bounds"
   ],
   "note": "Tensors starting at the beginning of their buffer; false on views. What it prints for every view is proved."
  },
  {
   "property": "C60",
   "status": "partial",
   "theorems": [
    "Essay.C60_checked_partial",
    "Essay.C60_truncation_violates",
    "Essay.C60_release_size",
    "Essay.C60_release_new",
    "Essay.C60_release_violates"
   ],
   "note": "Exact with overflow checks and dimensions below 2^32; dimensions are cut to 32 bits and release builds wrap (proved)."
  },
  {
   "property": "C61",
   "status": "proved",
   "theorems": [
    "Essay.C61_fill",
    "Essay.C61_zeros",
    "Essay.C61_ones",
    "Essay.C61_init_default"
   ],
   "note": ""
  },
  {
   "property": "C62",
   "status": "partial",
   "theorems": [
    "Essay.C62_from_merge",
    "Essay.C62_append",
    "Essay.C62_append_rejects",
    "Essay.C62_append_reshapes",
    "Essay.C62_join_vec"
   ],
   "note": "append checks only the trailing product (C62_append_reshapes)."
  },
  {
   "property": "C63",
   "status": "partial",
   "theorems": [
    "Essay.C63_iter_row_partial",
    "Essay.C63_vector",
    "Essay.C63_empty_rows"
   ],
   "note": "Zero-length rows panic in the code."
  },
  {
   "property": "C64",
   "status": "partial",
   "theorems": [
    "Essay.C64_safe_partial",
    "Essay.C64_flat_violates",
    "Essay.C64_scalar_cols_violates",
    "Essay.C64_view_get_violates",
    "Essay.C64_view_debug_violates",
    "Essay.C64_view_index_violates",
    "Essay.C64_tile_violates",
    "Essay.C64_matmul_violates",
    "Essay.C64_fold_row_violates",
    "Essay.C64_fields_violates",
    "Essay.C64_release_violates"
   ],
   "note": "Every call after every history. False in general: safe code can read or write out of bounds, or drop memory never written, in nine ways, each with a witness; proved for programs that avoid exactly those calls (Rules in Spec/Reach). Allocations of 0 bytes are under C56. Release builds: C64_release_violates."
  },
  {
   "property": "C65",
   "status": "proved",
   "theorems": [
    "Essay.Opt.C65_last_write_wins",
    "Essay.Opt.C65_commute",
    "Essay.Opt.C65_default",
    "Essay.Opt.C65_compiles",
    "Essay.Opt.C65_signatures",
    "Essay.Opt.C65_means_unique"
   ],
   "note": "The macro is modelled as a generator of setters with a meaning; token parsing and printing are not modelled."
  },
  {
   "property": "C66",
   "status": "partial",
   "theorems": [
    "Essay.C66_slice_violates"
   ],
   "note": "False in the code: every call ends in todo!() (proved)."
  },
  {
   "property": "C67",
   "status": "partial",
   "theorems": [
    "Essay.C67_frame_violates"
   ],
   "note": "False in the code: every call ends in todo!() or an earlier panic (proved)."
  },
  {
   "property": "C68",
   "status": "partial",
   "theorems": [
    "Essay.C68_whole_partial",
    "Essay.C68_short_read_violates",
    "Essay.C68_errors"
   ],
   "note": "One read call; a short read leaves zeros in place of the rest (proved)."
  },
  {
   "property": "C69",
   "status": "proved",
   "theorems": [
    "Essay.C69_tensors",
    "Essay.C69_converted"
   ],
   "note": ""
  },
  {
   "property": "C70",
   "status": "proved",
   "theorems": [
    "Essay.C70_rand32",
    "Essay.C70_rand64"
   ],
   "note": ""
  },
  {
   "property": "C71",
   "status": "partial",
   "theorems": [
    "Essay.C71_rand32_partial",
    "Essay.C71_rand32_violates",
    "Essay.C71_rand64_partial",
    "Essay.C71_rand64_violates"
   ],
   "note": "Exactly which states fail is proved: 1 in 2^32 for Rand32, all but 1 in 2^32 for Rand64 (it draws uniforms above 1)."
  },
  {
   "property": "C72",
   "status": "proved",
   "theorems": [
    "Essay.C72_unary",
    "Essay.C72_binary",
    "Essay.C72_rejects",
    "Essay.C72_powi",
    "Essay.C72_sin_cos",
    "Essay.C72_mul_add"
   ],
   "note": "The scalar functions (num_traits, std) are parameters."
  },
  {
   "property": "C73",
   "status": "proved",
   "theorems": [
    "Essay.C73_rotate",
    "Essay.C73_rotate_bits",
    "Essay.C73_counts",
    "Essay.C73_count_reverse",
    "Essay.C73_leading_trailing",
    "Essay.C73_involutions",
    "Essay.C73_bytes"
   ],
   "note": "Bit vectors of every width; little-endian target."
  },
  {
   "property": "C74",
   "status": "proved",
   "theorems": [
    "Essay.C74_parts",
    "Essay.C74_unary",
    "Essay.C74_polar",
    "Essay.C74_polar_back",
    "Essay.C74_binary"
   ],
   "note": "num_complex formulas over the reals (exact arithmetic)."
  },
  {
   "property": "C75",
   "status": "proved",
   "theorems": [
    "Essay.C75_sum",
    "Essay.C75_product",
    "Essay.C75_axis",
    "Essay.C75_sum_unsigned",
    "Essay.C75_sum_wrapping",
    "Essay.C75_order",
    "Essay.C75_empty",
    "Essay.C75_unsigned_axis_first"
   ],
   "note": ""
  },
  {
   "property": "C76",
   "status": "proved",
   "theorems": [
    "Essay.C76_hypot",
    "Essay.C76_norm",
    "Essay.C76_scale"
   ],
   "note": "Exact real arithmetic."
  },
  {
   "property": "C77",
   "status": "proved",
   "theorems": [
    "Essay.C77_sum",
    "Essay.C77_sum_axis",
    "Essay.C77_mean",
    "Essay.C77_matmul",
    "Essay.C77_matvec",
    "Essay.C77_hypot",
    "Essay.C77_sum_saturates",
    "Essay.C77_mean_saturates",
    "Essay.C77_matmul_any_order",
    "Essay.C77_matvec_any_order"
   ],
   "note": "Every binary format (f32 and f64 are instances, Lemmas/Ieee), overflow excluded. Products for every order of additions, with or without fused multiply-adds. The bounds are real: the f32 mean of 2^25 ones is 0.5 (proved)."
  },
  {
   "property": "C78",
   "status": "partial",
   "theorems": [
    "Essay.C78_nonneg_partial",
    "Essay.C78_nonneg_axis_partial",
    "Essay.C78_constant",
    "Essay.C82_variance_partial",
    "Essay.C82_variance_overflow_violates"
   ],
   "note": "Every binary format with gradual underflow, if no difference of two elements overflows; if one does, the variance of two numbers is -inf (proved)."
  },
  {
   "property": "C79",
   "status": "partial",
   "theorems": [
    "Essay.C79_concatenate_axis_partial",
    "Essay.C79_concatenate_partial",
    "Essay.C79_stack_partial",
    "Essay.C79_vstack_partial",
    "Essay.C79_dstack_matrices",
    "Essay.C79_dstack_vectors",
    "Essay.C79_conversion_panics",
    "Essay.C79_meshgrid",
    "Essay.C79_spaces"
   ],
   "note": "Partial where C27 and C28 are: below the rank limit, no 0 behind a new axis."
  },
  {
   "property": "C80",
   "status": "proved",
   "theorems": [
    "Essay.Random.C80_normal",
    "Essay.Random.C80_uniform",
    "Essay.C80_logspace_forms",
    "Essay.C80_logspace_partial",
    "Essay.Stats.C80_hist_args",
    "Essay.Stats.C80_histogram_zero_bins",
    "Essay.Stats.C80_histogram"
   ],
   "note": "logspace below rank 5, at least 2 points, exact arithmetic (as C36)."
  },
  {
   "property": "C81",
   "status": "proved",
   "theorems": [
    "Essay.Macro.C81_ten",
    "Essay.Macro.C81_rejects",
    "Essay.Macro.C81_parentheses"
   ],
   "note": "Element counts below 2^32. Matching, type inference and the choice of the From impl are modelled."
  },
  {
   "property": "C82",
   "status": "partial",
   "theorems": [
    "Essay.C82_nan_whole",
    "Essay.C82_nan_axis",
    "Essay.C82_nan_matmul",
    "Essay.C82_nan_matvec",
    "Essay.C82_nan_single_violates",
    "Essay.C82_min_max",
    "Essay.C82_sum_nonneg",
    "Essay.C82_sum",
    "Essay.C82_mean",
    "Essay.C82_matmul",
    "Essay.C82_variance_partial",
    "Essay.C82_variance_overflow_violates",
    "Essay.C82_hypot_overflow_violates",
    "Essay.C82_normalize_constant_violates",
    "Essay.C82_normalize_overflow_violates",
    "Essay.C82_normalize_nan",
    "Essay.C82_histogram_nan_violates",
    "Essay.C82_nan_matmul_any_order",
    "Essay.C82_nan_matvec_any_order",
    "Essay.C82_matmul_any_order",
    "Essay.C82_matvec_any_order"
   ],
   "note": "IEEE arithmetic with NaN, infinities, signed zeros and overflow, any binary format. Sums, means, products, minima and maxima as stated; the variance of one NaN, variances and norms with overflow, normalize_unit of a constant and histograms with NaN behave otherwise (all proved)."
  },
  {
   "property": "C83",
   "status": "proved",
   "theorems": [
    "Essay.C83_expression",
    "Essay.C83_identity",
    "Essay.C83_commutes",
    "Essay.C83_associates",
    "Essay.C83_ring",
    "Essay.C83_scalar_tensor"
   ],
   "note": "Element functions without undefined behaviour (they may panic). The tensor form of a scalar operand rejects empty tensors, which the scalar form accepts (part of C83_scalar_tensor)."
  },
  {
   "property": "C84",
   "status": "proved",
   "theorems": [
    "Essay.C84_concatenate_nested",
    "Essay.C84_split_of_concatenate",
    "Essay.C84_map_commutes",
    "Essay.C84_map_concatenate",
    "Essay.C84_map_stack",
    "Essay.C84_transpose_concatenate",
    "Essay.C84_triangles",
    "Essay.C84_fold_transpose",
    "Essay.C84_tile_concatenate",
    "Essay.C84_append_concatenate",
    "Essay.C84_rows",
    "Essay.C84_stack_subslice",
    "Essay.C84_meshgrid_transpose"
   ],
   "note": "Sizes below 2^32, ranks below the limit, at least one element where stated."
  },
  {
   "property": "C85",
   "status": "partial",
   "theorems": [
    "Essay.C85_associates_partial",
    "Essay.C85_associates_square",
    "Essay.C85_distributes",
    "Essay.C85_factor",
    "Essay.C85_transpose_partial",
    "Essay.C85_options",
    "Essay.C85_identity_partial",
    "Essay.C85_identity_rounded_partial",
    "Essay.C85_matvec_matmul",
    "Essay.C85_matvec_column",
    "Essay.C85_matvec_composes",
    "Essay.C85_matvec_adds",
    "Essay.C85_matvec_diagonal",
    "Essay.C85_diagonal",
    "Essay.C85_diagonal_scales",
    "Essay.C85_inner",
    "Essay.C85_rectangular_violates"
   ],
   "note": "matmul returns m x n products with the dimensions [n, m] (C39), so for matrices that are not square associativity, the transpose of a product and the identity laws hold after reshaping each product to [m, n], and (a b) c panics without (C85_rectangular_violates). Nonempty matrices, sizes below 2^32."
  },
  {
   "property": "C86",
   "status": "proved",
   "theorems": [
    "Essay.C86_rearranged",
    "Essay.C86_transpose_reshape",
    "Essay.C86_concatenate",
    "Essay.C86_stack",
    "Essay.C86_axis_then_rest",
    "Essay.C86_total_variance",
    "Essay.C86_affine",
    "Essay.C86_affine_axis",
    "Essay.C86_affine_std",
    "Essay.C86_bounds",
    "Essay.C86_negate",
    "Essay.C86_normalize",
    "Essay.C86_no_axis"
   ],
   "note": "Exact arithmetic over any ordered field (real numbers for the standard deviation under scaling). Under rounding C77, C78 and C82 apply."
  },
  {
   "property": "C87",
   "status": "partial",
   "theorems": [
    "Essay.C87_idim",
    "Essay.C87_idim_scalar",
    "Essay.C87_idim_out_of_range_violates",
    "Essay.C87_sublen",
    "Essay.C87_rsublen",
    "Essay.C87_rsublen_beyond_rank",
    "Essay.C87_batch_len_actual",
    "Essay.C87_batch_len_violates",
    "Essay.C87_broadcast",
    "Essay.C87_broadcast_min",
    "Essay.C87_reduce"
   ],
   "note": "False for batch_len, which multiplies the innermost instead of the outermost dimensions, for idim out of range, which wraps around, and for rsublen beyond the rank, which gives 0 (all proved)."
  },
  {
   "property": "C88",
   "status": "proved",
   "theorems": [
    "Essay.C88_isolated",
    "Essay.C88_first_use"
   ],
   "note": "Calls are atomic, as each touches the shared seed at most once; races in first use are C52 and Model/Random SeedStep."
  },
  {
   "property": "C89",
   "status": "partial",
   "theorems": [
    "Essay.C89_violates",
    "Essay.C89_prepared_one_partial",
    "Essay.C89_prepared_many_violates"
   ],
   "note": "Both functions are unimplemented (todo!()); proved that every call panics. The implementation prepared for map2_row, which nothing calls, is right for one value per pair of rows and never returns for more (both proved)."
  },
  {
   "property": "C90",
   "status": "proved",
   "theorems": [
    "Essay.Sharing.C90_threads",
    "Essay.Sharing.C90_confined",
    "Essay.Sharing.C90_usable",
    "Essay.Sharing.C90_kept_or_dropped",
    "Essay.Sharing.C90_all_dropped"
   ],
   "note": "The auto trait rules of the language and of Arc are in the model."
  },
  {
   "property": "C91",
   "status": "partial",
   "theorems": [
    "Essay.Alloc.C91_layouts_partial",
    "Essay.Alloc.C91_ub_iff",
    "Essay.Alloc.C91_blocks",
    "Essay.Alloc.C91_all_freed",
    "Essay.Alloc.C91_too_large",
    "Essay.Alloc.C91_boxes",
    "Essay.Alloc.C91_out_of_memory_violates",
    "Essay.Alloc.C91_zero_sized_violates"
   ],
   "note": "Layouts match and nothing leaks unless a closure panics. Initialisers are undefined exactly when the buffer has no bytes (length 0, or an element type of size 0) or the allocator refuses (proved)."
  },
  {
   "property": "C92",
   "status": "partial",
   "theorems": [
    "Essay.C92_actual",
    "Essay.C92_neighbours",
    "Essay.C92_tone",
    "Essay.C92_energy",
    "Essay.C92_scale",
    "Essay.C92_first_sample",
    "Essay.C92_bound",
    "Essay.C92_window_violates"
   ],
   "note": "False in the code, which applies a Hann window the tests do not expect (proved for every constant). What it computes is proved exactly, in real arithmetic with the discrete Fourier transform in place of rustfft."
  },
  {
   "property": "C93",
   "status": "partial",
   "theorems": [
    "Essay.C93_call_partial",
    "Essay.C93_program_partial",
    "Essay.C93_view_violates",
    "Essay.C93_matmul_violates"
   ],
   "note": "Proved for all programs over the whole API except get, Debug, as_wrap_slice_n, fold_row and t[(i, j)] outside the matrix on tensors with an offset, and matmul with more matrices on the left, for which it is false (witnesses)."
  },
  {
   "property": "C94",
   "status": "partial",
   "theorems": [
    "Essay.C94_dims",
    "Essay.C94_shape",
    "Essay.C94_elements_partial",
    "Essay.C94_view_violates",
    "Essay.C94_text_violates"
   ],
   "note": "The dimensions are determined for every tensor. The elements are determined for tensors at the start of their buffer whose element texts all have the same number of spaces (numbers, booleans, complex numbers); false for views and for element texts with varying numbers of spaces (witnesses)."
  },
  {
   "property": "C95",
   "status": "proved",
   "theorems": [
    "Essay.C95_models_agree",
    "Essay.C95_from_slice",
    "Essay.C95_fill",
    "Essay.C95_transpose",
    "Essay.C95_split",
    "Essay.C95_split_views",
    "Essay.C95_concatenate",
    "Essay.C95_stack",
    "Essay.C95_tile",
    "Essay.C95_meshgrid",
    "Essay.C95_meshgrid_ij",
    "Essay.C95_from_merge",
    "Essay.C95_append",
    "Essay.C95_from",
    "Essay.C95_from_tensors",
    "Essay.C95_count",
    "Essay.C95_panic"
   ],
   "note": "For calls that succeed when clone is a plain copy, and a clone that is any function with state and panics."
  },
  {
   "property": "C96",
   "status": "proved",
   "theorems": [
    "Essay.C96_f32",
    "Essay.C96_f64",
    "Essay.C96_f32_whole",
    "Essay.C96_f32_limit",
    "Essay.C96_sum",
    "Essay.C96_sum_order",
    "Essay.C96_sum_axis",
    "Essay.C96_product",
    "Essay.C96_mean",
    "Essay.C96_hypot",
    "Essay.C96_matmul",
    "Essay.C96_matvec",
    "Essay.C96_add",
    "Essay.C96_sub",
    "Essay.C96_mul",
    "Essay.C96_linspace",
    "Essay.C96_mgrid",
    "Essay.C96_arange",
    "Essay.C96_arange_violates"
   ],
   "note": "Float arithmetic is exact arithmetic followed by a rounding; Ieee.f32 and Ieee.f64 are proved to meet the hypothesis on the rounding."
  },
  {
   "property": "C97",
   "status": "partial",
   "theorems": [
    "Essay.C97_uniform32_distribution",
    "Essay.C97_uniform32_mean",
    "Essay.C97_uniform32_mean_square",
    "Essay.C97_uniform64_mean_violates",
    "Essay.C97_normal32",
    "Essay.C97_normal64",
    "Essay.C97_normal_period",
    "Essay.C97_random_normal",
    "Essay.C97_random_uniform_actual",
    "Essay.C97_f32_ends",
    "Essay.C97_f32_ends_count"
   ],
   "note": "Proved for Rand32. Rand64::next_uniform divides 64-bit outputs by 2^32 - 1, so its mean is (2^32 + 1) / 2 (proved). The first four are in exact arithmetic, the last two in f32."
  },
  {
   "property": "C98",
   "status": "proved",
   "theorems": [
    "Essay.C98_shapes",
    "Essay.C98_constructors",
    "Essay.C98_views",
    "Essay.C98_arrays",
    "Essay.C98_numbers",
    "Essay.C98_closures",
    "Essay.C98_operators",
    "Essay.C98_history",
    "Essay.C98_subslice_actual"
   ],
   "note": "One lemma for each function of the model that can overflow (Lemmas/BuildModel), one for each kind of call (Lemmas/BuildCalls)."
  },
  {
   "property": "C99",
   "status": "partial",
   "theorems": [
    "Essay.C99_models_agree",
    "Essay.C99_matrices_agree",
    "Essay.C99_fold",
    "Essay.C99_fold_axis",
    "Essay.C99_fold_axis_none",
    "Essay.C99_fold_row_partial",
    "Essay.C99_fold_row_axis_partial",
    "Essay.C99_normalize",
    "Essay.C99_normalize_none",
    "Essay.C99_reduce",
    "Essay.C99_reduce_axis",
    "Essay.C99_reduce_axis_none",
    "Essay.C99_reduce_count",
    "Essay.C99_axis_rejects",
    "Essay.C99_zero_axis",
    "Essay.C99_eye",
    "Essay.C99_eye_zero",
    "Essay.C99_tri",
    "Essay.C99_diagflat",
    "Essay.C99_tril",
    "Essay.C99_triu"
   ],
   "note": "fold_row on tensors that start at their buffer's beginning, normalize along a given axis in the order of the lanes: the known defects of C23 and C24 are stated there."
  },
  {
   "property": "C100",
   "status": "proved",
   "theorems": [
    "Essay.C100_models_agree",
    "Essay.C100_vectors",
    "Essay.C100_single",
    "Essay.C100_blocks",
    "Essay.C100_axis",
    "Essay.C100_axis_none",
    "Essay.C100_copies",
    "Essay.C100_from",
    "Essay.C100_merge",
    "Essay.C100_split",
    "Essay.C100_split_views",
    "Essay.C100_meshgrid",
    "Essay.C100_models_agree_closures",
    "Essay.C100_rows",
    "Essay.C100_fold_row",
    "Essay.C100_normalize",
    "Essay.C100_models_agree_matrices",
    "Essay.C100_matrices"
   ],
   "note": "Closures given to a call are assumed to take care of the values handed to them. The order in which one panic drops several values is not modelled. fold and normalize are taken with states that are their own results, fold_row with an array as state."
  },
  {
   "property": "C101",
   "status": "proved",
   "theorems": [
    "Essay.C101_once",
    "Essay.C101_twice",
    "Essay.C101_map",
    "Essay.C101_elements",
    "Essay.C101_axis",
    "Essay.C101_broadcast",
    "Essay.C101_statistics"
   ],
   "note": "Vectors of multiples. What tile does with a matrix of multiples is C32."
  },
  {
   "property": "C102",
   "status": "proved",
   "theorems": [
    "Essay.C102_map",
    "Essay.C102_binary",
    "Essay.C102_nested",
    "Essay.C102_tile",
    "Essay.C102_concatenate"
   ],
   "note": "For tensors with elements, and for concatenations whose result fits and which are not along axis 0 of six dimensions (C27); splits of empty tensors are C30."
  },
  {
   "property": "C103",
   "status": "proved",
   "theorems": [
    "Essay.C103_order",
    "Essay.C103_affine",
    "Essay.C103_joined",
    "Essay.C103_tiled",
    "Essay.C103_ends",
    "Essay.C103_refined"
   ],
   "note": "The order law for any rounding of a linearly ordered field; the others in exact arithmetic, up to 2^32 - 2 bins. NaN samples are in C82."
  },
  {
   "property": "C104",
   "status": "proved",
   "theorems": [
    "Essay.C104_map_row",
    "Essay.C104_map_row_one",
    "Essay.C104_map_expand",
    "Essay.C104_fold_axis",
    "Essay.C104_reduce_axis",
    "Essay.C104_normalize",
    "Essay.C104_statistics",
    "Essay.C104_transpose",
    "Essay.C104_binary_right",
    "Essay.C104_binary_left"
   ],
   "note": "For pure functions, results that fit and at most five inner dimensions (six-dimensional concatenation is C27). Statistics for any rounding."
  },
  {
   "property": "C105",
   "status": "proved",
   "theorems": [
    "Essay.C105_linspace_affine",
    "Essay.C105_linspace_run",
    "Essay.C105_linspace_refined",
    "Essay.C105_linspace_symmetric",
    "Essay.C105_linspace_mean",
    "Essay.C105_arange_affine",
    "Essay.C105_arange_joined",
    "Essay.C105_arange_linspace",
    "Essay.C105_eye",
    "Essay.C105_tri",
    "Essay.C105_diagflat",
    "Essay.C105_logspace",
    "Essay.C105_geomspace",
    "Essay.C105_geomspace_logspace",
    "Essay.C105_geomspace_scaled"
   ],
   "note": "For ends of rank at most 4 with start at most end, and ascending arange (the other cases are defects shown in C35 and C37)."
  }
 ]
}
