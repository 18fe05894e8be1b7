# Axioms of the claimed theorems

Made by `tools/gen_axioms.py` from `#print axioms`.

## Classical.choice, Quot.sound, propext

`Essay.C01_from_slice`, `Essay.C01_from_vec`, `Essay.C01_from_usize`, `Essay.C01_vector`, `Essay.C02_append_read`, `Essay.C02_insert`, `Essay.C02_rinsert_partial`, `Essay.C02_remove`, `Essay.C02_rremove`, `Essay.C02_replace`, `Essay.C02_rreplace`, `Essay.C02_with_cols_rows`, `Essay.C02_push_pop`, `Essay.C02_rinsert_beyond_rank_actual`, `Essay.C02_rinsert_panics`, `Essay.C02_append_actual`, `Essay.C03_remove_insert`, `Essay.C04_eq_iff_as_vec_partial`, `Essay.built_wf`, `Essay.C05_expand_dims`, `Essay.C05_squeeze`, `Essay.C05_tensor_expand_dims`, `Essay.C05_tensor_squeeze`, `Essay.C05_no_axis`, `Essay.C05_expand_dims_panics`, `Essay.C05_tensor_expand_dims_panics`, `Essay.C05_squeeze_axis_actual`, `Essay.C06_from_vec`, `Essay.C06_from_scalar`, `Essay.C06_from_slice`, `Essay.C06_from_slice_too_long`, `Essay.C07_inside_partial`, `Essay.C07_size_partial`, `Essay.C08_reshape`, `Essay.C08_flatten`, `Essay.C09_subslice`, `Essay.C09_subslice_scalar`, `Essay.C09_subslice_empty_panics`, `Essay.C09_subslice_subslice`, `Essay.C10_index2_partial`, `Essay.C10_index2_actual`, `Essay.C10_index2_violates`, `Essay.C10_index3_partial`, `Essay.C10_index4_partial`, `Essay.C10_index5`, `Essay.C10_rank_rejects`, `Essay.C12_vec1`, `Essay.C12_scalar`, `Essay.C12_vec2`, `Essay.C12_rows`, `Essay.C12_vec2_rows`, `Essay.C12_vec3`, `Essay.C12_vec4`, `Essay.C12_vec5`, `Essay.C12_arr2`, `Essay.C12_arr3`, `Essay.C12_arr4`, `Essay.C13_tensors`, `Essay.C13_rejects`, `Essay.C14_map`, `Essay.C14_map_pure`, `Essay.C14_identity_and_composition`, `Essay.C15_map2_left`, `Essay.C15_map2_right`, `Essay.C15_map2_at`, `Essay.C16_incompatible`, `Essay.C16_empty`, `Essay.C16_map3`, `Essay.C17_map3`, `Essay.C18_tensor_tensor_left`, `Essay.C18_tensor_tensor_right`, `Essay.C18_at`, `Essay.C18_rejects`, `Essay.C18_tensor_scalar`, `Essay.C18_scalar_tensor`, `Essay.C18_unary`, `Essay.C18_square`, `Essay.C18_min_max`, `Essay.C18_abs_sub`, `Essay.C19_too_large`, `Essay.C19_init`, `Essay.C19_init_rindexed`, `Essay.C20_map_row`, `Essay.C20_map_row_scalar`, `Essay.C20_map_expand`, `Essay.C20_map_row_rejects`, `Essay.C20_map_expand_rejects`, `Essay.C21_fold`, `Essay.C21_reduce`, `Essay.C21_fold_axis`, `Essay.C21_fold_axis_none`, `Essay.C21_reduce_axis`, `Essay.C21_reduce_axis_none`, `Essay.C21_axis_rejects`, `Essay.C21_zero_axis`, `Essay.C22_reduce_axis_total`, `Essay.C86_axis_then_rest`, `Essay.C86_no_axis`, `Essay.C75_unsigned_axis_first`, `Essay.C23_fold_row_partial`, `Essay.C23_fold_row_axis_partial`, `Essay.C23_view_actual`, `Essay.C23_vector_axis_actual`, `Essay.C24_last_axis_partial`, `Essay.C24_no_axis`, `Essay.C24_actual`, `Essay.C25_array_operations`, `Essay.C25_fold_operations`, `Essay.C25_scalar`, `Essay.C25_statistics`, `Essay.C26_transpose`, `Essay.C26_transpose_twice`, `Essay.C26_transpose_vector`, `Essay.C26_transpose_scalar`, `Essay.C26_empty_vector`, `Essay.C26_empty_actual`, `Essay.C27_concatenate_partial`, `Essay.C27_concatenate_outer_partial`, `Essay.C27_rejects`, `Essay.C27_rank6_actual`, `Essay.C27_too_large`, `Essay.C28_stack_partial`, `Essay.C28_stack_outer_partial`, `Essay.C28_rejects`, `Essay.C28_empty_violates`, `Essay.C28_too_large`, `Essay.C28_deep_actual`, `Essay.C29_vstack_partial`, `Essay.C29_hstack_vectors`, `Essay.C29_hstack`, `Essay.C29_dstack_vectors`, `Essay.C29_dstack_matrices`, `Essay.C29_dstack`, `Essay.C29_scalars_panic`, `Essay.C29_vstack_deep`, `Essay.C29_vstack_rejects`, `Essay.C29_hstack_rejects`, `Essay.C29_dstack_rejects`, `Essay.C30_split_cuts`, `Essay.C30_split_concat_partial`, `Essay.C30_split_equal`, `Essay.C30_split_equal_uneven`, `Essay.C30_empty_violates`, `Essay.C30_zero_axis`, `Essay.C30_methods`, `Essay.C30_missing_axis_violates`, `Essay.C30_split_equal_actual`, `Essay.C30_zero_axis_rejects`, `Essay.C31_unstack_outer_violates`, `Essay.C31_unstack_inner_violates`, `Essay.C31_unstack_empty`, `Essay.C32_tile_partial`, `Essay.C32_zero_multiple`, `Essay.C32_scalar_multiples`, `Essay.C32_empty_violates`, `Essay.C32_too_large`, `Essay.C32_nothing`, `Essay.C32_multiples_undefined`, `Essay.C32_multiples_vector`, `Essay.C32_multiples_panic`, `Essay.C33_too_large`, `Essay.C33_wraps`, `Essay.C33_eye_partial`, `Essay.C33_eye_zero_violates`, `Essay.C33_diagflat`, `Essay.C33_diagflat_rejects`, `Essay.C33_tri`, `Essay.C33_tril_partial`, `Essay.C33_triu_partial`, `Essay.C33_empty_violates`, `Essay.C33_tril_triu_reject`, `Essay.C34_too_large`, `Essay.C34_meshgrid_ij`, `Essay.C34_meshgrid`, `Essay.C34_rejects`, `Essay.C34_mgrid`, `Essay.C35_linspace_partial`, `Essay.C35_exact_partial`, `Essay.C35_rounded_partial`, `Essay.C35_rejects`, `Essay.C35_rank5_violates`, `Essay.C36_logspace_rejects`, `Essay.C36_geomspace_rejects`, `Essay.C36_logspace_partial`, `Essay.C36_logspace_real_partial`, `Essay.C36_geomspace_partial`, `Essay.C36_geomspace_real_partial`, `Essay.C37_ascending_any`, `Essay.C37_ascending_partial`, `Essay.C37_descending_violates`, `Essay.C38_one_hot`, `Essay.C38_rejects`, `Essay.C39_matmul_partial`, `Essay.C39_exact_partial`, `Essay.C39_square`, `Essay.C39_rejects`, `Essay.C39_shape_violates`, `Essay.C39_library_partial`, `Essay.C39_any_order_partial`, `Essay.C39_exact_any_order_partial`, `Essay.C39_orders_agree`, `Essay.C39_too_large`, `Essay.C40_safe_partial`, `Essay.C40_batch_violates`, `Essay.C40_pointer_violates`, `Essay.C40_ub_iff`, `Essay.C40_more_left`, `Essay.C40_too_many`, `Essay.C41_matvec_partial`, `Essay.C41_matrix_partial`, `Essay.C41_rejects`, `Essay.C41_safe`, `Essay.C41_empty_violates`, `Essay.C41_library_partial`, `Essay.C41_any_order_partial`, `Essay.C41_exact_any_order_partial`, `Essay.C42_whole`, `Essay.C42_axis`, `Essay.C42_axis_none`, `Essay.C42_mean_any`, `Essay.C43_whole`, `Essay.C43_axis`, `Essay.C43_order`, `Essay.C43_empty_panics`, `Essay.C44_exact`, `Essay.C44_rounded`, `Essay.C45_histogram_partial`, `Essay.C45_counts`, `Essay.C45_bins_in_order`, `Essay.C45_saturation_violates`, `Essay.C45_rejects`, `Essay.C46_violates`, `Essay.C46_rest_partial`, `Essay.C47_rand32`, `Essay.C47_rand64`, `Essay.C48_rand32`, `Essay.C48_rand64`, `Essay.C49_normal`, `Essay.C49_uniform`, `Essay.C49_prefix`, `Essay.C50_next_uniform32`, `Essay.C50_next_uniform64_violates`, `Essay.C50_random_uniform_violates`, `Essay.C51_unseeded`, `Essay.C51_seeding`, `Essay.C52_fresh_partial`, `Essay.C52_values_partial`, `Essay.C53_decode`, `Essay.C53_exact`, `Essay.C54_rejects`, `Essay.C55_vector`, `Essay.C55_rows_partial`, `Essay.C55_batch_violates`, `Essay.C55_rejects`, `Essay.C55_safe`, `Essay.C56_outside_write`, `Essay.C56_missing_write`, `Essay.C56_no_ub_partial`, `Essay.C56_at_most_once_partial`, `Essay.C56_live_partial`, `Essay.C56_once_partial`, `Essay.C56_last_partial`, `Essay.C56_values_kept_partial`, `Essay.C56_refines_partial`, `Essay.C56_rejected_partial`, `Essay.C56_panicking_init_leaks`, `Essay.C56_zero_length_violates`, `Essay.C57_consistent_partial`, `Essay.C57_shape_violates`, `Essay.C58_eq`, `Essay.C58_clone`, `Essay.C58_eq_any`, `Essay.C58_clone_any`, `Essay.C59_debug_partial`, `Essay.C59_debug_actual`, `Essay.C60_checked_partial`, `Essay.C60_release_size`, `Essay.C60_release_new`, `Essay.C60_release_violates`, `Essay.C61_fill`, `Essay.C61_zeros`, `Essay.C61_ones`, `Essay.C61_init_default`, `Essay.C62_from_merge`, `Essay.C62_append`, `Essay.C62_append_rejects`, `Essay.C62_join_vec`, `Essay.C63_iter_row_partial`, `Essay.C63_vector`, `Essay.C63_empty_rows`, `Essay.C64_safe_partial`, `Essay.C64_scalar_cols_violates`, `Essay.C64_matmul_violates`, `Essay.C64_fold_row_violates`, `Essay.Opt.C65_last_write_wins`, `Essay.Opt.C65_commute`, `Essay.Opt.C65_compiles`, `Essay.C67_frame_violates`, `Essay.C68_whole_partial`, `Essay.C68_short_read_violates`, `Essay.C68_errors`, `Essay.C70_rand32`, `Essay.C70_rand64`, `Essay.C71_rand32_partial`, `Essay.C71_rand32_violates`, `Essay.C71_rand64_partial`, `Essay.C71_rand64_violates`, `Essay.C72_unary`, `Essay.C72_binary`, `Essay.C72_rejects`, `Essay.C72_powi`, `Essay.C72_sin_cos`, `Essay.C72_mul_add`, `Essay.C73_rotate`, `Essay.C73_rotate_bits`, `Essay.C73_counts`, `Essay.C73_count_reverse`, `Essay.C73_leading_trailing`, `Essay.C73_involutions`, `Essay.C73_bytes`, `Essay.C74_parts`, `Essay.C74_unary`, `Essay.C74_polar`, `Essay.C74_polar_back`, `Essay.C74_binary`, `Essay.C75_sum`, `Essay.C75_product`, `Essay.C75_axis`, `Essay.C75_sum_unsigned`, `Essay.C75_sum_wrapping`, `Essay.C75_order`, `Essay.C75_empty`, `Essay.C76_hypot`, `Essay.C76_norm`, `Essay.C76_scale`, `Essay.C77_sum`, `Essay.C77_sum_axis`, `Essay.C77_mean`, `Essay.C77_matmul`, `Essay.C77_matvec`, `Essay.C77_hypot`, `Essay.C77_sum_saturates`, `Essay.C77_mean_saturates`, `Essay.C77_matmul_any_order`, `Essay.C77_matvec_any_order`, `Essay.C78_nonneg_partial`, `Essay.C78_nonneg_axis_partial`, `Essay.C78_constant`, `Essay.C82_variance_partial`, `Essay.C82_variance_overflow_violates`, `Essay.C79_concatenate_axis_partial`, `Essay.C79_concatenate_partial`, `Essay.C79_stack_partial`, `Essay.C79_vstack_partial`, `Essay.C79_dstack_matrices`, `Essay.C79_dstack_vectors`, `Essay.C79_meshgrid`, `Essay.C79_spaces`, `Essay.Random.C80_normal`, `Essay.Random.C80_uniform`, `Essay.C80_logspace_partial`, `Essay.Stats.C80_histogram`, `Essay.Macro.C81_ten`, `Essay.Macro.C81_parentheses`, `Essay.C82_nan_whole`, `Essay.C82_nan_axis`, `Essay.C82_nan_matmul`, `Essay.C82_nan_matvec`, `Essay.C82_nan_single_violates`, `Essay.C82_min_max`, `Essay.C82_sum_nonneg`, `Essay.C82_sum`, `Essay.C82_mean`, `Essay.C82_matmul`, `Essay.C82_hypot_overflow_violates`, `Essay.C82_normalize_constant_violates`, `Essay.C82_normalize_overflow_violates`, `Essay.C82_normalize_nan`, `Essay.C82_histogram_nan_violates`, `Essay.C82_nan_matmul_any_order`, `Essay.C82_nan_matvec_any_order`, `Essay.C82_matmul_any_order`, `Essay.C82_matvec_any_order`, `Essay.C83_expression`, `Essay.C83_identity`, `Essay.C83_commutes`, `Essay.C83_associates`, `Essay.C83_ring`, `Essay.C83_scalar_tensor`, `Essay.C84_concatenate_nested`, `Essay.C84_split_of_concatenate`, `Essay.C84_map_commutes`, `Essay.C84_map_concatenate`, `Essay.C84_map_stack`, `Essay.C84_transpose_concatenate`, `Essay.C84_triangles`, `Essay.C84_fold_transpose`, `Essay.C84_tile_concatenate`, `Essay.C84_append_concatenate`, `Essay.C84_rows`, `Essay.C84_stack_subslice`, `Essay.C84_meshgrid_transpose`, `Essay.C85_associates_partial`, `Essay.C85_associates_square`, `Essay.C85_distributes`, `Essay.C85_factor`, `Essay.C85_transpose_partial`, `Essay.C85_options`, `Essay.C85_identity_partial`, `Essay.C85_identity_rounded_partial`, `Essay.C85_matvec_matmul`, `Essay.C85_matvec_column`, `Essay.C85_matvec_composes`, `Essay.C85_matvec_adds`, `Essay.C85_matvec_diagonal`, `Essay.C85_diagonal`, `Essay.C85_diagonal_scales`, `Essay.C85_inner`, `Essay.C85_rectangular_violates`, `Essay.C86_rearranged`, `Essay.C86_transpose_reshape`, `Essay.C86_concatenate`, `Essay.C86_stack`, `Essay.C86_total_variance`, `Essay.C86_affine`, `Essay.C86_affine_axis`, `Essay.C86_affine_std`, `Essay.C86_bounds`, `Essay.C86_negate`, `Essay.C86_normalize`, `Essay.C87_idim`, `Essay.C87_sublen`, `Essay.C87_rsublen`, `Essay.C87_batch_len_actual`, `Essay.C87_broadcast`, `Essay.C87_broadcast_min`, `Essay.C87_reduce`, `Essay.C88_first_use`, `Essay.C89_prepared_one_partial`, `Essay.C89_prepared_many_violates`, `Essay.Sharing.C90_threads`, `Essay.Sharing.C90_confined`, `Essay.Sharing.C90_usable`, `Essay.Sharing.C90_kept_or_dropped`, `Essay.Sharing.C90_all_dropped`, `Essay.Alloc.C91_layouts_partial`, `Essay.Alloc.C91_ub_iff`, `Essay.Alloc.C91_blocks`, `Essay.Alloc.C91_all_freed`, `Essay.Alloc.C91_boxes`, `Essay.Alloc.C91_out_of_memory_violates`, `Essay.Alloc.C91_zero_sized_violates`, `Essay.C92_actual`, `Essay.C92_neighbours`, `Essay.C92_tone`, `Essay.C92_energy`, `Essay.C92_scale`, `Essay.C92_first_sample`, `Essay.C92_bound`, `Essay.C92_window_violates`, `Essay.C93_call_partial`, `Essay.C93_program_partial`, `Essay.C94_dims`, `Essay.C94_shape`, `Essay.C94_elements_partial`, `Essay.C94_text_violates`, `Essay.C95_models_agree`, `Essay.C95_from_slice`, `Essay.C95_fill`, `Essay.C95_transpose`, `Essay.C95_split`, `Essay.C95_concatenate`, `Essay.C95_stack`, `Essay.C95_tile`, `Essay.C95_meshgrid`, `Essay.C95_meshgrid_ij`, `Essay.C96_f32`, `Essay.C96_f64`, `Essay.C96_f32_whole`, `Essay.C96_f32_limit`, `Essay.C96_sum`, `Essay.C96_sum_order`, `Essay.C96_sum_axis`, `Essay.C96_product`, `Essay.C96_mean`, `Essay.C96_hypot`, `Essay.C96_matmul`, `Essay.C96_matvec`, `Essay.C96_add`, `Essay.C96_sub`, `Essay.C96_mul`, `Essay.C96_linspace`, `Essay.C96_mgrid`, `Essay.C96_arange`, `Essay.C96_arange_violates`, `Essay.C97_uniform32_distribution`, `Essay.C97_uniform32_mean`, `Essay.C97_uniform32_mean_square`, `Essay.C97_uniform64_mean_violates`, `Essay.C97_normal_period`, `Essay.C97_random_normal`, `Essay.C97_random_uniform_actual`, `Essay.C97_f32_ends`, `Essay.C97_f32_ends_count`, `Essay.C98_history`, `Essay.C99_fold`, `Essay.C99_fold_axis`, `Essay.C99_fold_axis_none`, `Essay.C99_fold_row_partial`, `Essay.C99_fold_row_axis_partial`, `Essay.C99_normalize`, `Essay.C99_normalize_none`, `Essay.C99_reduce`, `Essay.C99_reduce_axis`, `Essay.C99_reduce_axis_none`, `Essay.C99_reduce_count`, `Essay.C99_axis_rejects`, `Essay.C99_zero_axis`, `Essay.C99_eye`, `Essay.C99_eye_zero`, `Essay.C99_tri`, `Essay.C99_diagflat`, `Essay.C99_tril`, `Essay.C99_triu`, `Essay.C100_vectors`, `Essay.C100_single`, `Essay.C100_blocks`, `Essay.C100_axis`, `Essay.C100_axis_none`, `Essay.C100_copies`, `Essay.C100_split`, `Essay.C100_meshgrid`, `Essay.C100_rows`, `Essay.C100_fold_row`, `Essay.C100_normalize`, `Essay.C100_matrices`, `Essay.C101_once`, `Essay.C101_twice`, `Essay.C101_map`, `Essay.C101_elements`, `Essay.C101_axis`, `Essay.C101_broadcast`, `Essay.C101_statistics`, `Essay.C102_map`, `Essay.C102_binary`, `Essay.C102_nested`, `Essay.C102_tile`, `Essay.C102_concatenate`, `Essay.C103_order`, `Essay.C103_affine`, `Essay.C103_joined`, `Essay.C103_tiled`, `Essay.C103_ends`, `Essay.C103_refined`, `Essay.C104_map_row`, `Essay.C104_map_row_one`, `Essay.C104_map_expand`, `Essay.C104_fold_axis`, `Essay.C104_reduce_axis`, `Essay.C104_normalize`, `Essay.C104_statistics`, `Essay.C104_transpose`, `Essay.C104_binary_right`, `Essay.C104_binary_left`, `Essay.C105_linspace_affine`, `Essay.C105_linspace_run`, `Essay.C105_linspace_refined`, `Essay.C105_linspace_symmetric`, `Essay.C105_linspace_mean`, `Essay.C105_arange_affine`, `Essay.C105_arange_joined`, `Essay.C105_arange_linspace`, `Essay.C105_eye`, `Essay.C105_tri`, `Essay.C105_diagflat`, `Essay.C105_logspace`, `Essay.C105_geomspace`, `Essay.C105_geomspace_logspace`, `Essay.C105_geomspace_scaled`

## Quot.sound, propext

`Essay.C07_size_violates`, `Essay.C07_fields_violates`, `Essay.C08_reshape_back`, `Essay.C10_index1`, `Essay.C10_index3_violates`, `Essay.C10_index4_violates`, `Essay.C10_small_actual`, `Essay.C11_get_partial`, `Essay.C11_get_actual`, `Essay.C12_vec2_rejects`, `Essay.C12_vec2_rows_rejects`, `Essay.C12_vec3_rejects`, `Essay.C12_vec4_rejects`, `Essay.C12_vec5_rejects`, `Essay.C23_view_violates`, `Essay.C23_vector_axis_violates`, `Essay.C24_inner_axis_violates`, `Essay.C25_valid_axis_partial`, `Essay.C25_beyond_rank_actual`, `Essay.C37_too_many`, `Essay.C38_too_large`, `Essay.C52_used_thread_violates`, `Essay.C52_violates`, `Essay.C59_view_violates`, `Essay.C59_view_out_of_bounds`, `Essay.C64_flat_violates`, `Essay.C64_view_get_violates`, `Essay.C64_view_debug_violates`, `Essay.C64_view_index_violates`, `Essay.C64_tile_violates`, `Essay.C64_fields_violates`, `Essay.C64_release_violates`, `Essay.Opt.C65_signatures`, `Essay.C69_converted`, `Essay.C79_conversion_panics`, `Essay.Stats.C80_hist_args`, `Essay.Macro.C81_rejects`, `Essay.C87_idim_out_of_range_violates`, `Essay.C88_isolated`, `Essay.Alloc.C91_too_large`, `Essay.C93_view_violates`, `Essay.C94_view_violates`, `Essay.C95_split_views`, `Essay.C95_from_merge`, `Essay.C95_append`, `Essay.C95_from`, `Essay.C95_from_tensors`, `Essay.C95_count`, `Essay.C95_panic`, `Essay.C97_normal32`, `Essay.C97_normal64`, `Essay.C98_shapes`, `Essay.C98_constructors`, `Essay.C98_views`, `Essay.C98_arrays`, `Essay.C98_numbers`, `Essay.C98_closures`, `Essay.C98_operators`, `Essay.C99_models_agree`, `Essay.C99_matrices_agree`, `Essay.C100_models_agree`, `Essay.C100_from`, `Essay.C100_merge`, `Essay.C100_split_views`, `Essay.C100_models_agree_closures`

## none

`Essay.C49_seed_kept`, `Essay.Opt.C65_means_unique`, `Essay.C87_batch_len_violates`, `Essay.C89_violates`

## propext

`Essay.C01_truncates`, `Essay.C02_rinsert_beyond_rank_violates`, `Essay.C02_append_violates`, `Essay.C04_scalar_with_cols_violates`, `Essay.C05_squeeze_axis_violates`, `Essay.C05_squeeze_axis_not_inverse`, `Essay.C10_index2_rank3`, `Essay.C11_view_violates`, `Essay.C11_view_out_of_bounds`, `Essay.C25_out_of_range_violates`, `Essay.C27_rejects_empty`, `Essay.C27_rank6_violates`, `Essay.C28_rank5_violates`, `Essay.C30_uneven_violates`, `Essay.C32_matrix_multiples_violates`, `Essay.C37_rejects`, `Essay.C37_stuck_violates`, `Essay.C57_lexicographic`, `Essay.C60_truncation_violates`, `Essay.C62_append_reshapes`, `Essay.Opt.C65_default`, `Essay.C66_slice_violates`, `Essay.C69_tensors`, `Essay.C80_logspace_forms`, `Essay.Stats.C80_histogram_zero_bins`, `Essay.C87_idim_scalar`, `Essay.C87_rsublen_beyond_rank`, `Essay.C93_matmul_violates`, `Essay.C98_subslice_actual`, `Essay.C100_models_agree_matrices`
