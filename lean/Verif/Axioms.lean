import Verif.All

/-! Axioms of every property theorem (printed during the build). -/

#print axioms Kwk.C01_linear_index_in_range
#print axioms Kwk.C02_linear_index_injective
#print axioms Kwk.C03_coordinates_linear_index
#print axioms Kwk.C04_linear_index_coordinates
#print axioms Kwk.C05_linear_index_order
#print axioms Kwk.C05_linear_index_rank
#print axioms Kwk.C05_row_place
#print axioms Kwk.C06_stride_value
#print axioms Kwk.C06_stride_innermost
#print axioms Kwk.C06_stride_step
#print axioms Kwk.C06_linear_index_step
#print axioms Kwk.C07_numel_prod
#print axioms Kwk.C07_numel_card
#print axioms Kwk.C07_numel_zero_iff
#print axioms Kwk.C07_numel_order_zero
#print axioms Kwk.C08_index_no_overflow
#print axioms Kwk.C08_numel_no_overflow_partial
#print axioms Kwk.C08_numel_no_overflow_nonempty_partial
#print axioms Kwk.C08_empty_shape_overflows
#print axioms Kwk.C08_numel_exact_partial
#print axioms Kwk.C08_strides_exact_partial
#print axioms Kwk.C08_numel_truncated
#print axioms Kwk.C08_statement_false
#print axioms Kwk.C09_contains_partial
#print axioms Kwk.C09_contains_upper_partial
#print axioms Kwk.C09_contains_unbounded_partial
#print axioms Kwk.C09_types_exact_partial
#print axioms Kwk.C09_contains_wrong
#print axioms Kwk.C09_statement_false
#print axioms Kwk.C10_compress_shape
#print axioms Kwk.C10_compress_addressing
#print axioms Kwk.C11_compress_compose
#print axioms Kwk.C12_shape_eq_refl
#print axioms Kwk.C12_shape_eq_symm
#print axioms Kwk.C12_shape_eq_same_order
#print axioms Kwk.C12_shape_eq_numel
#print axioms Kwk.C12_shape_eq_trans_partial
#print axioms Kwk.C12_shape_eq_not_transitive
#print axioms Kwk.C12_statement_false
#print axioms Kwk.C12_orders_exact_partial
#print axioms Kwk.C13_convert_numel
#print axioms Kwk.C13_convert_order
#print axioms Kwk.C13_convert_axes
#print axioms Kwk.C13_convert_round_trip
#print axioms Kwk.C14_nbdims_partial
#print axioms Kwk.C14_nbdims_bounds
#print axioms Kwk.C14_nbdims_counts_inner_ones
#print axioms Kwk.C14_statement_false
#print axioms Kwk.C15_read_back
#print axioms Kwk.C15_converted
#print axioms Kwk.C15_missing_are_one
#print axioms Kwk.C15_contradiction_rejected
#print axioms Kwk.C15_narrow_storage_truncates
#print axioms Kwk.C16_subscript_partial
#print axioms Kwk.C16_subscript_exact_partial
#print axioms Kwk.C16_subscript_wrong
#print axioms Kwk.C16_statement_false
#print axioms Kwk.C17_named_read_back
#print axioms Kwk.C17_named_any_order
#print axioms Kwk.C17_named_deviations
#print axioms Kwk.C18_static_conflicts_rejected
#print axioms Kwk.C18_conversion
#print axioms Kwk.C18_converted
#print axioms Kwk.C18_to_dynamic
#print axioms Kwk.C18_acceptance
#print axioms Kwk.C18_leading_static_axis_accepted
#print axioms Kwk.C19_fit_constraints_partial
#print axioms Kwk.C19_fit_constraints_exact_partial
#print axioms Kwk.C19_order_not_checked
#print axioms Kwk.C19_statement_false
#print axioms Kwk.C20_for_each_runs_positions
#print axioms Kwk.C20_for_each_visits
#print axioms Kwk.C20_for_each_empty
#print axioms Kwk.C21_find_if_runs_prefix
#print axioms Kwk.C21_find_if_evaluations
#print axioms Kwk.C22_default_layout_walk
#print axioms Kwk.C23_reduce_left_fold
#print axioms Kwk.C23_reduce_empty
#print axioms Kwk.C23_reduce_sum
#print axioms Kwk.C24_quantifiers
#print axioms Kwk.C24_quantifiers_empty
#print axioms Kwk.C25_count
#print axioms Kwk.C25_count_complement
#print axioms Kwk.C26_find_first
#print axioms Kwk.C27_find_last_partial
#print axioms Kwk.C27_find_last_default
#print axioms Kwk.C27_find_last_exact_partial
#print axioms Kwk.C27_strided_wrong
#print axioms Kwk.C27_statement_false
#print axioms Kwk.C28_find_first_of
#print axioms Kwk.C29_pairwise_fold
#print axioms Kwk.C29_inner_product_rejects
#print axioms Kwk.C30_lower_bound
#print axioms Kwk.C31_upper_bound
#print axioms Kwk.C32_binary_search
#print axioms Kwk.C33_logarithmic
#print axioms Kwk.C34_fill
#print axioms Kwk.C34_generate
#print axioms Kwk.C35_iota_iterate
#print axioms Kwk.C35_iota
#print axioms Kwk.C35_iota_step
#print axioms Kwk.C36_transform
#print axioms Kwk.C36_transform_in_place
#print axioms Kwk.C37_copy
#print axioms Kwk.C37_copy_if
#print axioms Kwk.C38_replace_if
#print axioms Kwk.C38_replace
#print axioms Kwk.C39_inclusive_scan
#print axioms Kwk.C39_exclusive_scan_partial
#print axioms Kwk.C39_exclusive_scan_in_place_partial
#print axioms Kwk.C39_in_place_exact_partial
#print axioms Kwk.C39_exclusive_scan_in_place_wrong
#print axioms Kwk.C39_statement_false
#print axioms Kwk.C40_safe_one
#print axioms Kwk.C40_safe_inputs
#print axioms Kwk.C40_safe_short
#print axioms Kwk.C41_for_each_partial
#print axioms Kwk.C41_for_each_reads_outside
#print axioms Kwk.C41_larger_input_partial
#print axioms Kwk.C41_exact_partial
#print axioms Kwk.C41_vectors_partial
#print axioms Kwk.C41_mismatch_reads_outside
#print axioms Kwk.C41_statement_false
#print axioms Kwk.C42_slice_elements
#print axioms Kwk.C42_slice_merged
#print axioms Kwk.C42_empty_slice_asserts
#print axioms Kwk.C43_slice_inside
#print axioms Kwk.C44_nested_slice_partial
#print axioms Kwk.C44_slice_exact_partial
#print axioms Kwk.C44_nested_slice_wrong
#print axioms Kwk.C44_statement_false
#print axioms Kwk.C45_extent
#print axioms Kwk.C45_unchecked_arguments
#print axioms Kwk.C46_default_corner
#print axioms Kwk.C46_reverse_partial
#print axioms Kwk.C46_reverse_exact_partial
#print axioms Kwk.C46_reverse_twice
#print axioms Kwk.C46_reverse_twice_wrong
#print axioms Kwk.C46_strided_wrong
#print axioms Kwk.C46_statement_false
#print axioms Kwk.C46_twice_false
#print axioms Kwk.C47_reachable_contiguous_partial
#print axioms Kwk.C47_reported_partial
#print axioms Kwk.C47_four_slicers_wrong
#print axioms Kwk.C47_counts_exact_partial
#print axioms Kwk.C47_statement_false
#print axioms Kwk.C48_end_expressions
#print axioms Kwk.C48_common_forms
#print axioms Kwk.C48_single_truncation
#print axioms Kwk.C49_ratio
#print axioms Kwk.C49_ratio_closed
#print axioms Kwk.C50_accessors_agree
#print axioms Kwk.C50_default_address
#print axioms Kwk.C50_built_address
#print axioms Kwk.C51_reshape_partial
#print axioms Kwk.C51_reshape_rank_partial
#print axioms Kwk.C51_reshape_exact_partial
#print axioms Kwk.C51_strided_false
#print axioms Kwk.C51_unchecked_numel
#print axioms Kwk.C52_static_copy_partial
#print axioms Kwk.C52_static_assign_partial
#print axioms Kwk.C52_copy_partial
#print axioms Kwk.C52_copy_exact_partial
#print axioms Kwk.C52_copy_table
#print axioms Kwk.C52_assign_table
#print axioms Kwk.C52_assign_partial
#print axioms Kwk.C52_strided_false
#print axioms Kwk.C53_ownership
#print axioms Kwk.C53_no_bad_free
#print axioms Kwk.C53_no_use_after_free
#print axioms Kwk.C53_no_sharing
#print axioms Kwk.C53_ops_succeed
#print axioms Kwk.C53_destroy_all
#print axioms Kwk.C54_relabel_partial
#print axioms Kwk.C54_relabel_exact_partial
#print axioms Kwk.C54_label
#print axioms Kwk.C54_strided_false
#print axioms Kwk.C55_move_target
#print axioms Kwk.C55_move_assign_target
#print axioms Kwk.C55_moved_from_partial
#print axioms Kwk.C55_moved_from_false
#print axioms Kwk.C56_literal_partial
#print axioms Kwk.C56_array_size_partial
#print axioms Kwk.C56_type_fits
#print axioms Kwk.C56_wrong_range
#print axioms Kwk.C56_literal_false
#print axioms Kwk.C56_separator_false
#print axioms Kwk.C57_nested_partial
#print axioms Kwk.C57_exact_partial
#print axioms Kwk.C57_range
#print axioms Kwk.C57_pointer_empty
#print axioms Kwk.C57_nested_std_false
#print axioms Kwk.C57_large_false
#print axioms Kwk.C58_weights
#print axioms Kwk.C58_surrounding
#print axioms Kwk.C58_linear_partial
#print axioms Kwk.C58_bounds_partial
#print axioms Kwk.C58_multi_affine
#print axioms Kwk.C58_grid_point
#print axioms Kwk.C58_border_exact_partial
#print axioms Kwk.C58_border_false
#print axioms Kwk.C59_helpers_partial
#print axioms Kwk.C59_at_selects_nothing
#print axioms Kwk.C59_statement_false
#print axioms Kwk.C60_loops_terminate
#print axioms Kwk.C61_mixed_read_back
#print axioms Kwk.C61_misplaced_rejected
#print axioms Kwk.C62_is_similar
#print axioms Kwk.C63_view_partial
#print axioms Kwk.C63_view_exact_partial
#print axioms Kwk.C63_strided_false
#print axioms Kwk.C64_strides_partial
#print axioms Kwk.C64_default_partial
#print axioms Kwk.C64_strides_false
#print axioms Kwk.C65_copy_partial
#print axioms Kwk.C65_of_allocator_partial
#print axioms Kwk.C65_swap_partial
#print axioms Kwk.C65_empty_false
#print axioms Kwk.C65_lvalue_diverges
#print axioms Kwk.C65_exact_partial
#print axioms Kwk.C65_lvalue_false
#print axioms Kwk.C65_table_false
#print axioms Kwk.C66_swap
#print axioms Kwk.C66_swap_twice
#print axioms Kwk.C66_swap_static
#print axioms Kwk.C67_ranges_partial
#print axioms Kwk.C67_narrow_partial
#print axioms Kwk.C67_fits_partial
#print axioms Kwk.C67_exact_partial
#print axioms Kwk.C67_constants_false
#print axioms Kwk.C68_floor
#print axioms Kwk.C68_negative
#print axioms Kwk.C69_linear_index_asserts_partial
#print axioms Kwk.C69_linear_index_partial
#print axioms Kwk.C69_coordinates_partial
#print axioms Kwk.C69_negative_accepted
#print axioms Kwk.C69_statement_false
#print axioms Kwk.C70_mixed_numel
#print axioms Kwk.C70_mixed_index
#print axioms Kwk.C70_mixed_index_2d
#print axioms Kwk.C70_mixed_coordinates
#print axioms Kwk.C70_mixed_wraps
#print axioms Kwk.C71_position_eq
#print axioms Kwk.C71_position_eq_linear_index
#print axioms Kwk.C73_for_each_shape_ctx
#print axioms Kwk.C73_for_each_elements
#print axioms Kwk.C73_for_each_index
#print axioms Kwk.C73_for_each_shape_partial
#print axioms Kwk.C73_for_each_shape_loses_state
#print axioms Kwk.C73_statement_false
#print axioms Kwk.C74_predicate_calls
#print axioms Kwk.C74_count_if_calls
#print axioms Kwk.C75_generate_order
#print axioms Kwk.C75_transform_order
#print axioms Kwk.C76_size_queries
#print axioms Kwk.C72_print_empty
#print axioms Kwk.C72_print_1d
#print axioms Kwk.C72_print_partial
#print axioms Kwk.C72_print_exact_partial
#print axioms Kwk.C72_print_order_three_partial
#print axioms Kwk.C72_order_four_false
#print axioms Kwk.C77_text_partial
#print axioms Kwk.C77_common_forms_partial
#print axioms Kwk.C77_text_false
#print axioms Kwk.C78_text_partial
#print axioms Kwk.C78_written_exact_partial
#print axioms Kwk.C78_from_to_length_exact_partial
#print axioms Kwk.C78_to_length_exact_partial
#print axioms Kwk.C78_text_false
#print axioms Kwk.C79_reduce_exact_partial
#print axioms Kwk.C79_reduce_signed
#print axioms Kwk.C79_reduce_modular
#print axioms Kwk.C79_reduce_all
#print axioms Kwk.C79_reduce_narrow_wraps
#print axioms Kwk.C79_reduce_overflow
#print axioms Kwk.C79_statement_false
#print axioms Kwk.C80_dot_exact_partial
#print axioms Kwk.C80_dot_signed
#print axioms Kwk.C80_dot_modular
#print axioms Kwk.C80_dot_init_all
#print axioms Kwk.C80_dot_bytes
#print axioms Kwk.C80_dot_overflow
#print axioms Kwk.C80_statement_false
#print axioms Kwk.C81_iota_exact_partial
#print axioms Kwk.C81_iota_step_exact_partial
#print axioms Kwk.C81_iota_modular
#print axioms Kwk.C81_iota_step_modular
#print axioms Kwk.C81_iota_signed_overflow
#print axioms Kwk.C81_iota_last_overflow
#print axioms Kwk.C81_statement_false
#print axioms Kwk.C82_inclusive_scan_exact
#print axioms Kwk.C82_exclusive_scan_exact_partial
#print axioms Kwk.C82_scan_signed_overflow
#print axioms Kwk.C82_scan_modular
#print axioms Kwk.C82_scan_all
#print axioms Kwk.C82_exclusive_scan_extra_sum
#print axioms Kwk.C82_statement_false
#print axioms Kwk.C83_of_size_partial
#print axioms Kwk.C83_sized_axis_forgotten
#print axioms Kwk.C83_exact_partial
#print axioms Kwk.C83_rejected
#print axioms Kwk.C83_statement_false
#print axioms Kwk.C84_of_size_typed_partial
#print axioms Kwk.C84_exact_partial
#print axioms Kwk.C84_sized_axis_forgotten
#print axioms Kwk.C84_statement_false
#print axioms Kwk.C85_as_array_type
#print axioms Kwk.C85_as_array_exact_partial
#print axioms Kwk.C85_as_array_partial
#print axioms Kwk.C85_as_array_changes_extents
#print axioms Kwk.C85_statement_false
#print axioms Kwk.C86_with_strides_partial
#print axioms Kwk.C86_exact_partial
#print axioms Kwk.C86_duplicates_accepted
#print axioms Kwk.C86_statement_false
#print axioms Kwk.C87_default_stride_partial
#print axioms Kwk.C87_default_stride_zero
#print axioms Kwk.C87_statement_false
#print axioms Kwk.C88_as_stride
#print axioms Kwk.C88_is_unit
#print axioms Kwk.C89_write_one_element
#print axioms Kwk.C90_value_semantics
#print axioms Kwk.C90_value_semantics_step
#print axioms Kwk.C91_default_table_empty
#print axioms Kwk.C92_any_order
#print axioms Kwk.C92_settings
#print axioms Kwk.C93_view_accepted
#print axioms Kwk.C93_table_accepted
#print axioms Kwk.C93_view
#print axioms Kwk.C93_in_type
#print axioms Kwk.C93_table
#print axioms Kwk.C94_table_partial
#print axioms Kwk.C94_stack_partial
#print axioms Kwk.C94_view_partial
#print axioms Kwk.C94_strided_view_partial
#print axioms Kwk.C94_short_source_false
#print axioms Kwk.C95_agree
#print axioms Kwk.C95_sorted
#print axioms Kwk.C96_fill
#print axioms Kwk.C96_replace
#print axioms Kwk.C96_iota
#print axioms Kwk.C97_scans
#print axioms Kwk.C97_transform_reduce
#print axioms Kwk.C98_transform_fusion
#print axioms Kwk.C98_copy_round_trip
#print axioms Kwk.C99_contiguous_slices
#print axioms Kwk.C100_block_partial
#print axioms Kwk.C100_block_exact_partial
#print axioms Kwk.C100_block_too_small
#print axioms Kwk.C101_reverse_partial
#print axioms Kwk.C101_unsigned_int_partial
#print axioms Kwk.C101_unsigned_int_false
#print axioms Kwk.C101_find_last_position
#print axioms Kwk.C101_position_truncated
#print axioms Kwk.C102_slices_partial
#print axioms Kwk.C102_positive_steps_partial
#print axioms Kwk.C102_checked_exact_partial
#print axioms Kwk.C102_checked_partial
#print axioms Kwk.C102_merged_partial
#print axioms Kwk.C102_unsigned_int_false
#print axioms Kwk.C103_range_index
#print axioms Kwk.C103_range_position
#print axioms Kwk.C104_end_partial
#print axioms Kwk.C104_slicer_partial
#print axioms Kwk.C104_ratio_partial
#print axioms Kwk.C104_number_exact_partial
#print axioms Kwk.C104_offset_exact_partial
#print axioms Kwk.C104_numbers_false
#print axioms Kwk.C105_shape_text
#print axioms Kwk.C105_shape_text_inj
#print axioms Kwk.C105_position_text
#print axioms Kwk.C106_others_exact_partial
#print axioms Kwk.C106_find_first_of_exact_partial
#print axioms Kwk.C106_find_partial
#print axioms Kwk.C106_find_exact_partial
#print axioms Kwk.C106_find_first_of_partial
#print axioms Kwk.C106_mixed_false
#print axioms Kwk.C106_statement_false
#print axioms Kwk.C107_binary_search_exact_partial
#print axioms Kwk.C107_bounds_partial
#print axioms Kwk.C107_bounds_exact_partial
#print axioms Kwk.C107_mixed_false
#print axioms Kwk.C107_statement_false
#print axioms Kwk.C108_write_partial
#print axioms Kwk.C108_copy_partial
#print axioms Kwk.C108_copy_exact_partial
#print axioms Kwk.C108_copy_if_partial
#print axioms Kwk.C108_narrowing_false
#print axioms Kwk.C108_statement_false
#print axioms Kwk.C109_count_if
#print axioms Kwk.C110_is_compatible
#print axioms Kwk.C110_is_equivalent
#print axioms Kwk.C110_similar_compatible
#print axioms Kwk.C111_same_order
#print axioms Kwk.C111_orders_partial
#print axioms Kwk.C111_wraps_false
#print axioms Kwk.C111_strides_exact_partial
#print axioms Kwk.C111_strides_false
#print axioms Kwk.C111_statement_false
#print axioms Kwk.C112_fill
#print axioms Kwk.C112_replace_if
#print axioms Kwk.C112_count_test
#print axioms Kwk.C112_copy
#print axioms Kwk.C112_selection
#print axioms Kwk.C112_reduce
#print axioms Kwk.C112_find
#print axioms Kwk.C112_transform
#print axioms Kwk.C112_iota
#print axioms Kwk.C112_merged
#print axioms Kwk.C113_end_expressions
#print axioms Kwk.C113_compress
#print axioms Kwk.C113_whole_axes
#print axioms Kwk.C113_intervals_partial
#print axioms Kwk.C113_known_only_if
#print axioms Kwk.C113_stepped_exact_partial
#print axioms Kwk.C113_stepped_false
#print axioms Kwk.C113_statement_false
#print axioms Kwk.C113_values
#print axioms Kwk.C113_written_values
#print axioms Kwk.C114_container
#print axioms Kwk.C114_categories
#print axioms Kwk.C114_represented_partial
#print axioms Kwk.C114_exact_partial
#print axioms Kwk.C114_names_false
#print axioms Kwk.C114_statement_false
#print axioms Kwk.C115_merge
#print axioms Kwk.C115_equal
#print axioms Kwk.C115_text
#print axioms Kwk.C116_programs
#print axioms Kwk.C116_reading
#print axioms Kwk.C117_sequence
#print axioms Kwk.C117_reading
#print axioms Kwk.C117_find
#print axioms Kwk.C117_find_first_of
#print axioms Kwk.C117_reading_two
#print axioms Kwk.C117_bounds
#print axioms Kwk.C117_binary_search
#print axioms Kwk.C117_writing
#print axioms Kwk.C117_transform
#print axioms Kwk.C117_copy
#print axioms Kwk.C117_scans
#print axioms Kwk.C117_reverse
#print axioms Kwk.C117_find_last
#print axioms Kwk.C117_reshape
#print axioms Kwk.C117_slice
#print axioms Kwk.C118_overlap_partial
#print axioms Kwk.C118_exact_partial
#print axioms Kwk.C118_shift_partial
#print axioms Kwk.C118_reverse_partial
#print axioms Kwk.C118_overlap_false
#print axioms Kwk.C119_transform
#print axioms Kwk.C119_copy_if
#print axioms Kwk.C119_inclusive_scan
#print axioms Kwk.C119_exclusive_scan
#print axioms Kwk.C120_views_partial
#print axioms Kwk.C120_heap_partial
#print axioms Kwk.C120_static_partial
#print axioms Kwk.C120_slices_partial
#print axioms Kwk.C120_const_false
#print axioms Kwk.C121_constant_start_false
#print axioms Kwk.C121_exact_partial
#print axioms Kwk.C121_values
#print axioms Kwk.C121_written_values
#print axioms Kwk.C122_clients
#print axioms Kwk.C123_static_extents_free
#print axioms Kwk.C123_same_type
#print axioms Kwk.C123_static_containers
#print axioms Kwk.C123_runtime_containers
#print axioms Kwk.C123_room_exact_partial
#print axioms Kwk.C123_empty_member_false
#print axioms Kwk.C123_statement_false
#print axioms Kwk.C124_calls_partial
#print axioms Kwk.C124_arguments
#print axioms Kwk.C124_misuse
#print axioms Kwk.C124_for_each_index
#print axioms Kwk.C124_for_each_index_copies
#print axioms Kwk.C124_for_each_exact_partial
#print axioms Kwk.C124_for_each_objects
#print axioms Kwk.C124_for_each_misuse
#print axioms Kwk.C124_transform_exact_partial
#print axioms Kwk.C124_transform_objects
#print axioms Kwk.C124_transform_misuse
#print axioms Kwk.C124_named_function_false
#print axioms Kwk.C124_ambiguous_false
#print axioms Kwk.C124_statement_false
#print axioms Kwk.C125_untouched
#print axioms Kwk.C125_same_partial
#print axioms Kwk.C125_leak_exact
#print axioms Kwk.C125_deleter_leak_false
#print axioms Kwk.C125_throws_iff
#print axioms Kwk.C125_done
#print axioms Kwk.C125_no_failure
#print axioms Kwk.C125_programs
#print axioms Kwk.C125_owned_iff
#print axioms Kwk.C125_programs_partial
#print axioms Kwk.C125_no_bad_free
#print axioms Kwk.C125_default_terminates_false
#print axioms Kwk.C125_terminates_iff
#print axioms Kwk.C125_terminated_iff
#print axioms Kwk.C126_usable_exact_partial
#print axioms Kwk.C126_null_false
#print axioms Kwk.C126_null_copy_false
#print axioms Kwk.C126_fault_iff
#print axioms Kwk.C127_transform
#print axioms Kwk.C127_generate
#print axioms Kwk.C127_copy_if
#print axioms Kwk.C127_replace_if
#print axioms Kwk.C127_exclusive_scan
#print axioms Kwk.C127_inclusive_scan
#print axioms Kwk.C127_reduce
#print axioms Kwk.C127_predicates
#print axioms Kwk.C127_count_if
#print axioms Kwk.C127_find_if
#print axioms Kwk.C127_no_throw
#print axioms Kwk.C127_for_each
#print axioms Kwk.C127_transform_reduce
#print axioms Kwk.C127_none_of
#print axioms Kwk.C127_find_last_if
#print axioms Kwk.C127_bounds
#print axioms Kwk.C127_middle
#print axioms Kwk.C127_binary_search
#print axioms Kwk.C128_elements_partial
#print axioms Kwk.C128_full_false
#print axioms Kwk.C128_compiles
#print axioms Kwk.C128_shapes
#print axioms Kwk.C128_reported
#print axioms Kwk.C129_exact_partial
#print axioms Kwk.C129_compressed_types
#print axioms Kwk.C129_full_false
#print axioms Kwk.C130_exact_partial
#print axioms Kwk.C130_read
#print axioms Kwk.C130_assign
#print axioms Kwk.C130_strides_partial
#print axioms Kwk.C130_positions_never
#print axioms Kwk.C130_full_false
#print axioms Kwk.C131_searched_partial
#print axioms Kwk.C131_bounds_partial
#print axioms Kwk.C131_binary_search_partial
#print axioms Kwk.C131_exact_partial
#print axioms Kwk.C131_statement_false
#print axioms Kwk.C132_grid_point
#print axioms Kwk.C132_finite
#print axioms Kwk.C132_error
#print axioms Kwk.C132_monotone
#print axioms Kwk.C132_sign
#print axioms Kwk.C132_int_range
#print axioms Kwk.C132_formats
#print axioms Kwk.C132_binary
#print axioms Kwk.C132_constant_false
#print axioms Kwk.C132_neighbour_false
#print axioms Kwk.C133_reduce
#print axioms Kwk.C133_reduce_init
#print axioms Kwk.C133_dot
#print axioms Kwk.C133_dot_init
#print axioms Kwk.C133_inclusive_scan
#print axioms Kwk.C133_exclusive_scan
#print axioms Kwk.C133_types
#print axioms Kwk.C133_dot_types
#print axioms Kwk.C133_finite
#print axioms Kwk.C133_exact
#print axioms Kwk.C133_integers
#print axioms Kwk.C133_monotone
#print axioms Kwk.C133_formats
#print axioms Kwk.C133_int_init_false
#print axioms Kwk.C134_find_partial
#print axioms Kwk.C134_find_exact_partial
#print axioms Kwk.C134_find_first_of_partial
#print axioms Kwk.C134_when
#print axioms Kwk.C134_nan
#print axioms Kwk.C134_rounded_false
#print axioms Kwk.C134_statement_false
#print axioms Kwk.C135_lower_partial
#print axioms Kwk.C135_upper_partial
#print axioms Kwk.C135_search_partial
#print axioms Kwk.C135_when
#print axioms Kwk.C135_exact_partial
#print axioms Kwk.C135_search_exact_partial
#print axioms Kwk.C135_search_integers_partial
#print axioms Kwk.C135_nan_false
#print axioms Kwk.C135_signs_false
#print axioms Kwk.C135_rounded_false
#print axioms Kwk.C135_statement_false
#print axioms Kwk.C136_fill
#print axioms Kwk.C136_generate
#print axioms Kwk.C136_transform
#print axioms Kwk.C136_copy
#print axioms Kwk.C136_copy_if
#print axioms Kwk.C136_replace_if
#print axioms Kwk.C136_replace
#print axioms Kwk.C136_stored
#print axioms Kwk.C137_iota_partial
#print axioms Kwk.C137_step_partial
#print axioms Kwk.C137_when
#print axioms Kwk.C137_step_error
#print axioms Kwk.C137_error
#print axioms Kwk.C137_exact_partial
#print axioms Kwk.C137_stuck
#print axioms Kwk.C137_gap_false
#print axioms Kwk.C137_statement_false
#print axioms Kwk.C138_fill
#print axioms Kwk.C138_generate
#print axioms Kwk.C138_transform
#print axioms Kwk.C138_copy
#print axioms Kwk.C138_copy_if
#print axioms Kwk.C138_replace_if
#print axioms Kwk.C138_replace
#print axioms Kwk.C138_quantifiers
#print axioms Kwk.C138_count_if
#print axioms Kwk.C138_count
#print axioms Kwk.C138_find_first_of
#print axioms Kwk.C138_copy_exact
#print axioms Kwk.C139_reduce_exact
#print axioms Kwk.C139_transform_reduce
#print axioms Kwk.C139_transform_reduce_exact
#print axioms Kwk.C139_inner_product
#print axioms Kwk.C140_iota_visits
#print axioms Kwk.C140_iota_step_visits
#print axioms Kwk.C140_iota_exact_partial
#print axioms Kwk.C140_iota_step_exact_partial
#print axioms Kwk.C140_inclusive_visits
#print axioms Kwk.C140_exclusive_visits
#print axioms Kwk.C140_inclusive_exact_partial
#print axioms Kwk.C140_exclusive_exact_partial
#print axioms Kwk.C140_order_false
#print axioms Kwk.C141_fill
#print axioms Kwk.C141_generate
#print axioms Kwk.C141_transform
#print axioms Kwk.C141_copy_if
#print axioms Kwk.C141_replace_if
#print axioms Kwk.C141_reduce_race_partial
#print axioms Kwk.C141_transform_reduce_race_partial
#print axioms Kwk.C141_iota_race_partial
#print axioms Kwk.C141_scan_race_partial
#print axioms Kwk.C141_sequential_reduce
#print axioms Kwk.C141_sequential_transform_reduce
#print axioms Kwk.C141_sequential_iota
#print axioms Kwk.C141_sequential_iota_step
#print axioms Kwk.C141_sequential_exclusive_scan
#print axioms Kwk.C141_sequential_inclusive_scan
#print axioms Kwk.C141_sequential_transform
#print axioms Kwk.C141_count_false
#print axioms Kwk.C142_used_partial
#print axioms Kwk.C142_meaning
#print axioms Kwk.C142_otherwise
#print axioms Kwk.C142_for_each_partial
#print axioms Kwk.C142_transform_partial
#print axioms Kwk.C142_other_contexts
#print axioms Kwk.C142_qualified_false
#print axioms Kwk.C142_const_false
#print axioms Kwk.C142_statement_false
#print axioms Kwk.C143_same_partial
#print axioms Kwk.C143_shape_partial
#print axioms Kwk.C143_constructor
#print axioms Kwk.C143_own_axes
#print axioms Kwk.C143_taken_partial
#print axioms Kwk.C143_constraint_partial
#print axioms Kwk.C143_constraint_false
#print axioms Kwk.C143_named_false
#print axioms Kwk.C143_conversion_false
#print axioms Kwk.C143_typed_false
#print axioms Kwk.C143_statement_false
#print axioms Kwk.C143_named_values
#print axioms Kwk.C143_named_taken
#print axioms Kwk.C143_mixed_values
#print axioms Kwk.C143_dimension
#print axioms Kwk.C143_typed_constants
#print axioms Kwk.C144_static
#print axioms Kwk.C144_static_balance
#print axioms Kwk.C144_dynamic_partial
#print axioms Kwk.C144_exact_partial
#print axioms Kwk.C144_no_constructor_false
#print axioms Kwk.C144_statement_false
#print axioms Kwk.C145_view
#print axioms Kwk.C145_slice
#print axioms Kwk.C145_through
#print axioms Kwk.C145_fate
#print axioms Kwk.C145_stays
#print axioms Kwk.C145_ended
#print axioms Kwk.C145_values
#print axioms Kwk.C145_written
#print axioms Kwk.C146_index_partial
#print axioms Kwk.C146_slices_exact_partial
#print axioms Kwk.C146_checked_exact_partial
#print axioms Kwk.C146_reverse_exact_partial
#print axioms Kwk.C146_checked_false
#print axioms Kwk.C146_slices_false
#print axioms Kwk.C146_reverse_false
#print axioms Kwk.C146_false
#print axioms Kwk.C147_container
#print axioms Kwk.C147_slice_partial
#print axioms Kwk.C147_positive_steps_partial
#print axioms Kwk.C147_slice_long_exact_partial
#print axioms Kwk.C147_unsigned_int_false
#print axioms Kwk.C147_long_false
#print axioms Kwk.C147_false
#print axioms Kwk.C148_reading
#print axioms Kwk.C148_pairs
#print axioms Kwk.C148_searching
#print axioms Kwk.C148_writing
#print axioms Kwk.C148_transform
#print axioms Kwk.C148_copy
#print axioms Kwk.C148_scans
#print axioms Kwk.C149_slice_partial
#print axioms Kwk.C149_positive_steps_partial
#print axioms Kwk.C149_slice_long_partial
#print axioms Kwk.C149_copy_of_slice_partial
#print axioms Kwk.C149_reverse_partial
#print axioms Kwk.C149_unsigned_int_false
#print axioms Kwk.C149_false
#print axioms Kwk.C149_reverse_long
#print axioms Kwk.C150_swap_exact_partial
#print axioms Kwk.C150_swap_partial
#print axioms Kwk.C150_copy_exact_partial
#print axioms Kwk.C150_copy_partial
#print axioms Kwk.C150_assign_exact_partial
#print axioms Kwk.C150_assign_partial
#print axioms Kwk.C150_from_exact_partial
#print axioms Kwk.C150_from_partial
#print axioms Kwk.C150_deduced_partial
#print axioms Kwk.C150_assign_from_exact_partial
#print axioms Kwk.C150_assign_from_partial
#print axioms Kwk.C150_false
#print axioms Kwk.C150_label_false
#print axioms Kwk.C150_strides_false
#print axioms Kwk.C151_accepted_exact_partial
#print axioms Kwk.C151_accepted_lvalues
#print axioms Kwk.C151_elements_exact_partial
#print axioms Kwk.C151_start_exact_partial
#print axioms Kwk.C151_shape_partial
#print axioms Kwk.C151_reads_partial
#print axioms Kwk.C151_room_exact_partial
#print axioms Kwk.C151_ranges
#print axioms Kwk.C151_const_array
#print axioms Kwk.C151_const_false
#print axioms Kwk.C151_rvalue_false
#print axioms Kwk.C151_empty_false
#print axioms Kwk.C152_build_exact_partial
#print axioms Kwk.C152_order
#print axioms Kwk.C152_literals
#print axioms Kwk.C152_stateless
#print axioms Kwk.C152_relabel_exact_partial
#print axioms Kwk.C152_string_false
#print axioms Kwk.C152_any_allocator_false
#print axioms Kwk.C152_relabel_false
#print axioms Kwk.C153_missing_exact_partial
#print axioms Kwk.C153_missing_empty
#print axioms Kwk.C153_reject_exact_partial
#print axioms Kwk.C153_missing_false
#print axioms Kwk.C153_static_false
#print axioms Kwk.C154_error_partial
#print axioms Kwk.C154_container_partial
#print axioms Kwk.C154_floor
#print axioms Kwk.C154_grid_partial
#print axioms Kwk.C154_integer
#print axioms Kwk.C154_exact_partial
#print axioms Kwk.C154_false
#print axioms Kwk.C154_cut_false
#print axioms Kwk.C155_lower_bound
#print axioms Kwk.C155_upper_bound
#print axioms Kwk.C155_binary_search
#print axioms Kwk.C155_integers
#print axioms Kwk.C156_elements
#print axioms Kwk.C156_exact_partial
#print axioms Kwk.C156_false
#print axioms Kwk.C157_outcome
#print axioms Kwk.C157_effect
#print axioms Kwk.C157_exception_partial
#print axioms Kwk.C157_strong
#print axioms Kwk.C157_programs
#print axioms Kwk.C157_balance
#print axioms Kwk.C157_statement_false
#print axioms Kwk.C158_same
#print axioms Kwk.C158_quiet
#print axioms Kwk.C158_own
#print axioms Kwk.C158_explained_partial
#print axioms Kwk.C158_boost
#print axioms Kwk.C158_break
#print axioms Kwk.C158_iff
#print axioms Kwk.C158_not
#print axioms Kwk.C159_writing
#print axioms Kwk.C159_replace_if
#print axioms Kwk.C159_scans
#print axioms Kwk.C159_reading
#print axioms Kwk.C159_searches
#print axioms Kwk.C159_alias
#print axioms Kwk.C160_references_partial
#print axioms Kwk.C160_copies
#print axioms Kwk.C160_values
#print axioms Kwk.C160_writing
#print axioms Kwk.C160_find_last_partial
#print axioms Kwk.C160_not
#print axioms Kwk.C160_iff
#print axioms Kwk.C161_copies
#print axioms Kwk.C161_find_last
#print axioms Kwk.C161_find_first_of
#print axioms Kwk.C161_iff
#print axioms Kwk.C161_not
#print axioms Kwk.C161_which_partial
#print axioms Kwk.C162_not
#print axioms Kwk.C162_which_partial
#print axioms Kwk.C162_progress_partial
#print axioms Kwk.C162_const_partial
#print axioms Kwk.C162_find_last_if_not_partial
#print axioms Kwk.C162_rejected
#print axioms Kwk.C162_writing_partial
#print axioms Kwk.C162_generate_partial
#print axioms Kwk.C162_transform
#print axioms Kwk.C162_searches_partial
#print axioms Kwk.C162_binary_search
#print axioms Kwk.C162_binary_search_not
#print axioms Kwk.C162_sums
#print axioms Kwk.C162_scans
#print axioms Kwk.C162_scans_one
#print axioms Kwk.C163_bounds
#print axioms Kwk.C163_binary_search
#print axioms Kwk.C163_plain_partial
#print axioms Kwk.C163_iff
#print axioms Kwk.C163_not
#print axioms Kwk.C163_which_partial
#print axioms Kwk.C164_scans_partial
#print axioms Kwk.C164_bounds_partial
#print axioms Kwk.C164_binary_search_partial
#print axioms Kwk.C164_iff
#print axioms Kwk.C164_not
#print axioms Kwk.C164_which_partial
#print axioms Kwk.C165_reading_partial
#print axioms Kwk.C165_find_last_partial
#print axioms Kwk.C165_reduce_partial
#print axioms Kwk.C165_writing_partial
#print axioms Kwk.C165_for_each_partial
#print axioms Kwk.C165_orders_partial
#print axioms Kwk.C165_sums_partial
#print axioms Kwk.C165_scans_partial
#print axioms Kwk.C165_iff
#print axioms Kwk.C165_not
#print axioms Kwk.C165_which_partial
#print axioms Kwk.C166_reduce_partial
#print axioms Kwk.C166_sums_partial
#print axioms Kwk.C166_writing_partial
#print axioms Kwk.C166_iota_partial
#print axioms Kwk.C166_scans_partial
#print axioms Kwk.C166_which_partial
#print axioms Kwk.C166_not
