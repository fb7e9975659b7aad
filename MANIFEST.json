{
 "claims": [
  {
   "property": "C01",
   "status": "proved",
   "theorems": [
    "Kwk.C01_linear_index_in_range"
   ],
   "note": ""
  },
  {
   "property": "C02",
   "status": "proved",
   "theorems": [
    "Kwk.C02_linear_index_injective"
   ],
   "note": ""
  },
  {
   "property": "C03",
   "status": "proved",
   "theorems": [
    "Kwk.C03_coordinates_linear_index"
   ],
   "note": ""
  },
  {
   "property": "C04",
   "status": "proved",
   "theorems": [
    "Kwk.C04_linear_index_coordinates"
   ],
   "note": ""
  },
  {
   "property": "C05",
   "status": "proved",
   "theorems": [
    "Kwk.C05_linear_index_order",
    "Kwk.C05_linear_index_rank",
    "Kwk.C05_row_place"
   ],
   "note": ""
  },
  {
   "property": "C06",
   "status": "proved",
   "theorems": [
    "Kwk.C06_stride_value",
    "Kwk.C06_stride_innermost",
    "Kwk.C06_stride_step",
    "Kwk.C06_linear_index_step"
   ],
   "note": ""
  },
  {
   "property": "C07",
   "status": "proved",
   "theorems": [
    "Kwk.C07_numel_prod",
    "Kwk.C07_numel_card",
    "Kwk.C07_numel_zero_iff",
    "Kwk.C07_numel_order_zero"
   ],
   "note": ""
  },
  {
   "property": "C08",
   "status": "partial",
   "theorems": [
    "Kwk.C08_index_no_overflow",
    "Kwk.C08_numel_no_overflow_partial",
    "Kwk.C08_numel_no_overflow_nonempty_partial",
    "Kwk.C08_empty_shape_overflows",
    "Kwk.C08_numel_exact_partial",
    "Kwk.C08_strides_exact_partial",
    "Kwk.C08_numel_truncated",
    "Kwk.C08_statement_false"
   ],
   "note": "Index of every valid position proved. numel and strides: proved when no extent is zero, or when the product of the non-zero extents fits; exact conditions proved (numel: every product of a suffix of the extents fits; strides, in any signed type: every product of a suffix of the extents after the first). Full claim is false for other empty shapes: C08_empty_shape_overflows."
  },
  {
   "property": "C09",
   "status": "partial",
   "theorems": [
    "Kwk.C09_contains_partial",
    "Kwk.C09_contains_upper_partial",
    "Kwk.C09_contains_unbounded_partial",
    "Kwk.C09_types_exact_partial",
    "Kwk.C09_contains_wrong",
    "Kwk.C09_statement_false"
   ],
   "note": "Proved for non-negative coordinates whose types can represent the extents; exact condition on the type for all its values proved (unsigned and able to represent the extent). Full claim is false: C09_contains_wrong (negative coordinates accepted, narrow coordinate types)."
  },
  {
   "property": "C10",
   "status": "proved",
   "theorems": [
    "Kwk.C10_compress_shape",
    "Kwk.C10_compress_addressing"
   ],
   "note": ""
  },
  {
   "property": "C11",
   "status": "proved",
   "theorems": [
    "Kwk.C11_compress_compose"
   ],
   "note": ""
  },
  {
   "property": "C12",
   "status": "partial",
   "theorems": [
    "Kwk.C12_shape_eq_refl",
    "Kwk.C12_shape_eq_symm",
    "Kwk.C12_shape_eq_same_order",
    "Kwk.C12_shape_eq_numel",
    "Kwk.C12_shape_eq_trans_partial",
    "Kwk.C12_shape_eq_not_transitive",
    "Kwk.C12_statement_false",
    "Kwk.C12_orders_exact_partial"
   ],
   "note": "Reflexivity, symmetry, numel and same-order cases proved for all shapes. Transitivity is false in general (C12_shape_eq_not_transitive); proved exactly for which orders it holds (the middle order is not less than both others)."
  },
  {
   "property": "C13",
   "status": "proved",
   "theorems": [
    "Kwk.C13_convert_numel",
    "Kwk.C13_convert_order",
    "Kwk.C13_convert_axes",
    "Kwk.C13_convert_round_trip"
   ],
   "note": ""
  },
  {
   "property": "C14",
   "status": "partial",
   "theorems": [
    "Kwk.C14_nbdims_partial",
    "Kwk.C14_nbdims_bounds",
    "Kwk.C14_nbdims_counts_inner_ones",
    "Kwk.C14_statement_false"
   ],
   "note": "Exact value proved for every shape (order minus leading ones). Full claim is false: C14_nbdims_counts_inner_ones."
  },
  {
   "property": "C15",
   "status": "proved",
   "theorems": [
    "Kwk.C15_read_back",
    "Kwk.C15_converted",
    "Kwk.C15_missing_are_one",
    "Kwk.C15_contradiction_rejected",
    "Kwk.C15_narrow_storage_truncates"
   ],
   "note": "Values must be representable in the axis type; C15_narrow_storage_truncates shows the silent conversion otherwise."
  },
  {
   "property": "C16",
   "status": "partial",
   "theorems": [
    "Kwk.C16_subscript_partial",
    "Kwk.C16_subscript_exact_partial",
    "Kwk.C16_subscript_wrong",
    "Kwk.C16_statement_false"
   ],
   "note": "Exact condition proved: a single run-time axis, or no compile-time axis before (C16_subscript_exact_partial). Full claim is false: C16_subscript_wrong."
  },
  {
   "property": "C17",
   "status": "proved",
   "theorems": [
    "Kwk.C17_named_read_back",
    "Kwk.C17_named_any_order",
    "Kwk.C17_named_deviations"
   ],
   "note": "C17_named_deviations records that missing named extents are 0 (documented: 1)."
  },
  {
   "property": "C18",
   "status": "proved",
   "theorems": [
    "Kwk.C18_static_conflicts_rejected",
    "Kwk.C18_conversion",
    "Kwk.C18_converted",
    "Kwk.C18_to_dynamic",
    "Kwk.C18_acceptance",
    "Kwk.C18_leading_static_axis_accepted"
   ],
   "note": "Values must be representable in the types of the destination axes. In unchecked builds agreement with the compile-time axes is a documented precondition; C18_leading_static_axis_accepted records what happens without it. Whether an accepted conversion compiles is C129."
  },
  {
   "property": "C19",
   "status": "partial",
   "theorems": [
    "Kwk.C19_fit_constraints_partial",
    "Kwk.C19_fit_constraints_exact_partial",
    "Kwk.C19_order_not_checked",
    "Kwk.C19_statement_false"
   ],
   "note": "Exact meaning proved (C19_fit_constraints_exact_partial). Full claim is false for a reference with run-time axes only: C19_order_not_checked."
  },
  {
   "property": "C20",
   "status": "proved",
   "theorems": [
    "Kwk.C20_for_each_runs_positions",
    "Kwk.C20_for_each_visits",
    "Kwk.C20_for_each_empty"
   ],
   "note": ""
  },
  {
   "property": "C21",
   "status": "proved",
   "theorems": [
    "Kwk.C21_find_if_runs_prefix",
    "Kwk.C21_find_if_evaluations"
   ],
   "note": ""
  },
  {
   "property": "C22",
   "status": "proved",
   "theorems": [
    "Kwk.C22_default_layout_walk"
   ],
   "note": ""
  },
  {
   "property": "C23",
   "status": "proved",
   "theorems": [
    "Kwk.C23_reduce_left_fold",
    "Kwk.C23_reduce_empty",
    "Kwk.C23_reduce_sum"
   ],
   "note": ""
  },
  {
   "property": "C24",
   "status": "proved",
   "theorems": [
    "Kwk.C24_quantifiers",
    "Kwk.C24_quantifiers_empty"
   ],
   "note": ""
  },
  {
   "property": "C25",
   "status": "proved",
   "theorems": [
    "Kwk.C25_count",
    "Kwk.C25_count_complement"
   ],
   "note": ""
  },
  {
   "property": "C26",
   "status": "proved",
   "theorems": [
    "Kwk.C26_find_first"
   ],
   "note": ""
  },
  {
   "property": "C27",
   "status": "partial",
   "theorems": [
    "Kwk.C27_find_last_partial",
    "Kwk.C27_find_last_default",
    "Kwk.C27_find_last_exact_partial",
    "Kwk.C27_strided_wrong",
    "Kwk.C27_statement_false"
   ],
   "note": "Exact condition proved: right for all contents exactly if the last position is stored at base + numel - 1 (C27_find_last_exact_partial), in particular for every default layout. Full claim is false for strided views: C27_strided_wrong."
  },
  {
   "property": "C28",
   "status": "proved",
   "theorems": [
    "Kwk.C28_find_first_of"
   ],
   "note": ""
  },
  {
   "property": "C29",
   "status": "proved",
   "theorems": [
    "Kwk.C29_pairwise_fold",
    "Kwk.C29_inner_product_rejects"
   ],
   "note": "Containers of different orders do not compile (container.hpp:128-138), so rejection is stated for equal orders."
  },
  {
   "property": "C30",
   "status": "proved",
   "theorems": [
    "Kwk.C30_lower_bound"
   ],
   "note": ""
  },
  {
   "property": "C31",
   "status": "proved",
   "theorems": [
    "Kwk.C31_upper_bound"
   ],
   "note": ""
  },
  {
   "property": "C32",
   "status": "proved",
   "theorems": [
    "Kwk.C32_binary_search"
   ],
   "note": ""
  },
  {
   "property": "C33",
   "status": "proved",
   "theorems": [
    "Kwk.C33_logarithmic"
   ],
   "note": ""
  },
  {
   "property": "C34",
   "status": "proved",
   "theorems": [
    "Kwk.C34_fill",
    "Kwk.C34_generate"
   ],
   "note": ""
  },
  {
   "property": "C35",
   "status": "proved",
   "theorems": [
    "Kwk.C35_iota_iterate",
    "Kwk.C35_iota",
    "Kwk.C35_iota_step"
   ],
   "note": ""
  },
  {
   "property": "C36",
   "status": "proved",
   "theorems": [
    "Kwk.C36_transform",
    "Kwk.C36_transform_in_place"
   ],
   "note": ""
  },
  {
   "property": "C37",
   "status": "proved",
   "theorems": [
    "Kwk.C37_copy",
    "Kwk.C37_copy_if"
   ],
   "note": ""
  },
  {
   "property": "C38",
   "status": "proved",
   "theorems": [
    "Kwk.C38_replace_if",
    "Kwk.C38_replace"
   ],
   "note": ""
  },
  {
   "property": "C39",
   "status": "partial",
   "theorems": [
    "Kwk.C39_inclusive_scan",
    "Kwk.C39_exclusive_scan_partial",
    "Kwk.C39_exclusive_scan_in_place_partial",
    "Kwk.C39_in_place_exact_partial",
    "Kwk.C39_exclusive_scan_in_place_wrong",
    "Kwk.C39_statement_false"
   ],
   "note": "Inclusive scan proved, also in place. Exclusive scan proved when the input is not overwritten; what it writes in place is characterised, and in place it is right for all contents exactly for at most one position (C39_in_place_exact_partial); the claim is false there: C39_exclusive_scan_in_place_wrong."
  },
  {
   "property": "C40",
   "status": "proved",
   "theorems": [
    "Kwk.C40_safe_one",
    "Kwk.C40_safe_inputs",
    "Kwk.C40_safe_short"
   ],
   "note": ""
  },
  {
   "property": "C41",
   "status": "partial",
   "theorems": [
    "Kwk.C41_for_each_partial",
    "Kwk.C41_for_each_reads_outside",
    "Kwk.C41_larger_input_partial",
    "Kwk.C41_exact_partial",
    "Kwk.C41_vectors_partial",
    "Kwk.C41_mismatch_reads_outside",
    "Kwk.C41_statement_false"
   ],
   "note": "Exact condition proved: every position of the driving container is stored, in the layout of the other one, in a cell of one of them (C41_exact_partial); in particular when the other argument covers the driving shape. Full claim is false (no check): C41_mismatch_reads_outside."
  },
  {
   "property": "C42",
   "status": "proved",
   "theorems": [
    "Kwk.C42_slice_elements",
    "Kwk.C42_slice_merged",
    "Kwk.C42_empty_slice_asserts"
   ],
   "note": "C42_empty_slice_asserts records that checked builds reject empty slices at the end of an axis."
  },
  {
   "property": "C43",
   "status": "proved",
   "theorems": [
    "Kwk.C43_slice_inside"
   ],
   "note": ""
  },
  {
   "property": "C44",
   "status": "partial",
   "theorems": [
    "Kwk.C44_nested_slice_partial",
    "Kwk.C44_slice_exact_partial",
    "Kwk.C44_nested_slice_wrong",
    "Kwk.C44_statement_false"
   ],
   "note": "Exact condition proved: the first selected position is stored at its row-major rank (C44_slice_exact_partial). Full claim is false: C44_nested_slice_wrong."
  },
  {
   "property": "C45",
   "status": "proved",
   "theorems": [
    "Kwk.C45_extent",
    "Kwk.C45_unchecked_arguments"
   ],
   "note": "C45_unchecked_arguments records the behaviour outside of the stated ranges."
  },
  {
   "property": "C46",
   "status": "partial",
   "theorems": [
    "Kwk.C46_default_corner",
    "Kwk.C46_reverse_partial",
    "Kwk.C46_reverse_exact_partial",
    "Kwk.C46_reverse_twice",
    "Kwk.C46_reverse_twice_wrong",
    "Kwk.C46_strided_wrong",
    "Kwk.C46_statement_false",
    "Kwk.C46_twice_false"
   ],
   "note": "Proved exactly for containers whose last position is stored numel-1 cells after the data pointer (C46_reverse_exact_partial). False for strided views and for reversing twice: C46_strided_wrong, C46_reverse_twice_wrong."
  },
  {
   "property": "C47",
   "status": "partial",
   "theorems": [
    "Kwk.C47_reachable_contiguous_partial",
    "Kwk.C47_reported_partial",
    "Kwk.C47_four_slicers_wrong",
    "Kwk.C47_counts_exact_partial",
    "Kwk.C47_statement_false"
   ],
   "note": "Proved for up to three slicers; exactly which slices are reported (C47_reported_partial); exactly for which numbers of slicers the report is right (C47_counts_exact_partial: up to three, or multiples of three, which are never reported). False otherwise: C47_four_slicers_wrong."
  },
  {
   "property": "C48",
   "status": "proved",
   "theorems": [
    "Kwk.C48_end_expressions",
    "Kwk.C48_common_forms",
    "Kwk.C48_single_truncation"
   ],
   "note": ""
  },
  {
   "property": "C49",
   "status": "proved",
   "theorems": [
    "Kwk.C49_ratio",
    "Kwk.C49_ratio_closed"
   ],
   "note": ""
  },
  {
   "property": "C50",
   "status": "proved",
   "theorems": [
    "Kwk.C50_accessors_agree",
    "Kwk.C50_default_address",
    "Kwk.C50_built_address"
   ],
   "note": ""
  },
  {
   "property": "C51",
   "status": "partial",
   "theorems": [
    "Kwk.C51_reshape_partial",
    "Kwk.C51_reshape_rank_partial",
    "Kwk.C51_reshape_exact_partial",
    "Kwk.C51_strided_false",
    "Kwk.C51_unchecked_numel"
   ],
   "note": "Proved exactly for row-major strides on the axes of more than one position (C51_reshape_exact_partial). False otherwise: C51_strided_false; the element count is not checked: C51_unchecked_numel."
  },
  {
   "property": "C52",
   "status": "partial",
   "theorems": [
    "Kwk.C52_static_copy_partial",
    "Kwk.C52_static_assign_partial",
    "Kwk.C52_copy_partial",
    "Kwk.C52_copy_exact_partial",
    "Kwk.C52_copy_table",
    "Kwk.C52_assign_table",
    "Kwk.C52_assign_partial",
    "Kwk.C52_strided_false"
   ],
   "note": "Tables from tables proved; from containers: right in every state exactly if the strides are the row-major ones (C52_copy_exact_partial, positive extents). Full claim is false for strided sources: C52_strided_false."
  },
  {
   "property": "C53",
   "status": "proved",
   "theorems": [
    "Kwk.C53_ownership",
    "Kwk.C53_no_bad_free",
    "Kwk.C53_no_use_after_free",
    "Kwk.C53_no_sharing",
    "Kwk.C53_ops_succeed",
    "Kwk.C53_destroy_all"
   ],
   "note": ""
  },
  {
   "property": "C54",
   "status": "partial",
   "theorems": [
    "Kwk.C54_relabel_partial",
    "Kwk.C54_relabel_exact_partial",
    "Kwk.C54_label",
    "Kwk.C54_strided_false"
   ],
   "note": "Proved exactly for row-major strides on the axes of more than one position. False otherwise: C54_strided_false."
  },
  {
   "property": "C55",
   "status": "partial",
   "theorems": [
    "Kwk.C55_move_target",
    "Kwk.C55_move_assign_target",
    "Kwk.C55_moved_from_partial",
    "Kwk.C55_moved_from_false"
   ],
   "note": "Move targets proved; the moved-from table can be reassigned and destroyed. False that it reports an empty shape: C55_moved_from_false."
  },
  {
   "property": "C56",
   "status": "partial",
   "theorems": [
    "Kwk.C56_literal_partial",
    "Kwk.C56_array_size_partial",
    "Kwk.C56_type_fits",
    "Kwk.C56_wrong_range",
    "Kwk.C56_literal_false",
    "Kwk.C56_separator_false"
   ],
   "note": "Proved outside [2^16, 2^19), with the exact set of wrong values (C56_wrong_range). False there and with digit separators."
  },
  {
   "property": "C57",
   "status": "partial",
   "theorems": [
    "Kwk.C57_nested_partial",
    "Kwk.C57_exact_partial",
    "Kwk.C57_range",
    "Kwk.C57_pointer_empty",
    "Kwk.C57_nested_std_false",
    "Kwk.C57_large_false"
   ],
   "note": "Proved for C arrays of any depth and flat std::array. False for nested std::array and extents in [2^16, 2^19). C57_exact_partial gives the extents the code computes for any nesting of C arrays and std::arrays: those of the C arrays outermost first, then those of the std::arrays innermost first; so the property holds exactly when the two orders agree."
  },
  {
   "property": "C58",
   "status": "partial",
   "theorems": [
    "Kwk.C58_weights",
    "Kwk.C58_surrounding",
    "Kwk.C58_linear_partial",
    "Kwk.C58_bounds_partial",
    "Kwk.C58_multi_affine",
    "Kwk.C58_grid_point",
    "Kwk.C58_border_exact_partial",
    "Kwk.C58_border_false"
   ],
   "note": "Weights, surrounding cell, multi-affine exactness and grid points proved for all points. Off the upper border the result is proved equal to an independent axis-by-axis multilinear interpolation, and no outside element is read. False on the upper border: C58_border_false. C58_border_exact_partial gives the exact condition for row-major containers that fill their block: the far corner of the cell must have a row-major number below the element count, and then the result is still right. Exact rational arithmetic."
  },
  {
   "property": "C59",
   "status": "partial",
   "theorems": [
    "Kwk.C59_helpers_partial",
    "Kwk.C59_at_selects_nothing",
    "Kwk.C59_statement_false"
   ],
   "note": "Proved for all helpers along any axis, except at(i), which selects nothing: C59_at_selects_nothing."
  },
  {
   "property": "C60",
   "status": "proved",
   "theorems": [
    "Kwk.C60_loops_terminate"
   ],
   "note": ""
  },
  {
   "property": "C61",
   "status": "proved",
   "theorems": [
    "Kwk.C61_mixed_read_back",
    "Kwk.C61_misplaced_rejected"
   ],
   "note": ""
  },
  {
   "property": "C62",
   "status": "proved",
   "theorems": [
    "Kwk.C62_is_similar"
   ],
   "note": ""
  },
  {
   "property": "C63",
   "status": "partial",
   "theorems": [
    "Kwk.C63_view_partial",
    "Kwk.C63_view_exact_partial",
    "Kwk.C63_strided_false"
   ],
   "note": "Proved exactly for row-major strides on the axes of more than one position. False otherwise: C63_strided_false."
  },
  {
   "property": "C64",
   "status": "partial",
   "theorems": [
    "Kwk.C64_strides_partial",
    "Kwk.C64_default_partial",
    "Kwk.C64_strides_false"
   ],
   "note": "Exact condition on strides proved. False in general: C64_strides_false."
  },
  {
   "property": "C65",
   "status": "partial",
   "theorems": [
    "Kwk.C65_copy_partial",
    "Kwk.C65_of_allocator_partial",
    "Kwk.C65_swap_partial",
    "Kwk.C65_empty_false",
    "Kwk.C65_lvalue_diverges",
    "Kwk.C65_exact_partial",
    "Kwk.C65_lvalue_false",
    "Kwk.C65_table_false"
   ],
   "note": "Exact condition proved: moves, and copies of non-empty objects through a const reference (C65_exact_partial). False for empty objects and non-const lvalues. C65_of_allocator_partial: what an object made of an allocator, then copied and moved, reaches."
  },
  {
   "property": "C66",
   "status": "proved",
   "theorems": [
    "Kwk.C66_swap",
    "Kwk.C66_swap_twice",
    "Kwk.C66_swap_static"
   ],
   "note": ""
  },
  {
   "property": "C67",
   "status": "partial",
   "theorems": [
    "Kwk.C67_ranges_partial",
    "Kwk.C67_narrow_partial",
    "Kwk.C67_fits_partial",
    "Kwk.C67_exact_partial",
    "Kwk.C67_constants_false"
   ],
   "note": "Proved for 8- and 16-bit constants and whenever operands and result fit the common type. False otherwise: C67_constants_false."
  },
  {
   "property": "C68",
   "status": "proved",
   "theorems": [
    "Kwk.C68_floor",
    "Kwk.C68_negative"
   ],
   "note": ""
  },
  {
   "property": "C69",
   "status": "partial",
   "theorems": [
    "Kwk.C69_linear_index_asserts_partial",
    "Kwk.C69_linear_index_partial",
    "Kwk.C69_coordinates_partial",
    "Kwk.C69_negative_accepted",
    "Kwk.C69_statement_false"
   ],
   "note": "Exact condition for the assertion proved (coordinate at or above its extent). Full claim is false for negative arguments: C69_negative_accepted."
  },
  {
   "property": "C70",
   "status": "proved",
   "theorems": [
    "Kwk.C70_mixed_numel",
    "Kwk.C70_mixed_index",
    "Kwk.C70_mixed_index_2d",
    "Kwk.C70_mixed_coordinates",
    "Kwk.C70_mixed_wraps"
   ],
   "note": "C70_mixed_wraps shows that the bound is needed."
  },
  {
   "property": "C71",
   "status": "proved",
   "theorems": [
    "Kwk.C71_position_eq",
    "Kwk.C71_position_eq_linear_index"
   ],
   "note": ""
  },
  {
   "property": "C73",
   "status": "partial",
   "theorems": [
    "Kwk.C73_for_each_shape_ctx",
    "Kwk.C73_for_each_elements",
    "Kwk.C73_for_each_index",
    "Kwk.C73_for_each_shape_partial",
    "Kwk.C73_for_each_shape_loses_state",
    "Kwk.C73_statement_false"
   ],
   "note": "Proved for all overloads except for_each(f, shape), which makes the calls but returns nothing: C73_for_each_shape_loses_state."
  },
  {
   "property": "C74",
   "status": "proved",
   "theorems": [
    "Kwk.C74_predicate_calls",
    "Kwk.C74_count_if_calls"
   ],
   "note": ""
  },
  {
   "property": "C75",
   "status": "proved",
   "theorems": [
    "Kwk.C75_generate_order",
    "Kwk.C75_transform_order"
   ],
   "note": ""
  },
  {
   "property": "C76",
   "status": "proved",
   "theorems": [
    "Kwk.C76_size_queries"
   ],
   "note": ""
  },
  {
   "property": "C72",
   "status": "partial",
   "theorems": [
    "Kwk.C72_print_empty",
    "Kwk.C72_print_1d",
    "Kwk.C72_print_partial",
    "Kwk.C72_print_exact_partial",
    "Kwk.C72_print_order_three_partial",
    "Kwk.C72_order_four_false"
   ],
   "note": "Proved for empty containers, order 1 and 2, the exact text for every order, and for order 3 and above exactly when it is the expected text: all extents before the last outer axis are 1 (C72_print_exact_partial). Full claim is false from order 4 on: C72_order_four_false."
  },
  {
   "property": "C77",
   "status": "partial",
   "theorems": [
    "Kwk.C77_text_partial",
    "Kwk.C77_common_forms_partial",
    "Kwk.C77_text_false"
   ],
   "note": "Exact condition proved (no offset, or divisor 1). Full claim is false: C77_text_false."
  },
  {
   "property": "C78",
   "status": "partial",
   "theorems": [
    "Kwk.C78_text_partial",
    "Kwk.C78_written_exact_partial",
    "Kwk.C78_from_to_length_exact_partial",
    "Kwk.C78_to_length_exact_partial",
    "Kwk.C78_text_false"
   ],
   "note": "Proved for slicers without length, and for integer lengths without 'to'; with a length and 'to', exact conditions with and without 'from'. Full claim is false: C78_text_false."
  },
  {
   "property": "C79",
   "status": "partial",
   "theorems": [
    "Kwk.C79_reduce_exact_partial",
    "Kwk.C79_reduce_signed",
    "Kwk.C79_reduce_modular",
    "Kwk.C79_reduce_all",
    "Kwk.C79_reduce_narrow_wraps",
    "Kwk.C79_reduce_overflow",
    "Kwk.C79_statement_false"
   ],
   "note": "Exact when the partial sums fit the accumulator; complete characterisation for all types of accumulator and elements (C79_reduce_all), with closed forms for signed types from int on (overflow) and for narrow or unsigned types (modular). Full claim is false: C79_reduce_narrow_wraps, C79_reduce_overflow."
  },
  {
   "property": "C80",
   "status": "partial",
   "theorems": [
    "Kwk.C80_dot_exact_partial",
    "Kwk.C80_dot_signed",
    "Kwk.C80_dot_modular",
    "Kwk.C80_dot_init_all",
    "Kwk.C80_dot_bytes",
    "Kwk.C80_dot_overflow",
    "Kwk.C80_statement_false"
   ],
   "note": "Complete characterisation: without an initial value for a signed common type (defined exactly when products and partial sums fit, C80_dot_signed) and an unsigned one (modular, C80_dot_modular); with an initial value for all types (C80_dot_init_all); unconditional for up to 33025 elements of at most 8 bits. Full claim is false: C80_dot_overflow."
  },
  {
   "property": "C81",
   "status": "partial",
   "theorems": [
    "Kwk.C81_iota_exact_partial",
    "Kwk.C81_iota_step_exact_partial",
    "Kwk.C81_iota_modular",
    "Kwk.C81_iota_step_modular",
    "Kwk.C81_iota_signed_overflow",
    "Kwk.C81_iota_last_overflow",
    "Kwk.C81_statement_false"
   ],
   "note": "Exact when one more value fits; modular for narrow and unsigned types; undefined otherwise for signed types. Full claim is false: C81_iota_last_overflow."
  },
  {
   "property": "C82",
   "status": "partial",
   "theorems": [
    "Kwk.C82_inclusive_scan_exact",
    "Kwk.C82_exclusive_scan_exact_partial",
    "Kwk.C82_scan_signed_overflow",
    "Kwk.C82_scan_modular",
    "Kwk.C82_scan_all",
    "Kwk.C82_exclusive_scan_extra_sum",
    "Kwk.C82_statement_false"
   ],
   "note": "inclusive_scan proved; exclusive_scan proved when the total fits too; complete characterisation for all types (C82_scan_all), with overflow for signed sums and modular results for narrow or unsigned sums. Full claim is false: C82_exclusive_scan_extra_sum."
  },
  {
   "property": "C83",
   "status": "partial",
   "theorems": [
    "Kwk.C83_of_size_partial",
    "Kwk.C83_sized_axis_forgotten",
    "Kwk.C83_exact_partial",
    "Kwk.C83_rejected",
    "Kwk.C83_statement_false"
   ],
   "note": "Proved for all arguments except axes given with a size; exact condition and exact acceptance proved. Full claim is false: of_size(width[3]) has size 0 (C83_sized_axis_forgotten)."
  },
  {
   "property": "C84",
   "status": "partial",
   "theorems": [
    "Kwk.C84_of_size_typed_partial",
    "Kwk.C84_exact_partial",
    "Kwk.C84_sized_axis_forgotten",
    "Kwk.C84_statement_false"
   ],
   "note": "Proved with the exact condition: T represents every size, and no axis is given with a size. Full claim is false: of_size<T>(width[3]) has size 0 (C84_sized_axis_forgotten), as for of_size."
  },
  {
   "property": "C85",
   "status": "partial",
   "theorems": [
    "Kwk.C85_as_array_type",
    "Kwk.C85_as_array_exact_partial",
    "Kwk.C85_as_array_partial",
    "Kwk.C85_as_array_changes_extents",
    "Kwk.C85_statement_false"
   ],
   "note": "Element type and exact condition proved for all shapes, values proved for equal signedness. Full claim is false: C85_as_array_changes_extents."
  },
  {
   "property": "C86",
   "status": "partial",
   "theorems": [
    "Kwk.C86_with_strides_partial",
    "Kwk.C86_exact_partial",
    "Kwk.C86_duplicates_accepted",
    "Kwk.C86_statement_false"
   ],
   "note": "Same scope as C83. C86_duplicates_accepted records that stride does not reject duplicate axes. C86_exact_partial: without named extents the strides are those asked for iff every stride given in an axis is 1."
  },
  {
   "property": "C87",
   "status": "partial",
   "theorems": [
    "Kwk.C87_default_stride_partial",
    "Kwk.C87_default_stride_zero",
    "Kwk.C87_statement_false"
   ],
   "note": "Exact condition proved (all strides are compile-time ones). Full claim is false: C87_default_stride_zero."
  },
  {
   "property": "C88",
   "status": "proved",
   "theorems": [
    "Kwk.C88_as_stride",
    "Kwk.C88_is_unit"
   ],
   "note": "Products are taken in the integers, with a hypothesis that they fit the type of the run-time strides; their machine types are the subject of C08 and C70."
  },
  {
   "property": "C89",
   "status": "proved",
   "theorems": [
    "Kwk.C89_write_one_element"
   ],
   "note": "Proved for all reachable states."
  },
  {
   "property": "C90",
   "status": "proved",
   "theorems": [
    "Kwk.C90_value_semantics",
    "Kwk.C90_value_semantics_step"
   ],
   "note": "Proved for run-time shaped tables and the operations listed in Spec/Values.lean. Construction from an array needs the elements in row-major order; construction from views is the subject of C52."
  },
  {
   "property": "C91",
   "status": "proved",
   "theorems": [
    "Kwk.C91_default_table_empty"
   ],
   "note": "Proved."
  },
  {
   "property": "C92",
   "status": "proved",
   "theorems": [
    "Kwk.C92_any_order",
    "Kwk.C92_settings"
   ],
   "note": "Proved, given the assumptions on the option library stated in Model/Options.lean."
  },
  {
   "property": "C93",
   "status": "proved",
   "theorems": [
    "Kwk.C93_view_accepted",
    "Kwk.C93_table_accepted",
    "Kwk.C93_view",
    "Kwk.C93_in_type",
    "Kwk.C93_table"
   ],
   "note": "Proved, given the assumptions on the option library stated in Model/Options.lean. Array sources: plain nested arrays, see C57 for the others."
  },
  {
   "property": "C94",
   "status": "partial",
   "theorems": [
    "Kwk.C94_table_partial",
    "Kwk.C94_stack_partial",
    "Kwk.C94_view_partial",
    "Kwk.C94_strided_view_partial",
    "Kwk.C94_short_source_false"
   ],
   "note": "Exact condition proved: at most n positions (tables and row-major views), or largest index below n (non-negative strides). Full claim is false: nothing is checked, a table with more positions than the source reads past its end (C94_short_source_false)."
  },
  {
   "property": "C95",
   "status": "proved",
   "theorems": [
    "Kwk.C95_agree",
    "Kwk.C95_sorted"
   ],
   "note": "Proved. The sorted part is stated for the order < of a linear order and for comparisons without side effect."
  },
  {
   "property": "C96",
   "status": "proved",
   "theorems": [
    "Kwk.C96_fill",
    "Kwk.C96_replace",
    "Kwk.C96_iota"
   ],
   "note": "Proved. iota is stated over the integers; machine types are the subject of C79-C82."
  },
  {
   "property": "C97",
   "status": "proved",
   "theorems": [
    "Kwk.C97_scans",
    "Kwk.C97_transform_reduce"
   ],
   "note": "Proved for exclusive_scan into another container; in place it is wrong (C39)."
  },
  {
   "property": "C98",
   "status": "proved",
   "theorems": [
    "Kwk.C98_transform_fusion",
    "Kwk.C98_copy_round_trip"
   ],
   "note": "Proved."
  },
  {
   "property": "C99",
   "status": "proved",
   "theorems": [
    "Kwk.C99_contiguous_slices"
   ],
   "note": "Proved. Empty selections are excluded (there is nothing to place)."
  },
  {
   "property": "C100",
   "status": "partial",
   "theorems": [
    "Kwk.C100_block_partial",
    "Kwk.C100_block_exact_partial",
    "Kwk.C100_block_too_small"
   ],
   "note": "Proved for extents of any types below 2^31 elements; for 64-bit extents this condition is exact (C100_block_exact_partial). Full claim is false: the count is cut to 32 bits, C100_block_too_small."
  },
  {
   "property": "C101",
   "status": "partial",
   "theorems": [
    "Kwk.C101_reverse_partial",
    "Kwk.C101_unsigned_int_partial",
    "Kwk.C101_unsigned_int_false",
    "Kwk.C101_find_last_position",
    "Kwk.C101_position_truncated"
   ],
   "note": "Reverse proved for all integer types except the unsigned type of the width of int, where the exact error is proved (C101_unsigned_int_partial) and the claim is false (C101_unsigned_int_false). Positions of find_last proved for all types and extents up to 2^31; larger coordinates do not fit (C101_position_truncated)."
  },
  {
   "property": "C102",
   "status": "partial",
   "theorems": [
    "Kwk.C102_slices_partial",
    "Kwk.C102_positive_steps_partial",
    "Kwk.C102_checked_exact_partial",
    "Kwk.C102_checked_partial",
    "Kwk.C102_merged_partial",
    "Kwk.C102_unsigned_int_false"
   ],
   "note": "Proved for all integer types except the unsigned type of the width of int (C102_slices_partial), and for all types when steps are positive and this type does not meet end (C102_positive_steps_partial); fewer slicers than axes in C102_merged_partial. Full claim is false: C102_unsigned_int_false. Checked builds: C102_checked_exact_partial says for which slices the assertion in linear_index fails (first indexes written in a type that does not represent the extent), C102_checked_partial that there is no difference when the types represent the extents."
  },
  {
   "property": "C103",
   "status": "proved",
   "theorems": [
    "Kwk.C103_range_index",
    "Kwk.C103_range_position"
   ],
   "note": "Proved for all shapes, ranges and types."
  },
  {
   "property": "C104",
   "status": "partial",
   "theorems": [
    "Kwk.C104_end_partial",
    "Kwk.C104_slicer_partial",
    "Kwk.C104_ratio_partial",
    "Kwk.C104_number_exact_partial",
    "Kwk.C104_offset_exact_partial",
    "Kwk.C104_numbers_false"
   ],
   "note": "Proved when the numbers of end expressions compute as signed numbers and no run-time number has an 8-bit type; exact conditions for single numbers (C104_number_exact_partial) and for offsets (C104_offset_exact_partial). Full claim is false: C104_numbers_false (end + 3u is written end3; int8_t bounds are written as characters)."
  },
  {
   "property": "C105",
   "status": "proved",
   "theorems": [
    "Kwk.C105_shape_text",
    "Kwk.C105_shape_text_inj",
    "Kwk.C105_position_text"
   ],
   "note": "Proved for all shapes, strides and positions."
  },
  {
   "property": "C106",
   "status": "partial",
   "theorems": [
    "Kwk.C106_others_exact_partial",
    "Kwk.C106_find_first_of_exact_partial",
    "Kwk.C106_find_partial",
    "Kwk.C106_find_exact_partial",
    "Kwk.C106_find_first_of_partial",
    "Kwk.C106_mixed_false",
    "Kwk.C106_statement_false"
   ],
   "note": "Proved when the elements compare with the value by value in the common type. This condition is exact: for find (C106_find_exact_partial), for find_last, count and replace (C106_others_exact_partial), and for find_first_of (C106_find_first_of_exact_partial). Full claim is false: C106_mixed_false (unsigned elements and negative values)."
  },
  {
   "property": "C107",
   "status": "partial",
   "theorems": [
    "Kwk.C107_binary_search_exact_partial",
    "Kwk.C107_bounds_partial",
    "Kwk.C107_bounds_exact_partial",
    "Kwk.C107_mixed_false",
    "Kwk.C107_statement_false"
   ],
   "note": "Proved when the elements are ordered with the value by value in the common type (exact condition for the bounds, C107_bounds_exact_partial). binary_search: C107_binary_search_exact_partial gives the exact condition, which is weaker for values that the type of the elements does not hold. Full claim is false: C107_mixed_false."
  },
  {
   "property": "C108",
   "status": "partial",
   "theorems": [
    "Kwk.C108_write_partial",
    "Kwk.C108_copy_partial",
    "Kwk.C108_copy_exact_partial",
    "Kwk.C108_copy_if_partial",
    "Kwk.C108_narrowing_false",
    "Kwk.C108_statement_false"
   ],
   "note": "Proved for numbers that the type of the elements represents; exact condition on the types for copy; otherwise the stored number is congruent modulo 2^bits. Full claim is false: C108_narrowing_false."
  },
  {
   "property": "C109",
   "status": "proved",
   "theorems": [
    "Kwk.C109_count_if"
   ],
   "note": "Proved; modulo 2^64 for larger counts."
  },
  {
   "property": "C110",
   "status": "proved",
   "theorems": [
    "Kwk.C110_is_compatible",
    "Kwk.C110_is_equivalent",
    "Kwk.C110_similar_compatible"
   ],
   "note": "Proved."
  },
  {
   "property": "C111",
   "status": "partial",
   "theorems": [
    "Kwk.C111_same_order",
    "Kwk.C111_orders_partial",
    "Kwk.C111_wraps_false",
    "Kwk.C111_strides_exact_partial",
    "Kwk.C111_strides_false",
    "Kwk.C111_statement_false"
   ],
   "note": "Proved for shapes whose common types represent the extents and the merged products; exact condition for strides (C111_strides_exact_partial). Full claim is false: C111_wraps_false (products wrap), C111_strides_false (a negative stride meets an unsigned one)."
  },
  {
   "property": "C112",
   "status": "proved",
   "theorems": [
    "Kwk.C112_fill",
    "Kwk.C112_replace_if",
    "Kwk.C112_count_test",
    "Kwk.C112_copy",
    "Kwk.C112_selection",
    "Kwk.C112_reduce",
    "Kwk.C112_find",
    "Kwk.C112_transform",
    "Kwk.C112_iota",
    "Kwk.C112_merged"
   ],
   "note": "Proved. The main theorems take as many slicers as axes; C112_merged reduces the other cases to them."
  },
  {
   "property": "C113",
   "status": "partial",
   "theorems": [
    "Kwk.C113_end_expressions",
    "Kwk.C113_compress",
    "Kwk.C113_whole_axes",
    "Kwk.C113_intervals_partial",
    "Kwk.C113_known_only_if",
    "Kwk.C113_stepped_exact_partial",
    "Kwk.C113_stepped_false",
    "Kwk.C113_statement_false",
    "Kwk.C113_values",
    "Kwk.C113_written_values"
   ],
   "note": "Proved for end expressions, compress, whole axes, intervals without a step or without bounds, and for the values. With a step and a bound: exact condition for int constants (C113_stepped_exact_partial); the full claim is false: C113_stepped_false."
  },
  {
   "property": "C114",
   "status": "partial",
   "theorems": [
    "Kwk.C114_container",
    "Kwk.C114_categories",
    "Kwk.C114_represented_partial",
    "Kwk.C114_exact_partial",
    "Kwk.C114_names_false",
    "Kwk.C114_statement_false"
   ],
   "note": "Acceptance and categories proved. Representability proved when the names of the axes are the wanted ones and their types represent the extents. Full claim is false: is_similar ignores names (C114_names_false). C114_exact_partial gives the exact condition: the conversion keeps the extents iff the names agree and every extent is representable in its axis."
  },
  {
   "property": "C115",
   "status": "proved",
   "theorems": [
    "Kwk.C115_merge",
    "Kwk.C115_equal",
    "Kwk.C115_text"
   ],
   "note": "Proved."
  },
  {
   "property": "C116",
   "status": "proved",
   "theorems": [
    "Kwk.C116_programs",
    "Kwk.C116_reading"
   ],
   "note": "Proved for heap tables. transform, copy and scans ask for equal shapes; exclusive_scan asks for different tables (see C39)."
  },
  {
   "property": "C117",
   "status": "proved",
   "theorems": [
    "Kwk.C117_sequence",
    "Kwk.C117_reading",
    "Kwk.C117_find",
    "Kwk.C117_find_first_of",
    "Kwk.C117_reading_two",
    "Kwk.C117_bounds",
    "Kwk.C117_binary_search",
    "Kwk.C117_writing",
    "Kwk.C117_transform",
    "Kwk.C117_copy",
    "Kwk.C117_scans",
    "Kwk.C117_reverse",
    "Kwk.C117_find_last",
    "Kwk.C117_reshape",
    "Kwk.C117_slice"
   ],
   "note": "Proved for all containers that can be read (reading) or have distinct cells (writing); views for default layouts."
  },
  {
   "property": "C118",
   "status": "partial",
   "theorems": [
    "Kwk.C118_overlap_partial",
    "Kwk.C118_exact_partial",
    "Kwk.C118_shift_partial",
    "Kwk.C118_reverse_partial",
    "Kwk.C118_overlap_false"
   ],
   "note": "Exact condition proved (C118_exact_partial): no element of in may lie where an earlier element of out is, unless both are copied from that cell. Closed forms for shifted vectors (C118_shift_partial) and for copy(c, reverse(c)) (C118_reverse_partial). Full claim is false: C118_overlap_false."
  },
  {
   "property": "C119",
   "status": "proved",
   "theorems": [
    "Kwk.C119_transform",
    "Kwk.C119_copy_if",
    "Kwk.C119_inclusive_scan",
    "Kwk.C119_exclusive_scan"
   ],
   "note": "Both directions proved for all layouts and overlaps, for element types with at least two values. Inputs that cannot be read are excluded."
  },
  {
   "property": "C120",
   "status": "partial",
   "theorems": [
    "Kwk.C120_views_partial",
    "Kwk.C120_heap_partial",
    "Kwk.C120_static_partial",
    "Kwk.C120_slices_partial",
    "Kwk.C120_const_false"
   ],
   "note": "Exact conditions for views, for run-time tables and for slices; const static tables are protected unless a view with elements T is made of them. Full claim is false: C120_const_false."
  },
  {
   "property": "C121",
   "status": "partial",
   "theorems": [
    "Kwk.C121_constant_start_false",
    "Kwk.C121_exact_partial",
    "Kwk.C121_values",
    "Kwk.C121_written_values"
   ],
   "note": "Exact condition: a slice of a container compiles iff every written start depends on a run-time number (C121_exact_partial); compiled slices start at the right element. Full claim is false: C121_constant_start_false."
  },
  {
   "property": "C122",
   "status": "proved",
   "theorems": [
    "Kwk.C122_clients"
   ],
   "note": "Proved for heap tables; views are reshaped tables, reversed tables, and slices (with one slicer per axis or fewer) of them. An input that looks at the written table must not be overwritten before its turn; exclusive_scan asks for different tables (see C39); find_last_if asks for a table or a reshaped one (see C27)."
  },
  {
   "property": "C123",
   "status": "partial",
   "theorems": [
    "Kwk.C123_static_extents_free",
    "Kwk.C123_same_type",
    "Kwk.C123_static_containers",
    "Kwk.C123_runtime_containers",
    "Kwk.C123_room_exact_partial",
    "Kwk.C123_empty_member_false",
    "Kwk.C123_statement_false"
   ],
   "note": "Exact condition: the general claim fails only for order 3 or more when the first extent is the only run-time one and takes 64 bits; then the empty stride member is padded to 8 bytes (C123_empty_member_false). Itanium C++ ABI assumed."
  },
  {
   "property": "C124",
   "status": "partial",
   "theorems": [
    "Kwk.C124_calls_partial",
    "Kwk.C124_arguments",
    "Kwk.C124_misuse",
    "Kwk.C124_for_each_index",
    "Kwk.C124_for_each_index_copies",
    "Kwk.C124_for_each_exact_partial",
    "Kwk.C124_for_each_objects",
    "Kwk.C124_for_each_misuse",
    "Kwk.C124_transform_exact_partial",
    "Kwk.C124_transform_objects",
    "Kwk.C124_transform_misuse",
    "Kwk.C124_named_function_false",
    "Kwk.C124_ambiguous_false",
    "Kwk.C124_statement_false"
   ],
   "note": "All forms with a fixed number of containers: exactly when the call compiles, and what it runs. for_each_index: exact, with the constness the function sees (C124_for_each_index). for_each and transform with any number of containers: exact conditions. Containers, shapes and contexts reach the function that does the work without copies and with the right constness (C124_arguments, C124_for_each_objects, C124_transform_objects, C124_for_each_index_copies); calls with something else in their place are rejected (C124_misuse, C124_for_each_misuse, C124_transform_misuse). Full claim is false: for_each(f, a, b) with a named function takes the function for a context and does not compile (C124_named_function_false); transform(f, out, a, b) with a named function and a const b is ambiguous (C124_ambiguous_false)."
  },
  {
   "property": "C125",
   "status": "partial",
   "theorems": [
    "Kwk.C125_untouched",
    "Kwk.C125_same_partial",
    "Kwk.C125_leak_exact",
    "Kwk.C125_deleter_leak_false",
    "Kwk.C125_throws_iff",
    "Kwk.C125_done",
    "Kwk.C125_no_failure",
    "Kwk.C125_programs",
    "Kwk.C125_owned_iff",
    "Kwk.C125_programs_partial",
    "Kwk.C125_no_bad_free",
    "Kwk.C125_default_terminates_false",
    "Kwk.C125_terminates_iff",
    "Kwk.C125_terminated_iff"
   ],
   "note": "Strong guarantee if the deleter's copy of the allocator does not throw (C125_same_partial); exact condition for a lost block (C125_leak_exact), for throwing (C125_throws_iff) and for termination (C125_terminates_iff, C125_terminated_iff). Programs, whatever fails: ownership is exclusive and the number of blocks without owner is the number of losing operations (C125_programs, C125_owned_iff, C125_no_bad_free). Full claim is false: the block is lost when the deleter throws (C125_deleter_leak_false); default construction terminates the program then (C125_default_terminates_false)."
  },
  {
   "property": "C126",
   "status": "partial",
   "theorems": [
    "Kwk.C126_usable_exact_partial",
    "Kwk.C126_null_false",
    "Kwk.C126_null_copy_false",
    "Kwk.C126_fault_iff"
   ],
   "note": "Exact: usable iff the allocator was not exhausted or there are no elements; faults iff it is exhausted and elements are copied. Full claim is false: malloc's null pointer is not checked (C126_null_false, C126_null_copy_false)."
  },
  {
   "property": "C127",
   "status": "proved",
   "theorems": [
    "Kwk.C127_transform",
    "Kwk.C127_generate",
    "Kwk.C127_copy_if",
    "Kwk.C127_replace_if",
    "Kwk.C127_exclusive_scan",
    "Kwk.C127_inclusive_scan",
    "Kwk.C127_reduce",
    "Kwk.C127_predicates",
    "Kwk.C127_count_if",
    "Kwk.C127_find_if",
    "Kwk.C127_no_throw",
    "Kwk.C127_for_each",
    "Kwk.C127_transform_reduce",
    "Kwk.C127_none_of",
    "Kwk.C127_find_last_if",
    "Kwk.C127_bounds",
    "Kwk.C127_middle",
    "Kwk.C127_binary_search"
   ],
   "note": "Holds for every algorithm listed; without exceptions the algorithms are those of the other properties (C127_no_throw)."
  },
  {
   "property": "C128",
   "status": "partial",
   "theorems": [
    "Kwk.C128_elements_partial",
    "Kwk.C128_full_false",
    "Kwk.C128_compiles",
    "Kwk.C128_shapes",
    "Kwk.C128_reported"
   ],
   "note": "Elements, shapes, the condition for compiling and the reported contiguity are proved for library slicers mixed with slicers of any user types. Full claim is false: a class that converts to std::ptrdiff_t is a slicer by the concept's wording but containers cannot be sliced by it (C128_full_false)."
  },
  {
   "property": "C129",
   "status": "partial",
   "theorems": [
    "Kwk.C129_exact_partial",
    "Kwk.C129_compressed_types",
    "Kwk.C129_full_false"
   ],
   "note": "C129_exact_partial says for every accepted pair of types whether the conversion compiles and succeeds for all shapes. The full claim is false (C129_full_false): a run-time extent is accepted where a compile-time one is wanted and checked at run time only, contrary to the documented example; leading compile-time axes other than 1 always fail; a destination of lower order with names is accepted but does not compile."
  },
  {
   "property": "C130",
   "status": "partial",
   "theorems": [
    "Kwk.C130_exact_partial",
    "Kwk.C130_read",
    "Kwk.C130_assign",
    "Kwk.C130_strides_partial",
    "Kwk.C130_positions_never",
    "Kwk.C130_full_false"
   ],
   "note": "C130_exact_partial says exactly which decompositions compile; reading and assigning through the names is as stated. The full claim is false (C130_full_false, C130_positions_never): with a compile-time extent only read-only names compile, since get returns a const constant while tuple_element announces one without const; this excludes auto [a, b] = as_stride(s) for all shapes. Positions cannot be decomposed at all, tuple_element being specialised for the index Sz only."
  },
  {
   "property": "C131",
   "status": "partial",
   "theorems": [
    "Kwk.C131_searched_partial",
    "Kwk.C131_bounds_partial",
    "Kwk.C131_binary_search_partial",
    "Kwk.C131_exact_partial",
    "Kwk.C131_statement_false"
   ],
   "note": "Proved below 2^31 elements for extents of any integer types. For 64-bit extents C131_searched_partial says what is searched for any number of elements, and C131_exact_partial that the searches are right for all contents exactly below 2^31. The full claim is false (C131_statement_false): numel() is cut to an int, so a large container looks empty or shorter."
  },
  {
   "property": "C132",
   "status": "proved",
   "theorems": [
    "Kwk.C132_grid_point",
    "Kwk.C132_finite",
    "Kwk.C132_error",
    "Kwk.C132_monotone",
    "Kwk.C132_sign",
    "Kwk.C132_int_range",
    "Kwk.C132_formats",
    "Kwk.C132_binary",
    "Kwk.C132_constant_false",
    "Kwk.C132_neighbour_false"
   ],
   "note": "Proved for every rounding function with bounded relative error, and instantiated for rounding to nearest in binary formats (C132_formats, C132_binary). Monotone in the elements (C132_monotone). Overflow and underflow of floating-point results and fused multiply-add are left out of the model. Compared with exact arithmetic (C58), two things are lost: the result can leave the range of the elements by a rounding error (C132_constant_false), and an infinite or NaN neighbour spoils a grid point although its weight is 0 (C132_neighbour_false)."
  },
  {
   "property": "C133",
   "status": "proved",
   "theorems": [
    "Kwk.C133_reduce",
    "Kwk.C133_reduce_init",
    "Kwk.C133_dot",
    "Kwk.C133_dot_init",
    "Kwk.C133_inclusive_scan",
    "Kwk.C133_exclusive_scan",
    "Kwk.C133_types",
    "Kwk.C133_dot_types",
    "Kwk.C133_finite",
    "Kwk.C133_exact",
    "Kwk.C133_integers",
    "Kwk.C133_monotone",
    "Kwk.C133_formats",
    "Kwk.C133_int_init_false"
   ],
   "note": "Proved for every rounding function with bounded relative error; C133_formats gives the instance of rounding to nearest in binary formats. Overflow and underflow of floating-point results are left out of the model; outputs of scans have the type of the initial value. An initial value of an integer type (inner_product(a, b, 0)) makes the accumulator an integer and the bounds fail: C133_int_init_false."
  },
  {
   "property": "C134",
   "status": "partial",
   "theorems": [
    "Kwk.C134_find_partial",
    "Kwk.C134_find_exact_partial",
    "Kwk.C134_find_first_of_partial",
    "Kwk.C134_when",
    "Kwk.C134_nan",
    "Kwk.C134_rounded_false",
    "Kwk.C134_statement_false"
   ],
   "note": "Proved for the values with which all elements of the type compare by value (EqualsNumber); C134_find_exact_partial shows that find is right for all contents exactly then, and C134_when lists common cases (two floating-point types; integers below 2^p). The full claim is false (C134_statement_false): integers are rounded before they are compared with floating-point numbers (C134_rounded_false), and integers of different signedness are converted (C106). bool elements and overflow of conversions to floating point are left out."
  },
  {
   "property": "C135",
   "status": "partial",
   "theorems": [
    "Kwk.C135_lower_partial",
    "Kwk.C135_upper_partial",
    "Kwk.C135_search_partial",
    "Kwk.C135_when",
    "Kwk.C135_exact_partial",
    "Kwk.C135_search_exact_partial",
    "Kwk.C135_search_integers_partial",
    "Kwk.C135_nan_false",
    "Kwk.C135_signs_false",
    "Kwk.C135_rounded_false",
    "Kwk.C135_statement_false"
   ],
   "note": "Proved for ascending numbers and values with which all elements order by value (OrdersNumber); lower_bound also with NaN after the numbers. C135_exact_partial: both bounds are right for all ascending contents exactly then. C135_search_exact_partial: binary_search is right for all ascending contents only if the value is a number that equals elements by value; exactly then unless both are integers, where it is not enough (C135_signs_false): for integers and at least two elements, exactly if they equal the value by value and, if an element can hold it, order by value (C135_search_integers_partial). The full claim is false (C135_statement_false): integers are rounded before the comparison (C135_rounded_false), and NaN misleads upper_bound and binary_search (C135_nan_false)."
  },
  {
   "property": "C136",
   "status": "proved",
   "theorems": [
    "Kwk.C136_fill",
    "Kwk.C136_generate",
    "Kwk.C136_transform",
    "Kwk.C136_copy",
    "Kwk.C136_copy_if",
    "Kwk.C136_replace_if",
    "Kwk.C136_replace",
    "Kwk.C136_stored"
   ],
   "note": "Proved for all arithmetic types of the model: one theorem per algorithm, and C136_stored on what is stored. replace needs elements that compare with the old value by value (see C134). Overflow of conversions to floating point and bool are left out of the model."
  },
  {
   "property": "C137",
   "status": "partial",
   "theorems": [
    "Kwk.C137_iota_partial",
    "Kwk.C137_step_partial",
    "Kwk.C137_when",
    "Kwk.C137_step_error",
    "Kwk.C137_error",
    "Kwk.C137_exact_partial",
    "Kwk.C137_stuck",
    "Kwk.C137_gap_false",
    "Kwk.C137_statement_false"
   ],
   "note": "Proved when the numbers are representable (C137_iota_partial, C137_step_partial, C137_when), which is exact for elements of the type of v (C137_exact_partial), and an error bound for floating-point elements (C137_error, C137_step_error). That exactly v + k is stored is false (C137_statement_false): value++ is rounded, so a float table of more than 2^24 + 1 elements can not hold consecutive numbers (C137_gap_false), and with the usual rounding all later elements are 2^24 (C137_stuck)."
  },
  {
   "property": "C138",
   "status": "proved",
   "theorems": [
    "Kwk.C138_fill",
    "Kwk.C138_generate",
    "Kwk.C138_transform",
    "Kwk.C138_copy",
    "Kwk.C138_copy_if",
    "Kwk.C138_replace_if",
    "Kwk.C138_replace",
    "Kwk.C138_quantifiers",
    "Kwk.C138_count_if",
    "Kwk.C138_count",
    "Kwk.C138_find_first_of",
    "Kwk.C138_copy_exact"
   ],
   "note": "Proved for every context that visits each position once: one theorem per algorithm, and C138_copy_exact for the condition on overlapping containers."
  },
  {
   "property": "C139",
   "status": "proved",
   "theorems": [
    "Kwk.C139_reduce_exact",
    "Kwk.C139_transform_reduce",
    "Kwk.C139_transform_reduce_exact",
    "Kwk.C139_inner_product"
   ],
   "note": "Proved: C139_reduce_exact and C139_transform_reduce_exact are equivalences; inner_product under the condition of reduce."
  },
  {
   "property": "C140",
   "status": "partial",
   "theorems": [
    "Kwk.C140_iota_visits",
    "Kwk.C140_iota_step_visits",
    "Kwk.C140_iota_exact_partial",
    "Kwk.C140_iota_step_exact_partial",
    "Kwk.C140_inclusive_visits",
    "Kwk.C140_exclusive_visits",
    "Kwk.C140_inclusive_exact_partial",
    "Kwk.C140_exclusive_exact_partial",
    "Kwk.C140_order_false"
   ],
   "note": "The full claim is false (C140_order_false): the captured value follows the order of the visits (C140_iota_visits, C140_inclusive_visits, C140_exclusive_visits). The _exact_partial theorems: right exactly for contexts that visit the shape in row-major order (or a step of 0)."
  },
  {
   "property": "C141",
   "status": "partial",
   "theorems": [
    "Kwk.C141_fill",
    "Kwk.C141_generate",
    "Kwk.C141_transform",
    "Kwk.C141_copy_if",
    "Kwk.C141_replace_if",
    "Kwk.C141_reduce_race_partial",
    "Kwk.C141_transform_reduce_race_partial",
    "Kwk.C141_iota_race_partial",
    "Kwk.C141_scan_race_partial",
    "Kwk.C141_sequential_reduce",
    "Kwk.C141_sequential_transform_reduce",
    "Kwk.C141_sequential_iota",
    "Kwk.C141_sequential_iota_step",
    "Kwk.C141_sequential_exclusive_scan",
    "Kwk.C141_sequential_inclusive_scan",
    "Kwk.C141_sequential_transform",
    "Kwk.C141_count_false"
   ],
   "note": "Proved for fill, generate, transform (copy), copy_if, replace_if (replace). For reduce and what is built on it, transform_reduce, inner_product, iota and scans the claim is false (C141_count_false): every call writes the captured variable, so ended calls have raced exactly if there were two of them (the _race_partial theorems). C141_sequential_*: ending each call before the next gives the result of Model/Contexts."
  },
  {
   "property": "C142",
   "status": "partial",
   "theorems": [
    "Kwk.C142_used_partial",
    "Kwk.C142_meaning",
    "Kwk.C142_otherwise",
    "Kwk.C142_for_each_partial",
    "Kwk.C142_transform_partial",
    "Kwk.C142_other_contexts",
    "Kwk.C142_qualified_false",
    "Kwk.C142_const_false",
    "Kwk.C142_statement_false"
   ],
   "note": "The full claim is false (C142_statement_false): reduce(ctx, in, f), reduce(ctx, in), copy and for_each_index pass the call on by kwk::name(...), which never finds the user's version (C142_qualified_false); a version that takes my_context const& loses to the library's Context& for contexts that are not const (C142_const_false). C142_used_partial and the for_each/transform theorems are equivalences; C142_meaning, C142_otherwise, C142_other_contexts: same objects, everything else unchanged."
  },
  {
   "property": "C143",
   "status": "partial",
   "theorems": [
    "Kwk.C143_same_partial",
    "Kwk.C143_shape_partial",
    "Kwk.C143_constructor",
    "Kwk.C143_own_axes",
    "Kwk.C143_taken_partial",
    "Kwk.C143_constraint_partial",
    "Kwk.C143_constraint_false",
    "Kwk.C143_named_false",
    "Kwk.C143_conversion_false",
    "Kwk.C143_typed_false",
    "Kwk.C143_statement_false",
    "Kwk.C143_named_values",
    "Kwk.C143_named_taken",
    "Kwk.C143_mixed_values",
    "Kwk.C143_dimension",
    "Kwk.C143_typed_constants"
   ],
   "note": "The full claim is false (C143_statement_false): of_size(width = u) does not compile (C143_named_false); a type with both overloads that does not convert to std::size_t is refused everywhere (C143_conversion_false); double passes the constraint of the constructor of shape<_> and does not compile (C143_constraint_false); of_size<T> does not convert objects of the user's types to T (C143_typed_false). C143_same_partial: otherwise such objects equal the library's extents in every list; C143_taken_partial and C143_constraint_partial are the exact conditions. In the constructors objects of the user's types can also stand under names: C143_named_values, C143_mixed_values; C143_named_taken says exactly when. C143_dimension: types whose dimension depends on the default; C143_typed_constants: constants in of_size<T>."
  },
  {
   "property": "C144",
   "status": "partial",
   "theorems": [
    "Kwk.C144_static",
    "Kwk.C144_static_balance",
    "Kwk.C144_dynamic_partial",
    "Kwk.C144_exact_partial",
    "Kwk.C144_no_constructor_false",
    "Kwk.C144_statement_false"
   ],
   "note": "The full claim is false for run-time shaped tables (C144_statement_false): heap_block casts raw memory to value_type* and assigns to it, and its deleter only deallocates, so no constructor and no destructor of an element ever runs (C144_no_constructor_false). C144_dynamic_partial: element types that begin and end implicitly are fine. C144_exact_partial: for the other types the exact condition is that no element is ever given a value. C144_static and C144_static_balance: tables of fully static types are right for every element type."
  },
  {
   "property": "C145",
   "status": "proved",
   "theorems": [
    "Kwk.C145_view",
    "Kwk.C145_slice",
    "Kwk.C145_through",
    "Kwk.C145_fate",
    "Kwk.C145_stays",
    "Kwk.C145_ended",
    "Kwk.C145_values",
    "Kwk.C145_written"
   ],
   "note": "Proved for programs of table operations and algorithms on run-time shaped tables (C116's programs). C145_view, C145_slice, C145_through: what views, slices and containers made from them look at. C145_fate: every program that runs has exactly one outcome for the elements of a table. C145_stays: while the elements exist, the view and the table that has them read and write the same elements. C145_ended: afterwards every access faults, for good. C145_written: an assignment to an element of the table is seen at exactly the positions of the view that show it. C145_values: values change only by assignments to that table. Simplification: the allocator of the model never hands out an address twice, so that a dangling access is an error of its own kind."
  },
  {
   "property": "C146",
   "status": "partial",
   "theorems": [
    "Kwk.C146_index_partial",
    "Kwk.C146_slices_exact_partial",
    "Kwk.C146_checked_exact_partial",
    "Kwk.C146_reverse_exact_partial",
    "Kwk.C146_checked_false",
    "Kwk.C146_slices_false",
    "Kwk.C146_reverse_false",
    "Kwk.C146_false"
   ],
   "note": "C146_statement is the full property; C146_false, C146_checked_false, C146_slices_false and C146_reverse_false refute each of its parts. C146_index_partial: positions, for coordinates of all types, in unchecked builds; in checked builds if the type of each coordinate represents the extent. C146_slices_exact_partial: with bounds, steps and coordinates of all types computed with as signed numbers, a slice shows the selected element exactly if step times coordinate fits its type along the last axis. C146_checked_exact_partial: exactly which slices checked builds refuse. C146_reverse_exact_partial: the reversed view is right exactly for less than 2^31 elements. Missing (false in the code): int positions in long stepped slices, checked builds with narrow coordinates, reversed views of 2^31 elements or more."
  },
  {
   "property": "C147",
   "status": "partial",
   "theorems": [
    "Kwk.C147_container",
    "Kwk.C147_slice_partial",
    "Kwk.C147_positive_steps_partial",
    "Kwk.C147_slice_long_exact_partial",
    "Kwk.C147_unsigned_int_false",
    "Kwk.C147_long_false",
    "Kwk.C147_false"
   ],
   "note": "C147_statement is the full property; C147_false, C147_unsigned_int_false and C147_long_false refute its parts on slices. C147_container: containers of all types, with less than 2^31 elements or with 64-bit extents and less than 2^63 elements (this part is proved in full). C147_slice_partial: slices of containers of less than 2^31 elements if no number has the type unsigned int. C147_positive_steps_partial: slices in positive steps for all types. C147_slice_long_exact_partial: for 64-bit extents, right exactly if step times last coordinate fits its type along the last axis, which can only fail if a length is given. Missing (false in the code): unsigned int in backward slices or with end, long slices given by a narrow length."
  },
  {
   "property": "C148",
   "status": "proved",
   "theorems": [
    "Kwk.C148_reading",
    "Kwk.C148_pairs",
    "Kwk.C148_searching",
    "Kwk.C148_writing",
    "Kwk.C148_transform",
    "Kwk.C148_copy",
    "Kwk.C148_scans"
   ],
   "note": "C148_reading: the reductions and predicates. C148_pairs: pairwise reductions of containers of different types. C148_searching: the searches; positions are stored in ints, so they are exact if no extent is above 2^31. C148_writing: fill, replace_if, generate, iota. C148_transform, C148_copy, C148_scans: from inputs to an output which they are or are apart from (exclusive scan: apart)."
  },
  {
   "property": "C149",
   "status": "partial",
   "theorems": [
    "Kwk.C149_slice_partial",
    "Kwk.C149_positive_steps_partial",
    "Kwk.C149_slice_long_partial",
    "Kwk.C149_copy_of_slice_partial",
    "Kwk.C149_reverse_partial",
    "Kwk.C149_unsigned_int_false",
    "Kwk.C149_false",
    "Kwk.C149_reverse_long"
   ],
   "note": "C149_statement is the full property; C149_false and C149_unsigned_int_false refute it for unsigned int, C149_reverse_long shows where reversed views of more than 2^31 elements start. C149_slice_partial: slices of less than 2^31 elements if no number has the type unsigned int. C149_positive_steps_partial: all types, positive steps. C149_slice_long_partial: 64-bit extents, if step times last coordinate fits its type along the last axis (C147_long_false shows what happens otherwise). C149_copy_of_slice_partial: copies of slices. C149_reverse_partial: reverse and find_last_if for less than 2^31 elements without unsigned int. Missing (false in the code): unsigned int in backward slices and reversed views, long slices given by a narrow length, long reversed views. Both build modes: in checked builds first indexes written as numbers must have types that represent the extents (C102_checked_exact_partial says what happens otherwise), and long extents be below 2^31."
  },
  {
   "property": "C150",
   "status": "partial",
   "theorems": [
    "Kwk.C150_swap_exact_partial",
    "Kwk.C150_swap_partial",
    "Kwk.C150_copy_exact_partial",
    "Kwk.C150_copy_partial",
    "Kwk.C150_assign_exact_partial",
    "Kwk.C150_assign_partial",
    "Kwk.C150_from_exact_partial",
    "Kwk.C150_from_partial",
    "Kwk.C150_deduced_partial",
    "Kwk.C150_assign_from_exact_partial",
    "Kwk.C150_assign_from_partial",
    "Kwk.C150_false",
    "Kwk.C150_label_false",
    "Kwk.C150_strides_false"
   ],
   "note": "C150_false (one run-time extent), C150_label_false (labels) and C150_strides_false (given strides; other type of strides) refute the full property, which is C150Claim for all types. Exact conditions on the type for compiling: C150_swap_exact_partial, C150_copy_exact_partial, C150_assign_exact_partial, C150_from_exact_partial (construction from a container of another type), C150_assign_from_exact_partial. Effects when it compiles: C150_swap_partial (label, elements, shape, strides are exchanged), C150_copy_partial and C150_assign_partial (exactly when the copy shows what the original shows), C150_from_partial and C150_assign_from_partial (what a container made of another one shows). C150_deduced_partial: table{view} and view{table} compile for all types; what they show. Values of a shape converted from another type are the subject of C18 and C114."
  },
  {
   "property": "C151",
   "status": "partial",
   "theorems": [
    "Kwk.C151_accepted_exact_partial",
    "Kwk.C151_accepted_lvalues",
    "Kwk.C151_elements_exact_partial",
    "Kwk.C151_start_exact_partial",
    "Kwk.C151_shape_partial",
    "Kwk.C151_reads_partial",
    "Kwk.C151_room_exact_partial",
    "Kwk.C151_ranges",
    "Kwk.C151_const_array",
    "Kwk.C151_const_false",
    "Kwk.C151_rvalue_false",
    "Kwk.C151_empty_false"
   ],
   "note": "The full claim is false: a const std::array (also inside of other arrays) is taken for one element whose type is the array, so that a container of explicit size over it reads outside (C151_const_false, C151_const_array); rvalue C arrays do not compile (C151_rvalue_false); std::array<T,0> is undefined (C151_empty_false). Exact conditions: C151_accepted_exact_partial, C151_elements_exact_partial, C151_start_exact_partial, C151_room_exact_partial. Proved: lvalues (C151_accepted_lvalues), ranges and pointers (C151_ranges), elements and extents where no std::array is const (C151_reads_partial, C151_shape_partial)."
  },
  {
   "property": "C152",
   "status": "partial",
   "theorems": [
    "Kwk.C152_build_exact_partial",
    "Kwk.C152_order",
    "Kwk.C152_literals",
    "Kwk.C152_stateless",
    "Kwk.C152_relabel_exact_partial",
    "Kwk.C152_string_false",
    "Kwk.C152_any_allocator_false",
    "Kwk.C152_relabel_false"
   ],
   "note": "The full claim is false: std::string as a label (C152_string_false), also with relabel (C152_relabel_false), and any_allocator as an allocator (C152_any_allocator_false) are accepted by the constraints, and the container does not compile. Exact conditions: C152_build_exact_partial, C152_relabel_exact_partial. Proved in full: literals (C152_literals), allocators without state (C152_stateless), independence of order (C152_order)."
  },
  {
   "property": "C153",
   "status": "partial",
   "theorems": [
    "Kwk.C153_missing_exact_partial",
    "Kwk.C153_missing_empty",
    "Kwk.C153_reject_exact_partial",
    "Kwk.C153_missing_false",
    "Kwk.C153_static_false"
   ],
   "note": "The full claim is false: missing run-time axes are 0, not 1 (C153_missing_false), and contradictions are not noticed by shapes without run-time axes (C153_static_false). Exact conditions: C153_missing_exact_partial, C153_reject_exact_partial; C153_missing_empty: with a missing axis there are no positions."
  },
  {
   "property": "C154",
   "status": "partial",
   "theorems": [
    "Kwk.C154_error_partial",
    "Kwk.C154_container_partial",
    "Kwk.C154_floor",
    "Kwk.C154_grid_partial",
    "Kwk.C154_integer",
    "Kwk.C154_exact_partial",
    "Kwk.C154_false",
    "Kwk.C154_cut_false"
   ],
   "note": "Floor interpolation is proved in full (C154_floor), and so is the linear one at points whose coordinates are integers below the largest int (C154_integer). Linear interpolation is proved for points whose coordinates have integral parts below the largest int (C154_error_partial, C154_container_partial, C154_grid_partial). The full claim is false: integral parts go through int, so that a 64-bit coordinate 2147483647 overflows (C154_false) and a coordinate 2^32 is cut to 0 and gets the weights 1 - 2^32 and 2^32 (C154_cut_false). Exact condition at the grid points: C154_exact_partial. Overflow and underflow of floating-point results and fused multiply-add are left out of the model."
  },
  {
   "property": "C155",
   "status": "proved",
   "theorems": [
    "Kwk.C155_lower_bound",
    "Kwk.C155_upper_bound",
    "Kwk.C155_binary_search",
    "Kwk.C155_integers"
   ],
   "note": "Proved in full: on any contents the bounds are places where the answer of the function changes (C155_lower_bound, C155_upper_bound), binary_search has no false positives (C155_binary_search), also for integers of different types whenever they compare by value (C155_integers)."
  },
  {
   "property": "C156",
   "status": "partial",
   "theorems": [
    "Kwk.C156_elements",
    "Kwk.C156_exact_partial",
    "Kwk.C156_false"
   ],
   "note": "False as stated (C156_false): ctx.in, ctx.out and ctx.inout and the call operator of containers are not constexpr. Exact set of the constant calls: C156_exact_partial. The number of elements taken is proved in full (C156_elements). Taken from the standard: a constant expression may only call constexpr functions."
  },
  {
   "property": "C157",
   "status": "partial",
   "theorems": [
    "Kwk.C157_outcome",
    "Kwk.C157_effect",
    "Kwk.C157_exception_partial",
    "Kwk.C157_strong",
    "Kwk.C157_programs",
    "Kwk.C157_balance",
    "Kwk.C157_statement_false"
   ],
   "note": "False as stated (C157_statement_false): container(container_kind), container::swap and stack_block::swap are noexcept, so an element that throws in a default construction, in a swap, or in the second half of a copy assignment ends the program. C157_outcome: the exact condition for each of the three outcomes. C157_exception_partial and C157_strong: an exception that reaches the caller comes from the first call that throws and leaves all tables as they were, but for the elements a move had moved. C157_effect: operations of which nothing throws. C157_programs and C157_balance: lifetimes in all programs that are not terminated. Simplifications: destructors do not throw, and an operation of an element that throws leaves its operands as they were."
  },
  {
   "property": "C158",
   "status": "partial",
   "theorems": [
    "Kwk.C158_same",
    "Kwk.C158_quiet",
    "Kwk.C158_own",
    "Kwk.C158_explained_partial",
    "Kwk.C158_boost",
    "Kwk.C158_break",
    "Kwk.C158_iff",
    "Kwk.C158_not"
   ],
   "note": "The full statement C158_statement is false (C158_not). C158_iff gives the exact condition: reports of the library's own configuration and no given number of a run-time 8-bit type (these are shown as characters). C158_boost: with Boost's handlers the handler gets the same details without the header, because the string stream is opened with its put position at 0; a handler that returns leads to undefined behaviour."
  },
  {
   "property": "C159",
   "status": "proved",
   "theorems": [
    "Kwk.C159_writing",
    "Kwk.C159_replace_if",
    "Kwk.C159_scans",
    "Kwk.C159_reading",
    "Kwk.C159_searches",
    "Kwk.C159_alias"
   ],
   "note": "Parameters, captured variables and local variables are objects of their own in the model. C159_alias needs nothing of the containers: outcomes agree, undefined behaviour included. The sequences written and the answers are those of C117 with the values held before the call; the hypotheses on the containers (distinct elements, the order for searches, default strides for find_last) are those of C117."
  },
  {
   "property": "C160",
   "status": "partial",
   "theorems": [
    "Kwk.C160_references_partial",
    "Kwk.C160_copies",
    "Kwk.C160_values",
    "Kwk.C160_writing",
    "Kwk.C160_find_last_partial",
    "Kwk.C160_not",
    "Kwk.C160_iff"
   ],
   "note": "The code disagrees: all_of, any_of, none_of, count_if, find_if_not and find_last_if_not pass every element through a lambda with a parameter auto, so that the function is given copies (C160_not). C160_copies and C160_values say exactly what is copied and given, C160_iff that the answers are right for exactly the functions that say the same of an element and of its copy. find_if, find_last_if, reduce, for_each, replace_if, copy_if and transform give the elements themselves (C160_references_partial, C160_find_last_partial, C160_writing). The copy constructor of the elements is taken to give an equal value."
  },
  {
   "property": "C161",
   "status": "partial",
   "theorems": [
    "Kwk.C161_copies",
    "Kwk.C161_find_last",
    "Kwk.C161_find_first_of",
    "Kwk.C161_iff",
    "Kwk.C161_not",
    "Kwk.C161_which_partial"
   ],
   "note": "The code disagrees: of the algorithms that only read, find_if, find_last_if, reduce with a function and for_each accept elements without copy constructor, the others do not (C161_not, C161_which_partial). C161_iff ties what compiles to what calls do: an algorithm compiles for such elements exactly if no call of it copies an element; C161_copies bounds the copies of a call. C161_find_last and C161_find_first_of give the answers and the exact copies of these two. The user's function takes references. For the searches in ordered containers see C163."
  },
  {
   "property": "C162",
   "status": "partial",
   "theorems": [
    "Kwk.C162_not",
    "Kwk.C162_which_partial",
    "Kwk.C162_progress_partial",
    "Kwk.C162_const_partial",
    "Kwk.C162_find_last_if_not_partial",
    "Kwk.C162_rejected",
    "Kwk.C162_writing_partial",
    "Kwk.C162_generate_partial",
    "Kwk.C162_transform",
    "Kwk.C162_searches_partial",
    "Kwk.C162_binary_search",
    "Kwk.C162_binary_search_not",
    "Kwk.C162_sums",
    "Kwk.C162_scans",
    "Kwk.C162_scans_one"
   ],
   "note": "The code disagrees: function objects with a non-const call operator compile for find_if, find_last_if, reduce, transform and the ordered searches only, as the others capture a copy in a lambda that is not mutable (C162_not, C162_which_partial, C162_rejected); and binary_search asks two objects, the last question going to one that has answered nothing yet (C162_binary_search, with the witness C162_binary_search_not), which is harmless if the answers do not depend on the state (C162_searches_partial). C162_progress_partial, C162_const_partial, C162_find_last_if_not_partial, C162_writing_partial, C162_generate_partial and C162_transform give what is computed and in which state the caller's object is left. C162_sums, C162_scans and C162_scans_one do this for the numeric algorithms, for inputs apart from the output. for_each is the matter of C73."
  },
  {
   "property": "C163",
   "status": "partial",
   "theorems": [
    "Kwk.C163_bounds",
    "Kwk.C163_binary_search",
    "Kwk.C163_plain_partial",
    "Kwk.C163_iff",
    "Kwk.C163_not",
    "Kwk.C163_which_partial"
   ],
   "note": "The code disagrees: without an order given, lower_bound, upper_bound and binary_search compare with a lambda that takes its arguments by value, so that they do not compile for elements without copy constructor (C163_not, C163_which_partial) and copy each element they look at (C163_plain_partial). With an order they give it the elements themselves and copy none (C163_bounds, C163_binary_search). The theorems include the answers and the number of questions, for containers that are partitioned by the order, which may look at addresses. C163_iff ties what compiles to what calls do. The value looked for is of a type of its own that can be copied."
  },
  {
   "property": "C164",
   "status": "partial",
   "theorems": [
    "Kwk.C164_scans_partial",
    "Kwk.C164_bounds_partial",
    "Kwk.C164_binary_search_partial",
    "Kwk.C164_iff",
    "Kwk.C164_not",
    "Kwk.C164_which_partial"
   ],
   "note": "The code disagrees: every version without a context passes its parameter on as a variable, count and replace capture it by copy, binary_search passes it on to lower_bound, and the order of the library takes its arguments by value, so these calls do not compile for values that can only be moved (C164_not, C164_which_partial). C164_scans_partial, C164_bounds_partial and C164_binary_search_partial give the answers with the number of copies; C164_iff ties what compiles to what calls do. Moves are not counted; the value has the type of the elements; functions given by the user take references."
  },
  {
   "property": "C165",
   "status": "partial",
   "theorems": [
    "Kwk.C165_reading_partial",
    "Kwk.C165_find_last_partial",
    "Kwk.C165_reduce_partial",
    "Kwk.C165_writing_partial",
    "Kwk.C165_for_each_partial",
    "Kwk.C165_orders_partial",
    "Kwk.C165_sums_partial",
    "Kwk.C165_scans_partial",
    "Kwk.C165_iff",
    "Kwk.C165_not",
    "Kwk.C165_which_partial"
   ],
   "note": "The code disagrees: the versions without a context pass their parameter on as a variable, all_of, any_of, none_of, count_if, find_if_not, find_last_if_not, copy_if, generate and replace_if capture the function by copy, find_last_if, reduce without an initial value, binary_search, transform_reduce with one function, exclusive_scan and inclusive_scan pass it on, and for_each over a shape copies it in the context (C165_not, C165_which_partial). C165_reading_partial, C165_find_last_partial, C165_reduce_partial, C165_writing_partial, C165_for_each_partial, C165_orders_partial, C165_sums_partial and C165_scans_partial give the results with the number of copies; C165_iff ties what compiles to what calls do. Moves are not counted; return of a forwarding reference moves (C++20). Two functions of one call are given in the same way."
  },
  {
   "property": "C166",
   "status": "partial",
   "theorems": [
    "Kwk.C166_reduce_partial",
    "Kwk.C166_sums_partial",
    "Kwk.C166_writing_partial",
    "Kwk.C166_iota_partial",
    "Kwk.C166_scans_partial",
    "Kwk.C166_which_partial",
    "Kwk.C166_not"
   ],
   "note": "The code disagrees: the versions without a context pass the value on as a variable, as do those that leave out functions; the sums of the library take the accumulated value by copy; the scans start from a copy of the initial value; replace_if captures the new value by copy (C166_not, C166_which_partial: only reduce with an initial value, transform_reduce and inner_product with two functions, fill and iota, each with a context, and iota without a value make no needless copy). C166_reduce_partial, C166_sums_partial, C166_writing_partial, C166_iota_partial and C166_scans_partial give the results with the exact number of copies. Functions of the user take references; moves are not counted; value++ counts as one copy."
  }
 ]
}