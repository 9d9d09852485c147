{
 "claims": [
  {
   "property": "C01",
   "status": "proved",
   "theorems": [
    "Fimex.SB.C01_raising_call_has_no_effect",
    "Fimex.SB.C01_region_inside_after_any_history",
    "Fimex.SB.C01_region_is_last_accepted",
    "Fimex.SB.C01_wraparound_is_accepted"
   ],
   "note": ""
  },
  {
   "property": "C02",
   "status": "proved",
   "theorems": [
    "Fimex.SB.C02_unset_is_complement_of_accepted",
    "Fimex.SB.C02_names_in_shape_order",
    "Fimex.SB.C02_repeated_name_raises"
   ],
   "note": ""
  },
  {
   "property": "C03",
   "status": "proved",
   "theorems": [
    "Fimex.Slice.C03_slice_is_hyperrectangle",
    "Fimex.Slice.C03_slice_scalar",
    "Fimex.Slice.C03_slice_depends_only_on_region"
   ],
   "note": ""
  },
  {
   "property": "C04",
   "status": "proved",
   "theorems": [
    "Fimex.Slice.C04_slice_rejects_or_succeeds",
    "Fimex.Slice.C04_wraparound_is_accepted"
   ],
   "note": ""
  },
  {
   "property": "C05",
   "status": "proved",
   "theorems": [
    "Fimex.Slice.C05_slice_of_slice",
    "Fimex.Slice.C05_full_slice_is_identity"
   ],
   "note": ""
  },
  {
   "property": "C06",
   "status": "proved",
   "theorems": [
    "Fimex.DataCopy.C06_copy_touches_only_range",
    "Fimex.DataCopy.C06_start_beyond_target_is_ub",
    "Fimex.DataCopy.C06_createDataSlice",
    "Fimex.DataCopy.C06_createDataSlice_defined_iff",
    "Fimex.DataCopy.C06_setFromRange"
   ],
   "note": ""
  },
  {
   "property": "C07",
   "status": "proved",
   "theorems": [
    "Fimex.Scale.C07_float_target_keeps_physical_value",
    "Fimex.Scale.C07_int_target_within_half_step",
    "Fimex.Scale.C07_int64_target_is_corrupted",
    "Fimex.Scale.C07_out_of_range_wraps",
    "Fimex.Scale.C07_nan_with_equal_encoding_is_undefined"
   ],
   "note": ""
  },
  {
   "property": "C08",
   "status": "proved",
   "theorems": [
    "Fimex.Scale.C08_scaled_unit_is_scale_then_convert",
    "Fimex.Scale.C08_linear_converters_are_faithful",
    "Fimex.Scale.C08_curved_converter_taken_for_linear"
   ],
   "note": ""
  },
  {
   "property": "C09",
   "status": "proved",
   "theorems": [
    "Fimex.DataIndex.C09_getPos_is_flat_position",
    "Fimex.DataIndex.C09_index_bijective",
    "Fimex.DataIndex.C09_short_index_is_zero_padded",
    "Fimex.DataIndex.C09_long_index",
    "Fimex.DataIndex.C09_overloads_agree",
    "Fimex.DataIndex.C09_setDims"
   ],
   "note": ""
  },
  {
   "property": "C10",
   "status": "proved",
   "theorems": [
    "Fimex.ArrayLoop.C10_loop_visits_each_combination_once",
    "Fimex.ArrayLoop.C10_group_building_is_safe",
    "Fimex.ArrayLoop.C10_common_block",
    "Fimex.ArrayLoop.C10_added_dims_wellformed",
    "Fimex.ArrayLoop.C10_constructed_dims",
    "Fimex.ArrayLoop.C10_constructor_accepts_zero_last_length",
    "Fimex.ArrayLoop.C10_changed_dims"
   ],
   "note": ""
  },
  {
   "property": "C11",
   "status": "proved",
   "theorems": [
    "Fimex.Cdm.C11_names_unique_after_any_history",
    "Fimex.Cdm.C11_adding_existing_name_raises"
   ],
   "note": ""
  },
  {
   "property": "C12",
   "status": "partial",
   "theorems": [
    "Fimex.Cdm.C12_rename_keeps_everything_else_partial",
    "Fimex.Cdm.C12_rename_failure",
    "Fimex.Cdm.C12_rename_missing_destroys",
    "Fimex.Cdm.C12_rename_to_itself_destroys"
   ],
   "note": "Full property fails for renaming a missing variable and for renaming to the same name (both proved as violations); proved for existing variables and two different names, and the exact effect of the failing cases."
  },
  {
   "property": "C13",
   "status": "proved",
   "theorems": [
    "Fimex.Cdm.C13_rename_dimension_consistent",
    "Fimex.Cdm.C13_refused_rename_changes_nothing",
    "Fimex.Cdm.C13_rename_to_itself_destroys",
    "Fimex.Cdm.C13_overwrite_changes_length"
   ],
   "note": ""
  },
  {
   "property": "C14",
   "status": "proved",
   "theorems": [
    "Fimex.Cdm.C14_remove_dimension",
    "Fimex.Cdm.C14_shapes_exist_after_any_history",
    "Fimex.Cdm.C14_unlimited_dimension",
    "Fimex.Cdm.C14_second_unlimited_ignored"
   ],
   "note": ""
  },
  {
   "property": "C15",
   "status": "proved",
   "theorems": [
    "Fimex.Cdm.C15_set_attribute",
    "Fimex.Cdm.C15_add_attribute",
    "Fimex.Cdm.C15_remove_attribute",
    "Fimex.Cdm.C15_attribute_history"
   ],
   "note": ""
  },
  {
   "property": "C16",
   "status": "proved",
   "theorems": [
    "Fimex.Reader.C16_region_equals_slice_of_complete",
    "Fimex.Reader.C16_memory_and_fixed",
    "Fimex.Reader.C16_wrong_slice_size_raises",
    "Fimex.Reader.C16_getData_is_concatenation",
    "Fimex.Reader.C16_getData_missing_slice_is_indeterminate",
    "Fimex.Reader.C16_slice_from_memory",
    "Fimex.Reader.C16_memory_position_beyond_end"
   ],
   "note": ""
  },
  {
   "property": "C17",
   "status": "partial",
   "theorems": [
    "Fimex.Extractor.C17_extracted_values_partial",
    "Fimex.Extractor.C17_order_wrong_after_split",
    "Fimex.Extractor.C17_empty_request_reads_data"
   ],
   "note": "Fails when a dimension faster than a completely read one is reduced to non-consecutive positions (violation proved); proved in all other cases."
  },
  {
   "property": "C18",
   "status": "proved",
   "theorems": [
    "Fimex.Extractor.C18_chunks_cover_selection",
    "Fimex.Extractor.C18_chunks_are_maximal_runs"
   ],
   "note": ""
  },
  {
   "property": "C19",
   "status": "partial",
   "theorems": [
    "Fimex.Extractor.C19_reduction_partial",
    "Fimex.Extractor.C19_reduce_then_read",
    "Fimex.Extractor.C19_position_equal_to_length_accepted",
    "Fimex.Extractor.C19_second_reduction_relative_to_source"
   ],
   "note": "Position equal to the length is accepted and a second reduction counts from the source (violations proved); the exact acceptance rule is proved."
  },
  {
   "property": "C20",
   "status": "proved",
   "theorems": [
    "Fimex.Extractor.C20_positive_end",
    "Fimex.Extractor.C20_end_counted_from_back",
    "Fimex.Extractor.C20_reversed_range_wraps",
    "Fimex.Extractor.C20_too_negative_end_wraps",
    "Fimex.Extractor.C20_end_equal_to_length_accepted"
   ],
   "note": ""
  },
  {
   "property": "C21",
   "status": "proved",
   "theorems": [
    "Fimex.Extractor.C21_ascending_axis_range",
    "Fimex.Extractor.C21_descending_axis_range",
    "Fimex.Extractor.C21_descending_with_equal_start_loses_values"
   ],
   "note": ""
  },
  {
   "property": "C22",
   "status": "proved",
   "theorems": [
    "Fimex.Extractor.C22_box_keeps_exactly_rows_and_columns",
    "Fimex.Extractor.C22_invalid_boxes_raise",
    "Fimex.Extractor.C22_undefined_position_counts_as_inside"
   ],
   "note": ""
  },
  {
   "property": "C23",
   "status": "proved",
   "theorems": [
    "Fimex.Aggregation.C23_position_maps_to_reader",
    "Fimex.Aggregation.C23_position_reads_concatenation",
    "Fimex.Aggregation.C23_new_dimension_position_is_reader",
    "Fimex.Aggregation.C23_new_dimension_fill_has_wrong_size"
   ],
   "note": ""
  },
  {
   "property": "C24",
   "status": "proved",
   "theorems": [
    "Fimex.Aggregation.C24_region_equals_slice_of_concatenation"
   ],
   "note": ""
  },
  {
   "property": "C25",
   "status": "partial",
   "theorems": [
    "Fimex.Aggregation.C25_first_provider_partial",
    "Fimex.Aggregation.C25_incompatible_provider_is_skipped",
    "Fimex.Aggregation.C25_served_variables_fit_union_dimensions"
   ],
   "note": "Datasets with conflicting dimensions are skipped (proved); first provider proved when the dimensions agree."
  },
  {
   "property": "C26",
   "status": "proved",
   "theorems": [
    "Fimex.Text.C26_tokenize_is_words",
    "Fimex.Text.C26_tokens_drop_only_delimiters",
    "Fimex.Text.C26_tokenize_of_join",
    "Fimex.Text.C26_split_any_is_pieces",
    "Fimex.Text.C26_join_of_split",
    "Fimex.Text.C26_split_of_join"
   ],
   "note": ""
  },
  {
   "property": "C27",
   "status": "partial",
   "theorems": [
    "Fimex.Text.C27_dots_expand_partial",
    "Fimex.Text.C27_progression",
    "Fimex.Text.C27_equal_numbers_never_end",
    "Fimex.Text.C27_dots_need_two_numbers",
    "Fimex.Text.C27_text_that_never_ends",
    "Fimex.Text.C27_trailing_dots_undefined",
    "Fimex.Text.C27_blank_after_dots_rejected"
   ],
   "note": "Equal numbers before the dots never end, trailing dots are undefined (violations proved); proved for two different numbers."
  },
  {
   "property": "C28",
   "status": "proved",
   "theorems": [
    "Fimex.Text.C28_index_addresses_string",
    "Fimex.Text.C28_equal_index_iff_equal_string",
    "Fimex.Text.C28_no_index_zero",
    "Fimex.Text.C28_index_zero_returned"
   ],
   "note": ""
  },
  {
   "property": "C29",
   "status": "proved",
   "theorems": [
    "Fimex.Time.C29_packed_form_decodes",
    "Fimex.Time.C29_comparison_is_calendar_order",
    "Fimex.Time.C29_special_values_are_extremes",
    "Fimex.Time.C29_year_4096_wraps",
    "Fimex.Time.C29_validity",
    "Fimex.Time.C29_minute_128_overwrites_year"
   ],
   "note": ""
  },
  {
   "property": "C30",
   "status": "proved",
   "theorems": [
    "Fimex.Time.C30_printed_time_parses_back",
    "Fimex.Time.C30_large_field_not_printable"
   ],
   "note": ""
  },
  {
   "property": "C31",
   "status": "proved",
   "theorems": [
    "Fimex.Interp.C31_position_search",
    "Fimex.Interp.C31_all_points",
    "Fimex.Interp.C31_single_value_axis_undefined",
    "Fimex.Interp.C31_longitude_positions",
    "Fimex.Interp.C31_full_circle_range"
   ],
   "note": ""
  },
  {
   "property": "C32",
   "status": "partial",
   "theorems": [
    "Fimex.Interp.C32_bilinear_partial",
    "Fimex.Interp.C32_reads_outside_the_field",
    "Fimex.Interp.C32_between_neighbours",
    "Fimex.Interp.C32_outside_undefined",
    "Fimex.Interp.C32_grid_point_partial",
    "Fimex.Interp.C32_grid_point_with_undefined_neighbour"
   ],
   "note": "Below the last row the code reads outside the field, undefined neighbours of weight zero spoil the value at a grid point (violations proved); proved otherwise."
  },
  {
   "property": "C33",
   "status": "proved",
   "theorems": [
    "Fimex.Interp.C33_nearest_neighbour",
    "Fimex.Interp.C33_cell_is_nearest",
    "Fimex.Interp.C33_far_position_wraps"
   ],
   "note": ""
  },
  {
   "property": "C34",
   "status": "proved",
   "theorems": [
    "Fimex.Interp.C34_linear",
    "Fimex.Interp.C34_between",
    "Fimex.Interp.C34_no_extrapolation",
    "Fimex.Interp.C34_weak_extrapolation",
    "Fimex.Interp.C34_constant_extrapolation",
    "Fimex.Interp.C34_equal_coordinates",
    "Fimex.Interp.C34_nearest",
    "Fimex.Interp.C34_log_endpoints",
    "Fimex.Interp.C34_log_between",
    "Fimex.Interp.C34_log_refuses"
   ],
   "note": ""
  },
  {
   "property": "C35",
   "status": "proved",
   "theorems": [
    "Fimex.Fill.C35_fill2d",
    "Fimex.Fill.C35_fill2d_single_row_undefined",
    "Fimex.Fill.C35_creepfill2d",
    "Fimex.Fill.C35_creepfillval2d",
    "Fimex.Fill.C35_creepfill2d_single_row_undefined",
    "Fimex.Fill.C35_default_not_used_without_defined_value",
    "Fimex.Fill.C35_negative_weight"
   ],
   "note": ""
  },
  {
   "property": "C36",
   "status": "proved",
   "theorems": [
    "Fimex.Interp.C36_bicubic",
    "Fimex.Interp.C36_bilinear",
    "Fimex.Interp.C36_nearest_neighbour",
    "Fimex.Interp.C36_last_cell_taken_for_invalid"
   ],
   "note": ""
  },
  {
   "property": "C37",
   "status": "partial",
   "theorems": [
    "Fimex.Interp.Forward.C37_forward_partial",
    "Fimex.Interp.Forward.C37_all_layers_repeat_first",
    "Fimex.Interp.Forward.C37_second_layer_repeats_first",
    "Fimex.Interp.Forward.C37_undefined_values_order"
   ],
   "note": "All layers repeat the first one (violation proved in general); proved for the first layer."
  },
  {
   "property": "C38",
   "status": "partial",
   "theorems": [
    "Fimex.Neighbours.C38_closest_distinct_partial",
    "Fimex.Neighbours.C38_closest_first_not_distinct",
    "Fimex.Neighbours.C38_neighbours_partial",
    "Fimex.Neighbours.C38_first_element_twice",
    "Fimex.Neighbours.C38_below_ascending_sequence"
   ],
   "note": "Value equal to the first element gives the first position twice (violation proved in general); proved when the first element differs from the value."
  },
  {
   "property": "C39",
   "status": "proved",
   "theorems": [
    "Fimex.TimeInterp.C39_bracketing_times",
    "Fimex.TimeInterp.C39_interpolated_slice",
    "Fimex.TimeInterp.C39_extrapolated_slice",
    "Fimex.TimeInterp.C39_slice_decisions",
    "Fimex.TimeInterp.C39_unordered_output_times",
    "Fimex.TimeInterp.C39_undefined_behaviour"
   ],
   "note": ""
  },
  {
   "property": "C40",
   "status": "proved",
   "theorems": [
    "Fimex.Smoothing.C40_smoothing",
    "Fimex.Smoothing.C40_edge_weights",
    "Fimex.Smoothing.C40_blend_everywhere",
    "Fimex.Smoothing.C40_widths",
    "Fimex.Smoothing.C40_edges_not_symmetric",
    "Fimex.Smoothing.C40_smoothed_slice",
    "Fimex.Smoothing.C40_missing_horizontal_dimension"
   ],
   "note": ""
  },
  {
   "property": "C41",
   "status": "partial",
   "theorems": [
    "Fimex.Overlay.C41_overlay",
    "Fimex.Overlay.C41_overlay_fill_values_partial",
    "Fimex.Overlay.C41_top_value_lost",
    "Fimex.Overlay.C41_overlay_scaled",
    "Fimex.Overlay.C41_short_top_undefined",
    "Fimex.Overlay.C41_choice_of_data"
   ],
   "note": "A defined top value equal to the base's fill value is lost (violation proved); proved for equal fill values, for scaled data, and elsewhere."
  },
  {
   "property": "C42",
   "status": "proved",
   "theorems": [
    "Fimex.MergeAxis.C42_extended_axis",
    "Fimex.MergeAxis.C42_refused",
    "Fimex.MergeAxis.C42_zero_step_never_ends"
   ],
   "note": ""
  },
  {
   "property": "C43",
   "status": "proved",
   "theorems": [
    "Fimex.Auxiliary.C43_auxiliary_closure",
    "Fimex.Auxiliary.C43_idempotent"
   ],
   "note": ""
  },
  {
   "property": "C44",
   "status": "proved",
   "theorems": [
    "Fimex.Shapes.C44_shapes_equal_up_to_ones"
   ],
   "note": ""
  },
  {
   "property": "C45",
   "status": "proved",
   "theorems": [
    "Fimex.Names.C45_fresh_dim_var_name",
    "Fimex.Names.C45_fresh_name",
    "Fimex.Names.C45_numbering_differs"
   ],
   "note": ""
  },
  {
   "property": "C46",
   "status": "proved",
   "theorems": [
    "Fimex.CoordSys.C46_axes_consistent",
    "Fimex.CoordSys.C46_setAxis",
    "Fimex.CoordSys.C46_find_axis",
    "Fimex.CoordSys.C46_find_axis_of_types",
    "Fimex.CoordSys.C46_raising_setAxis_loses_axis"
   ],
   "note": ""
  },
  {
   "property": "C47",
   "status": "partial",
   "theorems": [
    "Fimex.GridDef.C47_irreflexive_asymmetric",
    "Fimex.GridDef.C47_map_order_partial",
    "Fimex.GridDef.C47_mixed_modes_not_asymmetric",
    "Fimex.GridDef.C47_not_transitive",
    "Fimex.GridDef.C47_equivalence_not_transitive"
   ],
   "note": "Order is not asymmetric for mixed grids and not transitive within the tolerance (violations proved); proved for sets of grids compared the same way with separated starts."
  },
  {
   "property": "C48",
   "status": "proved",
   "theorems": [
    "Fimex.Tables.C48_native_round_trip",
    "Fimex.Tables.C48_native_reading",
    "Fimex.Tables.C48_ncml_round_trip",
    "Fimex.Tables.C48_ncml_reading",
    "Fimex.Tables.C48_ncml_char_is_no_type"
   ],
   "note": ""
  },
  {
   "property": "C49",
   "status": "proved",
   "theorems": [
    "Fimex.MinMax.C49_min_max_element",
    "Fimex.MinMax.C49_empty",
    "Fimex.MinMax.C49_minimize_maximize",
    "Fimex.MinMax.C49_minimaximize",
    "Fimex.MinMax.C49_minimaximize_empty_range"
   ],
   "note": ""
  },
  {
   "property": "C50",
   "status": "partial",
   "theorems": [
    "Fimex.Files.C50_scan_names",
    "Fimex.Files.C50_scan_paths_partial",
    "Fimex.Files.C50_siblings_get_wrong_paths",
    "Fimex.Files.C50_too_deep"
   ],
   "note": "Files listed after a directory are compared with a wrong path (violation proved); proved for file names, and for paths when nothing is listed after a directory."
  },
  {
   "property": "C51",
   "status": "proved",
   "theorems": [
    "Fimex.Files.C51_split_is_lossless",
    "Fimex.Files.C51_replace",
    "Fimex.Files.C51_join"
   ],
   "note": ""
  },
  {
   "property": "C52",
   "status": "proved",
   "theorems": [
    "Fimex.Processor.C52_accumulated_slices",
    "Fimex.Processor.C52_reads_leave_data_alone",
    "Fimex.Processor.C52_both_steps_corrupt_cache",
    "Fimex.Processor.C52_empty_slices_depend_on_history"
   ],
   "note": ""
  },
  {
   "property": "C53",
   "status": "proved",
   "theorems": [
    "Fimex.Processor.C53_differences",
    "Fimex.Processor.C53_inverts_accumulation",
    "Fimex.Processor.C53_accumulation_inverts",
    "Fimex.Processor.C53_undefined_values_spread",
    "Fimex.Processor.C53_chain_depends_on_history"
   ],
   "note": ""
  },
  {
   "property": "C54",
   "status": "proved",
   "theorems": [
    "Fimex.Quality.C54_masked_exactly",
    "Fimex.Quality.C54_other_sizes",
    "Fimex.Quality.C54_empty_status_undefined",
    "Fimex.Quality.C54_extreme_never_found",
    "Fimex.Quality.C54_highest_fails",
    "Fimex.Quality.C54_auto_configuration_undefined"
   ],
   "note": ""
  },
  {
   "property": "C55",
   "status": "proved",
   "theorems": [
    "Fimex.Tables.C55_longest_dividing_unit",
    "Fimex.Tables.C55_step_is_kept",
    "Fimex.Tables.C55_codes_and_texts",
    "Fimex.Tables.C55_round_trip"
   ],
   "note": ""
  },
  {
   "property": "C56",
   "status": "proved",
   "theorems": [
    "Fimex.Vertical.C56_sigma_round_trip",
    "Fimex.Vertical.C56_sigma_needs_difference",
    "Fimex.Vertical.C56_hybrid",
    "Fimex.Vertical.C56_omega_round_trip",
    "Fimex.Vertical.C56_barometric_round_trip",
    "Fimex.Vertical.C56_standard_atmosphere",
    "Fimex.Vertical.C56_pressure_falls",
    "Fimex.Vertical.C56_layers_add",
    "Fimex.Vertical.C56_saturation",
    "Fimex.Vertical.C56_humidity",
    "Fimex.Vertical.C56_dewpoint",
    "Fimex.Vertical.C56_virtual_temperature",
    "Fimex.Vertical.C56_ocean_range",
    "Fimex.Vertical.C56_short_input_undefined"
   ],
   "note": ""
  },
  {
   "property": "C57",
   "status": "partial",
   "theorems": [
    "Fimex.Tables.C57_method_names_partial",
    "Fimex.Tables.C57_unknown_names",
    "Fimex.Tables.C57_undef_min_unreachable"
   ],
   "note": "forward_undef_min selects another method (violation proved); proved for all other names, exhaustively."
  },
  {
   "property": "C58",
   "status": "proved",
   "theorems": [
    "Fimex.Writer.C58_every_cell_at_its_coordinate",
    "Fimex.Writer.C58_positions",
    "Fimex.Writer.C58_misfit_raises_after_writing",
    "Fimex.Writer.C58_longer_input_shape_undefined",
    "Fimex.Writer.C58_shorter_input_shape_accepted",
    "Fimex.Writer.C58_translation_without_slices_raises",
    "Fimex.Writer.C58_translated_dimensions",
    "Fimex.Writer.C58_translated_dimension_must_match"
   ],
   "note": ""
  },
  {
   "property": "C59",
   "status": "proved",
   "theorems": [
    "Fimex.Interp.Undefined.C59_nan_and_back",
    "Fimex.Interp.Undefined.C59_float_round_trip",
    "Fimex.Interp.Undefined.C59_integer_round_trip",
    "Fimex.Interp.Undefined.C59_double_is_rounded",
    "Fimex.Interp.Undefined.C59_float_data_of_reader_changed",
    "Fimex.Interp.Undefined.C59_large_integers_change",
    "Fimex.Interp.Undefined.C59_integer_without_fill_undefined"
   ],
   "note": ""
  },
  {
   "property": "C60",
   "status": "proved",
   "theorems": [
    "Fimex.Longitude.C60_normalised",
    "Fimex.Longitude.C60_two_normal_forms",
    "Fimex.Longitude.C60_absorbed_never_ends"
   ],
   "note": ""
  },
  {
   "property": "C61",
   "status": "proved",
   "theorems": [
    "Fimex.Files.C61_precedence",
    "Fimex.Files.C61_cases_complete",
    "Fimex.Files.C61_short_file_not_recognised"
   ],
   "note": ""
  },
  {
   "property": "C62",
   "status": "proved",
   "theorems": [
    "Fimex.Scale.C62_scaled_write_back_restores_packed",
    "Fimex.Scale.C62_integer_typed_data_is_undefined"
   ],
   "note": ""
  },
  {
   "property": "C63",
   "status": "proved",
   "theorems": [
    "Fimex.Cdm.C63_queries_never_stale",
    "Fimex.Cdm.C63_edit_by_reference_is_stale"
   ],
   "note": ""
  },
  {
   "property": "C64",
   "status": "proved",
   "theorems": [
    "Fimex.Cdm.C64_find_variables"
   ],
   "note": ""
  },
  {
   "property": "C65",
   "status": "proved",
   "theorems": [
    "Fimex.Text.C65_trim_removes_outer_whitespace",
    "Fimex.Text.C65_starts_with",
    "Fimex.Text.C65_ends_with",
    "Fimex.Text.C65_regex_escape_quotes"
   ],
   "note": ""
  },
  {
   "property": "C66",
   "status": "partial",
   "theorems": [
    "Fimex.Shapes.C66_compatible_shapes_partial",
    "Fimex.Shapes.C66_left_over_dimension_accepted"
   ],
   "note": "A dimension left over at the end of one shape is accepted (violation proved); proved up to the end of the shorter list, and acceptance of all matching shapes."
  },
  {
   "property": "C67",
   "status": "proved",
   "theorems": [
    "Fimex.Files.Chunks.C67_stream_is_prefix",
    "Fimex.Files.Chunks.C67_stream_reaches_end",
    "Fimex.Files.Chunks.C67_http_buffer_safe",
    "Fimex.Files.Chunks.C67_http_request_bounds",
    "Fimex.Files.Chunks.C67_short_response_accepted"
   ],
   "note": ""
  },
  {
   "property": "C68",
   "status": "partial",
   "theorems": [
    "Fimex.Text.AxisSpec.C68_time_sections",
    "Fimex.Text.AxisSpec.C68_axis_sections",
    "Fimex.Text.AxisSpec.C68_relative_values",
    "Fimex.Text.AxisSpec.C68_place_minus",
    "Fimex.Text.AxisSpec.C68_time_minus_is_zero",
    "Fimex.Text.AxisSpec.C68_number_cut",
    "Fimex.Text.AxisSpec.C68_final_is_last_multiple",
    "Fimex.Text.AxisSpec.C68_zero_is_start_partial",
    "Fimex.Text.AxisSpec.C68_zero_is_not_first_multiple",
    "Fimex.Text.AxisSpec.C68_final_after_negative_end",
    "Fimex.Text.AxisSpec.C68_relative_progression",
    "Fimex.Text.AxisSpec.C68_large_quotient_undefined"
   ],
   "note": "x-d in times gives zero, relative zero is not the first multiple, documented unit is refused (violations proved); everything else proved."
  },
  {
   "property": "C69",
   "status": "proved",
   "theorems": [
    "Fimex.SB.CS.C69_calls_touch_their_axes",
    "Fimex.SB.CS.C69_one_reference_time",
    "Fimex.SB.CS.C69_time_variable_slice",
    "Fimex.SB.CS.C69_time_variable_missing",
    "Fimex.SB.CS.C69_axis_types",
    "Fimex.SB.CS.C69_case",
    "Fimex.SB.CS.C69_raising_call_may_have_an_effect"
   ],
   "note": ""
  },
  {
   "property": "C70",
   "status": "partial",
   "theorems": [
    "Fimex.Ncml.C70_variables_move",
    "Fimex.Ncml.C70_missing_name_raises",
    "Fimex.Ncml.C70_read_from_original_partial",
    "Fimex.Ncml.C70_chain_reads_wrong_variable",
    "Fimex.Ncml.C70_own_name_removes",
    "Fimex.Ncml.C70_dimensions_partial",
    "Fimex.Ncml.C70_chain_of_dimensions",
    "Fimex.Ncml.C70_attribute_partial",
    "Fimex.Ncml.C70_attribute_absent",
    "Fimex.Ncml.C70_attribute_not_renamed",
    "Fimex.Ncml.C70_attribute_wrong_one_renamed",
    "Fimex.Ncml.C70_request",
    "Fimex.Ncml.C70_request_case",
    "Fimex.Ncml.C70_chain_cuts_dimension"
   ],
   "note": "Chains of renames read the wrong variable or cut a dimension, an attribute rename may hit another attribute (violations proved); proved without chains and when the new attribute name is not in use before the old one."
  },
  {
   "property": "C71",
   "status": "proved",
   "theorems": [
    "Fimex.Ncml.C71_split_marker",
    "Fimex.Ncml.C71_join_of_split",
    "Fimex.Ncml.C71_split_of_join",
    "Fimex.Ncml.C71_empty_marker_never_ends",
    "Fimex.Ncml.C71_shape_reversed",
    "Fimex.Ncml.C71_number_of_values",
    "Fimex.Ncml.C71_start_increment",
    "Fimex.Ncml.C71_list_of_values",
    "Fimex.Ncml.C71_ambiguous_values_raise",
    "Fimex.Ncml.C71_empty_cases"
   ],
   "note": ""
  },
  {
   "property": "C72",
   "status": "proved",
   "theorems": [
    "Fimex.Fill.C72_fill_stays_in_range",
    "Fimex.Fill.C72_over_relaxation_leaves_range",
    "Fimex.Fill.C72_fill_commutes_with_units",
    "Fimex.Fill.C72_creepfill_commutes_with_units",
    "Fimex.Fill.C72_creepfillval_commutes_with_units"
   ],
   "note": ""
  },
  {
   "property": "C73",
   "status": "partial",
   "theorems": [
    "Fimex.Pb.C73_index_read_back",
    "Fimex.Pb.C73_index_restores_dataset_partial",
    "Fimex.Pb.C73_string_list_not_restored",
    "Fimex.Pb.C73_string_list_read_out_of_bounds",
    "Fimex.Pb.C73_empty_array_not_restored",
    "Fimex.Pb.C73_long_dimension_not_restored",
    "Fimex.Pb.C73_variable_named_global_unreadable",
    "Fimex.Pb.C73_closed_files_are_read_safely",
    "Fimex.Pb.C73_unknown_types_refused",
    "Fimex.Pb.C73_open_file_undefined",
    "Fimex.Pb.C73_magic_accepted_iff",
    "Fimex.Pb.C73_written_magic_accepted",
    "Fimex.Pb.C73_wrong_kind_accepted",
    "Fimex.Pb.C73_message_index_restored",
    "Fimex.Pb.C73_message_found",
    "Fimex.Pb.C73_same_name_confused"
   ],
   "note": "Lists of strings, empty arrays, dimensions of 2^32 or more and vector directions are not restored, the kind byte of the magic is not compared (violations proved); the exact result of writing and reading is proved for all descriptions, equality for the others."
  },
  {
   "property": "C74",
   "status": "proved",
   "theorems": [
    "Fimex.Grib.C74_loading",
    "Fimex.Grib.C74_message_table",
    "Fimex.Grib.C74_building_defined",
    "Fimex.Grib.C74_timeless_refused"
   ],
   "note": ""
  },
  {
   "property": "C75",
   "status": "partial",
   "theorems": [
    "Fimex.Grib.C75_slice_values_partial",
    "Fimex.Grib.C75_unreadable_message",
    "Fimex.Grib.C75_gap_is_undefined",
    "Fimex.Grib.C75_dimension_roles",
    "Fimex.Grib.C75_time_slice",
    "Fimex.Grib.C75_precision_partial",
    "Fimex.Grib.C75_precision_overflow"
   ],
   "note": "Some slices with partial levels or members are written beyond the array (proved for all of them), rounding wraps around outside int (violation proved); proved for all other slices and for values within int."
  },
  {
   "property": "C76",
   "status": "proved",
   "theorems": [
    "Fimex.Interp.C76_bicubic",
    "Fimex.Interp.C76_grid_values",
    "Fimex.Interp.C76_quadratic_fields",
    "Fimex.Interp.C76_overshoot"
   ],
   "note": ""
  },
  {
   "property": "C77",
   "status": "partial",
   "theorems": [
    "Fimex.Interp.C77_great_circle",
    "Fimex.Interp.C77_grid_distances",
    "Fimex.Interp.C77_last_row_partial",
    "Fimex.Interp.C77_last_row_wrong",
    "Fimex.Interp.C77_line"
   ],
   "note": "The last row is filled from the wrong cells unless the grid is square (violation proved); proved for square grids and for all other cells."
  },
  {
   "property": "C78",
   "status": "partial",
   "theorems": [
    "Fimex.Interp.C78_bearing",
    "Fimex.Interp.C78_rotation_partial",
    "Fimex.Interp.C78_identity_turned_around",
    "Fimex.Interp.C78_matrix_partial",
    "Fimex.Interp.C78_direction_agrees",
    "Fimex.Interp.C78_angle_range",
    "Fimex.Interp.C78_vectors_rotated",
    "Fimex.Interp.C78_length_kept",
    "Fimex.Interp.C78_direction_turned",
    "Fimex.Interp.C78_directions_turned",
    "Fimex.Interp.C78_step_not_tiny",
    "Fimex.Interp.C78_step_defined_partial",
    "Fimex.Interp.C78_two_rows_undefined"
   ],
   "note": "A half turn with a positive step, or no turn with a negative step, gives the opposite direction, and grids of two rows, or two columns with fewer than five rows, are read outside (violations proved); proved for all other angles and sizes."
  },
  {
   "property": "C79",
   "status": "partial",
   "theorems": [
    "Fimex.Interp.C79_bilinear_layers",
    "Fimex.Interp.C79_bicubic_layers",
    "Fimex.Interp.C79_nearest_layers",
    "Fimex.Interp.C79_rotation_layers",
    "Fimex.Interp.C79_slices_partial",
    "Fimex.Interp.C79_vector_slices_partial",
    "Fimex.Interp.C79_whole_partial",
    "Fimex.Interp.C79_renamed_dimensions_raise",
    "Fimex.Interp.C79_short_counterpart_undefined"
   ],
   "note": "Proved for variables whose x and y dimensions keep their names and, for vectors, counterparts of the same shape; with renamed dimensions every request for a part of the grid raises, and a smaller counterpart is read outside its array (violations proved)."
  },
  {
   "property": "C80",
   "status": "partial",
   "theorems": [
    "Fimex.Vertical.C80_vertical_velocity",
    "Fimex.Vertical.C80_layers_fill_the_column",
    "Fimex.Vertical.C80_still_air_partial",
    "Fimex.Vertical.C80_still_air_rises",
    "Fimex.Vertical.C80_descending_axis_differs",
    "Fimex.Vertical.C80_narrow_grid_unset",
    "Fimex.Vertical.C80_no_levels_undefined"
   ],
   "note": "Air at rest above sloping ground gets a velocity, a descending axis gives another result, grids of two columns leave cells unset and no levels is undefined (violations proved); the formula is proved for all grids of at least three columns and rows, and rest for level layers."
  },
  {
   "property": "C81",
   "status": "partial",
   "theorems": [
    "Fimex.Levels.C81_every_value",
    "Fimex.Levels.C81_vertical_interpolation_partial",
    "Fimex.Levels.C81_extrapolation_partial",
    "Fimex.Levels.C81_first_height_undefined",
    "Fimex.Levels.C81_first_end_undefined",
    "Fimex.Levels.C81_limits_of_the_first_position",
    "Fimex.Levels.C81_nearest_takes_lower",
    "Fimex.Levels.C81_log_uninitialised",
    "Fimex.Levels.C81_axis_not_called_like_dimension"
   ],
   "note": "Limits of later positions of the unlimited dimension, a height equal to the first one of the column, the end of the column at the first height, the method nearest, logarithms of heights that are not positive and axes not called like their dimension go wrong (violations proved); the value at every place is described exactly for all other calls."
  },
  {
   "property": "C82",
   "status": "proved",
   "theorems": [
    "Fimex.Shapes.C82_shape_of_variables",
    "Fimex.Shapes.C82_ordered_once",
    "Fimex.Shapes.C82_unknown_variable_refused",
    "Fimex.Shapes.C82_time_dimension_shared",
    "Fimex.Shapes.C82_scalar_axis_undefined",
    "Fimex.Shapes.C82_slice_of_variable",
    "Fimex.Shapes.C82_slice_adapted_twice",
    "Fimex.Shapes.C82_slice_at_position"
   ],
   "note": ""
  },
  {
   "property": "C83",
   "status": "proved",
   "theorems": [
    "Fimex.Converters.C83_converter_loop",
    "Fimex.Converters.C83_hybrid_sigma_ap",
    "Fimex.Converters.C83_hybrid_sigma",
    "Fimex.Converters.C83_sigma",
    "Fimex.Converters.C83_ln_pressure",
    "Fimex.Converters.C83_hybrid_height",
    "Fimex.Converters.C83_altitude_height",
    "Fimex.Converters.C83_ocean_g1",
    "Fimex.Converters.C83_ocean_g2",
    "Fimex.Converters.C83_standard_pressure",
    "Fimex.Converters.C83_standard_altitude",
    "Fimex.Converters.C83_standard_round_trip",
    "Fimex.Converters.C83_no_data",
    "Fimex.Converters.C83_hybrid_height_without_b",
    "Fimex.Converters.C83_no_reference_pressure",
    "Fimex.Converters.C83_standard_without_data",
    "Fimex.Converters.C83_ocean_incomplete",
    "Fimex.Converters.C83_hybrid_sigma_ap_exact",
    "Fimex.Converters.C83_common_dimension_violated"
   ],
   "note": ""
  },
  {
   "property": "C84",
   "status": "proved",
   "theorems": [
    "Fimex.Hypsometric.C84_direction_first_pair",
    "Fimex.Hypsometric.C84_direction_beyond_the_end",
    "Fimex.Hypsometric.C84_altitude",
    "Fimex.Hypsometric.C84_altitude_by_columns",
    "Fimex.Hypsometric.C84_no_pressure",
    "Fimex.Hypsometric.C84_direction_across_columns",
    "Fimex.Hypsometric.C84_sum_of_layers",
    "Fimex.Hypsometric.C84_isothermal",
    "Fimex.Hypsometric.C84_undefined_below",
    "Fimex.Hypsometric.C84_no_axis_undefined"
   ],
   "note": ""
  },
  {
   "property": "C85",
   "status": "proved",
   "theorems": [
    "Fimex.Time.C85_points_count_seconds",
    "Fimex.Time.C85_order",
    "Fimex.Time.C85_from_point",
    "Fimex.Time.C85_round_trip",
    "Fimex.Time.C85_invalid_point",
    "Fimex.Time.C85_limits"
   ],
   "note": ""
  },
  {
   "property": "C86",
   "status": "proved",
   "theorems": [
    "Fimex.Time.C86_reference_time",
    "Fimex.Time.C86_valid_time",
    "Fimex.Time.C86_no_valid_time",
    "Fimex.Time.C86_write_read",
    "Fimex.Time.C86_no_reference",
    "Fimex.Time.C86_limits"
   ],
   "note": ""
  },
  {
   "property": "C87",
   "status": "proved",
   "theorems": [
    "Fimex.Pressure.C87_operation_text",
    "Fimex.Pressure.C87_flag_not_last",
    "Fimex.Pressure.C87_sources",
    "Fimex.Pressure.C87_theta",
    "Fimex.Pressure.C87_humidity",
    "Fimex.Pressure.C87_humidity_without_temperature",
    "Fimex.Pressure.C87_humidity_second_temperature",
    "Fimex.Pressure.C87_omega",
    "Fimex.Pressure.C87_omega_coordinates",
    "Fimex.Pressure.C87_pressure",
    "Fimex.Pressure.C87_pressure_exception",
    "Fimex.Pressure.C87_construct",
    "Fimex.Pressure.C87_unknown"
   ],
   "note": ""
  },
  {
   "property": "C88",
   "status": "partial",
   "theorems": [
    "Fimex.Pressure.C88_omega",
    "Fimex.Pressure.C88_humidity_cell",
    "Fimex.Pressure.C88_humidity",
    "Fimex.Pressure.C88_humidity_not_limited",
    "Fimex.Pressure.C88_theta_partial",
    "Fimex.Pressure.C88_theta_dangling",
    "Fimex.Pressure.C88_pressure",
    "Fimex.Pressure.C88_pressure_size",
    "Fimex.Pressure.C88_transposed"
   ],
   "note": "The temperature from potential temperatures cannot be read (dangling reference, proved) and its formula is wrong for data with scale and offset; humidity above 1.3107, NaN, other orders of dimensions and converters without four dimensions go wrong (violations proved); the formulas are proved at every index otherwise."
  },
  {
   "property": "C89",
   "status": "proved",
   "theorems": [
    "Fimex.Netcdf.C89_removed",
    "Fimex.Netcdf.C89_still_closed",
    "Fimex.Netcdf.C89_attributes",
    "Fimex.Netcdf.C89_value_needs_type",
    "Fimex.Netcdf.C89_configured"
   ],
   "note": ""
  },
  {
   "property": "C90",
   "status": "partial",
   "theorems": [
    "Fimex.Netcdf.C90_chunks_fit",
    "Fimex.Netcdf.C90_small_variable",
    "Fimex.Netcdf.C90_configured_size",
    "Fimex.Netcdf.C90_small_chunks",
    "Fimex.Netcdf.C90_large_chunks",
    "Fimex.Netcdf.C90_level",
    "Fimex.Netcdf.C90_accepted_partial",
    "Fimex.Netcdf.C90_level_10"
   ],
   "note": "Level 10 is handed to the library, which takes 0 to 9, so nothing can be written; chunks are far outside of the intended limits for some shapes (proved); sizes and all other levels are proved to be taken."
  },
  {
   "property": "C91",
   "status": "partial",
   "theorems": [
    "Fimex.Netcdf.C91_wrong_size_is_silent",
    "Fimex.Netcdf.C91_refused_is_silent",
    "Fimex.Netcdf.C91_exchanged_names_are_silent",
    "Fimex.Netcdf.C91_data_written_partial",
    "Fimex.Netcdf.C91_success_means_read",
    "Fimex.Netcdf.C91_renamed_unlimited",
    "Fimex.Netcdf.C91_unchanged",
    "Fimex.Netcdf.C91_converted",
    "Fimex.Netcdf.C91_failed_conversion",
    "Fimex.Netcdf.C91_text_with_fill"
   ],
   "note": "A new name for the unlimited dimension, texts with a fill value, units that cannot be converted, arrays of the wrong size and values the library refuses go wrong, most of them silently (violations proved); the complete file is proved for all other datasets."
  },
  {
   "property": "C92",
   "status": "partial",
   "theorems": [
    "Fimex.Netcdf.C92_record_not_first",
    "Fimex.Netcdf.C92_length_not_updated",
    "Fimex.Netcdf.C92_put_slice_partial",
    "Fimex.Netcdf.C92_put_region_partial",
    "Fimex.Netcdf.C92_slice_partial",
    "Fimex.Netcdf.C92_region_partial",
    "Fimex.Netcdf.C92_scalar_region",
    "Fimex.Netcdf.C92_opened"
   ],
   "note": "The unlimited dimension is taken to be the slowest one, requests of regions of scalars are undefined behaviour and lengths are not updated after putting data behind the end (violations proved); everything else is proved for all files."
  },
  {
   "property": "C93",
   "status": "partial",
   "theorems": [
    "Fimex.Netcdf.C93_round_trip_partial",
    "Fimex.Netcdf.C93_reread_partial"
   ],
   "note": "Variables whose unlimited dimension is not the slowest one, scalars without type and fixed dimensions of length 0 do not come back (violations, C91 and C92); the identity is proved for all other datasets."
  },
  {
   "property": "C94",
   "status": "partial",
   "theorems": [
    "Fimex.Cf.C94_type_by_rules",
    "Fimex.Cf.C94_letters_partial",
    "Fimex.Cf.C94_priority",
    "Fimex.Cf.C94_positive_letters"
   ],
   "note": "The attribute 'positive' is compared with the case of letters, so that 'Up' means down (violation proved, CF 4.3 says without); the rules and the case of the other three attributes are proved for all texts."
  },
  {
   "property": "C95",
   "status": "partial",
   "theorems": [
    "Fimex.Cf.C95_clash_raises",
    "Fimex.Cf.C95_axes",
    "Fimex.Cf.C95_marks",
    "Fimex.Cf.C95_sorted",
    "Fimex.Cf.C95_unique",
    "Fimex.Cf.C95_complete_partial",
    "Fimex.Cf.C95_raises_iff",
    "Fimex.Cf.C95_order_of_names",
    "Fimex.Cf.C95_comma",
    "Fimex.Cf.C95_two_times"
   ],
   "note": "Whether an auxiliary axis is kept depends on the order of names, ids of names with commas collide, and two dimensions of one type make the whole listing raise (violations proved); the listing is described exactly, completeness is proved for variables whose axes are all kept and whose names have no commas."
  },
  {
   "property": "C96",
   "status": "partial",
   "theorems": [
    "Fimex.Cf.C96_simple",
    "Fimex.Cf.C96_projection",
    "Fimex.Cf.C96_own_mapping_partial",
    "Fimex.Cf.C96_other_mapping"
   ],
   "note": "The first variable with a grid mapping decides for all variables on the same axes (violation proved); the projection of a system is described exactly, and the own grid mapping is proved for variables that are alone on their axes or agree."
  },
  {
   "property": "C97",
   "status": "partial",
   "theorems": [
    "Fimex.Cf.C97_terms",
    "Fimex.Cf.C97_loop_ends",
    "Fimex.Cf.C97_vertical_partial",
    "Fimex.Cf.C97_rules_unique",
    "Fimex.Cf.C97_dependencies",
    "Fimex.Cf.C97_b_elsewhere",
    "Fimex.Cf.C97_missing_terms"
   ],
   "note": "The hybrid sigma coordinate looks at a term 'p' it does not use and not at the term 'b', and missing terms give transformations of variables without a name (violations proved); terms, dependencies and transformations are proved otherwise."
  },
  {
   "property": "C98",
   "status": "partial",
   "theorems": [
    "Fimex.Vectors.C98_kept",
    "Fimex.Vectors.C98_new_vectors",
    "Fimex.Vectors.C98_mutual",
    "Fimex.Vectors.C98_none_left",
    "Fimex.Vectors.C98_table",
    "Fimex.Vectors.C98_names_partial",
    "Fimex.Vectors.C98_example",
    "Fimex.Vectors.C98_other_quantity"
   ],
   "note": "Standard names are compared by their beginnings, so that the eastward wind can be connected with the northward wind shear (violation proved); pairs of one quantity are proved if no two variables of a shape belong to one line and go on differently."
  },
  {
   "property": "C99",
   "status": "partial",
   "theorems": [
    "Fimex.Cf.C99_systems",
    "Fimex.Cf.C99_variables",
    "Fimex.Cf.C99_incompatible",
    "Fimex.Cf.C99_nothing_left",
    "Fimex.Cf.C99_cf_ok",
    "Fimex.Cf.C99_own_partial",
    "Fimex.Cf.C99_two_projections",
    "Fimex.Cf.C99_two_coordinates"
   ],
   "note": "Systems are told apart by the names of their horizontal axes only, so that a variable can be interpolated with the projection or the coordinates of another one (violations proved); proved if the usable systems with the same axes agree."
  },
  {
   "property": "C100",
   "status": "partial",
   "theorems": [
    "Fimex.Change.C100_dimensions_exist",
    "Fimex.Change.C100_handed_through_partial",
    "Fimex.Change.C100_projection_name",
    "Fimex.Change.C100_change",
    "Fimex.Change.C100_common_dimension",
    "Fimex.Change.C100_dimension_left",
    "Fimex.Change.C100_auxiliary_coordinate",
    "Fimex.Change.C100_rotated_pole",
    "Fimex.Change.C100_new_dataset"
   ],
   "note": "Auxiliary coordinates on the old grid that are neither interpolated nor longitude and latitude stay in the dataset with the dimensions of the new grid but are read from the old one (violation proved); grids with a common dimension raise or leave a dimension over (proved); the description of the new dataset is proved for grids without a common dimension."
  },
  {
   "property": "C101",
   "status": "partial",
   "theorems": [
    "Fimex.Proj.C101_second_parallel_lost",
    "Fimex.Proj.C101_scale_lost",
    "Fimex.Proj.C101_sweep_lost",
    "Fimex.Proj.C101_flattening_lost",
    "Fimex.Proj.C101_pole_longitude_lost",
    "Fimex.Proj.C101_utm_meridian_lost",
    "Fimex.Proj.C101_polar_raises",
    "Fimex.Proj.C101_unknown_ellipsoid",
    "Fimex.Proj.C101_gamma_added",
    "Fimex.Proj.C101_no_parallels",
    "Fimex.Proj.C101_flattening_stays",
    "Fimex.Proj.C101_word",
    "Fimex.Proj.C101_create",
    "Fimex.Proj.C101_which",
    "Fimex.Proj.C101_one_class",
    "Fimex.Proj.C101_read",
    "Fimex.Proj.C101_figure",
    "Fimex.Proj.C101_utm",
    "Fimex.Proj.C101_rotated",
    "Fimex.Proj.C101_rotated_ends",
    "Fimex.Proj.C101_write",
    "Fimex.Proj.C101_text_kept_partial",
    "Fimex.Proj.C101_unknown",
    "Fimex.Proj.C101_class_kept",
    "Fimex.Proj.C101_rotated_kept",
    "Fimex.Proj.C101_replace"
   ],
   "note": "The second standard parallel, a scale factor with the key k_0, the sweep axis, inverse flattening, pole longitudes below 1/10000 and the meridian of UTM west of Greenwich are lost (violations proved); all other parameters, the class and the figure of the earth are proved to be kept, numbers as far as they are printed exactly."
  },
  {
   "property": "C102",
   "status": "partial",
   "theorems": [
    "Fimex.Merged.C102_unit_of_y",
    "Fimex.Merged.C102_same_names",
    "Fimex.Merged.C102_other_names",
    "Fimex.Merged.C102_no_system",
    "Fimex.Merged.C102_null_axis_case",
    "Fimex.Merged.C102_scalar_axis_raises",
    "Fimex.Merged.C102_auxiliary_unreadable",
    "Fimex.Merged.C102_outer_length",
    "Fimex.Merged.C102_grid",
    "Fimex.Merged.C102_no_grid",
    "Fimex.Merged.C102_units_partial",
    "Fimex.Merged.C102_compatible",
    "Fimex.Merged.C102_matching_accepted",
    "Fimex.Merged.C102_null_axis",
    "Fimex.Merged.C102_dataset",
    "Fimex.Merged.C102_succeeds",
    "Fimex.Merged.C102_shapes",
    "Fimex.Merged.C102_lengths_partial",
    "Fimex.Merged.C102_smoothing_source",
    "Fimex.Merged.C102_overlay_source"
   ],
   "note": "Units of the y axis only if equal to that of the x axis; lengths of outer variables only if dimensions of the same name have the same length; both restrictions are needed (C102_unit_of_y, C102_outer_length). The decision about compatibility is exact where horizontal axes exist or are not asked for; elsewhere it is undefined behaviour (C102_null_axis)."
  },
  {
   "property": "C103",
   "status": "partial",
   "theorems": [
    "Fimex.Nearest.C103_search",
    "Fimex.Nearest.C103_nan",
    "Fimex.Nearest.C103_distance",
    "Fimex.Nearest.C103_distance_unknown",
    "Fimex.Nearest.C103_single",
    "Fimex.Nearest.C103_translate",
    "Fimex.Nearest.C103_on_cell",
    "Fimex.Nearest.C103_kd",
    "Fimex.Nearest.C103_max_distance",
    "Fimex.Nearest.C103_kd_translate_partial",
    "Fimex.Nearest.C103_kd_degrees",
    "Fimex.Nearest.C103_methods_agree",
    "Fimex.Nearest.C103_value",
    "Fimex.Nearest.C103_antipode"
   ],
   "note": "On a new grid in degrees the distance for the search with a tree is not converted to radians, so that with steps of more than 2 degrees, or more than 2 metres given, every target finds a cell (violation proved); exact for grids in metres and for the search by latitude."
  },
  {
   "property": "C104",
   "status": "proved",
   "theorems": [
    "Fimex.Sections.C104_points",
    "Fimex.Sections.C104_through",
    "Fimex.Sections.C104_spacing",
    "Fimex.Sections.C104_bounds",
    "Fimex.Sections.C104_names",
    "Fimex.Sections.C104_dataset",
    "Fimex.Sections.C104_raises",
    "Fimex.Sections.C104_axes",
    "Fimex.Sections.C104_sections",
    "Fimex.Sections.C104_twice",
    "Fimex.Sections.C104_empty"
   ],
   "note": ""
  },
  {
   "property": "C105",
   "status": "partial",
   "theorems": [
    "Fimex.AggSet.C105_dataset",
    "Fimex.AggSet.C105_origin",
    "Fimex.AggSet.C105_joined_existing",
    "Fimex.AggSet.C105_joined_new",
    "Fimex.AggSet.C105_complete",
    "Fimex.AggSet.C105_length",
    "Fimex.AggSet.C105_shapes_partial",
    "Fimex.AggSet.C105_coordinates",
    "Fimex.AggSet.C105_init",
    "Fimex.AggSet.C105_no_error",
    "Fimex.AggSet.C105_elements",
    "Fimex.AggSet.C105_element_errors",
    "Fimex.AggSet.C105_location",
    "Fimex.AggSet.C105_several_aggregations",
    "Fimex.AggSet.C105_new_dimensions_missing",
    "Fimex.AggSet.C105_new_keeps_data",
    "Fimex.AggSet.C105_coordinates_missing",
    "Fimex.AggSet.C105_unlimited_later",
    "Fimex.AggSet.C105_scan_values",
    "Fimex.AggSet.C105_scan_error"
   ],
   "note": "With a new dimension the dimensions of joined variables of further readers may not exist and data in memory are kept; of several aggregations none is used; a scanned file that raises shifts the positions of all later ones (violations proved). All other statements are proved for all lists of readers."
  },
  {
   "property": "C106",
   "status": "partial",
   "theorems": [
    "Fimex.Rotate.C106_dataset",
    "Fimex.Rotate.C106_refused",
    "Fimex.Rotate.C106_fields",
    "Fimex.Rotate.C106_vectors_have_matrices",
    "Fimex.Rotate.C106_directions_have_matrices_partial",
    "Fimex.Rotate.C106_vectors_read",
    "Fimex.Rotate.C106_rotated_partial",
    "Fimex.Rotate.C106_quantities_partial",
    "Fimex.Rotate.C106_directions_read",
    "Fimex.Rotate.C106_others_read",
    "Fimex.Rotate.C106_all",
    "Fimex.Rotate.C106_example",
    "Fimex.Rotate.C106_all_example",
    "Fimex.Rotate.C106_direction_ignored",
    "Fimex.Rotate.C106_null_matrix",
    "Fimex.Rotate.C106_failed_call_marks",
    "Fimex.Rotate.C106_offset_ignored",
    "Fimex.Rotate.C106_counterpart_not_accumulated"
   ],
   "note": "Matrices are kept by system only, so the direction of a later call is ignored; a direction whose matrix cannot be made leaves a null pointer that is used by reading; vectors are turned as packed numbers, wrong with offsets or different factors; the counterpart is read without accumulation (violations proved). All other statements are proved for all calls."
  },
  {
   "property": "C107",
   "status": "proved",
   "theorems": [
    "Fimex.NewLevels.C107_refused",
    "Fimex.NewLevels.C107_example",
    "Fimex.NewLevels.C107_axis_example",
    "Fimex.NewLevels.C107_template_example",
    "Fimex.NewLevels.C107_example_fits",
    "Fimex.NewLevels.C107_axis_unknown",
    "Fimex.NewLevels.C107_coordinates_cut",
    "Fimex.NewLevels.C107_half_changed",
    "Fimex.NewLevels.C107_start",
    "Fimex.NewLevels.C107_fixed",
    "Fimex.NewLevels.C107_second_call",
    "Fimex.NewLevels.C107_axis",
    "Fimex.NewLevels.C107_template",
    "Fimex.NewLevels.C107_coordinates",
    "Fimex.NewLevels.C107_cf"
   ],
   "note": ""
  },
  {
   "property": "C108",
   "status": "partial",
   "theorems": [
    "Fimex.LonLat.C108_kept",
    "Fimex.LonLat.C108_coordinates_partial",
    "Fimex.LonLat.C108_cf_one_grid",
    "Fimex.LonLat.C108_axes",
    "Fimex.LonLat.C108_listed",
    "Fimex.LonLat.C108_key_taken",
    "Fimex.LonLat.C108_last_projection",
    "Fimex.LonLat.C108_coordinate_lost",
    "Fimex.LonLat.C108_units_ignored"
   ],
   "note": "Grids are told apart by the names of their axes joined by an underscore and get one projection per pair of axes (violations proved: C108_key_taken, C108_last_projection); proved for datasets where that tells them apart. Other coordinates of a variable are lost, so that a second call can add more (C108_coordinate_lost), and units of axes are ignored (C108_units_ignored)."
  },
  {
   "property": "C109",
   "status": "partial",
   "theorems": [
    "Fimex.Wrf.C109_kept",
    "Fimex.Wrf.C109_axes",
    "Fimex.Wrf.C109_systems_partial",
    "Fimex.Wrf.C109_again",
    "Fimex.Wrf.C109_needs",
    "Fimex.Wrf.C109_levels_time",
    "Fimex.Wrf.C109_projection",
    "Fimex.Wrf.C109_toy",
    "Fimex.Wrf.C109_first_raises",
    "Fimex.Wrf.C109_comma",
    "Fimex.Wrf.C109_mercator"
   ],
   "note": "Shapes whose names joined by commas are equal share a system (violation proved); the listing raises for every dataset without time variable and reference time or with another dimension without variable (proved for all such datasets); proved for all other ones."
  },
  {
   "property": "C110",
   "status": "partial",
   "theorems": [
    "Fimex.GribGrid.C110_oblate",
    "Fimex.GribGrid.C110_earth",
    "Fimex.GribGrid.C110_oblate_example",
    "Fimex.GribGrid.C110_regular",
    "Fimex.GribGrid.C110_rotated",
    "Fimex.GribGrid.C110_lambert",
    "Fimex.GribGrid.C110_stereographic_partial",
    "Fimex.GribGrid.C110_loops",
    "Fimex.GribGrid.C110_refused",
    "Fimex.GribGrid.C110_toy",
    "Fimex.GribGrid.C110_pole_cut",
    "Fimex.GribGrid.C110_stereographic_lost",
    "Fimex.GribGrid.C110_lambert_turned",
    "Fimex.GribGrid.C110_unequal_steps",
    "Fimex.GribGrid.C110_rotated_by_ends",
    "Fimex.GribGrid.C110_fine_circle"
   ],
   "note": "Edition 2 loses the standard parallel, the longitude of a polar stereographic grid and the south pole; poles of rotated grids are cut to whole degrees, Lambert grids from north to south are turned, steps that are not equal are not noticed, and the axes of an oblate earth are scaled wrongly (violations proved); proved for the other grids."
  },
  {
   "property": "C111",
   "status": "proved",
   "theorems": [
    "Fimex.GribLevels.C111_written",
    "Fimex.GribLevels.C111_read_again",
    "Fimex.GribLevels.C111_all_levels",
    "Fimex.GribLevels.C111_surface",
    "Fimex.GribLevels.C111_halves",
    "Fimex.GribLevels.C111_extra",
    "Fimex.GribLevels.C111_elements",
    "Fimex.GribLevels.C111_levels",
    "Fimex.GribLevels.C111_level_kept",
    "Fimex.GribLevels.C111_hybrid_level",
    "Fimex.GribLevels.C111_no_level",
    "Fimex.GribLevels.C111_parameter_found",
    "Fimex.GribLevels.C111_parameter_lost",
    "Fimex.GribLevels.C111_parameter_set",
    "Fimex.GribLevels.C111_values",
    "Fimex.GribLevels.C111_toy",
    "Fimex.GribLevels.C111_surface_first",
    "Fimex.GribLevels.C111_levels_merged",
    "Fimex.GribLevels.C111_levels_scaled",
    "Fimex.GribLevels.C111_value_lost"
   ],
   "note": "Axes with the surface first are undefined behaviour, the border at the surface is written as 0, levels are cut to whole numbers, elements of the same name that are told apart by level are never found, the last coefficient of an axis can not be read, and values equal to the fill value after unpacking are lost (violations proved, most for all inputs); proved for the other inputs."
  },
  {
   "property": "C112",
   "status": "proved",
   "theorems": [
    "Fimex.GribRun.C112_messages",
    "Fimex.GribRun.C112_reference_times",
    "Fimex.GribRun.C112_stops",
    "Fimex.GribRun.C112_attribute_kept",
    "Fimex.GribRun.C112_two_references",
    "Fimex.GribRun.C112_empty_written"
   ],
   "note": "With several reference times only the first time of the first one is written, again and again (proved for all such systems); trouble with the times or levels of a system ends the run (proved); attributes of one parameter stay in messages of the next ones and empty fields with NaN are not omitted (witnesses). Proved for systems with one reference time."
  },
  {
   "property": "C113",
   "status": "proved",
   "theorems": [
    "Fimex.Felt.C113_entry",
    "Fimex.Felt.C113_open",
    "Fimex.Felt.C113_refused",
    "Fimex.Felt.C113_too_few",
    "Fimex.Felt.C113_field",
    "Fimex.Felt.C113_short_field",
    "Fimex.Felt.C113_no_data",
    "Fimex.Felt.C113_truncated",
    "Fimex.Felt.C113_byte_order",
    "Fimex.Felt.C113_times",
    "Fimex.Felt.C113_toy_file",
    "Fimex.Felt.C113_toy_times"
   ],
   "note": "Fields are read as stored if they are in the file. A truncated file raises no error: the field and all fields read afterwards are zeros (proved); a file with fewer fields than announced reads words that are not initialised (proved); an entry shorter than its header counts as a field and raises an error when read (proved)."
  },
  {
   "property": "C114",
   "status": "proved",
   "theorems": [
    "Fimex.Felt.C114_init",
    "Fimex.Felt.C114_name",
    "Fimex.Felt.C114_restrictions",
    "Fimex.Felt.C114_has_time",
    "Fimex.Felt.C114_times",
    "Fimex.Felt.C114_levels",
    "Fimex.Felt.C114_field",
    "Fimex.Felt.C114_reference",
    "Fimex.Felt.C114_axes",
    "Fimex.Felt.C114_slice",
    "Fimex.Felt.C114_values",
    "Fimex.Felt.C114_toy_params",
    "Fimex.Felt.C114_toy",
    "Fimex.Felt.C114_toy_twice",
    "Fimex.Felt.C114_twice_accepted",
    "Fimex.Felt.C114_mixed"
   ],
   "note": "All parts proved for all files of valid fields. Two fields of one time, level and type are accepted if one of another type is between them, and fields of an ensemble become levels if the name does not restrict the parameter (witnesses; levels and members are proved for arrays that are not mixed)."
  },
  {
   "property": "C115",
   "status": "proved",
   "theorems": [
    "Fimex.Felt.C115_readable",
    "Fimex.Felt.C115_slice",
    "Fimex.Felt.C115_kept",
    "Fimex.Felt.C115_other_times",
    "Fimex.Felt.C115_behind",
    "Fimex.Felt.C115_one_member",
    "Fimex.Felt.C115_toy",
    "Fimex.Felt.C115_toy_one_member",
    "Fimex.Felt.C115_small_grid",
    "Fimex.Felt.C115_large_field",
    "Fimex.Felt.C115_two_fills"
   ],
   "note": "Proved for all files whose fields of an array have the size of the grid, for positions before the end of the times, and for arrays with no ensemble or more than one member. Without these conditions the claims are false: C115_behind and C115_one_member for all such files, the others by witnesses."
  },
  {
   "property": "C116",
   "status": "partial",
   "theorems": [
    "Fimex.Regrid.C116_grid_positions",
    "Fimex.Regrid.C116_point_positions",
    "Fimex.Regrid.C116_forward_positions",
    "Fimex.Regrid.C116_inside_safe",
    "Fimex.Regrid.C116_not_finite_safe",
    "Fimex.Regrid.C116_bilinear_exact",
    "Fimex.Regrid.C116_nearest_cell",
    "Fimex.Regrid.C116_direct",
    "Fimex.Regrid.C116_box_partial",
    "Fimex.Regrid.C116_box_square",
    "Fimex.Regrid.C116_box_rotated",
    "Fimex.Regrid.C116_box_refused",
    "Fimex.Regrid.C116_template_axes",
    "Fimex.Regrid.C116_refused",
    "Fimex.Regrid.C116_toy"
   ],
   "note": "Values and positions are proved for all conversions, axes and fields, for points whose positions are in the range of int and not in the half cell of C32_reads_outside_the_field (points inside the grid never are, proved). The box of the input is partial: axes of equal length are taken for two-dimensional arrays, and boxes of rotated projections are converted to degrees twice (witnesses). A template with one-dimensional longitudes and latitudes reads beyond the positions (witness)."
  },
  {
   "property": "C117",
   "status": "proved",
   "theorems": [
    "Fimex.Template.C117_new_dataset",
    "Fimex.Template.C117_dimensions_exist",
    "Fimex.Template.C117_refused",
    "Fimex.Template.C117_names_exchanged",
    "Fimex.Template.C117_axis_left",
    "Fimex.Template.C117_dimension_exists",
    "Fimex.Template.C117_dimension_taken"
   ],
   "note": "Proved for datasets as in C100 (no grid on the dimensions or coordinates of another) whose grids do not have a y axis called x or the like and where dimensions called x and y, if any, belong to grids. Without these conditions the claims are false (C117_names_exchanged, C117_axis_left, C117_dimension_exists, C117_dimension_taken)."
  },
  {
   "property": "C118",
   "status": "partial",
   "theorems": [
    "Fimex.History.C118_sound",
    "Fimex.History.C118_points_twice",
    "Fimex.History.C118_projection",
    "Fimex.History.C118_coordinates_partial",
    "Fimex.History.C118_template",
    "Fimex.History.C118_points",
    "Fimex.History.C118_sections",
    "Fimex.History.C118_refused",
    "Fimex.History.C118_unknown",
    "Fimex.History.C118_reader",
    "Fimex.History.C118_as_first",
    "Fimex.History.C118_current",
    "Fimex.History.C118_matrix_of_before",
    "Fimex.History.C118_stale_matrix",
    "Fimex.History.C118_reader_changed"
   ],
   "note": "Proved for all sequences of calls, with the single steps as functions that may fail anywhere; the two conditions on them are proved for the models of C99, C100 and C117 (C118_sound). Partial: vectors after a method that uses coordinates are rotated with the matrix of an earlier change (C118_matrix_of_before for all, C118_stale_matrix), and lists of points are not independent of earlier changes (C118_points_twice)."
  },
  {
   "property": "C119",
   "status": "proved",
   "theorems": [
    "Fimex.Command.C119_processor",
    "Fimex.Command.C119_extractor",
    "Fimex.Command.C119_dimensions",
    "Fimex.Command.C119_heard",
    "Fimex.Command.C119_unread",
    "Fimex.Command.C119_ignored",
    "Fimex.Command.C119_chain",
    "Fimex.Command.C119_target",
    "Fimex.Command.C119_no_file",
    "Fimex.Command.C119_run",
    "Fimex.Command.C119_time_end",
    "Fimex.Command.C119_merge_extras",
    "Fimex.Command.C119_bad_extract",
    "Fimex.Command.C119_end_missing",
    "Fimex.Command.C119_endless",
    "Fimex.Command.C119_depth",
    "Fimex.Command.C119_interpolation",
    "Fimex.Command.C119_merging"
   ],
   "note": "Proved for all options and all libraries (value of an option, conversions, constructors and writers are parameters that may fail). The library that reads command line and files is not part of the repository; of it is assumed that an option is found if and only if it is set. Counts of cross sections: for lists of fewer than 2^63 values."
  },
  {
   "property": "C120",
   "status": "partial",
   "theorems": [
    "Fimex.NcmlDoc.C120_refused",
    "Fimex.NcmlDoc.C120_unique",
    "Fimex.NcmlDoc.C120_kept",
    "Fimex.NcmlDoc.C120_removed",
    "Fimex.NcmlDoc.C120_length",
    "Fimex.NcmlDoc.C120_unlimited",
    "Fimex.NcmlDoc.C120_type",
    "Fimex.NcmlDoc.C120_unsigned_ignored",
    "Fimex.NcmlDoc.C120_values",
    "Fimex.NcmlDoc.C120_vector",
    "Fimex.NcmlDoc.C120_attribute",
    "Fimex.NcmlDoc.C120_global",
    "Fimex.NcmlDoc.C120_shape",
    "Fimex.NcmlDoc.C120_added_partial",
    "Fimex.NcmlDoc.C120_long_unreadable",
    "Fimex.NcmlDoc.C120_unsigned_witness",
    "Fimex.NcmlDoc.C120_prefetch_wrong",
    "Fimex.NcmlDoc.C120_prefetch_missed",
    "Fimex.NcmlDoc.C120_stale_systems",
    "Fimex.NcmlDoc.C120_attribute_absent"
   ],
   "note": "Proved for all documents and datasets with unique names; splitting texts and converting values are parameters (C71), renaming of variables and dimensions is that of C70. Partial: variables added with the type long cannot be read (C120_long_unreadable); shapes are stated for variables that are not renamed. The reader is taken to be left unchanged by reading; XPath evaluation is modelled for the paths used."
  },
  {
   "property": "C121",
   "status": "proved",
   "theorems": [
    "Fimex.Grbml.C121_index_kept",
    "Fimex.Grbml.C121_written",
    "Fimex.Grbml.C121_uninitialised",
    "Fimex.Grbml.C121_path_not_escaped",
    "Fimex.Grbml.C121_ampersand",
    "Fimex.Grbml.C121_all_messages",
    "Fimex.Grbml.C121_positions",
    "Fimex.Grbml.C121_append",
    "Fimex.Grbml.C121_unreadable_index_dropped",
    "Fimex.Grbml.C121_cut_index",
    "Fimex.Grbml.C121_short_rest",
    "Fimex.Grbml.C121_other_edition",
    "Fimex.Grbml.C121_file_kept",
    "Fimex.Grbml.C121_members",
    "Fimex.Grbml.C121_own_ensemble",
    "Fimex.Grbml.C121_figure_left",
    "Fimex.Grbml.C121_longitude",
    "Fimex.Grbml.C121_longitude_below",
    "Fimex.Grbml.C121_figure_of_another_file"
   ],
   "note": "Proved for all indexes and files; libxml (nodes of well-formed documents, escaped attributes), the GRIB library, reading of grids (C110), regular expressions, and printing and reading of doubles are parameters. Doubles are printed with 16 digits, which does not restore all of them: restoring is a condition. Preconditions on the path are necessary (C121_path_not_escaped, C121_ampersand); the range of longitudes as well (C121_longitude_below)."
  },
  {
   "property": "C122",
   "status": "proved",
   "theorems": [
    "Fimex.GribConfig.C122_first_parameter",
    "Fimex.GribConfig.C122_no_parameter",
    "Fimex.GribConfig.C122_variables",
    "Fimex.GribConfig.C122_chosen",
    "Fimex.GribConfig.C122_refused",
    "Fimex.GribConfig.C122_missing_key_not_looked_at",
    "Fimex.GribConfig.C122_variable",
    "Fimex.GribConfig.C122_declared",
    "Fimex.GribConfig.C122_never_a_vector",
    "Fimex.GribConfig.C122_direction_without_counterpart",
    "Fimex.GribConfig.C122_templates_stay",
    "Fimex.GribConfig.C122_scaling",
    "Fimex.GribConfig.C122_factor_zero",
    "Fimex.GribConfig.C122_twice"
   ],
   "note": "Counterparts of vectors are declared only if they are empty (the condition is inverted), so that no variable of a GRIB dataset is a vector; templates are replaced in the configuration after the attributes were copied, so that they stay in the dataset; further keys a message lacks are not looked at; a factor of zero gives an attribute but no packing. All proved as violations. Reading numbers, splitting and making attributes are parameters."
  },
  {
   "property": "C123",
   "status": "proved",
   "theorems": [
    "Fimex.GribData.C123_consistent",
    "Fimex.GribData.C123_variables",
    "Fimex.GribData.C123_lengths",
    "Fimex.GribData.C123_time",
    "Fimex.GribData.C123_members",
    "Fimex.GribData.C123_levels",
    "Fimex.GribData.C123_grids",
    "Fimex.GribData.C123_level_type",
    "Fimex.GribData.C123_further_variable_fails",
    "Fimex.GribData.C123_further_variable_taken",
    "Fimex.GribData.C123_empty_id"
   ],
   "note": "Proved for all messages and configurations for which the dataset is made (otherwise there is an exception, and no dataset). Values of grids, projections, vertical coordinates (C111), units of times (C31) and elements of the configuration are parameters. The condition that names of vertical axes are not empty is necessary (C123_empty_id: wrong lengths, and reading past the end of the shape)."
  },
  {
   "property": "C124",
   "status": "partial",
   "theorems": [
    "Fimex.Glob.C124_pattern",
    "Fimex.Glob.C124_initial",
    "Fimex.Glob.C124_one_directory",
    "Fimex.Glob.C124_files_partial",
    "Fimex.Glob.C124_real_files",
    "Fimex.Glob.C124_second_directory_missed",
    "Fimex.Glob.C124_extension",
    "Fimex.Glob.C124_extension_is_of_file"
   ],
   "note": "Proved for patterns with wildcards in the file name only; for deeper patterns if in each directory nothing is listed after a directory (C124_files_partial), and false otherwise (C124_second_directory_missed): names of directories already visited stay in the path that is compared. Bytes as characters; std::regex is modelled for the expressions used. The ends of lines are not matched by two stars."
  },
  {
   "property": "C125",
   "status": "proved",
   "theorems": [
    "Fimex.Formats.C125_types",
    "Fimex.Formats.C125_types_exclusive",
    "Fimex.Formats.C125_first_bytes",
    "Fimex.Formats.C125_first_bytes_exclusive",
    "Fimex.Formats.C125_short_buffer",
    "Fimex.Formats.C125_other_classic_formats",
    "Fimex.Formats.C125_zarr",
    "Fimex.Formats.C125_names_exclusive",
    "Fimex.Formats.C125_url",
    "Fimex.Formats.C125_zarr_clash",
    "Fimex.Formats.C125_extension_cdf",
    "Fimex.Formats.C125_netcdf_opens",
    "Fimex.Formats.C125_netcdf_writeable",
    "Fimex.Formats.C125_netcdf_version",
    "Fimex.Formats.C125_member",
    "Fimex.Formats.C125_member_missing",
    "Fimex.Formats.C125_regex_cut",
    "Fimex.Formats.C125_further_files",
    "Fimex.Formats.C125_many",
    "Fimex.Formats.C125_grib_opens",
    "Fimex.Formats.C125_grib_edition",
    "Fimex.Formats.C125_edition_of_extension"
   ],
   "note": "Proved for all texts. What is read and written by the formats is modelled in other properties; regular expressions, files by pattern (C124) and lists of files as there, or as parameters. Violations: C125_short_buffer (the lengths for HDF5 and classic files are exchanged), C125_other_classic_formats, C125_zarr_clash, C125_extension_cdf, C125_regex_cut, C125_edition_of_extension."
  },
  {
   "property": "C126",
   "status": "proved",
   "theorems": [
    "Fimex.NcmlWrite.C126_read_back",
    "Fimex.NcmlWrite.C126_texts",
    "Fimex.NcmlWrite.C126_markup",
    "Fimex.NcmlWrite.C126_attributes_lost",
    "Fimex.NcmlWrite.C126_commas",
    "Fimex.NcmlWrite.C126_unsigned_attributes",
    "Fimex.NcmlWrite.C126_unsigned",
    "Fimex.NcmlWrite.C126_no_values",
    "Fimex.NcmlWrite.C126_text_variable",
    "Fimex.NcmlWrite.C126_marker",
    "Fimex.NcmlWrite.C126_shapes",
    "Fimex.NcmlWrite.C126_fill",
    "Fimex.NcmlWrite.C126_vectors",
    "Fimex.NcmlWrite.C126_digits"
   ],
   "note": "Proved for all datasets that meet the conditions in the statement. XML markup is a tree, decoding of texts follows XML 1.0 (predefined entities, line ends, white space in attributes). How numbers are printed and parsed is a parameter with the condition that it is exact for the numbers concerned; with 16 digits it is not for all doubles (C126_digits). Violations outside of the conditions: C126_attributes_lost, C126_commas, C126_unsigned, C126_unsigned_attributes, C126_no_values, C126_text_variable, C126_marker, C126_markup, C126_shapes, C126_vectors."
  },
  {
   "property": "C127",
   "status": "proved",
   "theorems": [
    "Fimex.Template.C127_replaced",
    "Fimex.Template.C127_replaced_all",
    "Fimex.Template.C127_unchanged",
    "Fimex.Template.C127_plain",
    "Fimex.Template.C127_attributes",
    "Fimex.Template.C127_node",
    "Fimex.Template.C127_empty_property",
    "Fimex.Template.C127_time",
    "Fimex.Template.C127_time_offset",
    "Fimex.Template.C127_offset_stays",
    "Fimex.Template.C127_no_default",
    "Fimex.Template.C127_long",
    "Fimex.Template.C127_two",
    "Fimex.Template.C127_merged",
    "Fimex.Template.C127_merged_witness"
   ],
   "note": "Proved for all texts that meet the conditions of the statement, which are necessary (C127_merged, C127_merged_witness). strftime, reading of whole numbers and the constructor of attributes are parameters; std::regex is modelled for this expression. Violations: C127_merged (two places with brackets are read as one), C127_no_default (format of the object never used), C127_offset_stays, C127_long (80 characters or more), C127_empty_property (null pointer for an attribute with empty value)."
  },
  {
   "property": "C128",
   "status": "proved",
   "theorems": [
    "Fimex.QualityConfig.C128_accepted",
    "Fimex.QualityConfig.C128_controls",
    "Fimex.QualityConfig.C128_two_elements",
    "Fimex.QualityConfig.C128_sizes",
    "Fimex.QualityConfig.C128_same_names",
    "Fimex.QualityConfig.C128_missing_status",
    "Fimex.QualityConfig.C128_auto_nothing",
    "Fimex.QualityConfig.C128_auto_refused",
    "Fimex.QualityConfig.C128_slices",
    "Fimex.QualityConfig.C128_ends",
    "Fimex.QualityConfig.C128_circular"
   ],
   "note": "Proved for all documents and datasets; opening files, reading numbers and searching variables by attributes are parameters, the masking is C54. Violations: C128_auto_nothing (the automatic configuration never does anything, because a vector is shadowed), C128_auto_refused (values= is documented and refused), C128_two_elements, C128_same_names, C128_missing_status, C128_circular (documented as the task of the author of the document)."
  },
  {
   "property": "C129",
   "status": "proved",
   "theorems": [
    "Fimex.FeltParams.C129_parameters",
    "Fimex.FeltParams.C129_restrictions",
    "Fimex.FeltParams.C129_type_and_fill",
    "Fimex.FeltParams.C129_unknown_type",
    "Fimex.FeltParams.C129_restriction_in_id",
    "Fimex.FeltParams.C129_other_names"
   ],
   "note": "Proved for all configurations that meet the conditions of the statement. Reading a text as number is a parameter; std::regex is modelled for the three expressions used. Violations: C129_unknown_type (the exception is constructed and not thrown), C129_restriction_in_id (the parameter is then known under another name and its own name matches every field), C129_other_names (empty restriction, types with digits)."
  },
  {
   "property": "C130",
   "status": "proved",
   "theorems": [
    "Fimex.CApi.C130_text",
    "Fimex.CApi.C130_text_read",
    "Fimex.CApi.C130_no_longitude",
    "Fimex.CApi.C130_names",
    "Fimex.CApi.C130_regions",
    "Fimex.CApi.C130_refused",
    "Fimex.CApi.C130_long",
    "Fimex.CApi.C130_types",
    "Fimex.CApi.C130_dup",
    "Fimex.CApi.C130_null",
    "Fimex.CApi.C130_dim_names",
    "Fimex.CApi.C130_filled",
    "Fimex.CApi.C130_new_memory",
    "Fimex.CApi.C130_written",
    "Fimex.CApi.C130_callbacks",
    "Fimex.CApi.C130_fill_type",
    "Fimex.CApi.C130_set_callback",
    "Fimex.CApi.C130_fill_value"
   ],
   "note": "Proved under the preconditions of the statement. The readers behind the interface are parameters (scaled values as in C05), freeing memory is not modelled. Violations: C130_refused and C130_dim_names (an exception leaves a function for C), C130_long (lengths of 2^32 and more), C130_no_longitude (no coordinate looks like an empty name), C130_fill_type (a fill value of a type other than double makes a variable with function unreadable), C130_fill_value (a value equal to the packed fill value becomes missing)."
  },
  {
   "property": "C131",
   "status": "proved",
   "theorems": [
    "Fimex.GribCut.C131_up",
    "Fimex.GribCut.C131_down",
    "Fimex.GribCut.C131_part",
    "Fimex.GribCut.C131_last_longitude",
    "Fimex.GribCut.C131_rows",
    "Fimex.GribCut.C131_sample",
    "Fimex.GribCut.C131_last_column",
    "Fimex.GribCut.C131_dateline",
    "Fimex.GribCut.C131_box",
    "Fimex.GribCut.C131_refused",
    "Fimex.GribCut.C131_messages",
    "Fimex.GribCut.C131_copy",
    "Fimex.GribCut.C131_silent",
    "Fimex.GribCut.C131_bad_box"
   ],
   "note": "Proved under the preconditions of the statement; numbers are exact and the GRIB library stores and gives what it is told. Violations: C131_rows (latitudes are searched in the wrong direction, so that only the first row is kept), C131_last_longitude (written for the column behind the last one), C131_last_column (the last column of the grid is lost), C131_dateline (grids from 0 to 360 degrees), C131_silent (unreadable messages are not counted; 256 errors are exit code 0)."
  },
  {
   "property": "C132",
   "status": "proved",
   "theorems": [
    "Fimex.FeltGrid.C132_extra",
    "Fimex.FeltGrid.C132_encoded",
    "Fimex.FeltGrid.C132_latitudes",
    "Fimex.FeltGrid.C132_latitudes_same",
    "Fimex.FeltGrid.C132_pole",
    "Fimex.FeltGrid.C132_accepted",
    "Fimex.FeltGrid.C132_stereographic",
    "Fimex.FeltGrid.C132_geographic",
    "Fimex.FeltGrid.C132_mercator",
    "Fimex.FeltGrid.C132_more_rows",
    "Fimex.FeltGrid.C132_defined"
   ],
   "note": "Proved under the preconditions of the statement; numbers are of an ordered field (the code rounds to float), sine and projection are parameters, texts of projections are not modelled. Violations: C132_accepted (conic grids without more words are always refused, their tangent being zero), C132_latitudes and C132_more_rows (axes longer than the grid)."
  },
  {
   "property": "C133",
   "status": "proved",
   "theorems": [
    "Fimex.Contents.C133_quantile",
    "Fimex.Contents.C133_stats",
    "Fimex.Contents.C133_between",
    "Fimex.Contents.C133_variance",
    "Fimex.Contents.C133_order",
    "Fimex.Contents.C133_single",
    "Fimex.Contents.C133_slices",
    "Fimex.Contents.C133_once",
    "Fimex.Contents.C133_near",
    "Fimex.Contents.C133_no_time",
    "Fimex.Contents.C133_kind",
    "Fimex.Contents.C133_wrong_axis"
   ],
   "note": "Proved for exact numbers. nth_element is modelled by its contract; the square root of the variance and printing are not modelled; other dimensions are known by their number of values. Violations: C133_wrong_axis (the option verticalLayer asks the axis of x), C133_no_time (nothing is shown without time axis), C133_single (the deviation of one value is 0/0)."
  },
  {
   "property": "C134",
   "status": "proved",
   "theorems": [
    "Fimex.Column.C134_axes",
    "Fimex.Column.C134_column",
    "Fimex.Column.C134_values",
    "Fimex.Column.C134_valid",
    "Fimex.Column.C134_scalar",
    "Fimex.Column.C134_simple",
    "Fimex.Column.C134_times",
    "Fimex.Column.C134_range"
   ],
   "note": "Proved for values with a linear order (NaN is left out); the data of the converter are a parameter, and reading the address of the first of no values is not modelled. Violation: C134_scalar (front of an empty shape for scalar axes). Nothing in the repository calls getSimpleAxes, and only a test calls the getConverter that makes the adapter: both are interfaces for users of the library, so C134_times is about a caller who combines them and not about a path through the program."
  }
 ]
}
