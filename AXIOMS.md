# Axioms of the property theorems

Written by `tools/axioms.py` from `#print axioms`.

| property | theorem | axioms |
|---|---|---|
| C01 | `Verif.C01_longitude_domain` | propext, Classical.choice, Quot.sound |
| C01 | `Verif.C01_longitude_domain_list` | propext, Classical.choice, Quot.sound |
| C02 | `Verif.C02_longitude_distance` | propext, Classical.choice, Quot.sound |
| C03 | `Verif.C03_construction_table` | propext, Classical.choice, Quot.sound |
| C03 | `Verif.C03_out_of_range_accepted` | propext, Classical.choice, Quot.sound |
| C03 | `Verif.C03_construction_partial` | propext, Classical.choice, Quot.sound |
| C03 | `Verif.C03_rejection_error` | propext, Quot.sound |
| C04 | `Verif.C04_geometry_partial` | propext, Classical.choice, Quot.sound |
| C04 | `Verif.C04_degenerate_width` | propext, Classical.choice, Quot.sound |
| C05 | `Verif.C05_time_ignored` | propext, Classical.choice, Quot.sound |
| C05 | `Verif.C05_equality_partial` | propext |
| C06 | `Verif.C06_polygon_round_trip_partial` | propext, Classical.choice, Quot.sound |
| C06 | `Verif.C06_degenerate_changes` | propext, Classical.choice, Quot.sound |
| C07 | `Verif.C07_split_partial` | propext, Classical.choice, Quot.sound |
| C07 | `Verif.C07_split_raises` | propext, Classical.choice, Quot.sound |
| C12 | `Verif.C12_case_is_touching` | propext, Classical.choice, Quot.sound |
| C12 | `Verif.C12_case_none_iff` | propext, Classical.choice, Quot.sound |
| C12 | `Verif.C12_case_antisymmetric` | propext, Classical.choice, Quot.sound |
| C13 | `Verif.C13_global_case` | propext, Classical.choice, Quot.sound |
| C13 | `Verif.C13_guard_needed` | propext, Classical.choice, Quot.sound |
| C14 | `Verif.C14_cell_split_partial` | propext, Classical.choice, Quot.sound |
| C14 | `Verif.C14_degenerate` | propext, Classical.choice, Quot.sound |
| C08 | `Verif.C08_initial_grid_partial` | propext, Classical.choice, Quot.sound |
| C08 | `Verif.C08_false` | propext, Classical.choice, Quot.sound |
| C09 | `Verif.validators_accept_iff` | propext, Classical.choice, Quot.sound |
| C09 | `Verif.C09_cell_sizes_partial` | propext, Classical.choice, Quot.sound |
| C09 | `Verif.C09_full_circle_unchecked` | propext, Classical.choice, Quot.sound |
| C09 | `Verif.C09_false` | propext, Classical.choice, Quot.sound |
| C09 | `Verif.C09_negative_size_accepted` | propext, Classical.choice, Quot.sound |
| C10 | `Verif.C10_initial_graph` | propext, Classical.choice, Quot.sound |
| C10 | `Verif.C10_construction_succeeds` | propext, Classical.choice, Quot.sound |
| C11 | `Verif.C11_global_graph` | propext, Classical.choice, Quot.sound |
| C11 | `Verif.C11_flag_partial` | propext, Classical.choice, Quot.sound |
| C11 | `Verif.C11_other_region_false` | propext, Classical.choice, Quot.sound |
| C15 | `Verif.C15_tiling_partial` | propext, Classical.choice, Quot.sound |
| C16 | `Verif.C16_regional_graph` | propext, Classical.choice, Quot.sound |
| C17 | `Verif.C17_global_graph` | propext, Classical.choice, Quot.sound |
| C18 | `Verif.C18_initial_partial` | propext, Classical.choice, Quot.sound |
| C18 | `Verif.C18_listed_partial` | propext, Classical.choice, Quot.sound |
| C18 | `Verif.C18_parts_partial` | propext, Classical.choice, Quot.sound |
| C18 | `Verif.C18_false` | propext, Classical.choice, Quot.sound |
| C19 | `Verif.C19_crossing_partial` | propext, Classical.choice, Quot.sound |
| C19 | `Verif.C19_well_formed_partial` | propext, Classical.choice, Quot.sound |
| C19 | `Verif.C19_single_column_false` | propext, Classical.choice, Quot.sound |
| C19 | `Verif.C19_asymmetric_false` | propext, Classical.choice, Quot.sound |
| C20 | `Verif.C20_ids` | propext, Classical.choice, Quot.sound |
| C20 | `Verif.C20_split_step` | propext, Classical.choice, Quot.sound |
| C20 | `Verif.C20_never_reused` | propext, Classical.choice, Quot.sound |
| C21 | `Verif.C21_depth_bound` | propext, Classical.choice, Quot.sound |
| C21 | `Verif.C21_all_sizes_partial` | propext, Classical.choice, Quot.sound |
| C21 | `Verif.C21_sizes_partial` | propext, Classical.choice, Quot.sound |
| C21 | `Verif.C21_wide_false` | propext, Classical.choice, Quot.sound |
| C22 | `Verif.C22_terminates_partial` | propext, Classical.choice, Quot.sound |
| C22 | `Verif.C22_zero_height_raises` | propext, Classical.choice, Quot.sound |
| C22 | `Verif.C22_misfit_raises` | propext, Classical.choice, Quot.sound |
| C22 | `Verif.C22_second_call_raises` | propext, Classical.choice, Quot.sound |
| C23 | `Verif.C23_history_independent_partial` | propext, Classical.choice, Quot.sound |
| C23 | `Verif.C23_crossing_false` | propext, Classical.choice, Quot.sound |
| C24 | `Verif.C24_each_point_once_partial` | propext, Classical.choice, Quot.sound |
| C24 | `Verif.C24_each_point_once_crossing_grid_partial` | propext, Classical.choice, Quot.sound |
| C24 | `Verif.C24_false` | propext, Classical.choice, Quot.sound |
| C24 | `Verif.C24_descending_false` | propext, Classical.choice, Quot.sound |
| C25 | `Verif.C25_composes_partial` | propext, Classical.choice, Quot.sound |
| C25 | `Verif.C25_cached_partial` | propext, Classical.choice, Quot.sound |
| C25 | `Verif.C25_cached_crossing_grid` | propext, Classical.choice, Quot.sound |
| C25 | `Verif.C25_false` | propext, Classical.choice, Quot.sound |
| C26 | `Verif.C26_table_grid_agree_partial` | propext, Classical.choice, Quot.sound |
| C26 | `Verif.C26_crossing_grid` | propext, Classical.choice, Quot.sound |
| C26 | `Verif.C26_crossing_table_wrong` | propext, Classical.choice, Quot.sound |
| C26 | `Verif.C26_false` | propext, Classical.choice, Quot.sound |
| C27 | `Verif.C27_decision` | propext, Classical.choice, Quot.sound |
| C27 | `Verif.C27_order` | propext, Classical.choice, Quot.sound |
| C27 | `Verif.C27_scale` | propext, Classical.choice, Quot.sound |
| C28 | `Verif.C28_split_iff` | propext, Classical.choice, Quot.sound |
| C28 | `Verif.C28_locked` | propext, Classical.choice, Quot.sound |
| C28 | `Verif.C28_breadth_first` | propext, Quot.sound |
| C28 | `Verif.C28_order` | propext, Classical.choice, Quot.sound |
| C28 | `Verif.C28_scalar_total` | propext, Classical.choice, Quot.sound |
| C29 | `Verif.C29_values` | propext, Classical.choice, Quot.sound |
| C29 | `Verif.C29_count` | propext, Classical.choice, Quot.sound |
| C29 | `Verif.C29_std_partial` | propext, Classical.choice, Quot.sound |
| C29 | `Verif.C29_std_false` | propext, Classical.choice, Quot.sound |
| C29 | `Verif.C29_unknown` | propext, Classical.choice, Quot.sound |
| C29 | `Verif.C29_order` | propext, Classical.choice, Quot.sound |
| C30 | `Verif.C30_quarters_partial` | propext, Classical.choice, Quot.sound |
| C30 | `Verif.C30_false` | propext, Classical.choice, Quot.sound |
| C31 | `Verif.C31_fill` | propext, Classical.choice, Quot.sound |
| C31 | `Verif.C31_mesh` | propext, Classical.choice, Quot.sound |
| C32 | `Verif.C32_first_present_partial` | propext, Classical.choice, Quot.sound |
| C32 | `Verif.C32_string_fill_raises` | propext, Classical.choice, Quot.sound |
| C33 | `Verif.C33_parent_partial` | propext, Classical.choice, Quot.sound |
| C33 | `Verif.C33_constant_not_filled` | propext, Classical.choice, Quot.sound |
| C33 | `Verif.C33_overwrites` | propext, Classical.choice, Quot.sound |
| C33 | `Verif.C33_false` | propext, Classical.choice, Quot.sound |
| C53 | `Verif.C53_extreme` | propext, Classical.choice, Quot.sound |
| C53 | `Verif.C53_mean` | propext, Classical.choice, Quot.sound |
| C53 | `Verif.C53_table_grid_agree_partial` | propext, Classical.choice, Quot.sound |
| C53 | `Verif.C53_incomplete_false` | propext, Classical.choice, Quot.sound |
| C53 | `Verif.C53_errors` | propext, Classical.choice, Quot.sound |
| C54 | `Verif.C54_table_curl_partial` | propext, Classical.choice, Quot.sound |
| C54 | `Verif.C54_grid_curl` | propext, Classical.choice, Quot.sound |
| C54 | `Verif.C54_false` | propext, Classical.choice, Quot.sound |
| C34 | `Verif.C34_round_trip_partial` | propext, Classical.choice, Quot.sound |
| C34 | `Verif.C34_loaded_consistent` | propext, Classical.choice, Quot.sound |
| C34 | `Verif.C34_global_flag_lost` | propext, Quot.sound |
| C34 | `Verif.C34_false` | propext, Classical.choice, Quot.sound |
| C35 | `Verif.C35_query_partial` | propext, Classical.choice, Quot.sound |
| C35 | `Verif.C35_antimeridian_false` | propext, Classical.choice, Quot.sound |
| C36 | `Verif.C36_points_partial` | propext, Classical.choice, Quot.sound |
| C36 | `Verif.C36_midpoint_false` | propext, Classical.choice, Quot.sound |
| C37 | `Verif.C37_split` | propext, Classical.choice, Quot.sound |
| C37 | `Verif.C37_sequences` | propext, Classical.choice, Quot.sound |
| C37 | `Verif.C37_raises` | propext, Classical.choice, Quot.sound |
| C37 | `Verif.C37_global_false` | propext, Classical.choice, Quot.sound |
| C40 | `Verif.C40_isomorphism` | propext, Classical.choice, Quot.sound |
| C40 | `Verif.C40_consistent` | propext, Classical.choice, Quot.sound |
| C40 | `Verif.C40_compose_partial` | propext, Classical.choice, Quot.sound |
| C40 | `Verif.C40_data_id_false` | propext, Quot.sound |
| C41 | `Verif.C41_remove_node` | propext, Classical.choice, Quot.sound |
| C41 | `Verif.C41_missing` | propext |
| C41 | `Verif.C41_remove_cell` | propext, Classical.choice, Quot.sound |
| C44 | `Verif.C44_update_partial` | propext, Quot.sound |
| C44 | `Verif.C44_wrong_index_false` | propext, Quot.sound |
| C38 | `Verif.C38_merge_partial` | propext, Classical.choice, Quot.sound |
| C38 | `Verif.C38_tiles` | propext, Classical.choice, Quot.sound |
| C38 | `Verif.C38_sequences` | propext, Classical.choice, Quot.sound |
| C38 | `Verif.C38_built` | propext, Classical.choice, Quot.sound |
| C38 | `Verif.C38_coarse_false` | propext, Classical.choice, Quot.sound |
| C39 | `Verif.C39_renumbered_partial` | propext, Classical.choice, Quot.sound |
| C39 | `Verif.C39_false` | propext, Classical.choice, Quot.sound |
| C52 | `Verif.C52_build_partial` | propext, Classical.choice, Quot.sound |
| C52 | `Verif.C52_crossing_partial` | propext, Classical.choice, Quot.sound |
| C42 | `Verif.C42_dates` | propext, Classical.choice, Quot.sound |
| C42 | `Verif.C42_today` | propext, Classical.choice, Quot.sound |
| C42 | `Verif.C42_relative_partial` | propext, Classical.choice, Quot.sound |
| C42 | `Verif.C42_false` | propext, Classical.choice, Quot.sound |
| C42 | `Verif.C42_more_false` | propext, Classical.choice, Quot.sound |
| C42 | `Verif.C42_disagreement` | propext, Classical.choice, Quot.sound |
| C43 | `Verif.C43_count` | propext, Classical.choice, Quot.sound |
| C43 | `Verif.C43_extent` | propext, Classical.choice, Quot.sound |
| C43 | `Verif.C43_square_partial` | propext, Classical.choice, Quot.sound |
| C43 | `Verif.C43_false` | propext, Classical.choice, Quot.sound |
| C43 | `Verif.C43_edge_false` | propext, Classical.choice, Quot.sound |
| C45 | `Verif.C45_samples` | propext, Classical.choice, Quot.sound |
| C45 | `Verif.C45_clamped_partial` | propext, Classical.choice, Quot.sound |
| C45 | `Verif.C45_crossing_false` | propext, Classical.choice, Quot.sound |
| C46 | `Verif.C46_reports` | propext, Quot.sound |
| C46 | `Verif.C46_both_ways` | propext, Classical.choice, Quot.sound |
| C46 | `Verif.C46_same_region_partial` | propext, Classical.choice, Quot.sound |
| C46 | `Verif.C46_false` | propext, Classical.choice, Quot.sound |
| C50 | `Verif.C50_range` | propext, Classical.choice, Quot.sound |
| C50 | `Verif.C50_whole` | propext, Classical.choice, Quot.sound |
| C50 | `Verif.C50_additive` | propext, Classical.choice, Quot.sound |
| C50 | `Verif.C50_days` | propext, Classical.choice, Quot.sound |
| C50 | `Verif.C50_year_unchecked` | propext, Classical.choice, Quot.sound |
| C55 | `Verif.C55_accuracy` | propext, Classical.choice, Quot.sound |
| C55 | `Verif.C55_sign` | propext, Classical.choice, Quot.sound |
| C55 | `Verif.C55_idempotent` | propext, Classical.choice, Quot.sound |
| C55 | `Verif.C55_monotone` | propext, Classical.choice, Quot.sound |
| C55 | `Verif.C55_close_false` | propext, Classical.choice, Quot.sound |
| C56 | `Verif.C56_duration_partial` | propext, Classical.choice, Quot.sound |
| C56 | `Verif.C56_sixty_false` | propext, Classical.choice, Quot.sound |
| C57 | `Verif.C57_graph_comparison` | propext, Classical.choice, Quot.sound |
| C57 | `Verif.C57_missing_nodes` | propext, Classical.choice, Quot.sound |
| C58 | `Verif.C58_all_points_partial` | propext, Classical.choice, Quot.sound |
| C58 | `Verif.C58_false` | propext, Classical.choice, Quot.sound |
| C47 | `Verif.C47_decision` | propext, Classical.choice, Quot.sound |
| C47 | `Verif.C47_missing` | propext, Classical.choice, Quot.sound |
| C47 | `Verif.C47_through_partial` | propext, Classical.choice, Quot.sound |
| C47 | `Verif.C47_touching_false` | propext, Classical.choice, Quot.sound |
| C48 | `Verif.C48_density` | propext, Classical.choice, Quot.sound |
| C48 | `Verif.C48_thickness_partial` | propext, Classical.choice, Quot.sound |
| C48 | `Verif.C48_thickness_false` | propext, Classical.choice, Quot.sound |
| C49 | `Verif.C49_icenet_partial` | propext, Classical.choice, Quot.sound |
| C49 | `Verif.C49_icenet_false` | propext, Classical.choice, Quot.sound |
| C49 | `Verif.C49_ecmwf_partial` | propext, Classical.choice, Quot.sound |
| C49 | `Verif.C49_ecmwf_false` | propext, Classical.choice, Quot.sound |
| C51 | `Verif.C51_known` | propext, Classical.choice, Quot.sound |
| C51 | `Verif.C51_unknown` | propext, Classical.choice, Quot.sound |
| C51 | `Verif.C51_parameters_partial` | propext, Classical.choice, Quot.sound |
| C51 | `Verif.C51_parameters_false` | propext, Classical.choice, Quot.sound |
| C59 | `Verif.C59_extremes` | propext, Classical.choice, Quot.sound |
| C59 | `Verif.C59_mean_partial` | propext, Classical.choice, Quot.sound |
| C59 | `Verif.C59_mean_false` | propext, Classical.choice, Quot.sound |
| C60 | `Verif.C60_globe` | propext, Classical.choice, Quot.sound |
| C61 | `Verif.C61_saved_box_partial` | propext, Classical.choice, Quot.sound |
| C61 | `Verif.C61_name_clash_false` | propext, Classical.choice, Quot.sound |
| C62 | `Verif.C62_circle_partial` | propext, Classical.choice, Quot.sound |
| C62 | `Verif.C62_rectangle_partial` | propext, Classical.choice, Quot.sound |
| C62 | `Verif.C62_gradient_partial` | propext, Classical.choice, Quot.sound |
| C62 | `Verif.C62_checkerboard_partial` | propext, Classical.choice, Quot.sound |
| C62 | `Verif.C62_centre_false` | propext, Classical.choice, Quot.sound |
| C62 | `Verif.C62_even_false` | propext, Classical.choice, Quot.sound |
| C62 | `Verif.C62_rectangle_false` | propext, Classical.choice, Quot.sound |
| C62 | `Verif.C62_height_false` | propext, Classical.choice, Quot.sound |
| C62 | `Verif.C62_multiplier_false` | propext, Classical.choice, Quot.sound |
| C62 | `Verif.C62_crossing_false` | propext, Classical.choice, Quot.sound |
| C63 | `Verif.C63_circle_partial` | propext, Classical.choice, Quot.sound |
| C63 | `Verif.C63_rectangle_partial` | propext, Classical.choice, Quot.sound |
| C63 | `Verif.C63_gradient_partial` | propext, Classical.choice, Quot.sound |
| C63 | `Verif.C63_defaults_false` | propext, Classical.choice, Quot.sound |
| C64 | `Verif.C64_min` | propext, Classical.choice, Quot.sound |
| C64 | `Verif.C64_max` | propext, Classical.choice, Quot.sound |
| C64 | `Verif.C64_thin` | propext, Classical.choice, Quot.sound |
| C64 | `Verif.C64_coordinates` | propext, Classical.choice, Quot.sound |
| C64 | `Verif.C64_mean_partial` | propext, Classical.choice, Quot.sound |
| C64 | `Verif.C64_mean_false` | propext, Classical.choice, Quot.sound |
| C64 | `Verif.C64_median_false` | propext, Classical.choice, Quot.sound |
| C64 | `Verif.C64_std_zero` | propext, Classical.choice, Quot.sound |
| C64 | `Verif.C64_std_false` | propext, Classical.choice, Quot.sound |
| C65 | `Verif.C65_coverage_partial` | propext, Classical.choice, Quot.sound |
| C65 | `Verif.C65_exact_partial` | propext, Classical.choice, Quot.sound |
| C65 | `Verif.C65_lossless_partial` | propext, Classical.choice, Quot.sound |
| C65 | `Verif.C65_succeeds_partial` | propext, Classical.choice, Quot.sound |
| C65 | `Verif.C65_range_false` | propext, Classical.choice, Quot.sound |
| C65 | `Verif.C65_meridian_false` | propext, Classical.choice, Quot.sound |
| C65 | `Verif.C65_uncovered_false` | propext, Classical.choice, Quot.sound |
| C66 | `Verif.C66_scalar_found` | propext, Quot.sound |
| C66 | `Verif.C66_scalar_set_partial` | propext, Quot.sound |
| C66 | `Verif.C66_vector_found` | propext, Classical.choice, Quot.sound |
| C66 | `Verif.C66_vector_set_partial` | propext, Classical.choice, Quot.sound |
| C66 | `Verif.C66_coordinate_false` | propext |
| C66 | `Verif.C66_list_false` | propext, Classical.choice, Quot.sound |
| C67 | `Verif.C67_attached` | propext, Classical.choice, Quot.sound |
| C67 | `Verif.C67_wrong_name` | propext, Quot.sound |
| C67 | `Verif.C67_data_partial` | propext, Classical.choice, Quot.sound |
| C67 | `Verif.C67_data_crossing_grid` | propext, Classical.choice, Quot.sound |
| C68 | `Verif.C68_others_partial` | propext, Quot.sound |
| C68 | `Verif.C68_aggregate_false` | propext, Classical.choice, Quot.sound |
| C68 | `Verif.C68_split_false` | propext, Classical.choice, Quot.sound |
| C69 | `Verif.C69_size` | propext, Classical.choice, Quot.sound |
| C69 | `Verif.C69_turn` | propext, Classical.choice, Quot.sound |
| C69 | `Verif.C69_bounds` | propext, Classical.choice, Quot.sound |
| C69 | `Verif.C69_band_false` | propext, Classical.choice, Quot.sound |
| C70 | `Verif.C70_scalar_partial` | propext, Classical.choice, Quot.sound |
| C70 | `Verif.C70_range_partial` | propext, Classical.choice, Quot.sound |
| C70 | `Verif.C70_binary_partial` | propext, Classical.choice, Quot.sound |
| C70 | `Verif.C70_cut_off_false` | propext, Classical.choice, Quot.sound |
| C70 | `Verif.C70_flat_false` | propext, Classical.choice, Quot.sound |
| C70 | `Verif.C70_binary_raises` | propext, Classical.choice, Quot.sound |
| C70 | `Verif.C70_circle_raises` | propext, Classical.choice, Quot.sound |
| C70 | `Verif.C70_crossing_false` | propext, Classical.choice, Quot.sound |
| C71 | `Verif.C71_vector_partial` | propext, Classical.choice, Quot.sound |
| C71 | `Verif.C71_lengths_partial` | propext, Classical.choice, Quot.sound |
| C71 | `Verif.C71_flat_false` | propext, Classical.choice, Quot.sound |
| C71 | `Verif.C71_circle_raises` | propext, Classical.choice, Quot.sound |
| C71 | `Verif.C71_crossing_false` | propext, Classical.choice, Quot.sound |
| C72 | `Verif.C72_frequency` | propext, Classical.choice, Quot.sound |
| C72 | `Verif.C72_least_partial` | propext, Classical.choice, Quot.sound |
| C72 | `Verif.C72_least_false` | propext, Classical.choice, Quot.sound |
| C72 | `Verif.C72_amplitude` | propext, Classical.choice, Quot.sound |
| C72 | `Verif.C72_even_partial` | propext, Classical.choice, Quot.sound |
| C72 | `Verif.C72_odd_false` | propext, Classical.choice, Quot.sound |
| C73 | `Verif.C73_dmag` | propext, Classical.choice, Quot.sound |
| C73 | `Verif.C73_order` | propext, Classical.choice, Quot.sound |
| C73 | `Verif.C73_curl_partial` | propext, Classical.choice, Quot.sound |
| C73 | `Verif.C73_linear_partial` | propext, Classical.choice, Quot.sound |
| C73 | `Verif.C73_sign_false` | propext, Classical.choice, Quot.sound |
| C73 | `Verif.C73_no_condition_raises` | propext, Classical.choice, Quot.sound |
| C73 | `Verif.C73_grid_dmag_raises` | propext, Classical.choice, Quot.sound |
| C73 | `Verif.C73_two_times_raises` | propext, Classical.choice, Quot.sound |
| C73 | `Verif.C73_cached_partial` | propext, Classical.choice, Quot.sound |
| C74 | `Verif.C74_mean_partial` | propext, Classical.choice, Quot.sound |
| C74 | `Verif.C74_zero` | propext, Classical.choice, Quot.sound |
| C74 | `Verif.C74_max_false` | propext, Classical.choice, Quot.sound |
| C74 | `Verif.C74_curl` | propext, Classical.choice, Quot.sound |
| C75 | `Verif.C75_reports_partial` | propext, Classical.choice, Quot.sound |
| C75 | `Verif.C75_tolerance` | propext, Classical.choice, Quot.sound |
| C75 | `Verif.C75_self` | propext, Classical.choice, Quot.sound |
| C75 | `Verif.C75_symmetric` | propext, Classical.choice, Quot.sound |
| C75 | `Verif.C75_rows` | propext, Classical.choice, Quot.sound |
| C75 | `Verif.C75_empty_raises` | propext, Classical.choice, Quot.sound |
| C75 | `Verif.C75_written` | propext, Classical.choice, Quot.sound |
| C75 | `Verif.C75_id_false` | propext, Classical.choice, Quot.sound |
| C75 | `Verif.C75_column_false` | propext, Classical.choice, Quot.sound |
| C75 | `Verif.C75_mixed_false` | propext, Classical.choice, Quot.sound |
| C76 | `Verif.C76_attributes_partial` | propext, Quot.sound |
| C76 | `Verif.C76_order_false` | propext, Classical.choice, Quot.sound |
| C76 | `Verif.C76_written` | propext, Classical.choice, Quot.sound |
| C76 | `Verif.C76_output` | propext, Classical.choice, Quot.sound |
| C77 | `Verif.C77_scalar` | propext, Classical.choice, Quot.sound |
| C77 | `Verif.C77_vector` | propext, Classical.choice, Quot.sound |
| C77 | `Verif.C77_mean_le_rms` | propext, Classical.choice, Quot.sound |
| C77 | `Verif.C77_mean_le_rms_vector` | propext, Classical.choice, Quot.sound |
| C77 | `Verif.C77_raises` | propext, Classical.choice, Quot.sound |
| C78 | `Verif.C78_exact_partial` | propext, Classical.choice, Quot.sound |
| C78 | `Verif.C78_fails` | propext, Classical.choice, Quot.sound |
| C78 | `Verif.C78_split_raises` | propext, Classical.choice, Quot.sound |
| C79 | `Verif.C79_cells_partial` | propext, Quot.sound |
| C79 | `Verif.C79_tile` | propext, Classical.choice, Quot.sound |
| C79 | `Verif.C79_raises` | propext |
| C80 | `Verif.C80_era5_partial` | propext, Classical.choice, Quot.sound |
| C80 | `Verif.C80_bsoseDepth_partial` | propext, Classical.choice, Quot.sound |
| C80 | `Verif.C80_bsoseIce_partial` | propext, Classical.choice, Quot.sound |
| C80 | `Verif.C80_era5Wind_partial` | propext, Classical.choice, Quot.sound |
| C80 | `Verif.C80_duacs_partial` | propext, Classical.choice, Quot.sound |
| C80 | `Verif.C80_plainGrid_partial` | propext, Classical.choice, Quot.sound |
| C80 | `Verif.C80_balticIce_partial` | propext, Classical.choice, Quot.sound |
| C80 | `Verif.C80_sose_partial` | propext, Classical.choice, Quot.sound |
| C80 | `Verif.C80_csv` | propext, Quot.sound |
| C80 | `Verif.C80_units_raise` | propext, Classical.choice, Quot.sound |
| C80 | `Verif.C80_no_files` | propext, Classical.choice, Quot.sound |
| C80 | `Verif.C80_antimeridian_false` | propext, Classical.choice, Quot.sound |
| C80 | `Verif.C80_ascending_false` | propext, Classical.choice, Quot.sound |
| C80 | `Verif.C80_unwrapped_false` | propext, Classical.choice, Quot.sound |
| C81 | `Verif.C81_files` | propext, Quot.sound |
| C81 | `Verif.C81_amsr` | propext, Quot.sound |
| C81 | `Verif.C81_hemisphere` | propext, Classical.choice, Quot.sound |
| C81 | `Verif.C81_none` | propext, Classical.choice, Quot.sound |
| C81 | `Verif.C81_bad_name` | propext, Classical.choice, Quot.sound |
| C81 | `Verif.C81_no_time` | propext, Classical.choice, Quot.sound |
| C81 | `Verif.C81_amsr_errors` | propext, Quot.sound |
| C81 | `Verif.C81_month` | propext, Classical.choice, Quot.sound |
| C82 | `Verif.C82_wind` | propext, Classical.choice, Quot.sound |
| C82 | `Verif.C82_waves` | propext, Classical.choice, Quot.sound |
| C82 | `Verif.C82_baltic_partial` | propext, Classical.choice, Quot.sound |
| C82 | `Verif.C82_modis_partial` | propext, Classical.choice, Quot.sound |
| C82 | `Verif.C82_modis_folder_raises` | propext, Quot.sound |
| C82 | `Verif.C82_modis_name_raises` | propext |
| C82 | `Verif.C82_charts` | propext, Classical.choice, Quot.sound |
| C82 | `Verif.C82_charts_refused` | propext, Classical.choice, Quot.sound |
| C83 | `Verif.C83_accepted` | propext, Classical.choice, Quot.sound |
| C83 | `Verif.C83_errors` | propext, Classical.choice, Quot.sound |
| C83 | `Verif.C83_file_raises` | propext, Classical.choice, Quot.sound |
| C83 | `Verif.C83_extra_key` | propext, Classical.choice, Quot.sound |
| C84 | `Verif.C84_boundary` | propext, Classical.choice, Quot.sound |
| C84 | `Verif.C84_rebuild` | propext, Classical.choice, Quot.sound |
| C84 | `Verif.C84_kept` | propext, Classical.choice, Quot.sound |
| C84 | `Verif.C84_reads` | propext, Classical.choice, Quot.sound |
| C84 | `Verif.C84_early_years_raise` | propext, Classical.choice, Quot.sound |
| C84 | `Verif.C84_negative_minimum_raises` | propext, Classical.choice, Quot.sound |
| C85 | `Verif.C85_vessel` | propext, Classical.choice, Quot.sound |
| C85 | `Verif.C85_route` | propext, Classical.choice, Quot.sound |
| C85 | `Verif.C85_nan_accepted` | propext, Classical.choice, Quot.sound |
| C86 | `Verif.C86_waypoints` | propext, Quot.sound |
| C86 | `Verif.C86_errors` | propext |
| C86 | `Verif.C86_range_unchecked` | propext, Quot.sound |
| C87 | `Verif.C87_exports` | propext, Classical.choice, Quot.sound |
| C87 | `Verif.C87_features` | propext, Classical.choice, Quot.sound |
| C87 | `Verif.C87_errors` | propext, Classical.choice, Quot.sound |
| C87 | `Verif.C87_mesh` | propext, Classical.choice, Quot.sound |
| C88 | `Verif.C88_json` | propext, Classical.choice, Quot.sound |
| C88 | `Verif.C88_geojson` | propext, Classical.choice, Quot.sound |
| C88 | `Verif.C88_png` | propext, Classical.choice, Quot.sound |
| C88 | `Verif.C88_unknown` | propext, Classical.choice, Quot.sound |
| C88 | `Verif.C88_tif` | propext, Classical.choice, Quot.sound |
| C88 | `Verif.C88_tif_others` | propext, Classical.choice, Quot.sound |
| C88 | `Verif.C88_tif_scratch` | propext, Classical.choice, Quot.sound |
| C88 | `Verif.C88_cli` | propext, Classical.choice, Quot.sound |
| C89 | `Verif.C89_params` | propext, Classical.choice, Quot.sound |
| C89 | `Verif.C89_projection` | propext, Classical.choice, Quot.sound |
| C89 | `Verif.C89_refused` | propext, Classical.choice, Quot.sound |
| C89 | `Verif.C89_colours` | propext, Classical.choice, Quot.sound |
| C89 | `Verif.C88_tif` | propext, Classical.choice, Quot.sound |
| C90 | `Verif.C90_cmap` | propext, Classical.choice, Quot.sound |
| C90 | `Verif.C90_boolean_raises` | propext, Classical.choice, Quot.sound |
| C90 | `Verif.C90_shade` | propext, Classical.choice, Quot.sound |
| C90 | `Verif.C90_bool` | propext, Classical.choice, Quot.sound |
| C90 | `Verif.C90_missing` | propext, Classical.choice, Quot.sound |
| C90 | `Verif.C90_crossing_raises` | propext, Classical.choice, Quot.sound |
| C90 | `Verif.C90_layers` | propext, Classical.choice, Quot.sound |
| C91 | `Verif.C91_accepted` | propext, Quot.sound |
| C91 | `Verif.C91_once` | propext, Classical.choice, Quot.sound |
| C91 | `Verif.C91_repeated` | propext, Classical.choice, Quot.sound |
| C91 | `Verif.C91_polygons` | propext, Classical.choice, Quot.sound |
| C91 | `Verif.C91_days` | propext, Classical.choice, Quot.sound |
| C91 | `Verif.C91_dates_lost` | propext, Classical.choice, Quot.sound |
| C92 | `Verif.C92_table` | propext, Classical.choice, Quot.sound |
| C92 | `Verif.C92_zones` | propext, Classical.choice, Quot.sound |
| C92 | `Verif.C92_rest` | propext, Classical.choice, Quot.sound |
| C92 | `Verif.C92_no_files` | propext, Classical.choice, Quot.sound |
| C93 | `Verif.C93_boolean` | propext, Classical.choice, Quot.sound |
| C93 | `Verif.C93_zones` | propext, Classical.choice, Quot.sound |
| C93 | `Verif.C93_number` | propext, Classical.choice, Quot.sound |
| C94 | `Verif.C94_key_error` | propext, Classical.choice, Quot.sound |
| C94 | `Verif.C94_zones_raise` | propext, Classical.choice, Quot.sound |
| C94 | `Verif.C94_no_default` | propext, Classical.choice, Quot.sound |
| C94 | `Verif.C94_single_column` | propext, Classical.choice, Quot.sound |
| C95 | `Verif.C95_density` | propext, Classical.choice, Quot.sound |
| C95 | `Verif.C95_density_raises` | propext, Classical.choice, Quot.sound |
| C95 | `Verif.C95_thickness` | propext, Classical.choice, Quot.sound |
| C95 | `Verif.C95_thickness_raises` | propext, Classical.choice, Quot.sound |
| C96 | `Verif.C96_accepted` | propext, Classical.choice, Quot.sound |
| C96 | `Verif.C96_order` | propext, Classical.choice, Quot.sound |
| C96 | `Verif.C96_table` | propext, Classical.choice, Quot.sound |
| C97 | `Verif.C97_accepted` | propext, Classical.choice, Quot.sound |
| C97 | `Verif.C97_plain` | propext, Classical.choice, Quot.sound |
| C97 | `Verif.C97_lut` | propext, Classical.choice, Quot.sound |
| C97 | `Verif.C97_grf` | propext, Classical.choice, Quot.sound |
| C97 | `Verif.C97_amsr` | propext, Classical.choice, Quot.sound |
| C97 | `Verif.C97_shape` | propext, Classical.choice, Quot.sound |
| C97 | `Verif.C97_vector_shape` | propext, Classical.choice, Quot.sound |
| C97 | `Verif.C97_vector_grf` | propext, Classical.choice, Quot.sound |
| C98 | `Verif.C98_completion` | propext, Classical.choice, Quot.sound |
| C98 | `Verif.C98_rebuild` | propext, Classical.choice, Quot.sound |
| C98 | `Verif.C98_kept` | propext, Classical.choice, Quot.sound |
| C98 | `Verif.C98_selected` | propext, Classical.choice, Quot.sound |
| C98 | `Verif.C98_selected_raises` | propext, Classical.choice, Quot.sound |
| C98 | `Verif.C98_source` | propext, Classical.choice, Quot.sound |
| C98 | `Verif.C98_settings` | propext, Classical.choice, Quot.sound |
| C98 | `Verif.C98_both` | propext, Classical.choice, Quot.sound |
| C98 | `Verif.C98_unseeded` | propext, Classical.choice, Quot.sound |
| C98 | `Verif.C98_both_false` | propext, Classical.choice, Quot.sound |
| C98 | `Verif.C98_unseeded_false` | propext, Classical.choice, Quot.sound |
| C99 | `Verif.C99_files` | propext, Classical.choice, Quot.sound |
| C99 | `Verif.C99_create_rebuild` | propext, Classical.choice, Quot.sound |
| C99 | `Verif.C99_merge` | propext, Classical.choice, Quot.sound |
| C99 | `Verif.C99_extra` | propext, Classical.choice, Quot.sound |
| C99 | `Verif.C99_tests` | propext, Quot.sound |
| C100 | `Verif.C100_table` | propext, Classical.choice, Quot.sound |
| C100 | `Verif.C100_grid` | propext, Classical.choice, Quot.sound |
| C100 | `Verif.C100_fast` | propext, Classical.choice, Quot.sound |
| C100 | `Verif.C100_same` | propext, Quot.sound |
| C100 | `Verif.C100_default` | propext, Classical.choice, Quot.sound |
| C100 | `Verif.C100_downsample` | propext, Quot.sound |
| C101 | `Verif.C101_split` | propext, Classical.choice, Quot.sound |
| C101 | `Verif.C101_init` | propext, Classical.choice, Quot.sound |
| C101 | `Verif.C101_build` | propext, Classical.choice, Quot.sound |
| C101 | `Verif.C101_checked` | propext, Classical.choice, Quot.sound |
| C101 | `Verif.C101_round64` | propext, Classical.choice, Quot.sound |
| C101 | `Verif.C101_built` | propext, Classical.choice, Quot.sound |
| C101 | `Verif.C101_decimal_false` | propext, Classical.choice, Quot.sound |
| C102 | `Verif.C102_parse` | propext, Classical.choice, Quot.sound |
| C102 | `Verif.C102_no_summary` | propext, Classical.choice, Quot.sound |
| C102 | `Verif.C102_stops` | propext, Classical.choice, Quot.sound |
| C103 | `Verif.C103_selected` | propext, Classical.choice, Quot.sound |
| C103 | `Verif.C103_regression` | propext, Classical.choice, Quot.sound |
| C103 | `Verif.C103_unit` | propext, Classical.choice, Quot.sound |
| C103 | `Verif.C103_unit_tests` | propext, Classical.choice, Quot.sound |
| C103 | `Verif.C103_run` | propext, Classical.choice, Quot.sound |
| C103 | `Verif.C103_elsewhere` | propext, Classical.choice, Quot.sound |
| C103 | `Verif.C103_stats` | propext, Classical.choice, Quot.sound |
| C104 | `Verif.C104_saved` | propext, Classical.choice, Quot.sound |
| C104 | `Verif.C104_lost` | propext, Classical.choice, Quot.sound |
| C104 | `Verif.C104_lost_false` | propext, Classical.choice, Quot.sound |
| C104 | `Verif.C104_tiling` | propext, Classical.choice, Quot.sound |
| C104 | `Verif.C104_summary` | propext, Classical.choice, Quot.sound |
| C104 | `Verif.C104_summary_raises` | propext, Classical.choice, Quot.sound |
| C104 | `Verif.C104_aborts` | propext, Classical.choice, Quot.sound |
| C104 | `Verif.compareMeshes_iff` | propext, Classical.choice, Quot.sound |
| C105 | `Verif.C105_listed` | propext, Classical.choice, Quot.sound |
| C105 | `Verif.C105_branch_false` | propext, Classical.choice, Quot.sound |
| C106 | `Verif.C106_text` | propext, Classical.choice, Quot.sound |
| C106 | `Verif.C106_round_trip` | propext, Classical.choice, Quot.sound |
| C106 | `Verif.C106_same_text` | propext, Classical.choice, Quot.sound |
| C106 | `Verif.C106_refused` | propext, Classical.choice, Quot.sound |
| C106 | `Verif.numerals_exist` | propext, Classical.choice, Quot.sound |
| C107 | `Verif.C107_needed` | propext, Classical.choice, Quot.sound |
| C107 | `Verif.C107_cells` | propext, Classical.choice, Quot.sound |
| C107 | `Verif.C107_order` | propext, Classical.choice, Quot.sound |
| C107 | `Verif.C107_lock_order` | propext, Classical.choice, Quot.sound |
| C108 | `Verif.C108_values` | propext, Classical.choice, Quot.sound |
| C108 | `Verif.C108_cells` | propext, Classical.choice, Quot.sound |
| C109 | `Verif.C109_std` | propext, Classical.choice, Quot.sound |
| C109 | `Verif.C109_std_false` | propext, Classical.choice, Quot.sound |
| C109 | `Verif.C109_median_raises` | propext, Classical.choice, Quot.sound |
| C109 | `Verif.C109_median_any` | propext, Classical.choice, Quot.sound |
| C110 | `Verif.C110_values` | propext, Classical.choice, Quot.sound |
| C110 | `Verif.C110_cells` | propext, Classical.choice, Quot.sound |
| C111 | `Verif.C111_cells` | propext, Classical.choice, Quot.sound |
| C111 | `Verif.C111_tiles` | propext, Classical.choice, Quot.sound |
| C111 | `Verif.C111_fits` | propext, Classical.choice, Quot.sound |
| C111 | `Verif.C111_round64` | propext, Classical.choice, Quot.sound |
| C111 | `Verif.C111_double` | propext, Classical.choice, Quot.sound |
| C111 | `Verif.C111_crossing_false` | propext, Classical.choice, Quot.sound |
| C112 | `Verif.C112_grown` | propext, Classical.choice, Quot.sound |
| C112 | `Verif.C112_built` | propext, Classical.choice, Quot.sound |
| C112 | `Verif.C112_splits` | propext, Classical.choice, Quot.sound |
| C112 | `Verif.C112_merged` | propext, Classical.choice, Quot.sound |
| C112 | `Verif.C112_parts` | propext, Classical.choice, Quot.sound |
| C112 | `Verif.C112_built_parts` | propext, Classical.choice, Quot.sound |
| C112 | `Verif.C112_crossing_false` | propext, Classical.choice, Quot.sound |
| C113 | `Verif.C113_values` | propext, Classical.choice, Quot.sound |
| C113 | `Verif.C113_cells` | propext, Classical.choice, Quot.sound |
| C114 | `Verif.C114_cells` | propext, Classical.choice, Quot.sound |
| C114 | `Verif.C114_locked` | propext, Classical.choice, Quot.sound |
| C114 | `Verif.C114_first` | propext, Classical.choice, Quot.sound |
| C114 | `Verif.C114_lock_false` | propext, Classical.choice, Quot.sound |
| C115 | `Verif.C115_block` | propext, Classical.choice, Quot.sound |
| C116 | `Verif.C116_depth` | propext, Classical.choice, Quot.sound |
| C117 | `Verif.C117_order` | propext, Classical.choice, Quot.sound |
| C117 | `Verif.C117_more` | propext, Classical.choice, Quot.sound |
| C118 | `Verif.C118_turned` | propext, Classical.choice, Quot.sound |
| C119 | `Verif.C119_units` | propext, Classical.choice, Quot.sound |
| C119 | `Verif.C119_around` | propext, Classical.choice, Quot.sound |
| C120 | `Verif.C120_looser` | propext, Classical.choice, Quot.sound |
| C120 | `Verif.C120_around` | propext, Classical.choice, Quot.sound |
| C121 | `Verif.C121_order` | propext, Classical.choice, Quot.sound |
| C121 | `Verif.C121_more` | propext, Classical.choice, Quot.sound |
| C122 | `Verif.C122_finer` | propext, Classical.choice, Quot.sound |
| C122 | `Verif.C122_same` | propext, Classical.choice, Quot.sound |
| C122 | `Verif.C122_around` | propext, Classical.choice, Quot.sound |
| C122 | `Verif.C122_around_same` | propext, Classical.choice, Quot.sound |
| C123 | `Verif.C123_cells` | propext, Classical.choice, Quot.sound |
| C123 | `Verif.C123_locked` | propext, Classical.choice, Quot.sound |
| C123 | `Verif.C123_depth` | propext, Classical.choice, Quot.sound |
| C124 | `Verif.C124_elsewhere` | propext, Classical.choice, Quot.sound |
| C124 | `Verif.C124_update` | propext, Classical.choice, Quot.sound |
| C124 | `Verif.C124_updates` | propext, Classical.choice, Quot.sound |
| C125 | `Verif.C125_around` | propext, Classical.choice, Quot.sound |
| C125 | `Verif.C125_regions` | propext, Classical.choice, Quot.sound |
| C126 | `Verif.C126_shifted` | propext, Classical.choice, Quot.sound |
| C126 | `Verif.C126_around` | propext, Classical.choice, Quot.sound |
| C127 | `Verif.C127_values` | propext, Classical.choice, Quot.sound |
| C127 | `Verif.C127_around` | propext, Classical.choice, Quot.sound |
| C127 | `Verif.C127_double` | propext, Classical.choice, Quot.sound |
| C127 | `Verif.C127_mixed` | propext, Classical.choice, Quot.sound |
| C127 | `Verif.C127_mixed_around` | propext, Classical.choice, Quot.sound |
| C127 | `Verif.C127_mixed_double` | propext, Classical.choice, Quot.sound |
| C127 | `Verif.C127_round64` | propext, Classical.choice, Quot.sound |
| C127 | `Verif.C127_mean_false` | propext, Classical.choice, Quot.sound |
| C128 | `Verif.C128_image` | propext, Classical.choice, Quot.sound |
| C128 | `Verif.C128_edges_false` | propext, Classical.choice, Quot.sound |
| C129 | `Verif.C129_drift` | propext, Classical.choice, Quot.sound |
| C129 | `Verif.C129_around` | propext, Classical.choice, Quot.sound |
| C129 | `Verif.C129_threshold_false` | propext, Classical.choice, Quot.sound |
| C129 | `Verif.C129_shortest_false` | propext, Classical.choice, Quot.sound |
| C130 | `Verif.C130_counts` | propext, Classical.choice, Quot.sound |
| C130 | `Verif.C130_initial` | propext, Classical.choice, Quot.sound |
| C130 | `Verif.C130_built` | propext, Classical.choice, Quot.sound |
| C130 | `Verif.C130_bounds_reached` | propext, Classical.choice, Quot.sound |
| C131 | `Verif.C131_slots` | propext, Classical.choice, Quot.sound |
| C131 | `Verif.C131_neighbours` | propext, Classical.choice, Quot.sound |
| C131 | `Verif.C131_built` | propext, Classical.choice, Quot.sound |
| C131 | `Verif.C131_bound_reached` | propext, Classical.choice, Quot.sound |
| C131 | `Verif.C131_slots_around` | propext, Classical.choice, Quot.sound |
| C131 | `Verif.C131_neighbours_crossing` | propext, Classical.choice, Quot.sound |
| C131 | `Verif.C131_built_crossing` | propext, Classical.choice, Quot.sound |
| C132 | `Verif.C132_grown` | propext, Classical.choice, Quot.sound |
| C132 | `Verif.C132_built` | propext, Classical.choice, Quot.sound |
| C132 | `Verif.C132_splits` | propext, Classical.choice, Quot.sound |
| C132 | `Verif.C132_merged` | propext, Classical.choice, Quot.sound |
| C132 | `Verif.C132_crossing_false` | propext, Classical.choice, Quot.sound |
| C132 | `Verif.C132_parts` | propext, Classical.choice, Quot.sound |
| C132 | `Verif.C132_built_parts` | propext, Classical.choice, Quot.sound |
| C133 | `Verif.C133_totals` | propext, Classical.choice, Quot.sound |
| C133 | `Verif.C133_around` | propext, Classical.choice, Quot.sound |
| C133 | `Verif.C133_constant_false` | propext, Classical.choice, Quot.sound |
| C134 | `Verif.C134_totals` | propext, Classical.choice, Quot.sound |
| C134 | `Verif.C134_around` | propext, Classical.choice, Quot.sound |
| C134 | `Verif.C134_count_false` | propext, Classical.choice, Quot.sound |
| C135 | `Verif.C135_sides` | propext, Classical.choice, Quot.sound |
| C135 | `Verif.C135_around` | propext, Classical.choice, Quot.sound |
| C135 | `Verif.C135_smallest_false` | propext, Classical.choice, Quot.sound |
| C136 | `Verif.C136_grown` | propext, Classical.choice, Quot.sound |
| C136 | `Verif.C136_built` | propext, Classical.choice, Quot.sound |
| C136 | `Verif.C136_splits` | propext, Classical.choice, Quot.sound |
| C136 | `Verif.C136_merged` | propext, Classical.choice, Quot.sound |
| C136 | `Verif.C136_parts` | propext, Classical.choice, Quot.sound |
| C136 | `Verif.C136_built_parts` | propext, Classical.choice, Quot.sound |
| C137 | `Verif.C137_saved` | propext, Classical.choice, Quot.sound |
| C137 | `Verif.C137_splits` | propext, Classical.choice, Quot.sound |
| C137 | `Verif.C137_points` | propext, Classical.choice, Quot.sound |
| C137 | `Verif.C137_merge` | propext, Classical.choice, Quot.sound |
| C138 | `Verif.C138_one` | propext, Classical.choice, Quot.sound |
| C138 | `Verif.C138_last` | propext, Classical.choice, Quot.sound |
| C138 | `Verif.C138_order` | propext, Classical.choice, Quot.sound |
| C138 | `Verif.C138_overlap_false` | propext, Classical.choice, Quot.sound |
| C139 | `Verif.C139_near` | propext, Classical.choice, Quot.sound |
| C139 | `Verif.C139_read` | propext, Classical.choice, Quot.sound |
| C139 | `Verif.C139_constant_false` | propext, Classical.choice, Quot.sound |
| C140 | `Verif.C140_near` | propext, Classical.choice, Quot.sound |
| C140 | `Verif.C140_read` | propext, Classical.choice, Quot.sound |
| C141 | `Verif.C141_near` | propext, Classical.choice, Quot.sound |
| C141 | `Verif.C141_vectors` | propext, Classical.choice, Quot.sound |
| C141 | `Verif.C141_read` | propext, Classical.choice, Quot.sound |
| C141 | `Verif.C141_read_vectors` | propext, Classical.choice, Quot.sound |
