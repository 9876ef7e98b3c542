{
 "claims": [
  {
   "property": "C01",
   "status": "proved",
   "theorems": [
    "Verif.C01_longitude_domain",
    "Verif.C01_longitude_domain_list"
   ],
   "note": "on exact rationals"
  },
  {
   "property": "C02",
   "status": "proved",
   "theorems": [
    "Verif.C02_longitude_distance"
   ],
   "note": "on exact rationals"
  },
  {
   "property": "C03",
   "status": "partial",
   "theorems": [
    "Verif.C03_construction_table",
    "Verif.C03_out_of_range_accepted",
    "Verif.C03_construction_partial",
    "Verif.C03_rejection_error"
   ],
   "note": "the code accepts long_min > 180 and long_max < -180 (proved by witness); the complete decision table of what is accepted is proved"
  },
  {
   "property": "C04",
   "status": "partial",
   "theorems": [
    "Verif.C04_geometry_partial",
    "Verif.C04_degenerate_width"
   ],
   "note": "holds for all valid boundaries with positive width; [180,-180] is accepted with width 0 (proved by witness)"
  },
  {
   "property": "C05",
   "status": "partial",
   "theorems": [
    "Verif.C05_time_ignored",
    "Verif.C05_equality_partial"
   ],
   "note": "the code ignores time (proved by witness); the spatial part is exact"
  },
  {
   "property": "C06",
   "status": "partial",
   "theorems": [
    "Verif.C06_polygon_round_trip_partial",
    "Verif.C06_degenerate_changes"
   ],
   "note": "vertex lists instead of float formatting; degenerate box [180,-180] excluded and shown to change"
  },
  {
   "property": "C07",
   "status": "partial",
   "theorems": [
    "Verif.C07_split_partial",
    "Verif.C07_split_raises"
   ],
   "note": "the code raises for crossing boxes whose middle lies beyond 180 (proved by witness); all other boxes proved"
  },
  {
   "property": "C12",
   "status": "proved",
   "theorems": [
    "Verif.C12_case_is_touching",
    "Verif.C12_case_none_iff",
    "Verif.C12_case_antisymmetric"
   ],
   "note": ""
  },
  {
   "property": "C13",
   "status": "proved",
   "theorems": [
    "Verif.C13_global_case",
    "Verif.C13_guard_needed"
   ],
   "note": ""
  },
  {
   "property": "C14",
   "status": "partial",
   "theorems": [
    "Verif.C14_cell_split_partial",
    "Verif.C14_degenerate"
   ],
   "note": "valid cells of positive width, crossing ones included; zero-width cell [180,-180] excluded and shown to fail"
  },
  {
   "property": "C08",
   "status": "partial",
   "theorems": [
    "Verif.C08_initial_grid_partial",
    "Verif.C08_false"
   ],
   "note": "holds whenever the region is a whole number of cells wide and high; accepted global regions with a non-dividing cell width overlap (proved by witness)"
  },
  {
   "property": "C09",
   "status": "partial",
   "theorems": [
    "Verif.validators_accept_iff",
    "Verif.C09_cell_sizes_partial",
    "Verif.C09_full_circle_unchecked",
    "Verif.C09_false",
    "Verif.C09_negative_size_accepted"
   ],
   "note": "full circle and negative sizes are accepted without dividing (proved); everything else proved"
  },
  {
   "property": "C10",
   "status": "proved",
   "theorems": [
    "Verif.C10_initial_graph",
    "Verif.C10_construction_succeeds"
   ],
   "note": ""
  },
  {
   "property": "C11",
   "status": "partial",
   "theorems": [
    "Verif.C11_global_graph",
    "Verif.C11_flag_partial",
    "Verif.C11_other_region_false"
   ],
   "note": "all of it but for one region: 180:180 is flagged as well (proved)"
  },
  {
   "property": "C15",
   "status": "partial",
   "theorems": [
    "Verif.C15_tiling_partial"
   ],
   "note": "proper grids (positive sizes, dividing the region), crossing regions included; accepted non-dividing full circles overlap already initially (C08_false)"
  },
  {
   "property": "C16",
   "status": "proved",
   "theorems": [
    "Verif.C16_regional_graph"
   ],
   "note": ""
  },
  {
   "property": "C17",
   "status": "proved",
   "theorems": [
    "Verif.C17_global_graph"
   ],
   "note": ""
  },
  {
   "property": "C18",
   "status": "partial",
   "theorems": [
    "Verif.C18_initial_partial",
    "Verif.C18_listed_partial",
    "Verif.C18_parts_partial",
    "Verif.C18_false"
   ],
   "note": "exact initially for every region narrower than a full circle, and after any splits among the cells that start west of or on the antimeridian and among the columns that start east of it; after any splits every listed neighbour is a true one and splitting never raises; the code loses edges when splitting next to the antimeridian (proved by witness)"
  },
  {
   "property": "C19",
   "status": "partial",
   "theorems": [
    "Verif.C19_crossing_partial",
    "Verif.C19_well_formed_partial",
    "Verif.C19_single_column_false",
    "Verif.C19_asymmetric_false"
   ],
   "note": "every proper grid, crossing the antimeridian or not, except a full circle with a single column (false, two witnesses)"
  },
  {
   "property": "C20",
   "status": "proved",
   "theorems": [
    "Verif.C20_ids",
    "Verif.C20_split_step",
    "Verif.C20_never_reused"
   ],
   "note": "any region, any cell size"
  },
  {
   "property": "C21",
   "status": "partial",
   "theorems": [
    "Verif.C21_depth_bound",
    "Verif.C21_all_sizes_partial",
    "Verif.C21_sizes_partial",
    "Verif.C21_wide_false"
   ],
   "note": "depth bound without restriction; sizes for every accepted region and every cell width up to 360; false beyond (witness)"
  },
  {
   "property": "C22",
   "status": "partial",
   "theorems": [
    "Verif.C22_terminates_partial",
    "Verif.C22_zero_height_raises",
    "Verif.C22_misfit_raises",
    "Verif.C22_second_call_raises"
   ],
   "note": "every proper grid of positive height, crossing or not, except a full circle with one column; zero height and grids that do not fit raise (witnesses)"
  },
  {
   "property": "C23",
   "status": "partial",
   "theorems": [
    "Verif.C23_history_independent_partial",
    "Verif.C23_crossing_false"
   ],
   "note": "regions that do not cross the antimeridian; false for those that do (witness)"
  },
  {
   "property": "C24",
   "status": "partial",
   "theorems": [
    "Verif.C24_each_point_once_partial",
    "Verif.C24_each_point_once_crossing_grid_partial",
    "Verif.C24_false",
    "Verif.C24_descending_false"
   ],
   "note": "tables, and grids stored in ascending order; grids stored from north to south (or east to west) lose every datapoint (proved for all of them)"
  },
  {
   "property": "C25",
   "status": "partial",
   "theorems": [
    "Verif.C25_composes_partial",
    "Verif.C25_cached_partial",
    "Verif.C25_cached_crossing_grid",
    "Verif.C25_false"
   ],
   "note": "boxes that do not cross the antimeridian, and crossing boxes for grids; false for tables over the antimeridian (proved by witness)"
  },
  {
   "property": "C26",
   "status": "partial",
   "theorems": [
    "Verif.C26_table_grid_agree_partial",
    "Verif.C26_crossing_grid",
    "Verif.C26_crossing_table_wrong",
    "Verif.C26_false"
   ],
   "note": "boxes that do not cross the antimeridian; for crossing boxes tables select the complement (proved)"
  },
  {
   "property": "C27",
   "status": "proved",
   "theorems": [
    "Verif.C27_decision",
    "Verif.C27_order",
    "Verif.C27_scale"
   ],
   "note": ""
  },
  {
   "property": "C28",
   "status": "proved",
   "theorems": [
    "Verif.C28_split_iff",
    "Verif.C28_locked",
    "Verif.C28_breadth_first",
    "Verif.C28_order",
    "Verif.C28_scalar_total"
   ],
   "note": ""
  },
  {
   "property": "C29",
   "status": "partial",
   "theorems": [
    "Verif.C29_values",
    "Verif.C29_count",
    "Verif.C29_std_partial",
    "Verif.C29_std_false",
    "Verif.C29_unknown",
    "Verif.C29_order"
   ],
   "note": "STD is stated by its square; the STD of a single datapoint of a table is NaN (proved by witness)"
  },
  {
   "property": "C30",
   "status": "partial",
   "theorems": [
    "Verif.C30_quarters_partial",
    "Verif.C30_false"
   ],
   "note": "all cells that do not cross the antimeridian, and crossing ones for grids; coordinates of grids ascending or descending; fails for grids in any other order (C30_false)"
  },
  {
   "property": "C31",
   "status": "proved",
   "theorems": [
    "Verif.C31_fill",
    "Verif.C31_mesh"
   ],
   "note": "C31_fill for every scalar source and ancestor chain; C31_mesh for the scalar loader in every reachable mesh not crossing the antimeridian"
  },
  {
   "property": "C32",
   "status": "partial",
   "theorems": [
    "Verif.C32_first_present_partial",
    "Verif.C32_string_fill_raises"
   ],
   "note": "holds for numeric values; accepted fill types given as strings make a later source of the same name raise (proved)"
  },
  {
   "property": "C33",
   "status": "partial",
   "theorems": [
    "Verif.C33_parent_partial",
    "Verif.C33_constant_not_filled",
    "Verif.C33_overwrites",
    "Verif.C33_false"
   ],
   "note": "fill type 'parent' proved; constants are written under the joined name and later sources overwrite (both proved in general)"
  },
  {
   "property": "C53",
   "status": "partial",
   "theorems": [
    "Verif.C53_extreme",
    "Verif.C53_mean",
    "Verif.C53_table_grid_agree_partial",
    "Verif.C53_incomplete_false",
    "Verif.C53_errors"
   ],
   "note": "tables and grids agree on complete data; on incomplete data they differ as C53_mean and C53_errors state"
  },
  {
   "property": "C54",
   "status": "partial",
   "theorems": [
    "Verif.C54_table_curl_partial",
    "Verif.C54_grid_curl",
    "Verif.C54_false"
   ],
   "note": "tables only; for grids with dimensions (lat, long) the axes are exchanged (proved)"
  },
  {
   "property": "C34",
   "status": "partial",
   "theorems": [
    "Verif.C34_round_trip_partial",
    "Verif.C34_loaded_consistent",
    "Verif.C34_global_flag_lost",
    "Verif.C34_false"
   ],
   "note": "cells, data and neighbour lists survive for every reachable mesh; dates of cells and the global flag are lost (proved); data under reserved keys is dropped"
  },
  {
   "property": "C35",
   "status": "partial",
   "theorems": [
    "Verif.C35_query_partial",
    "Verif.C35_antimeridian_false"
   ],
   "note": "all tiled meshes and all points, except points at longitude 180/-180 in meshes with crossing cells, where the claim is false (proved)"
  },
  {
   "property": "C36",
   "status": "partial",
   "theorems": [
    "Verif.C36_points_partial",
    "Verif.C36_midpoint_false"
   ],
   "note": "termination, finest level and unchanged cells for consistent loaded meshes; a point on a halving line of its cell makes the call raise (proved)"
  },
  {
   "property": "C37",
   "status": "proved",
   "theorems": [
    "Verif.C37_split",
    "Verif.C37_sequences",
    "Verif.C37_raises",
    "Verif.C37_global_false"
   ],
   "note": "regional meshes as claimed; for a loaded global mesh the claim fails at the antimeridian (C37_global_false)"
  },
  {
   "property": "C40",
   "status": "partial",
   "theorems": [
    "Verif.C40_isomorphism",
    "Verif.C40_consistent",
    "Verif.C40_compose_partial",
    "Verif.C40_data_id_false"
   ],
   "note": "isomorphism and composition hold except for the data entry id, which is off by the increment (proved)"
  },
  {
   "property": "C41",
   "status": "proved",
   "theorems": [
    "Verif.C41_remove_node",
    "Verif.C41_missing",
    "Verif.C41_remove_cell"
   ],
   "note": "every well-formed graph"
  },
  {
   "property": "C44",
   "status": "partial",
   "theorems": [
    "Verif.C44_update_partial",
    "Verif.C44_wrong_index_false"
   ],
   "note": "valid indices; wrong indices never raise ValueError, negative ones wrap around (proved)"
  },
  {
   "property": "C38",
   "status": "partial",
   "theorems": [
    "Verif.C38_merge_partial",
    "Verif.C38_tiles",
    "Verif.C38_sequences",
    "Verif.C38_built",
    "Verif.C38_coarse_false"
   ],
   "note": "exact for every mesh whose cells lie within its lattice of initial cells, which all built and split regional meshes satisfy; false after merging a mesh with cells larger than the lattice (proved)"
  },
  {
   "property": "C39",
   "status": "partial",
   "theorems": [
    "Verif.C39_renumbered_partial",
    "Verif.C39_false"
   ],
   "note": "the claim is false: every merge renumbers the mesh merged in and can corrupt its graph; number, order, bounds and data of its cells, region and configuration are kept"
  },
  {
   "property": "C52",
   "status": "partial",
   "theorems": [
    "Verif.C52_build_partial",
    "Verif.C52_crossing_partial"
   ],
   "note": "every accepted region that does not cross the antimeridian with positive sizes (full-circle regions: width divides 360 and is at most 180); for every data behaviour; exceptions come only from the sources; for crossing regions the same with a well-formed graph of true neighbours instead of the exact one (which is false there, C18)"
  },
  {
   "property": "C42",
   "status": "partial",
   "theorems": [
    "Verif.C42_dates",
    "Verif.C42_today",
    "Verif.C42_relative_partial",
    "Verif.C42_false",
    "Verif.C42_more_false",
    "Verif.C42_disagreement"
   ],
   "note": "ISO dates, TODAY and TODAY plus or minus a number of days are accepted and parsed with the same meaning; false for other accepted strings such as 'TODAY,5' (proved)"
  },
  {
   "property": "C43",
   "status": "partial",
   "theorems": [
    "Verif.C43_count",
    "Verif.C43_extent",
    "Verif.C43_square_partial",
    "Verif.C43_false",
    "Verif.C43_edge_false"
   ],
   "note": "square resolutions and pixel centres in the interior of cells; rows and columns are swapped otherwise, and centres on an edge of a cell give NaN (both proved)"
  },
  {
   "property": "C45",
   "status": "partial",
   "theorems": [
    "Verif.C45_samples",
    "Verif.C45_clamped_partial",
    "Verif.C45_crossing_false"
   ],
   "note": "samples always lie in range; the clamping holds for regions that do not cross the antimeridian and fails for those that do (proved)"
  },
  {
   "property": "C46",
   "status": "partial",
   "theorems": [
    "Verif.C46_reports",
    "Verif.C46_both_ways",
    "Verif.C46_same_region_partial",
    "Verif.C46_false"
   ],
   "note": "the comparison is one-sided: false in general (proved), true when made both ways and for meshes tiling the same region"
  },
  {
   "property": "C50",
   "status": "proved",
   "theorems": [
    "Verif.C50_range",
    "Verif.C50_whole",
    "Verif.C50_additive",
    "Verif.C50_days",
    "Verif.C50_year_unchecked"
   ],
   "note": "every year and month; a range in the same month of another year is not rejected (proved)"
  },
  {
   "property": "C55",
   "status": "proved",
   "theorems": [
    "Verif.C55_accuracy",
    "Verif.C55_sign",
    "Verif.C55_idempotent",
    "Verif.C55_monotone",
    "Verif.C55_close_false"
   ],
   "note": "exact arithmetic; floating-point error is not modelled"
  },
  {
   "property": "C56",
   "status": "partial",
   "theorems": [
    "Verif.C56_duration_partial",
    "Verif.C56_sixty_false"
   ],
   "note": "the parts add up to the duration; '60 minutes' and '24 hours' do occur (proved)"
  },
  {
   "property": "C57",
   "status": "proved",
   "theorems": [
    "Verif.C57_graph_comparison",
    "Verif.C57_missing_nodes"
   ],
   "note": "all pairs of meshes whose graphs have distinct ids"
  },
  {
   "property": "C58",
   "status": "partial",
   "theorems": [
    "Verif.C58_all_points_partial",
    "Verif.C58_false"
   ],
   "note": "points not on an edge of a cell; points on edges are compared up to four times (proved)"
  },
  {
   "property": "C47",
   "status": "partial",
   "theorems": [
    "Verif.C47_decision",
    "Verif.C47_missing",
    "Verif.C47_through_partial",
    "Verif.C47_touching_false"
   ],
   "note": "exact decision for polygons of any shape, with edges counted in the closed cell; 'running through' holds unless a polygon merely touches the cell, which also counts (proved)"
  },
  {
   "property": "C48",
   "status": "partial",
   "theorems": [
    "Verif.C48_density",
    "Verif.C48_thickness_partial",
    "Verif.C48_thickness_false"
   ],
   "note": "density table for every date range; thickness table for ranges within one season, false otherwise (proved)"
  },
  {
   "property": "C49",
   "status": "partial",
   "theorems": [
    "Verif.C49_icenet_partial",
    "Verif.C49_icenet_false",
    "Verif.C49_ecmwf_partial",
    "Verif.C49_ecmwf_false"
   ],
   "note": "IceNet: latest forecast, every day but the last, which is never provided (proved); ECMWF: latest forecast if the paths are in the order of the dates, days without files are not noticed (proved)"
  },
  {
   "property": "C51",
   "status": "partial",
   "theorems": [
    "Verif.C51_known",
    "Verif.C51_unknown",
    "Verif.C51_parameters_partial",
    "Verif.C51_parameters_false"
   ],
   "note": "all names and dictionaries; parameters are kept if only one of file, folder and files is given, otherwise one of them is lost (proved)"
  },
  {
   "property": "C59",
   "status": "partial",
   "theorems": [
    "Verif.C59_extremes",
    "Verif.C59_mean_partial",
    "Verif.C59_mean_false"
   ],
   "note": "MIN, MAX and COUNT in full; MEAN only for equal overlaps, because all polygons get the same weight (proved)"
  },
  {
   "property": "C60",
   "status": "proved",
   "theorems": [
    "Verif.C60_globe"
   ],
   "note": "all points"
  },
  {
   "property": "C61",
   "status": "partial",
   "theorems": [
    "Verif.C61_saved_box_partial",
    "Verif.C61_name_clash_false"
   ],
   "note": "every cell whose data is not named like a coordinate; such names overwrite the coordinates (proved)"
  },
  {
   "property": "C62",
   "status": "partial",
   "theorems": [
    "Verif.C62_circle_partial",
    "Verif.C62_rectangle_partial",
    "Verif.C62_gradient_partial",
    "Verif.C62_checkerboard_partial",
    "Verif.C62_centre_false",
    "Verif.C62_even_false",
    "Verif.C62_rectangle_false",
    "Verif.C62_height_false",
    "Verif.C62_multiplier_false",
    "Verif.C62_crossing_false"
   ],
   "note": "regions not over the antimeridian, non-zero centre, odd counts; the failures outside are proved with witnesses (a centre of 0 is taken as missing, even counts are off-centre, the width is a half-width, no height always fails, the multiplier is ignored by checkerboards)"
  },
  {
   "property": "C63",
   "status": "partial",
   "theorems": [
    "Verif.C63_circle_partial",
    "Verif.C63_rectangle_partial",
    "Verif.C63_gradient_partial",
    "Verif.C63_defaults_false"
   ],
   "note": "all parameters given; without multipliers construction always fails (proved)"
  },
  {
   "property": "C64",
   "status": "partial",
   "theorems": [
    "Verif.C64_min",
    "Verif.C64_max",
    "Verif.C64_thin",
    "Verif.C64_coordinates",
    "Verif.C64_mean_partial",
    "Verif.C64_mean_false",
    "Verif.C64_median_false",
    "Verif.C64_std_zero",
    "Verif.C64_std_false"
   ],
   "note": "MIN, MAX, COUNT and coordinates for every array; MEAN when nothing is missing and the factors divide the sizes; MEAN with missing values and MEDIAN are not the block's value (proved); STD is 0 whenever one factor is 1, and not the block's value otherwise (proved)"
  },
  {
   "property": "C65",
   "status": "partial",
   "theorems": [
    "Verif.C65_coverage_partial",
    "Verif.C65_exact_partial",
    "Verif.C65_lossless_partial",
    "Verif.C65_succeeds_partial",
    "Verif.C65_range_false",
    "Verif.C65_meridian_false",
    "Verif.C65_uncovered_false"
   ],
   "note": "data between -180 and 180 at more than one longitude; data beyond always fails, data on one meridian counts as going round the globe, uncovered data is not cut down (all proved)"
  },
  {
   "property": "C66",
   "status": "partial",
   "theorems": [
    "Verif.C66_scalar_found",
    "Verif.C66_scalar_set_partial",
    "Verif.C66_vector_found",
    "Verif.C66_vector_set_partial",
    "Verif.C66_coordinate_false",
    "Verif.C66_list_false"
   ],
   "note": "names that are no coordinates; set_data_col_name_list never sets the names (proved)"
  },
  {
   "property": "C67",
   "status": "partial",
   "theorems": [
    "Verif.C67_attached",
    "Verif.C67_wrong_name",
    "Verif.C67_data_partial",
    "Verif.C67_data_crossing_grid"
   ],
   "note": "names, conditions and fill types for every configuration; the data for regions not over the antimeridian, and over it for gridded data (tables over the antimeridian: false by C26_crossing_table_wrong)"
  },
  {
   "property": "C68",
   "status": "partial",
   "theorems": [
    "Verif.C68_others_partial",
    "Verif.C68_aggregate_false",
    "Verif.C68_split_false"
   ],
   "note": "nothing else changes, but no cell can be aggregated or checked for splitting by the added scalar loader (both proved false)"
  },
  {
   "property": "C69",
   "status": "proved",
   "theorems": [
    "Verif.C69_size",
    "Verif.C69_turn",
    "Verif.C69_bounds",
    "Verif.C69_band_false"
   ],
   "note": "every boundary, on real numbers; the arc is that of the angle between the corners, so a band around the globe counts as having no width (proved)"
  },
  {
   "property": "C70",
   "status": "partial",
   "theorems": [
    "Verif.C70_scalar_partial",
    "Verif.C70_range_partial",
    "Verif.C70_binary_partial",
    "Verif.C70_cut_off_false",
    "Verif.C70_flat_false",
    "Verif.C70_binary_raises",
    "Verif.C70_circle_raises",
    "Verif.C70_crossing_false"
   ],
   "note": "fields with two values at least, thresholds meeting the range, regions not over the antimeridian; outside of this the values are NaN, building fails (full circle, no key binary) or the field lies outside the region (antimeridian), all proved; random numbers and Fourier transform are arguments"
  },
  {
   "property": "C71",
   "status": "partial",
   "theorems": [
    "Verif.C71_vector_partial",
    "Verif.C71_lengths_partial",
    "Verif.C71_flat_false",
    "Verif.C71_circle_raises",
    "Verif.C71_crossing_false"
   ],
   "note": "fields with two values at least, regions not over the antimeridian, for the ranges 0 <= min <= max; otherwise all vectors are missing, the loader fails (full circle) or the field lies outside the region (antimeridian), all proved"
  },
  {
   "property": "C72",
   "status": "partial",
   "theorems": [
    "Verif.C72_frequency",
    "Verif.C72_least_partial",
    "Verif.C72_least_false",
    "Verif.C72_amplitude",
    "Verif.C72_even_partial",
    "Verif.C72_odd_false"
   ],
   "note": "all sizes for the congruences and the power law; least absolute value and symmetry for even sizes, both false for every odd size from 3 on (proved)"
  },
  {
   "property": "C73",
   "status": "partial",
   "theorems": [
    "Verif.C73_dmag",
    "Verif.C73_order",
    "Verif.C73_curl_partial",
    "Verif.C73_linear_partial",
    "Verif.C73_sign_false",
    "Verif.C73_no_condition_raises",
    "Verif.C73_grid_dmag_raises",
    "Verif.C73_two_times_raises",
    "Verif.C73_cached_partial"
   ],
   "note": "distances for every table; curl for complete lattices of at least two by two positions, counting only anticlockwise curl (clockwise never counts, proved); no condition, grids with distances and several times at a position raise (proved)"
  },
  {
   "property": "C74",
   "status": "partial",
   "theorems": [
    "Verif.C74_mean_partial",
    "Verif.C74_zero",
    "Verif.C74_max_false",
    "Verif.C74_curl"
   ],
   "note": "on real numbers; MAX compares with the longest vector instead of the mean (proved)"
  },
  {
   "property": "C75",
   "status": "partial",
   "theorems": [
    "Verif.C75_reports_partial",
    "Verif.C75_tolerance",
    "Verif.C75_self",
    "Verif.C75_symmetric",
    "Verif.C75_rows",
    "Verif.C75_empty_raises",
    "Verif.C75_written",
    "Verif.C75_id_false",
    "Verif.C75_column_false",
    "Verif.C75_mixed_false"
   ],
   "note": "attributes numeric in both meshes or in neither; ids count as values, attributes of one mesh only are passed over, attributes numeric in one mesh only are rounded in that one (all proved)"
  },
  {
   "property": "C76",
   "status": "partial",
   "theorems": [
    "Verif.C76_attributes_partial",
    "Verif.C76_order_false",
    "Verif.C76_written",
    "Verif.C76_output"
   ],
   "note": "names compared in order (another order is reported, proved); the return type 'cellboxes' always raises (proved)"
  },
  {
   "property": "C77",
   "status": "proved",
   "theorems": [
    "Verif.C77_scalar",
    "Verif.C77_vector",
    "Verif.C77_mean_le_rms",
    "Verif.C77_mean_le_rms_vector",
    "Verif.C77_raises"
   ],
   "note": "on real numbers; every cell must hold the data, otherwise KeyError (proved)"
  },
  {
   "property": "C78",
   "status": "partial",
   "theorems": [
    "Verif.C78_exact_partial",
    "Verif.C78_fails",
    "Verif.C78_split_raises"
   ],
   "note": "scalar sources, datapoints off the antimeridian; a datapoint on an edge, without value, or a mesh whose first cell was split make it fail (proved)"
  },
  {
   "property": "C79",
   "status": "partial",
   "theorems": [
    "Verif.C79_cells_partial",
    "Verif.C79_tile",
    "Verif.C79_raises"
   ],
   "note": "get_cellbox and add_data_points raise AttributeError on every mesh with a cell (proved)"
  },
  {
   "property": "C80",
   "status": "partial",
   "theorems": [
    "Verif.C80_era5_partial",
    "Verif.C80_bsoseDepth_partial",
    "Verif.C80_bsoseIce_partial",
    "Verif.C80_era5Wind_partial",
    "Verif.C80_duacs_partial",
    "Verif.C80_plainGrid_partial",
    "Verif.C80_balticIce_partial",
    "Verif.C80_sose_partial",
    "Verif.C80_csv",
    "Verif.C80_units_raise",
    "Verif.C80_no_files",
    "Verif.C80_antimeridian_false",
    "Verif.C80_ascending_false",
    "Verif.C80_unwrapped_false"
   ],
   "note": "missing: data on the antimeridian for regions ending there, files with ascending latitudes, winds and currents of files in [0,360), SOSE over the antimeridian (all shown to fail; the last by C26); reading of files is a parameter"
  },
  {
   "property": "C81",
   "status": "proved",
   "theorems": [
    "Verif.C81_files",
    "Verif.C81_amsr",
    "Verif.C81_hemisphere",
    "Verif.C81_none",
    "Verif.C81_bad_name",
    "Verif.C81_no_time",
    "Verif.C81_amsr_errors",
    "Verif.C81_month"
   ],
   "note": "by the names alone: monthly files are passed over when the range begins later in their month (C81_month)"
  },
  {
   "property": "C82",
   "status": "partial",
   "theorems": [
    "Verif.C82_wind",
    "Verif.C82_waves",
    "Verif.C82_baltic_partial",
    "Verif.C82_modis_partial",
    "Verif.C82_modis_folder_raises",
    "Verif.C82_modis_name_raises",
    "Verif.C82_charts",
    "Verif.C82_charts_refused"
   ],
   "note": "on real numbers; MODIS data cannot be used by a loader: it raises for folders, and for files the two variables have no name (proved)"
  },
  {
   "property": "C83",
   "status": "proved",
   "theorems": [
    "Verif.C83_accepted",
    "Verif.C83_errors",
    "Verif.C83_file_raises",
    "Verif.C83_extra_key"
   ],
   "note": "the JSON schemas are transcribed; infinities and the week dates of Python 3.11 are left out"
  },
  {
   "property": "C84",
   "status": "proved",
   "theorems": [
    "Verif.C84_boundary",
    "Verif.C84_rebuild",
    "Verif.C84_kept",
    "Verif.C84_reads",
    "Verif.C84_early_years_raise",
    "Verif.C84_negative_minimum_raises"
   ],
   "note": "on Linux years before 1000 are refused by the boundary, and a negative minimum number of datapoints is accepted but raises (proved); what becomes of the sources is C98"
  },
  {
   "property": "C85",
   "status": "proved",
   "theorems": [
    "Verif.C85_vessel",
    "Verif.C85_route",
    "Verif.C85_nan_accepted"
   ],
   "note": "the JSON schemas are transcribed"
  },
  {
   "property": "C86",
   "status": "proved",
   "theorems": [
    "Verif.C86_waypoints",
    "Verif.C86_errors",
    "Verif.C86_range_unchecked"
   ],
   "note": "reading of files and of numbers is a parameter; index names that clash with columns raise ValueError (C86_errors)"
  },
  {
   "property": "C87",
   "status": "proved",
   "theorems": [
    "Verif.C87_exports",
    "Verif.C87_features",
    "Verif.C87_errors",
    "Verif.C87_mesh"
   ],
   "note": "which dtype pandas gives a column is part of the model; null in cells is left out"
  },
  {
   "property": "C88",
   "status": "proved",
   "theorems": [
    "Verif.C88_json",
    "Verif.C88_geojson",
    "Verif.C88_png",
    "Verif.C88_unknown",
    "Verif.C88_tif",
    "Verif.C88_tif_others",
    "Verif.C88_tif_scratch",
    "Verif.C88_cli"
   ],
   "note": "GDAL is assumed to succeed; its temporary file of colours is left out"
  },
  {
   "property": "C89",
   "status": "proved",
   "theorems": [
    "Verif.C89_params",
    "Verif.C89_projection",
    "Verif.C89_refused",
    "Verif.C89_colours",
    "Verif.C88_tif"
   ],
   "note": "exact arithmetic in place of 32-bit floats, no infinities"
  },
  {
   "property": "C90",
   "status": "proved",
   "theorems": [
    "Verif.C90_cmap",
    "Verif.C90_boolean_raises",
    "Verif.C90_shade",
    "Verif.C90_bool",
    "Verif.C90_missing",
    "Verif.C90_crossing_raises",
    "Verif.C90_layers"
   ],
   "note": "what matplotlib and cartopy draw is left out"
  },
  {
   "property": "C91",
   "status": "proved",
   "theorems": [
    "Verif.C91_accepted",
    "Verif.C91_once",
    "Verif.C91_repeated",
    "Verif.C91_polygons",
    "Verif.C91_days",
    "Verif.C91_dates_lost"
   ],
   "note": "rows without any geometry are left out"
  },
  {
   "property": "C92",
   "status": "proved",
   "theorems": [
    "Verif.C92_table",
    "Verif.C92_zones",
    "Verif.C92_rest",
    "Verif.C92_no_files"
   ],
   "note": "shapes are sets of points; how the rest of the globe is divided into polygons is a parameter"
  },
  {
   "property": "C93",
   "status": "proved",
   "theorems": [
    "Verif.C93_boolean",
    "Verif.C93_zones",
    "Verif.C93_number"
   ],
   "note": "areas are a parameter that is not 0 for the cells"
  },
  {
   "property": "C94",
   "status": "proved",
   "theorems": [
    "Verif.C94_key_error",
    "Verif.C94_zones_raise",
    "Verif.C94_no_default",
    "Verif.C94_single_column"
   ],
   "note": "names are texts or None"
  },
  {
   "property": "C95",
   "status": "proved",
   "theorems": [
    "Verif.C95_density",
    "Verif.C95_density_raises",
    "Verif.C95_thickness",
    "Verif.C95_thickness_raises"
   ],
   "note": "the shapes cut to the mesh are a parameter"
  },
  {
   "property": "C96",
   "status": "proved",
   "theorems": [
    "Verif.C96_accepted",
    "Verif.C96_order",
    "Verif.C96_table"
   ],
   "note": "reading of WKT is a parameter"
  },
  {
   "property": "C97",
   "status": "proved",
   "theorems": [
    "Verif.C97_accepted",
    "Verif.C97_plain",
    "Verif.C97_lut",
    "Verif.C97_grf",
    "Verif.C97_amsr",
    "Verif.C97_shape",
    "Verif.C97_vector_shape",
    "Verif.C97_vector_grf"
   ],
   "note": "parameters are JSON values; names are ASCII"
  },
  {
   "property": "C98",
   "status": "proved",
   "theorems": [
    "Verif.C98_completion",
    "Verif.C98_rebuild",
    "Verif.C98_kept",
    "Verif.C98_selected",
    "Verif.C98_selected_raises",
    "Verif.C98_source",
    "Verif.C98_settings",
    "Verif.C98_both",
    "Verif.C98_unseeded",
    "Verif.C98_both_false",
    "Verif.C98_unseeded_false"
   ],
   "note": "what a loader makes of its files and parameters and how cells grow from loaders is a parameter; the exceptions are proved with runs that differ"
  },
  {
   "property": "C99",
   "status": "proved",
   "theorems": [
    "Verif.C99_files",
    "Verif.C99_create_rebuild",
    "Verif.C99_merge",
    "Verif.C99_extra",
    "Verif.C99_tests"
   ],
   "note": "writing itself does not fail; the arguments are those that the parser yields"
  },
  {
   "property": "C100",
   "status": "proved",
   "theorems": [
    "Verif.C100_table",
    "Verif.C100_grid",
    "Verif.C100_fast",
    "Verif.C100_same",
    "Verif.C100_default",
    "Verif.C100_downsample"
   ],
   "note": "the transformation of points (pyproj) and the interpolation (rioxarray) are parameters"
  },
  {
   "property": "C101",
   "status": "proved",
   "theorems": [
    "Verif.C101_split",
    "Verif.C101_init",
    "Verif.C101_build",
    "Verif.C101_checked",
    "Verif.C101_round64",
    "Verif.C101_built",
    "Verif.C101_decimal_false"
   ],
   "note": "exponents are unbounded (no overflow, no subnormal numbers); the latitudes are within 180 degrees and there are at most 2^52 cells"
  },
  {
   "property": "C102",
   "status": "proved",
   "theorems": [
    "Verif.C102_parse",
    "Verif.C102_no_summary",
    "Verif.C102_stops"
   ],
   "note": "parts of names are without blanks, brackets and colons; white space is that of ASCII"
  },
  {
   "property": "C103",
   "status": "proved",
   "theorems": [
    "Verif.C103_selected",
    "Verif.C103_regression",
    "Verif.C103_unit",
    "Verif.C103_unit_tests",
    "Verif.C103_run",
    "Verif.C103_elsewhere",
    "Verif.C103_stats"
   ],
   "note": "pytest is a parameter; plots are not modelled"
  },
  {
   "property": "C104",
   "status": "proved",
   "theorems": [
    "Verif.C104_saved",
    "Verif.C104_lost",
    "Verif.C104_lost_false",
    "Verif.C104_tiling",
    "Verif.C104_summary",
    "Verif.C104_summary_raises",
    "Verif.C104_aborts",
    "Verif.compareMeshes_iff"
   ],
   "note": "the meshes of an output are as to_json writes them, not empty, with different geometries and attributes of the same kind in both"
  },
  {
   "property": "C105",
   "status": "proved",
   "theorems": [
    "Verif.C105_listed",
    "Verif.C105_branch_false"
   ],
   "note": "git diff is modelled after its manual; paths are not quoted"
  },
  {
   "property": "C106",
   "status": "proved",
   "theorems": [
    "Verif.C106_text",
    "Verif.C106_round_trip",
    "Verif.C106_same_text",
    "Verif.C106_refused",
    "Verif.numerals_exist"
   ],
   "note": "how numbers are written and read is a parameter: any two functions that undo each other, on clean numerals; the box [180, -180] of width 0 is excluded from the round trip (C06)"
  },
  {
   "property": "C107",
   "status": "proved",
   "theorems": [
    "Verif.C107_needed",
    "Verif.C107_cells",
    "Verif.C107_order",
    "Verif.C107_lock_order"
   ],
   "note": "exact arithmetic; the exact description is for scalar sources without split locks over regions that do not cross the antimeridian"
  },
  {
   "property": "C108",
   "status": "proved",
   "theorems": [
    "Verif.C108_values",
    "Verif.C108_cells"
   ],
   "note": "exact arithmetic; standard deviations are given by their squares"
  },
  {
   "property": "C109",
   "status": "proved",
   "theorems": [
    "Verif.C109_std",
    "Verif.C109_std_false",
    "Verif.C109_median_raises",
    "Verif.C109_median_any"
   ],
   "note": "standard deviations by their squares; the coverage is any non-negative function of the polygons"
  },
  {
   "property": "C110",
   "status": "proved",
   "theorems": [
    "Verif.C110_values",
    "Verif.C110_cells"
   ],
   "note": "exact arithmetic; vector sources have two names and are filled from parents, their data suits their conditions (distances on tables, curls on tables without repeated positions or grids without time); look-up tables with complete conditions, means only without missing values; the cells are characterised for distance conditions"
  },
  {
   "property": "C111",
   "status": "proved",
   "theorems": [
    "Verif.C111_cells",
    "Verif.C111_tiles",
    "Verif.C111_fits",
    "Verif.C111_round64",
    "Verif.C111_double",
    "Verif.C111_crossing_false"
   ],
   "note": "on cells and tiling only: the neighbour graph compares edges for equality and does go wrong (C101_decimal_false); C111_double is for regions not over the antimeridian and at most 359 degrees wide; no overflow, no subnormal numbers"
  },
  {
   "property": "C112",
   "status": "proved",
   "theorems": [
    "Verif.C112_grown",
    "Verif.C112_built",
    "Verif.C112_splits",
    "Verif.C112_merged",
    "Verif.C112_parts",
    "Verif.C112_built_parts",
    "Verif.C112_crossing_false"
   ],
   "note": "false over the antimeridian as a whole; there each of the two parts is shown to be connected (regions starting at 180 or of a full circle excluded); global regions included with at least two columns"
  },
  {
   "property": "C113",
   "status": "proved",
   "theorems": [
    "Verif.C113_values",
    "Verif.C113_cells"
   ],
   "note": "exact arithmetic; data on sorted grids with longitudes in (-180, 180] (tables are cut wrongly across the antimeridian, C24); vector sources without conditions; a full circle has at least two columns"
  },
  {
   "property": "C114",
   "status": "proved",
   "theorems": [
    "Verif.C114_cells",
    "Verif.C114_locked",
    "Verif.C114_first",
    "Verif.C114_lock_false"
   ],
   "note": "exact arithmetic; vector conditions on distances from the mean only; regions that do not cross the antimeridian. C114_lock_false shows where the code departs from its docstring"
  },
  {
   "property": "C115",
   "status": "proved",
   "theorems": [
    "Verif.C115_block"
   ],
   "note": "exact arithmetic; regions that do not cross the antimeridian; sources as in C110 (Spec.PlainAny)"
  },
  {
   "property": "C116",
   "status": "proved",
   "theorems": [
    "Verif.C116_depth"
   ],
   "note": "exact arithmetic; regions that do not cross the antimeridian; sources as in C110 (Spec.PlainAny)"
  },
  {
   "property": "C117",
   "status": "proved",
   "theorems": [
    "Verif.C117_order",
    "Verif.C117_more"
   ],
   "note": "exact arithmetic; regions that do not cross the antimeridian; sources as in C110 (Spec.PlainAny) without locks; with locks the order does matter (C114_lock_false)"
  },
  {
   "property": "C118",
   "status": "proved",
   "theorems": [
    "Verif.C118_turned"
   ],
   "note": "exact arithmetic; sources as in C113 (Spec.AroundAny); MIN and MAX of vectors are left out, since among vectors of the same length the first is taken and turning changes the order"
  },
  {
   "property": "C119",
   "status": "proved",
   "theorems": [
    "Verif.C119_units",
    "Verif.C119_around"
   ],
   "note": "exact arithmetic; sources as in C110 (Spec.PlainAny) or C113 (Spec.AroundAny); vectors keep their unit and are taken by mean or number, with conditions on distances only"
  },
  {
   "property": "C120",
   "status": "proved",
   "theorems": [
    "Verif.C120_looser",
    "Verif.C120_around"
   ],
   "note": "exact arithmetic; sources as in C110 (Spec.PlainAny) or C113 (Spec.AroundAny) without locks"
  },
  {
   "property": "C121",
   "status": "proved",
   "theorems": [
    "Verif.C121_order",
    "Verif.C121_more"
   ],
   "note": "exact arithmetic; sources as in C113 (Spec.AroundAny) without locks"
  },
  {
   "property": "C122",
   "status": "proved",
   "theorems": [
    "Verif.C122_finer",
    "Verif.C122_same",
    "Verif.C122_around",
    "Verif.C122_around_same"
   ],
   "note": "exact arithmetic; sources as in C110 (Spec.PlainAny) or C113 (Spec.AroundAny)"
  },
  {
   "property": "C123",
   "status": "proved",
   "theorems": [
    "Verif.C123_cells",
    "Verif.C123_locked",
    "Verif.C123_depth"
   ],
   "note": "exact arithmetic; sources as in C113 (Spec.AroundAny)"
  },
  {
   "property": "C124",
   "status": "proved",
   "theorems": [
    "Verif.C124_elsewhere",
    "Verif.C124_update",
    "Verif.C124_updates"
   ],
   "note": "exact arithmetic; regions that do not cross the antimeridian, for merging not the whole circle; no source is called geometry; sources as in C110 (Spec.PlainAny)"
  },
  {
   "property": "C125",
   "status": "proved",
   "theorems": [
    "Verif.C125_around",
    "Verif.C125_regions"
   ],
   "note": "exact arithmetic; over the antimeridian sources as in C113 (Spec.AroundAny), otherwise as in C110 (Spec.PlainAny)"
  },
  {
   "property": "C126",
   "status": "proved",
   "theorems": [
    "Verif.C126_shifted",
    "Verif.C126_around"
   ],
   "note": "exact arithmetic; sources as in C110 (Spec.PlainAny) without look-up tables, over the antimeridian as in C113 (Spec.AroundAny)"
  },
  {
   "property": "C127",
   "status": "proved",
   "theorems": [
    "Verif.C127_values",
    "Verif.C127_around",
    "Verif.C127_double",
    "Verif.C127_mixed",
    "Verif.C127_mixed_around",
    "Verif.C127_mixed_double",
    "Verif.C127_round64",
    "Verif.C127_mean_false"
   ],
   "note": "scalar sources (Spec.PlainScalar; gridded over the antimeridian) and vector sources without conditions of which MEAN or COUNT is taken; MIN and MAX of vectors, STD and RMSE are not calculated with rounding; overflow and subnormal numbers are not modelled"
  },
  {
   "property": "C128",
   "status": "proved",
   "theorems": [
    "Verif.C128_image",
    "Verif.C128_edges_false"
   ],
   "note": "exact arithmetic; sources as in C110 (Spec.PlainAny) without look-up tables, regions that do not cross the antimeridian"
  },
  {
   "property": "C129",
   "status": "proved",
   "theorems": [
    "Verif.C129_drift",
    "Verif.C129_around",
    "Verif.C129_threshold_false",
    "Verif.C129_shortest_false"
   ],
   "note": "exact arithmetic; sources as in C110 (Spec.PlainAny), over the antimeridian as in C113 (Spec.AroundAny); changed sources are scalar and not of STD, or vector sources of MEAN or COUNT without conditions"
  },
  {
   "property": "C130",
   "status": "proved",
   "theorems": [
    "Verif.C130_counts",
    "Verif.C130_initial",
    "Verif.C130_built",
    "Verif.C130_bounds_reached"
   ],
   "note": "any region, any cell size; the number of initial cells for grids as in C15 (ProperGrid)"
  },
  {
   "property": "C131",
   "status": "proved",
   "theorems": [
    "Verif.C131_slots",
    "Verif.C131_neighbours",
    "Verif.C131_built",
    "Verif.C131_bound_reached",
    "Verif.C131_slots_around",
    "Verif.C131_neighbours_crossing",
    "Verif.C131_built_crossing"
   ],
   "note": "regions that do not cross the antimeridian and, in the theorems with around or crossing, regions that do; whole bands with at least two columns"
  },
  {
   "property": "C132",
   "status": "proved",
   "theorems": [
    "Verif.C132_grown",
    "Verif.C132_built",
    "Verif.C132_splits",
    "Verif.C132_merged",
    "Verif.C132_crossing_false",
    "Verif.C132_parts",
    "Verif.C132_built_parts"
   ],
   "note": "as C16, C17, C37, C38 and C52; false over the antimeridian as a whole (witness), there within either part, for regions narrower than the circle that start before 180"
  },
  {
   "property": "C133",
   "status": "proved",
   "theorems": [
    "Verif.C133_totals",
    "Verif.C133_around",
    "Verif.C133_constant_false"
   ],
   "note": "exact arithmetic; sources as in C110 (Spec.PlainAny), over the antimeridian as in C113 (Spec.AroundAny); means and extremes over cells with data for every fill, over all cells without constants"
  },
  {
   "property": "C134",
   "status": "proved",
   "theorems": [
    "Verif.C134_totals",
    "Verif.C134_around",
    "Verif.C134_count_false"
   ],
   "note": "exact arithmetic; sources as in C110 (Spec.PlainAny), over the antimeridian as in C113 (Spec.AroundAny)"
  },
  {
   "property": "C135",
   "status": "proved",
   "theorems": [
    "Verif.C135_sides",
    "Verif.C135_around",
    "Verif.C135_smallest_false"
   ],
   "note": "exact arithmetic; sources as in C110 (Spec.PlainAny), over the antimeridian as in C113 (Spec.AroundAny), without locks (Spec.Unlocked)"
  },
  {
   "property": "C136",
   "status": "proved",
   "theorems": [
    "Verif.C136_grown",
    "Verif.C136_built",
    "Verif.C136_splits",
    "Verif.C136_merged",
    "Verif.C136_parts",
    "Verif.C136_built_parts"
   ],
   "note": "as C16, C17, C37, C38 and C52; lines in the plane of longitude and latitude; over the antimeridian within either part only (links between them are missing, C112_crossing_false), for regions narrower than the circle that start before 180"
  },
  {
   "property": "C137",
   "status": "proved",
   "theorems": [
    "Verif.C137_saved",
    "Verif.C137_splits",
    "Verif.C137_points",
    "Verif.C137_merge"
   ],
   "note": "as C34, C35, C36, C37 and C38; on edges nothing is found (C35), so points on edges of the new mesh are left out; splitting around points for all large enough fuel"
  },
  {
   "property": "C138",
   "status": "proved",
   "theorems": [
    "Verif.C138_one",
    "Verif.C138_last",
    "Verif.C138_order",
    "Verif.C138_overlap_false"
   ],
   "note": "as C38 (lattice condition; without it C38_coarse_false) and C137; C138_overlap_false shows that the condition on the order is needed"
  },
  {
   "property": "C139",
   "status": "proved",
   "theorems": [
    "Verif.C139_near",
    "Verif.C139_read",
    "Verif.C139_constant_false"
   ],
   "note": "exact arithmetic; sources as in C110 (Spec.PlainAny), locks allowed; C139_constant_false shows that filling with numbers breaks the bound"
  },
  {
   "property": "C140",
   "status": "proved",
   "theorems": [
    "Verif.C140_near",
    "Verif.C140_read"
   ],
   "note": "exact arithmetic; sources as in C110 (Spec.PlainAny), locks allowed"
  },
  {
   "property": "C141",
   "status": "proved",
   "theorems": [
    "Verif.C141_near",
    "Verif.C141_vectors",
    "Verif.C141_read",
    "Verif.C141_read_vectors"
   ],
   "note": "exact arithmetic; sources as in C113 (Spec.AroundAny, gridded data), locks allowed; cells half-open on the circle"
  }
 ]
}