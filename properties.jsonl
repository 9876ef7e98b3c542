{"id": "C01", "title": "Longitude normalisation", "statement": "Normalising a longitude returns a value in [-180, 180] on the same meridian (differing by a whole number of turns), leaves every value already in [-180, 180] unchanged, and is idempotent; applying it to a list normalises each element.", "quantifier": "every real (rational) longitude, every list of longitudes", "why_tests_cant": "Off-by-one-turn and boundary mistakes only show on values near odd multiples of 180; the set of inputs is infinite.", "anchors": ["meshiphi/utils.py: longitude_domain"]}
{"id": "C02", "title": "Longitude distance is a metric on meridians", "statement": "The angular distance between two longitudes is symmetric, lies in [0, 180], is zero exactly when both are the same meridian, does not change when either argument is shifted by whole turns, and satisfies the triangle inequality.", "quantifier": "all pairs / triples of longitudes", "why_tests_cant": "A metric law quantifies over all triples; wrap-around mistakes hide in rare combinations.", "anchors": ["meshiphi/utils.py: longitude_distance"]}
{"id": "C03", "title": "Boundary construction rejects exactly the bad boxes", "statement": "Constructing a boundary succeeds exactly when both ranges have two values, latitude is ordered, all longitudes lie in [-180, 180] and the time range is empty or an ordered pair of dates; otherwise it raises ValueError and no object exists.", "quantifier": "every latitude range, longitude range and time range", "why_tests_cant": "The accepted set is infinite; tests sample only a few rejected corners (the code misses one side of each longitude check).", "anchors": ["meshiphi/mesh_generation/boundary.py: Boundary.__init__, validate_bounds"]}
{"id": "C04", "title": "Boundary width, height and centroid are consistent", "statement": "For every valid boundary the width is in (0, 360], the eastern edge is the western edge plus the width up to whole turns, the reported centroid longitude is in [-180, 180] and lies inside the box (half the width east of the western edge), and likewise for latitude.", "quantifier": "every valid boundary, including those crossing the antimeridian", "why_tests_cant": "The antimeridian case split (min<max, min>max, min=max, edges at 180/-180) must agree for all values.", "anchors": ["meshiphi/mesh_generation/boundary.py: getcx, getcy, get_width, get_height, getdcx, getdcy"]}
{"id": "C05", "title": "Boundary equality compares space and time", "statement": "Two boundaries compare equal exactly when their latitude range, longitude range and time range coincide (as documented).", "quantifier": "all pairs of boundaries", "why_tests_cant": "Equality on all pairs; a test with equal time ranges never notices that time is ignored.", "anchors": ["meshiphi/mesh_generation/boundary.py: Boundary.__eq__"]}
{"id": "C06", "title": "Polygon string round trip", "statement": "Writing a boundary as a polygon string and reading it back gives a boundary covering the same set of points (same latitudes, same longitudes up to the choice between 180 and -180), whether or not the box crosses the antimeridian; for boxes whose edges avoid +-180 when crossing, it is the identical boundary.", "quantifier": "every valid boundary", "why_tests_cant": "Four polygon shapes depending on the antimeridian; equality must hold for all coordinates.", "anchors": ["meshiphi/mesh_generation/boundary.py: to_polygon, to_poly_string, from_poly_string", "meshiphi/mesh_generation/aggregated_cellbox.py: from_json.load_bounds"]}
{"id": "C07", "title": "Boundary quartering tiles the box", "statement": "Splitting a boundary yields four boundaries of half the width and half the height which are pairwise disjoint (as half-open boxes) and whose union is the original; it never raises on a valid boundary.", "quantifier": "every valid boundary, including boxes crossing the antimeridian", "why_tests_cant": "Universal geometric statement; crossing boxes with the mid-line beyond 180 are an untested corner where the code raises.", "anchors": ["meshiphi/mesh_generation/boundary.py: Boundary.split"]}
{"id": "C08", "title": "Initial grid tiles the region exactly", "statement": "For every accepted region and cell size, the initial cells are width/cell_width by height/cell_height in number, numbered 0,1,2,... row by row from the south-west, each has the configured size, and every point of the region lies in exactly one half-open cell, with no cell sticking out of the region.", "quantifier": "every region (crossing the antimeridian or not, global or not) and every cell size that divides it", "why_tests_cant": "Number of cells is unbounded; the modular arithmetic on longitudes must be right for every starting longitude.", "anchors": ["meshiphi/mesh_generation/mesh_builder.py: initialize_cellboxes, validate_bounds"]}
{"id": "C09", "title": "Accepted cell sizes really divide the region", "statement": "If the configuration validator and the mesh builder accept a region and cell size, the region is a whole number of cells wide and high (so the grid fits the region exactly).", "quantifier": "every region and cell size (including global regions and negative sizes)", "why_tests_cant": "Both checks use a remainder modulo 360, which hides failures for global regions; only a universal statement exposes that.", "anchors": ["meshiphi/config_validation/config_validator.py: assert_valid_cellsize", "meshiphi/mesh_generation/mesh_builder.py: validate_bounds"]}
{"id": "C10", "title": "Initial neighbour graph is geometric adjacency", "statement": "In the freshly built mesh of any non-global region, cell j is listed in direction d of cell i exactly when the rectangles touch in that direction (edge with positive length for N/E/S/W, single corner point for NE/SE/SW/NW), each once, for all cells.", "quantifier": "every grid size (all numbers of rows and columns, including one row or one column), all cell pairs, all eight directions", "why_tests_cant": "Index arithmetic with row boundaries; unbounded grid sizes.", "anchors": ["meshiphi/mesh_generation/neighbour_graph.py: initialise_neighbour_graph, initialise_map"]}
{"id": "C11", "title": "Global mesh wraps at the antimeridian", "statement": "For a region spanning -180:180, the freshly built graph additionally connects the first and last column across the antimeridian (W/E, NW/NE, SW/SE) exactly according to adjacency on the cylinder, and the mesh is flagged global; no other region is flagged.", "quantifier": "every number of rows and (two or more) columns", "why_tests_cant": "Unbounded grid sizes; corner rows are special cases.", "anchors": ["meshiphi/mesh_generation/mesh_builder.py: check_global_mesh"]}
{"id": "C12", "title": "Pairwise neighbour case is geometric touching", "statement": "The pairwise neighbour classification of two cells returns the direction in which the second touches the first, and 'not neighbours' exactly when the closed rectangles do not touch; for interior-disjoint cells exactly one answer is geometrically right and it is the one returned; swapping the arguments returns the opposite direction.", "quantifier": "all pairs of interior-disjoint rectangles of positive size", "why_tests_cant": "Eight ordered tests on real coordinates; correctness is a statement about all pairs.", "anchors": ["meshiphi/mesh_generation/neighbour_graph.py: get_neighbour_case, get_neighbour_case_bounds"]}
{"id": "C13", "title": "Seam neighbour case in a global mesh", "statement": "In a global mesh the pairwise classification equals adjacency on the cylinder (longitude modulo 360) for all pairs of cells whose widths add up to less than a full turn; it is antisymmetric there.", "quantifier": "all pairs of cells of a global mesh", "why_tests_cant": "The abs() trick used for the seam is right only under a width condition; needs all widths.", "anchors": ["meshiphi/mesh_generation/neighbour_graph.py: get_neighbour_case, get_global_mesh_neighbour_case"]}
{"id": "C14", "title": "Splitting a cell quarters it", "statement": "Splitting a cell yields four cells (NW, NE, SW, SE) with consecutive ids from the given start, depth one more than the parent, the same time range, each half as wide and high, pairwise disjoint and together covering exactly the parent; it never raises for a valid cell, also when the cell crosses or touches the antimeridian.", "quantifier": "every valid cell, every start id", "why_tests_cant": "Universal over coordinates; crossing cells need longitude normalisation at every corner.", "anchors": ["meshiphi/mesh_generation/cellbox.py: CellBox.split, create_splitted_cell_boxes"]}
{"id": "C15", "title": "Cells tile the region after any sequence of splits", "statement": "After any sequence of split-and-replace operations on a freshly built mesh, every point of the region is in exactly one live half-open cell, live cells have pairwise disjoint interiors, and the total area of live cells equals the area of the region.", "quantifier": "every initial grid, every finite sequence of splits of live cells", "why_tests_cant": "Histories are unbounded; an invariant must hold inductively.", "anchors": ["meshiphi/mesh_generation/mesh_builder.py: split_and_replace, split_to_depth", "meshiphi/mesh_generation/cellbox.py: split"]}
{"id": "C16", "title": "Neighbour graph stays exact under any splits (regional mesh)", "statement": "After any sequence of splits of a non-global, non-crossing mesh, for all live cells i, j and all eight directions d: j is listed under d for i exactly when the two rectangles touch in direction d, and no id is listed twice; the update never raises.", "quantifier": "every grid, every finite sequence of splits, all pairs of live cells, all directions", "why_tests_cant": "The graph is updated incrementally from neighbours' lists; only an inductive invariant shows that no adjacency is lost or invented for every history.", "anchors": ["meshiphi/mesh_generation/mesh_builder.py: split_and_replace, fill_se_map, fill_ne_map, fill_nw_map, fill_sw_neighbour_map", "meshiphi/mesh_generation/neighbour_graph.py: update_neighbours, update_corner_neighbours, remove_node_from_neighbours"]}
{"id": "C17", "title": "Neighbour graph stays exact under any splits (global mesh)", "statement": "After any sequence of splits of a global mesh with at least two columns, the graph equals adjacency on the cylinder for all live cells and directions, and the update never raises.", "quantifier": "every global grid with two or more columns, every finite sequence of splits", "why_tests_cant": "Same as the regional case plus the seam; histories unbounded.", "anchors": ["meshiphi/mesh_generation/mesh_builder.py: split_and_replace", "meshiphi/mesh_generation/neighbour_graph.py: get_neighbour_case"]}
{"id": "C18", "title": "Neighbour graph of a region crossing the antimeridian stays exact", "statement": "For a non-global region that crosses the antimeridian, the neighbour graph equals cylinder adjacency initially and after any splits.", "quantifier": "every region with long_min > long_max, every sequence of splits", "why_tests_cant": "Only a particular position of the split relative to the antimeridian triggers the loss of edges.", "anchors": ["meshiphi/mesh_generation/neighbour_graph.py: get_neighbour_case", "meshiphi/mesh_generation/mesh_builder.py: split_and_replace"]}
{"id": "C19", "title": "Graph well-formedness", "statement": "At all times: every key of the graph is a live cell and vice versa, every listed neighbour is a live cell, no cell is its own neighbour, no neighbour is listed twice in one direction, and j in direction d of i iff i in direction -d of j.", "quantifier": "every history of construction and splits", "why_tests_cant": "Dangling references after a particular order of splits are invisible to sampled histories.", "anchors": ["meshiphi/mesh_generation/neighbour_graph.py", "meshiphi/mesh_generation/mesh_builder.py: split_and_replace"]}
{"id": "C20", "title": "Ids are unique, stable and never reused", "statement": "Every live cell's id equals its position in the mesh's cell list, new cells get fresh consecutive ids, a replaced cell's id is never given to another cell, and splitting leaves all other cells untouched.", "quantifier": "every history of splits", "why_tests_cant": "Uniqueness over unbounded histories.", "anchors": ["meshiphi/mesh_generation/mesh_builder.py: split_and_replace", "meshiphi/mesh_generation/cellbox.py: split"]}
{"id": "C21", "title": "Split depth bound and cell sizes", "statement": "Depth-limited splitting never produces a cell deeper than the configured depth, and a cell at depth k has exactly 1/2^k of the initial cell width and height.", "quantifier": "every mesh, every data, every depth limit (including 0)", "why_tests_cant": "Holds for arbitrary data-dependent split decisions.", "anchors": ["meshiphi/mesh_generation/mesh_builder.py: split_to_depth", "meshiphi/mesh_generation/cellbox.py: split"]}
{"id": "C22", "title": "Depth-limited splitting terminates and reaches its goal", "statement": "Depth-limited splitting terminates for all data, never raises on a well-formed mesh, and when finished every live cell is at the depth limit or was judged not to need splitting by every data source that has splitting conditions, as of its final pass.", "quantifier": "every mesh, every list of data sources, every depth limit", "why_tests_cant": "The loop iterates over a list it is growing; termination and completeness need a measure argument.", "anchors": ["meshiphi/mesh_generation/mesh_builder.py: split_to_depth"]}
{"id": "C23", "title": "Neighbour graph depends only on the final cells", "statement": "Two split histories that end with the same set of live rectangles have the same neighbour graph up to renaming of ids.", "quantifier": "all pairs of histories on the same grid", "why_tests_cant": "Relational property over pairs of unbounded histories.", "anchors": ["meshiphi/mesh_generation/mesh_builder.py: split_and_replace, split_to_depth"]}
{"id": "C24", "title": "Every datapoint is counted in exactly one cell", "statement": "For any mesh whose cells tile the region, each datapoint with coordinates inside the region (lower edges excluded, upper edges included) is selected by trimming for exactly one live cell, so counts over cells add up to the count over the region.", "quantifier": "every dataset, every non-crossing tiling reached by any splits, data as table or as grid", "why_tests_cant": "Boundary points on shared edges are the critical inputs; all datasets and histories.", "anchors": ["meshiphi/dataloaders/scalar/abstract_scalar.py: trim_datapoints", "meshiphi/mesh_generation/cellbox.py: split", "meshiphi/mesh_generation/mesh_builder.py: initialize_meta_data_subsets"]}
{"id": "C25", "title": "Trimming composes", "statement": "Trimming the parent's subset to a child cell selects the same datapoints as trimming the full dataset to the child; trimming is idempotent, so the cached subset of every live cell is the same as a fresh trim.", "quantifier": "every dataset, every nested pair of boxes, every split history", "why_tests_cant": "Incremental trimming down unbounded split chains must agree with direct trimming.", "anchors": ["meshiphi/dataloaders/scalar/abstract_scalar.py: trim_datapoints", "meshiphi/mesh_generation/cellbox.py: split"]}
{"id": "C26", "title": "Table and grid trimming select the same points", "statement": "For the same datapoints, trimming a table and trimming a gridded dataset select the same points for every boundary, including ones crossing the antimeridian.", "quantifier": "every dataset, every boundary", "why_tests_cant": "The two code paths differ in the crossing branch; only a universal comparison exposes it.", "anchors": ["meshiphi/dataloaders/scalar/abstract_scalar.py: trim_datapoints_from_df, trim_datapoints_from_xr", "meshiphi/dataloaders/vector/abstract_vector.py: trim_datapoints"]}
{"id": "C27", "title": "Homogeneity decision", "statement": "With enough datapoints, the homogeneity verdict depends only on the fraction f of non-missing values over the threshold: f <= lower gives CLR, otherwise f >= upper gives HOM if split_lock and CLR if not, otherwise HET; with too few datapoints it is CLR; f is always in [0,1]; the verdict is independent of the order of datapoints and never worsens (HET to CLR) by scaling data and threshold together.", "quantifier": "every list of values with missing values, all thresholds and bounds (including lower > upper)", "why_tests_cant": "Infinite input space and boundary comparisons (<=, >=).", "anchors": ["meshiphi/dataloaders/scalar/abstract_scalar.py: get_hom_condition"]}
{"id": "C28", "title": "Split decision", "statement": "A cell is split only if no data source reports HOM or MIN and at least one reports something other than CLR; adding a locked-homogeneous source always prevents splitting; the depth-first decision over all sources equals the breadth-first decision.", "quantifier": "every list of data sources and splitting conditions", "why_tests_cant": "Ranges over all lists of verdicts.", "anchors": ["meshiphi/mesh_generation/cellbox.py: should_split, should_split_breadth_first"]}
{"id": "C29", "title": "Aggregated values are sound", "statement": "The aggregated value of a cell is NaN exactly when it has no non-missing data (count is never NaN); MIN/MAX are attained by a datapoint and bound all others; MEAN and MEDIAN lie between MIN and MAX; STD is non-negative; all are independent of datapoint order; an unknown aggregation type raises only if there is data.", "quantifier": "every list of values with missing values, every aggregation type", "why_tests_cant": "Infinite input space.", "anchors": ["meshiphi/dataloaders/scalar/abstract_scalar.py: get_value"]}
{"id": "C30", "title": "Aggregation is consistent across splitting", "statement": "The datapoint counts of the four children add up to the parent's count, the parent's minimum (maximum) is the least (greatest) of the children's, and the parent's mean is the count-weighted mean of the children's means.", "quantifier": "every non-crossing cell, every dataset", "why_tests_cant": "Universal over datasets and positions of datapoints relative to the split lines.", "anchors": ["meshiphi/dataloaders/scalar/abstract_scalar.py: get_value, trim_datapoints", "meshiphi/mesh_generation/cellbox.py: split"]}
{"id": "C31", "title": "Missing values are filled from the nearest ancestor", "statement": "With fill type 'parent', a cell without data takes the value of the closest ancestor that has data, and stays NaN only if no ancestor has any; with a constant fill type it takes that constant; a cell with data is never altered.", "quantifier": "every chain of ancestors, every data source and fill type", "why_tests_cant": "Chains are unbounded; loop termination and precedence.", "anchors": ["meshiphi/mesh_generation/cellbox.py: aggregate", "meshiphi/mesh_generation/mesh_builder.py: check_value_fill_type"]}
{"id": "C32", "title": "Sources sharing a name never overwrite a present value", "statement": "If several scalar sources provide the same data name, the cell gets the first non-NaN value in source order (after filling).", "quantifier": "every list of sources", "why_tests_cant": "Order and NaN patterns over unbounded lists.", "anchors": ["meshiphi/mesh_generation/cellbox.py: aggregate"]}
{"id": "C33", "title": "Vector fill and precedence", "statement": "For vector sources, each missing component is filled by the ancestor value or by the configured constant, and sources sharing a name do not overwrite present components.", "quantifier": "every vector source list", "why_tests_cant": "The failing case needs a constant fill together with a vector source; not covered by sampled configs.", "anchors": ["meshiphi/mesh_generation/cellbox.py: check_vector_data, aggregate"]}
{"id": "C34", "title": "Saving and loading a mesh preserves it", "statement": "Converting a mesh to JSON and loading it back yields the same cells (bounds up to the 180/-180 choice, data, ids) and the same neighbour graph.", "quantifier": "every mesh reachable by building and splitting", "why_tests_cant": "Unbounded meshes; key types change from integers to strings.", "anchors": ["meshiphi/mesh_generation/environment_mesh.py: to_json, load_from_json", "meshiphi/mesh_generation/aggregated_cellbox.py: to_json, from_json", "meshiphi/mesh_generation/neighbour_graph.py: from_json"]}
{"id": "C35", "title": "A point query finds at most one cell", "statement": "On a tiled mesh a point query never reports 'more than one cellbox'; it returns the unique cell containing the point when the point is not on a cell edge, and 'not within the mesh' exactly for points outside or on edges.", "quantifier": "every reachable mesh, every point", "why_tests_cant": "All points of a continuum and unbounded histories.", "anchors": ["meshiphi/mesh_generation/environment_mesh.py: query_index, query_inside_mesh", "meshiphi/mesh_generation/aggregated_cellbox.py: contains_point"]}
{"id": "C36", "title": "Splitting around points terminates at the finest level", "statement": "Splitting a mesh around given points terminates; afterwards each point that is strictly inside a cell throughout lies in a cell at the maximum depth; cells not containing any point are unchanged.", "quantifier": "every mesh, every list of points, every depth limit", "why_tests_cant": "Termination needs a measure; points landing on newly created edges are a measure-zero set that tests miss.", "anchors": ["meshiphi/mesh_generation/environment_mesh.py: split_points, _split_loc"]}
{"id": "C37", "title": "Neighbour graph of a loaded mesh stays exact under splits", "statement": "Splitting cells of a loaded (aggregated) mesh keeps tiling and exact adjacency, with fresh ids, for any sequence of splits, and never raises.", "quantifier": "every loaded regional mesh with exact graph, every sequence of splits", "why_tests_cant": "Unbounded histories; a second, separately written implementation with string keys.", "anchors": ["meshiphi/mesh_generation/environment_mesh.py: split_and_replace, sim_split_cellbox, fill_*_neighbour_map"]}
{"id": "C38", "title": "Merging meshes yields an exact mesh", "statement": "Merging an aligned mesh into another removes exactly the covered cells, keeps all others, adds all cells of the merged mesh under fresh ids, and yields a neighbour graph that equals geometric adjacency of the combined cells.", "quantifier": "every pair of compatible regional meshes with exact graphs", "why_tests_cant": "Pairs of unbounded meshes; ties at four edges and four corners.", "anchors": ["meshiphi/mesh_generation/environment_mesh.py: merge_mesh, tie_*_cellbox_ng, get_cellboxes_*_of_bounds, remove_cellboxes_within_bounds"]}
{"id": "C39", "title": "Merging does not modify the merged-in mesh", "statement": "The mesh given to a merge is not modified (as documented).", "quantifier": "every pair of meshes", "why_tests_cant": "Aliasing effects on arbitrary meshes.", "anchors": ["meshiphi/mesh_generation/environment_mesh.py: merge_mesh, increment_ids"]}
{"id": "C40", "title": "Id renumbering is a graph isomorphism", "statement": "Incrementing all ids by n renames cells and graph consistently: the new graph has j+n under d for i+n exactly when the old had j under d for i; renumbering by n then m equals renumbering by n+m.", "quantifier": "every mesh, every increment", "why_tests_cant": "Unbounded meshes.", "anchors": ["meshiphi/mesh_generation/environment_mesh.py: increment_ids", "meshiphi/mesh_generation/neighbour_graph.py: increment_ids"]}
{"id": "C41", "title": "Removing a cell removes exactly its edges", "statement": "Removing a cell from a well-formed graph deletes its node and every reference to it and nothing else; well-formedness is preserved.", "quantifier": "every well-formed graph, every cell", "why_tests_cant": "Universal over graphs.", "anchors": ["meshiphi/mesh_generation/neighbour_graph.py: remove_node_and_update_neighbours, remove_node_from_neighbours", "meshiphi/mesh_generation/environment_mesh.py: remove_cellbox"]}
{"id": "C42", "title": "Date strings accepted by validation are parsed by construction", "statement": "Every time string the configuration validator accepts is understood by boundary construction (never a ValueError later), and both agree on its meaning.", "quantifier": "every string", "why_tests_cant": "All strings; only a few shapes are tested.", "anchors": ["meshiphi/config_validation/config_validator.py: assert_valid_time", "meshiphi/mesh_generation/boundary.py: parse_datetime"]}
{"id": "C43", "title": "GeoTIFF pixels sit where the georeference says", "statement": "For every sampling resolution, the value stored in row r, column c of the exported image is the mesh value at the centre of the geographic rectangle that the written geotransform assigns to that pixel, and the number of samples is rows x columns.", "quantifier": "every region and resolution", "why_tests_cant": "Square resolutions (the default and tests) hide swapped rows/columns.", "anchors": ["meshiphi/mesh_generation/environment_mesh.py: to_tif.generate_samples, get_geo_transform"]}
{"id": "C44", "title": "Updating a cell validates the index", "statement": "Adding values to a cell by index changes only that cell and raises ValueError for an index outside the list.", "quantifier": "every index", "why_tests_cant": "The guard uses 'or'; negative indices silently hit another cell.", "anchors": ["meshiphi/mesh_generation/environment_mesh.py: update_cellbox"]}
{"id": "C45", "title": "Validation samples stay in range", "statement": "Random validation samples mapped into the requested ranges always lie within those ranges, the mapping is monotone, and the ranges derived from the mesh are clamped to the mesh.", "quantifier": "every range and every sample in the unit cube", "why_tests_cant": "All samples.", "anchors": ["meshiphi/mesh_validation/sampler.py", "meshiphi/mesh_validation/mesh_validator.py"]}
{"id": "C46", "title": "Mesh comparison is sound", "statement": "The boundary comparison of two meshes reports no difference exactly when both have the same set of cell geometries.", "quantifier": "all pairs of meshes", "why_tests_cant": "Relational over all pairs; one-sided difference is invisible when the extra cells are in the unchecked mesh.", "anchors": ["meshiphi/mesh_validation/mesh_comparator.py: compare_cellbox_boundaries"]}
{"id": "C47", "title": "Look-up-table homogeneity decision", "statement": "For look-up-table sources, a cell is heterogeneous exactly when boundary splitting is requested and the edge of some overlapping polygon runs through the cell; a cell overlapping no polygon is homogeneous-locked or clear according to split_lock.", "quantifier": "every set of polygons and every cell", "why_tests_cant": "Universal over geometry.", "anchors": ["meshiphi/dataloaders/lut/abstract_lut.py: get_hom_condition"]}
{"id": "C48", "title": "Seasonal look-up tables give each date its season's value", "statement": "The ice density/thickness table gives each date in the time range and region exactly one value, that of the season of that date's month in that hemisphere.", "quantifier": "every date range and every region overlap", "why_tests_cant": "Ranges crossing a season change are needed to notice cross products.", "anchors": ["meshiphi/dataloaders/lut/density.py: import_data", "meshiphi/dataloaders/lut/thickness.py: import_data"]}
{"id": "C49", "title": "Forecast file selection covers the requested dates", "statement": "Forecast loaders select the latest forecast issued before the start date and provide data for every day of the requested (inclusive) time range, or raise.", "quantifier": "every set of files, every date range", "why_tests_cant": "Off-by-one in the lead-time window for all ranges.", "anchors": ["meshiphi/dataloaders/scalar/icenet.py: import_data", "meshiphi/dataloaders/scalar/ecmwf_sig_wave_height.py: import_data"]}
{"id": "C50", "title": "Month fractions add up", "statement": "The fraction of a month covered by a date range lies in (0, 1] for an ordered range inside the month, the whole month has fraction 1, and the fractions of adjacent sub-ranges add up to the fraction of their union.", "quantifier": "every year, month and date range", "why_tests_cant": "All dates incl. leap years.", "anchors": ["meshiphi/utils.py: frac_of_month, date_range"]}
{"id": "C51", "title": "Data loader selection", "statement": "Data loader lookup is case-insensitive, known names with all required parameters yield that loader, unknown names raise ValueError, missing required parameters raise; 'file' and 'folder' are translated to 'files' without losing other parameters.", "quantifier": "every name and parameter dictionary", "why_tests_cant": "All strings and dictionaries.", "anchors": ["meshiphi/dataloaders/factory.py: get_dataloader, translate_file_input"]}
{"id": "C52", "title": "Building a mesh end to end", "statement": "Building an environmental mesh from an accepted non-crossing configuration never raises for lack of mesh consistency and yields cells that tile the region, with unique ids, exact neighbour graph and depth at most the limit.", "quantifier": "every accepted configuration and every behaviour of the data loaders", "why_tests_cant": "Composition of all previous invariants over arbitrary data.", "anchors": ["meshiphi/mesh_generation/mesh_builder.py: __init__, split_to_depth, build_environmental_mesh"]}
{"id": "C53", "title": "Aggregation of vector data", "statement": "For vector data, MIN and MAX give both components of one and the same datapoint, of least/greatest magnitude among datapoints with both components; MEAN averages each component over its present values; a cell without data gets NaN; unknown aggregation types (and MEDIAN) raise exactly if there is data; table and grid data agree.", "quantifier": "every list of vector datapoints with missing components", "why_tests_cant": "unit tests use a handful of complete vectors; missing components and ties range over all data", "anchors": ["meshiphi/dataloaders/vector/abstract_vector.py: get_value"]}
{"id": "C54", "title": "Curl used for splitting", "statement": "The curl of a linear vector field is the same at every point, equals the change of the second component along longitude minus the change of the first along latitude, and does not depend on whether the data is a table or a grid.", "quantifier": "every linear field, every equally spaced set of coordinates", "why_tests_cant": "tests check one small field in one format", "anchors": ["meshiphi/dataloaders/vector/abstract_vector.py: calc_curl, _create_vector_meshgrid"]}
{"id": "C55", "title": "Rounding to significant figures", "statement": "Rounding a number to n significant figures changes it by at most half a unit of its n-th figure, treats positive and negative numbers alike, preserves order, and rounding twice is the same as rounding once.", "quantifier": "every number, every n of at least 1", "why_tests_cant": "Ties, powers of ten and carries (9.996 to 3 figures) are rare points among all numbers.", "anchors": ["meshiphi/utils.py: round_to_sigfig"]}
{"id": "C56", "title": "Readable durations", "statement": "The days, hours and minutes shown for a duration add up to it within half a minute, with fewer than 24 hours and fewer than 60 minutes.", "quantifier": "every non-negative duration", "why_tests_cant": "Rounding overflows happen only just below whole hours and days.", "anchors": ["meshiphi/utils.py: convert_decimal_days"]}
{"id": "C57", "title": "Comparison of neighbour graphs", "statement": "Comparing the neighbour graphs of two meshes reports exactly the cells present in both graphs whose neighbours differ in some direction, whatever the order the neighbours are listed in.", "quantifier": "all pairs of meshes", "why_tests_cant": "Relational over all pairs of graphs and all orders of neighbours.", "anchors": ["meshiphi/mesh_validation/mesh_comparator.py: compare_neighbour_graph_values"]}
{"id": "C58", "title": "Full validation uses each source point once", "statement": "The full mesh validation compares every source point inside the mesh with the mesh exactly once.", "quantifier": "every mesh and every set of source points", "why_tests_cant": "Points on the edges of cells have measure zero in random samples.", "anchors": ["meshiphi/mesh_validation/full_mesh_validator.py: slice_data, validate_scalar"]}
{"id": "C59", "title": "Values of look-up-table sources", "statement": "The MIN, MAX and COUNT of a cell are those of the polygons with a point in the cell, and MEAN is the average of their values weighted with the areas in which they overlap the cell.", "quantifier": "every set of polygons with values, every cell and time range", "why_tests_cant": "The weights only matter for cells cut by polygons into unequal parts.", "anchors": ["meshiphi/dataloaders/lut/abstract_lut.py: get_value, trim_datapoints"]}
{"id": "C60", "title": "Built-in look-up tables cover the globe", "statement": "The hemispheres of the density table and the regions of the thickness table cover every point of the globe, and no point inside one of them belongs to another.", "quantifier": "every latitude and longitude", "why_tests_cant": "A gap or overlap along a meridian is invisible to sampled points.", "anchors": ["meshiphi/dataloaders/lut/density.py: import_data", "meshiphi/dataloaders/lut/thickness.py: import_data"]}
{"id": "C61", "title": "Saved cells describe their box", "statement": "The centre and half sizes written for a cell describe exactly its box (also over the antimeridian), together with its id and all its data.", "quantifier": "every cell", "why_tests_cant": "Tests compare saved files with saved files; a wrong field would be wrong on both sides.", "anchors": ["meshiphi/mesh_generation/aggregated_cellbox.py: to_json"]}
{"id": "C62", "title": "Artificial scalar shapes draw what was asked", "statement": "The circle, rectangle, gradient and checkerboard data sources produce, on a regular lattice over the region, exactly the indicator (or ramp, or alternating pattern) that their parameters describe: inside the requested disc or box, rising from one edge to the other, alternating with the requested period.", "quantifier": "every region, every number of points, every centre, radius, size and period", "why_tests_cant": "The test suite compares a handful of generated shapes against stored ones; it cannot cover centres at 0, even point counts, or regions across the antimeridian.", "anchors": ["meshiphi/dataloaders/scalar/shape.py"]}
{"id": "C63", "title": "Artificial vector shapes draw what was asked", "statement": "The circle, rectangle and gradient vector sources produce on a regular lattice exactly the scalar pattern described by the parameters times the requested component multipliers.", "quantifier": "every region, every number of points, every parameter set", "why_tests_cant": "Component multipliers left at their defaults and centres at 0 are separate paths which are reached only by parameter sets the tests do not use.", "anchors": ["meshiphi/dataloaders/vector/vector_shape.py"]}
{"id": "C64", "title": "Downsampling keeps what it promises to keep", "statement": "Downsampling a grid by factors (m,n) replaces every m-by-n block by the block's minimum / maximum / mean / median / deviation / first element according to the aggregation type, missing only when the whole block is missing; coordinates stay ascending and inside their block.", "quantifier": "every array, every pair of positive factors, including factors not dividing the size", "why_tests_cant": "Blocks are aggregated in two passes; whether that equals one pass depends on the pattern of missing values and on the remainder of sizes, which a finite set of arrays does not cover.", "anchors": ["meshiphi/dataloaders/scalar/abstract_scalar.py: downsample", "meshiphi/dataloaders/vector/abstract_vector.py: downsample"]}
{"id": "C65", "title": "Coverage is a true fraction and cutting down loses nothing", "statement": "The coverage a loader reports is the fraction of the region's area inside the smallest box around its values, and cutting the data down to the region leaves the data of every cell in the region unchanged.", "quantifier": "every region, every table or grid of data, every box in the region", "why_tests_cant": "Tests build loaders for a few data files; degenerate boxes, longitudes beyond 180 and data on the edge of the region are not among them.", "anchors": ["meshiphi/dataloaders/scalar/abstract_scalar.py: __init__, calculate_coverage", "meshiphi/dataloaders/vector/abstract_vector.py: __init__, calculate_coverage"]}
{"id": "C66", "title": "Data gets the names that were asked for", "statement": "A loader without a configured data name takes it from its only data column (vector loaders: from all data columns in order); with a configured name the data columns are renamed to it in order and every other column keeps its name.", "quantifier": "every set of column names and every configured name", "why_tests_cant": "Tests rename a few fixed columns; clashes with coordinates and the list variant of renaming are not exercised.", "anchors": ["meshiphi/dataloaders/scalar/abstract_scalar.py: get_data_col_name, set_data_col_name", "meshiphi/dataloaders/vector/abstract_vector.py: get_data_col_name, set_data_col_name, set_data_col_name_list"]}
{"id": "C67", "title": "Every configured source reaches every cell intact", "statement": "Building a mesh from a configuration attaches to every cell all configured sources in the configured order, each with its own splitting conditions in order and its own fill type, and with exactly the imported datapoints that lie in the cell.", "quantifier": "every list of configured sources, every sequence of splits", "why_tests_cant": "The data of a cell is the result of one cut to the region and one per ancestor; tests only see a few meshes with one or two sources.", "anchors": ["meshiphi/mesh_generation/mesh_builder.py: initialize_meta_data, initialize_meta_data_subsets", "meshiphi/mesh_generation/metadata.py"]}
{"id": "C68", "title": "A data loader can be added to a mesh", "statement": "Adding a data loader to a built mesh leaves cells, neighbours and other sources as they were, and afterwards every cell can be aggregated and split by the new data too.", "quantifier": "every mesh, every scalar loader and its data, every cell", "why_tests_cant": "A test sees one mesh; that no cell of any mesh can be aggregated afterwards is a statement about all of them.", "anchors": ["meshiphi/mesh_generation/mesh_builder.py: add_dataloader", "meshiphi/mesh_generation/metadata.py: __init__", "meshiphi/dataloaders/scalar/abstract_scalar.py: trim_datapoints, get_value, get_hom_condition"]}
{"id": "C69", "title": "The size of a box is its diagonal on the sphere over the square root of two", "statement": "The size of a cell is the length in metres of the shortest arc on a sphere of radius 6371 km between its south-west and north-east corners, divided by the square root of two; it does not depend on whether longitudes are written with an extra turn, and is defined for every box.", "quantifier": "every boundary, every number of extra turns", "why_tests_cant": "Tests compare a handful of boxes with tabulated numbers; that the haversine formula is the arc for all boxes and never leaves the domain of the arcsine needs a proof.", "anchors": ["meshiphi/mesh_generation/boundary.py: calc_size"]}
{"id": "C70", "title": "Random scalar fields have the configured range and threshold", "statement": "The scalar random-field loader puts one value on every site of a lattice spanning the region; smooth fields fill exactly the range between min and max (scaled by multiplier and offset), increasing with the underlying field and cut off at the thresholds; binary fields are true exactly where the field reaches the threshold.", "quantifier": "every underlying field, every size, every set of parameters, every region", "why_tests_cant": "The field is random; tests see one seed and a few parameters, and not degenerate thresholds, flat fields, full circles or regions over the antimeridian.", "anchors": ["meshiphi/dataloaders/scalar/scalar_grf.py", "meshiphi/utils.py: gaussian_random_field"]}
{"id": "C71", "title": "Random vector fields have the configured lengths", "statement": "The vector random-field loader puts one vector on every site of a lattice spanning the region; lengths fill exactly the range between min and max, and the bearing is the share of a full turn given by the second field.", "quantifier": "every pair of underlying fields, every size, every min and max, every region", "why_tests_cant": "The fields are random; the statement is about all fields and all sites.", "anchors": ["meshiphi/dataloaders/vector/vector_grf.py", "meshiphi/utils.py: gaussian_random_field"]}
{"id": "C72", "title": "The spectrum of random fields is a symmetric power law", "statement": "The momentum indices are the Fourier frequencies of the array positions with least absolute value, only the corner has frequency zero; the amplitude falls as a power of the frequency's length, vanishes at the corner only, and is equal for opposite frequencies.", "quantifier": "every size, every array position, every exponent", "why_tests_cant": "The default size is even and tests use it; the odd sizes go wrong and no sample of sizes shows that all even ones are right.", "anchors": ["meshiphi/utils.py: fftind, gaussian_random_field"]}
{"id": "C73", "title": "Vector sources split cells by distance from the mean and by curl", "statement": "The homogeneity of a cell for a vector source is decided by the share of its complete vectors further from the mean vector than the threshold, or by the share of positions whose curl exceeds it in strength; it depends neither on the order of the data nor on data cached for an enclosing cell, and it never fails.", "quantifier": "every table of vectors, every condition, every cell", "why_tests_cant": "Tests use one current field and one threshold; the sign of the curl, several times at one position and grids are not exercised, and independence of order and caching needs all data sets.", "anchors": ["meshiphi/dataloaders/vector/abstract_vector.py: get_hom_condition, calc_curl, calc_dmag"]}
{"id": "C74", "title": "Collapsed curl and distance are the mean or greatest value", "statement": "Collapsed with MEAN the distance is the mean distance of the complete vectors from their mean, zero exactly if they are all equal, and with MAX the greatest such distance; the collapsed curl is the mean or the value of greatest strength.", "quantifier": "every list of vectors, every field", "why_tests_cant": "Comparison with a formula on all lists of vectors; tests check one field.", "anchors": ["meshiphi/dataloaders/vector/abstract_vector.py: calc_curl, calc_dmag"]}
{"id": "C75", "title": "Mesh comparison reports exactly the cells whose values differ", "statement": "Of two meshes with common cells, exactly the common cells are reported that differ in a common attribute, numbers to four significant figures and other attributes in any way; numbers further apart than a thousandth of their size are always told apart, a mesh never differs from itself, and exchanging the meshes reports the same cells.", "quantifier": "every two meshes with distinct geometries", "why_tests_cant": "Tests compare a mesh with itself and with one changed copy; ids, missing and mixed attributes, and rounding need all meshes.", "anchors": ["meshiphi/mesh_validation/mesh_comparator.py: compare_cellbox_values, compare_cellbox_attributes"]}
{"id": "C76", "title": "Mesh comparison reports exactly the cells whose attributes differ", "statement": "The common cells are reported whose sets of attribute names differ, whatever their order; cells written with data of the same names are not reported; each return type gives the same cells.", "quantifier": "every two meshes with distinct geometries", "why_tests_cant": "The order of attributes and unused return types are not exercised by tests.", "anchors": ["meshiphi/mesh_validation/mesh_comparator.py: compare_cellbox_attributes, return type handling"]}
{"id": "C77", "title": "Error statistics of a mesh are the mean and root mean square error", "statement": "For scalars and vectors the results are the mean and the root mean square of the errors over all pairs of a datapoint and a cell around it; the mean is at most the root mean square, and both are zero exactly if mesh and data agree.", "quantifier": "every list of cells, every list of datapoints", "why_tests_cant": "Tests need a mesh and matching data; the inequalities, NaN and points on edges need all inputs.", "anchors": ["meshiphi/mesh_validation/full_mesh_validator.py: validate_scalar, validate_vector, slice_data"]}
{"id": "C78", "title": "Sampled validation is the root mean square distance of data and mesh", "statement": "Validation by samples returns exactly if every datapoint around the samples has a value and lies inside a cell with a number, and there is at least one; the result is the root mean square of the differences.", "quantifier": "every mesh, every list of scalar sources, every list of samples", "why_tests_cant": "Samples are random: a test sees a few positions and cannot tell on which data validation fails.", "anchors": ["meshiphi/mesh_validation/mesh_validator.py: validate_mesh, get_values_from_mesh"]}
{"id": "C79", "title": "The getters of a mesh return its present cells", "statement": "get_cellboxes returns exactly the cells not replaced by splits, in order, so that they tile the region; get_cellbox returns the cell around a point.", "quantifier": "every mesh reachable by splits", "why_tests_cant": "Which cells remain depends on the splits; the methods that always fail are called by no test.", "anchors": ["meshiphi/mesh_generation/mesh.py: get_cellboxes, get_cellbox, add_data_points"]}
{"id": "C80", "title": "Importers yield exactly the datapoints of the region", "statement": "The data imported from files are exactly the datapoints of the files that lie in the region and time range, whichever way the file names longitudes, on ascending axes.", "quantifier": "every region (also over the antimeridian), every grid of file data, every conversion of values", "why_tests_cant": "Tests use small regions away from the antimeridian and files of one layout; which layouts lose data can only be told for all of them.", "anchors": ["meshiphi/dataloaders/scalar/era5_sig_wave_height.py", "meshiphi/dataloaders/scalar/bsose_depth.py", "meshiphi/dataloaders/scalar/bsose_sea_ice.py", "meshiphi/dataloaders/vector/era5_wind.py", "meshiphi/dataloaders/vector/duacs_current.py", "meshiphi/dataloaders/vector/sose.py", "meshiphi/dataloaders/scalar/scalar_csv.py"]}
{"id": "C81", "title": "Exactly the files of the time range are read", "statement": "Of files dated by their names exactly those within the time range are read, in order; names without a date, regions without a time range and ranges without files are errors.", "quantifier": "every list of file names, every time range", "why_tests_cant": "The choice depends on dates in names; tests have one file.", "anchors": ["meshiphi/dataloaders/scalar/era5_sig_wave_height.py: import_data", "meshiphi/dataloaders/scalar/amsr.py: import_data, retrieve_date, add_default_params"]}
{"id": "C82", "title": "Values are converted to what the variables mean", "statement": "Wind direction is in [0,360) and gives the wind back together with its magnitude; wave vectors have unit length opposite to the bearing; Baltic currents are time means of the range; MODIS values under cloud are missing and no others; ice charts become percentages.", "quantifier": "all real wind components and bearings, all grids", "why_tests_cant": "Angles wrap around and signs differ by quadrant; only finitely many could be tried.", "anchors": ["meshiphi/dataloaders/scalar/era5_wind_dir.py", "meshiphi/dataloaders/scalar/era5_wind_mag.py", "meshiphi/dataloaders/vector/era5_wave_direction_vector.py", "meshiphi/dataloaders/vector/baltic_current.py", "meshiphi/dataloaders/scalar/modis.py", "meshiphi/dataloaders/scalar/visual_iced.py"]}
{"id": "C83", "title": "Exactly the well-formed configurations are accepted", "statement": "A dictionary is accepted as the configuration of a mesh if and only if it has a region with exactly the eight documented keys of the right types, a list of data sources each with a loader name and parameters only, two integers for splitting, times that are today, relative or dates, and cells that fit into the region after whole turns are taken away; otherwise one of ValidationError, ValueError, ZeroDivisionError, AssertionError is raised. The name of a file is never accepted.", "quantifier": "all JSON values, all contents of files", "why_tests_cant": "JSON values are unbounded trees; tests try a handful of configurations.", "anchors": ["meshiphi/config_validation/config_validator.py", "meshiphi/config_validation/mesh_schema.py"]}
{"id": "C84", "title": "The configuration kept by a mesh reproduces it", "statement": "An accepted configuration has everything that building a mesh reads. Its boundary is the region with the resolved times, or ValueError or OverflowError. Building changes only the two times of the configuration, into the dates of the resolved days, and building again from the changed configuration at any later time gives the same boundary, cell sizes and configuration.", "quantifier": "all configurations, all times of the first and the second build, both conventions of writing early years", "why_tests_cant": "The result depends on the system clock; a test sees one moment.", "anchors": ["meshiphi/mesh_generation/mesh_builder.py", "meshiphi/mesh_generation/boundary.py", "meshiphi/cli.py"]}
{"id": "C85", "title": "Exactly the documented vessels and routes are accepted", "statement": "A dictionary, or the content of a named file, is accepted as a vessel or a route configuration if and only if the required keys are there with the required types and limits; NaN passes every limit.", "quantifier": "all JSON values, all contents of files", "why_tests_cant": "JSON values are unbounded trees.", "anchors": ["meshiphi/config_validation/config_validator.py", "meshiphi/config_validation/vessel_schema.py", "meshiphi/config_validation/route_schema.py"]}
{"id": "C86", "title": "Exactly the complete tables of waypoints are accepted", "statement": "A table is accepted as waypoints if and only if it has the five columns (the index counts as one), a departure and an arrival marked by X, and numbers or texts of numbers for coordinates; other input raises TypeError, AssertionError, ValueError or the error of reading the file. Coordinates off the globe are accepted.", "quantifier": "all tables, all readings of texts as numbers", "why_tests_cant": "Tables are unbounded; tests use a few files.", "anchors": ["meshiphi/config_validation/config_validator.py", "meshiphi/config_validation/waypoints_schema.py"]}
{"id": "C87", "title": "GeoJSON export has exactly the data of the cells", "statement": "A mesh is exported to GeoJSON if and only if the layer asked for can be read, there is a cell, the geometries are WKT, and no exported name mixes texts with other values (before pandas 3, has texts). Every cell gives one feature, in order, with its polygon, its id and exactly the names that are asked for: numbers stay, NaN, infinities and missing values become null, lists their mean, True becomes 1, and False becomes null if all cells have a boolean under that name and 0 otherwise. A mesh without cells raises KeyError, text among other values TypeError.", "quantifier": "all lists of cells with any values, all files of parameters, both text types of pandas", "why_tests_cant": "What becomes of a value depends on the values of all other cells; tests export one mesh.", "anchors": ["meshiphi/mesh_generation/environment_mesh.py: to_geojson, cellboxes_to_json"]}
{"id": "C88", "title": "Saving a mesh writes that mesh and nothing else", "statement": "save writes, for the formats JSON, GeoJSON, TIF and PNG in any case, the file named and no other file but the scratch file of GDAL; other formats write nothing and raise nothing. A failing GeoJSON export leaves an empty file; a failing drawing leaves all files. The scratch file of TIF is removed exactly if the result is in the current directory, and a file grid_data next to the result is removed always. The command line uses the documented default names.", "quantifier": "all meshes, all names of formats in ASCII, all states of the file system, all files of parameters", "why_tests_cant": "What is lost depends on what was in the files before.", "anchors": ["meshiphi/mesh_generation/environment_mesh.py: save, to_tif, set_colour", "meshiphi/cli.py: export_mesh_cli"]}
{"id": "C89", "title": "Parameters and colours of GeoTIFF", "statement": "The four documented parameters are taken from the file, the others are defaults. The image is reprojected unless the projection is the text 4326. The colour thresholds are the quarters of the range of the values cut to integers, ascending and within the range, the third and fourth colour having the same threshold; without any value ValueError is raised. Parameters that are no dictionary, projections that are no integers, resolutions with less than two numbers and files of colours that are no texts are refused, each with its own exception.", "quantifier": "all files of parameters, all images", "why_tests_cant": "Only finitely many images could be tried; the coinciding threshold is seen on every image only by proof.", "anchors": ["meshiphi/mesh_generation/environment_mesh.py: load_params, transform_proj, set_colour"]}
{"id": "C90", "title": "Drawings show the values of the cells", "statement": "A layer of numbers is drawn with one polygon for each cell in order, whose place on the colour map is 0 for the least value, 1 for the greatest, proportional between and in the order of the values, and none for NaN or where all values are equal. A flag is drawn for exactly the cells where it is True or 1, on top of all layers. A missing name raises KeyError; regions over the antimeridian raise ValueError, and drawing without parameters UnboundLocalError. Layers of booleans cannot be drawn with a colour map.", "quantifier": "all lists of cells without infinite values, all files of parameters", "why_tests_cant": "Drawings are pictures; tests only see that a file is written.", "anchors": ["meshiphi/mesh_plotting/mesh_plotter.py: __init__, plot_bool, plot_cmap", "meshiphi/mesh_generation/environment_mesh.py: to_png"]}
{"id": "C91", "title": "Verification of look-up tables", "statement": "A table is accepted exactly if it has rows, all its geometries are polygons or multipolygons, and every multipolygon has parts and is the only row with its label; everything else raises ValueError. An accepted table holds exactly the polygons of the rows with the values of their rows, each once and in order if the labels are different; rows sharing a label with k rows appear k times. The dates are lost: later requests find the same rows for all time ranges. Before, requests find the rows of the days asked for, both ends included, that reach the cell.", "quantifier": "all tables", "why_tests_cant": "Repetition depends on how many rows share a label; a test sees single tables.", "anchors": ["meshiphi/dataloaders/lut/abstract_lut.py: verify_data, trim_datapoints"]}
{"id": "C92", "title": "Look-up tables from files of shapes", "statement": "For files of polygons and multipolygons and any region on the globe the GeoJSON, Shapefile and Scotland loaders are made, and every cell within the region finds exactly the polygons of the files that reach it, with their value, and those of the rest of the globe, with the opposite of a boolean and NaN otherwise. The rest contains all points of the globe outside the polygons and none inside. Without files ValueError is raised.", "quantifier": "all lists of files, regions and cells", "why_tests_cant": "All shapes and regions cannot be tried.", "anchors": ["meshiphi/dataloaders/lut/lut_geojson.py: import_data", "meshiphi/dataloaders/lut/lut_shapefile.py: import_data", "meshiphi/dataloaders/lut/scotland_ncmpa.py: import_data", "meshiphi/dataloaders/lut/abstract_lut.py: __init__, calculate_coverage"]}
{"id": "C93", "title": "Values of cells from files of shapes", "statement": "With a boolean, the maximum of a cell is True exactly if a set with True reaches it and the minimum exactly if no set with False does. With a number, minimum, maximum and mean of a cell are that number if the rest of the globe does not reach the cell, and NaN otherwise, so that cells only partly covered have no value.", "quantifier": "all files, regions, cells and values", "why_tests_cant": "Cells touching edges of polygons are rare in samples.", "anchors": ["meshiphi/dataloaders/lut/abstract_lut.py: get_value", "meshiphi/dataloaders/lut/lut_geojson.py: import_data"]}
{"id": "C94", "title": "Names of look-up tables", "statement": "A loader whose name is not a column of its table raises KeyError for minimum, maximum and mean of every cell in which it has polygons, and counts them nevertheless. Scotland with any other name than its column is made but raises for every cell. Without a name, the default dummy_data of the file loaders is never used: name and column are None. A table without exactly one column besides time and geometry is refused with AssertionError; otherwise a loader without a name is named after it.", "quantifier": "all loaders, cells and configurations", "why_tests_cant": "Configurations with other names are not among the tests.", "anchors": ["meshiphi/dataloaders/lut/abstract_lut.py: set_data_col_name, get_data_col_name, get_value, add_default_params", "meshiphi/dataloaders/lut/lut_geojson.py: add_default_params"]}
{"id": "C95", "title": "Seasonal tables as they are loaded", "statement": "The density table is loaded for every region where no hemisphere is a multipolygon while both are present, and the thickness table where no region is a multipolygon. A cell then finds the values of the seasons of all days of the mesh of the hemispheres or regions it reaches, whatever time range it asks for, and nothing else; hemispheres and regions that the mesh only touches in a line or a point are left out. Where a multipolygon shares its days with another region the loaders raise ValueError.", "quantifier": "all regions, ranges of dates and cells", "why_tests_cant": "The failing regions cross the equator and the antimeridian at once.", "anchors": ["meshiphi/dataloaders/lut/density.py: import_data", "meshiphi/dataloaders/lut/thickness.py: import_data", "meshiphi/dataloaders/lut/abstract_lut.py: __init__, verify_data"]}
{"id": "C96", "title": "Look-up tables from CSV files", "statement": "CSV files are read exactly if there is one, all columns are called geometry or v, both occur and geometry comes first, and every row has a readable text with the word POLYGON as geometry; with the columns the other way round TypeError is raised. The loader is named after the column of the files whatever the configuration says, and every cell finds exactly the polygons of the files that reach it with their values and those of the rest of the globe with NaN.", "quantifier": "all lists of files, regions and cells", "why_tests_cant": "The order of columns and empty entries have to be thought of.", "anchors": ["meshiphi/dataloaders/lut/lut_csv.py: import_data"]}
{"id": "C97", "title": "Parameters of data loaders and their defaults", "statement": "The factory and a loader's constructor accept parameters exactly if the folder is a text unless a file is given, the loader is known, its required parameters are given, the hemisphere of AMSR data is north or south, and the names of the components of a vector random field are given or in the name of the data. A loader then has the parameters given, file or folder turned into files, the loader's name in lower case and the configuration's minimum number of datapoints, which replace any that are given, and the defaults of its class where nothing is given, and no others. AMSR data always get the projection of their hemisphere and the columns x and y; a rectangle without height gets width 1 whatever is given; vector shapes get only the numbers of points.", "quantifier": "all parameters, loaders and listings of folders", "why_tests_cant": "Tests use one set of parameters for each loader; which defaults apply depends on every combination of given keys.", "anchors": ["meshiphi/dataloaders/factory.py: get_dataloader, translate_file_input", "meshiphi/dataloaders/scalar/abstract_scalar.py: add_default_params", "meshiphi/dataloaders/scalar/scalar_grf.py: add_default_params", "meshiphi/dataloaders/scalar/shape.py: add_default_params", "meshiphi/dataloaders/scalar/amsr.py: add_default_params", "meshiphi/dataloaders/vector/vector_grf.py: add_default_params", "meshiphi/dataloaders/vector/vector_shape.py: add_default_params"]}
{"id": "C98", "title": "A kept configuration builds the same mesh", "statement": "The configuration that a mesh keeps has the times of the region resolved, the parameters of each source completed and, of its files, only those that were read; all else is as given. Building a mesh from it, on any later day, whatever has been added to the folders and whatever random numbers are drawn, gives the same cells, graph and configuration, if no source has both a file and a folder and every random field has a seed. With both, only the file is read at first but the folder's files afterwards; without seed, random numbers are drawn again.", "quantifier": "all configurations, days, folders and random numbers", "why_tests_cant": "It relates two runs at different times with different content of the folders.", "anchors": ["meshiphi/mesh_generation/mesh_builder.py: __init__, initialize_meta_data", "meshiphi/dataloaders/factory.py: translate_file_input", "meshiphi/dataloaders/scalar/abstract_scalar.py: add_default_params"]}
{"id": "C99", "title": "What the commands write", "statement": "create_mesh, rebuild_mesh and merge_mesh change no file but their output, which has a default of its own, and none where they fail. Rebuilding a mesh that create_mesh has written gives the same JSON under the conditions of C98. merge_mesh succeeds exactly if all meshes can be read and merged one after the other in the order of their listing, and writes the result. Rebuilding a merged mesh gives the mesh before merging while its configuration still lists the merged ones. meshiphi_test always runs at least one kind of tests, and only one if only that is asked for.", "quantifier": "all files, configurations and arguments", "why_tests_cant": "The commands are not tested, and the claims are about all files of a directory and pairs of runs.", "anchors": ["meshiphi/cli.py: create_mesh_cli, rebuild_mesh_cli, merge_mesh_cli, meshiphi_test_cli"]}
{"id": "C100", "title": "Reprojection keeps every complete datapoint at its image", "statement": "Reprojecting a table keeps every row, in order, with all its other columns; the transformation of the two coordinate columns gives its longitude and latitude, and columns called lat and long replace them. It fails exactly if a projection is unknown or a coordinate column is absent (or one column, not lat or long, is named for both). A grid becomes a table with each point at which no coordinate or variable is missing, exactly once, moved likewise; a point where only one of several variables is missing is lost. With fast reprojection a grid stays the grid of the library with its points and values, renamed axes, both ascending. With equal names of projections nothing happens. Without names of columns latitudes are handed over as first coordinates, so that the same projection under another name exchanges latitude and longitude. Downsampling comes first and fails on grids without dimensions lat and long.", "quantifier": "all tables, grids, projections, column names and transformations", "why_tests_cant": "Tests reproject one AMSR file; the claim is about every transformation and every choice of columns and missing values.", "anchors": ["meshiphi/dataloaders/scalar/abstract_scalar.py: __init__, reproject, reproject_df, reproject_xr, downsample", "meshiphi/dataloaders/vector/abstract_vector.py: reproject"]}
{"id": "C101", "title": "Building in double precision is exact for dyadic regions, and only for those", "statement": "If the edges of the region and the cell sizes are multiples of 2^-n, and n plus the depth of splitting is at most 43, the mesh built in floating point arithmetic is, errors included, the mesh of exact arithmetic: the initial grid and graph, every split, every neighbour test by equality. So the cells tile the region without gap or overlap and the graph is exact. The rounding may be any that keeps numbers of double precision, as that to the nearest of them does. For other sizes it is not so: with cells of 0.1 degrees in a region of 0.2 degrees, which both checks accept, cells overlap, the eastern end is left out, and once the second cell is split the first has no neighbours.", "quantifier": "all dyadic regions, cell sizes, depths, data and splitting conditions, all roundings that keep doubles", "why_tests_cant": "Tests run a few regions with whole degrees; the claim is about every operation of every build, and the failure needs a size no test uses.", "anchors": ["meshiphi/mesh_generation/mesh_builder.py: __init__, validate_bounds, initialize_cellboxes, split_and_replace, split_to_depth, build_environmental_mesh", "meshiphi/mesh_generation/neighbour_graph.py: get_neighbour_case, initialise_map", "meshiphi/mesh_generation/cellbox.py: create_splitted_cell_boxes", "meshiphi/utils.py: longitude_domain", "meshiphi/config_validation/config_validator.py: assert_valid_cellsize"]}
{"id": "C102", "title": "The output of pytest is read completely", "statement": "From any output of pytest with a summary whose lines name tests of classes (STATUS file::Class::test) or with a parameter (STATUS file::test[param]), whatever follows on a line, every test is read exactly once with its file, name, reference and status, into the list of its status and in order; lines without :: and lines before the summary do not matter. The parser raises IndexError if there is no summary or a line names a plain function without a message, and ValueError for any other status, and all results are lost; a failed plain function is recorded with a dash as its reference.", "quantifier": "all outputs of pytest", "why_tests_cant": "Tests of the automation do not exist; the claim is about every text that pytest may print.", "anchors": ["meshiphi/test_automation/test_automater.py: parse_pytest_stdout, TestInfo"]}
{"id": "C103", "title": "Exactly the tests of the changed files are run, each once", "statement": "The files of tests that are run are exactly those that the table has for the last component of a changed path, each once; their results are put one after the other and the only exceptions are those of reading their outputs. The regression tests run exactly if a file with one of nine names changed. Unit tests are run for seven names only: nothing selects the tests of the validator, and a change of any other file (data loaders, utilities, the tests themselves) runs nothing and is not complained about. The report names each file of tests once, with the numbers of its tests and of those that passed.", "quantifier": "all lists of changed files, tables, outputs of pytest and orders of sets", "why_tests_cant": "The selection depends on the whole list of changed files and on the order in which python lists a set; tests of it do not exist.", "anchors": ["meshiphi/test_automation/test_automater.py: _run_tests, get_relevant_tests, summarise_test_stats, run_regression_tests, run_unit_tests, __init__", "meshiphi/__init__.py: REGRESSION_TESTS_BY_FILE, UNIT_TESTS_BY_FILE"]}
{"id": "C104", "title": "Exactly the outputs of changed meshes are kept", "statement": "After the tests exactly those outputs are copied to the folder of the user (with their plots) whose new mesh has a cell that the old one lacks, or differs from it in a common cell: a number beyond four digits, a text, the names of attributes, the neighbours. All others are removed with their plots, other files stay. So a new mesh that merely lost cells counts as unchanged unless the neighbours of the others changed; for two tilings of the same region unchanged means the same cells. The summary gives the four numbers of different cells, all zero exactly for an unchanged mesh, but raises AttributeError as soon as the neighbours of two cells changed; this ends the automater before unit tests, report and saving.", "quantifier": "all folders of outputs and all meshes in them", "why_tests_cant": "The claim is about every pair of meshes and every set of files; the failure occurs only when regressions do.", "anchors": ["meshiphi/test_automation/test_automater.py: save_tests, compare_meshes, extract_test_meshes, summarise_reg_tests, run_regression_tests, __init__", "meshiphi/mesh_validation/mesh_comparator.py: compare_neighbour_graph_values"]}
{"id": "C105", "title": "Which files count as changed", "statement": "Without a branch to test, the files that count as changed are exactly those whose content in the working tree differs from the branch to compare with (main by default). With a branch to test they are those that the branch to compare with changed since the two parted; what the tested branch changed does not matter, and if the other branch did not move no test is run at all.", "quantifier": "all repositories and branches", "why_tests_cant": "Needs branches that moved in different ways; tests of it do not exist.", "anchors": ["meshiphi/test_automation/test_automater.py: get_diff_filenames, __init__"]}
{"id": "C106", "title": "Texts of boundaries are read back", "statement": "The text that to_poly_string writes for a boundary is read by from_poly_string as a boundary that covers the same points, and as the same boundary without its time unless it crosses the antimeridian with an edge on it. More generally the text of any polygon without holes, or any number of them, is read by its vertices alone. Boundaries with the same text cover the same points, so taking the text for the cell, as the comparison of meshes does, confuses no two regions. A text that does not contain 'POLYGON ((' with exactly one blank is refused with IndexError.", "quantifier": "all boundaries, all polygons, all texts, all ways of writing numbers that can be read back and use no blanks, commas, brackets or the letters M and P", "why_tests_cant": "Tests read a few texts; the cutting at separators has to be right for every number of vertices and every numeral.", "anchors": ["meshiphi/mesh_generation/boundary.py: from_poly_string, to_poly_string"]}
{"id": "C107", "title": "Cells are split exactly where the datapoints ask for it", "statement": "Every box that was split on the way to a cell of the finished mesh was above the depth limit, and some source with conditions, together with the sources before it, asked for the split. For scalar sources without split locks, over a region that does not cross the antimeridian, splitting never raises and the cells (with their depths) are exactly the boxes obtained from the regular grid by dividing into quarters every box above the limit in which the datapoints of some source are inhomogeneous; the order of the sources has no influence. With split locks the order of the sources does have an influence.", "quantifier": "all regions, cell sizes, depths, sources, datapoints and conditions (second part: scalar sources, no locks)", "why_tests_cant": "Passes over several sources refine the same list of cells while it grows; that no box is missed or split needlessly has to hold for every interplay of the sources.", "anchors": ["meshiphi/mesh_generation/mesh_builder.py: split_to_depth, split_and_replace", "meshiphi/mesh_generation/cellbox.py: should_split, split, create_splitted_cell_boxes"]}
{"id": "C108", "title": "The values of a built mesh, from end to end", "statement": "For scalar sources with known aggregation types, filled from parents or by a number, over a region that does not cross the antimeridian, building the environmental mesh never raises. The mesh is well formed, its cells are (without split locks) exactly those of C107, and each cell has under each name the first present value of the sources of that name, in source order, and nothing under other names. The value of a source is the statistic (minimum, maximum, mean, median, standard deviation, count) of its datapoints in the box of the cell, else its constant, else the statistic of the nearest box above, where each box is a quarter of the next and the last one is a box of the regular grid.", "quantifier": "all regions, cell sizes, depths, lists of scalar sources, datapoints, conditions and configurations", "why_tests_cant": "Tests compare whole meshes of a few configurations with stored ones; the values depend on the interplay of trimming, caching, splitting, filling and merging for every input.", "anchors": ["meshiphi/mesh_generation/mesh_builder.py: build_environmental_mesh, split_to_depth", "meshiphi/mesh_generation/cellbox.py: aggregate, get_parent, split", "meshiphi/dataloaders/scalar/abstract_scalar.py: get_value, trim_datapoints"]}
{"id": "C109", "title": "Median and standard deviation of look-up tables", "statement": "With aggregation STD a cell gets the plain standard deviation of the values of exactly the polygons with a point in the cell: areas play no part although the code sets out to weight by them. A missing value makes it missing, polygons that cover nothing of the cell raise ZeroDivisionError. With aggregation MEDIAN the result is not a number but a whole row of the table, so that aggregating any cell that meets a polygon raises TypeError (IndexError if missing values are left out and none is left); the row is the middle one in the order of the search tree, whatever its value, so that every polygon of the cell is the result for some order.", "quantifier": "all tables, cells, time ranges, orders of the search tree, coverage functions that do not depend on the order", "why_tests_cant": "No test uses these aggregation types with look-up tables; that the areas never matter and that every cell raises needs all tables.", "anchors": ["meshiphi/dataloaders/lut/abstract_lut.py: get_value", "meshiphi/mesh_generation/cellbox.py: aggregate"]}
{"id": "C110", "title": "A mesh built from scalar, vector and look-up table sources together", "statement": "For any list of scalar, vector and look-up table sources with different loaders, over a region that does not cross the antimeridian, building the environmental mesh never raises and the mesh is well formed. Without split locks its boxes are exactly those of refining the regular grid wherever some source is uneven: the share of scalar values over the threshold, or of vectors far from the mean vector, lies strictly between the bounds, or the edge of a polygon runs through the box. Every cell has a value under exactly the names of the sources. Each source gives the statistic of its full data in the box, else that of the nearest box above that has one, else its constant. Of several sources of one name the first present value counts, except that a vector source replaces what scalar sources and look-up tables before it gave, even by a missing value.", "quantifier": "all regions, cell sizes, depths, lists of sources of the three kinds, datapoints, polygons, conditions and configurations", "why_tests_cant": "Tests build a few meshes, mostly from one kind of source; that the kinds do not disturb each other's trimming, splitting and values, and in which cases one overrules the other, needs all lists of sources.", "anchors": ["meshiphi/mesh_generation/mesh_builder.py: __init__, build_environmental_mesh, split_to_depth", "meshiphi/mesh_generation/cellbox.py: aggregate, should_split, get_parent, split", "meshiphi/dataloaders/vector/abstract_vector.py: get_value, get_hom_condition", "meshiphi/dataloaders/lut/abstract_lut.py: get_value, get_hom_condition, trim_datapoints"]}
{"id": "C111", "title": "In floating point, gaps and overlaps between cells stay below a computed bound", "statement": "For any cell sizes, not only dyadic ones, the cells of a mesh built in floating point are those of the region divided exactly in the same way but for errors of at most eps = 2u(columns + rows + 4) + 7u times the depth of splitting, plus what the cell sizes leave over, u being the error of one rounding (2^-44 degrees in double precision). So every point of the region is in a cell or within eps of one, no point is more than eps inside of two cells, and no cell reaches more than eps out of the region, as long as the smallest cells are wider than twice eps. Sizes that the check accepts leave over at most one rounding if the region does not cross the antimeridian; with cells of at least 1/64 degree split at most ten times, in double precision, eps is below 10^-8 degrees. Over the antimeridian it is not so: an accepted region of two columns can get a third, outside of it.", "quantifier": "all regions, cell sizes, roundings of a given accuracy, data, splitting conditions and depths (within the stated sizes), all points", "why_tests_cant": "tests compare a few meshes whose sizes are powers of two times whole numbers, where rounding has no effect; how errors add up over columns and splits is a statement on all sizes, depths and points", "anchors": ["meshiphi/mesh_generation/mesh_builder.py:238-272", "meshiphi/mesh_generation/mesh_builder.py:319-326", "meshiphi/mesh_generation/mesh_builder.py:378-602", "meshiphi/mesh_generation/cellbox.py:234-304", "meshiphi/utils.py:15-29"]}
{"id": "C112", "title": "The neighbour graph of a mesh is connected", "statement": "In a mesh of a region that does not cross the antimeridian one comes from every cell to every other cell in finitely many steps, each to a cell listed as a neighbour to the north, east, south or west; no part of the mesh is cut off and no passage needs a corner. This holds at every moment while a mesh is grown, for the finished mesh, for a mesh read back from a file whose cells are split in any order, and for a mesh into which others on its grid are merged. For a region over the antimeridian it is false: three cells in a row, of which the eastern one is split, fall into two parts without any link; but still, if the region is narrower than a full circle and starts before the antimeridian, the cells that start at or before the antimeridian are connected among themselves, and so are the columns that start after it.", "quantifier": "all regions not over the antimeridian, cell sizes, data, splitting conditions, depths, sequences of splits and merges, all pairs of cells", "why_tests_cant": "a lost edge shows only in searches that need exactly that passage; that no sequence of splits cuts off a cell is a statement on all sequences and all pairs of cells", "anchors": ["meshiphi/mesh_generation/neighbour_graph.py:214-373", "meshiphi/mesh_generation/mesh_builder.py:319-602", "meshiphi/mesh_generation/environment_mesh.py:211-330", "meshiphi/mesh_generation/environment_mesh.py:800-900"]}
{"id": "C113", "title": "A mesh over the antimeridian is refined and filled by what its data says on the circle", "statement": "Over an accepted region that crosses the antimeridian, from scalar sources and vector sources without splitting conditions whose data lies on sorted grids, in any number and order, a mesh is built without raising, and its cells tile the region. Without locks the boxes of its cells are exactly those reached from the cells of the grid, counted eastwards from the western edge of the region and brought back by a turn where they run past 180, by quartering every box in which some source is uneven, down to the depth; the quarters of a box across the antimeridian meet at its middle on the circle. What is uneven and what a source gives is read from the datapoints in the half-open box on the circle, on whichever side of the antimeridian they lie. The values of every cell are those statistics, filled from the boxes it was split from or by constants, and merged in the order of the sources, vector sources replacing earlier ones.", "quantifier": "all regions over the antimeridian (a full circle with at least two columns), cell sizes, gridded data, conditions, depths, lists of sources, all cells and names", "why_tests_cant": "tests build a handful of meshes, few of them over the antimeridian, and compare with files written by the same code; that cutting and splitting across the antimeridian loses and repeats no datapoint at any depth is a statement on all data and all sequences of splits", "anchors": ["meshiphi/mesh_generation/mesh_builder.py:319-602", "meshiphi/mesh_generation/cellbox.py:234-401", "meshiphi/dataloaders/scalar/abstract_scalar.py:236-600", "meshiphi/dataloaders/vector/abstract_vector.py:304-525", "meshiphi/utils.py:15-29"]}
{"id": "C114", "title": "Which cells come out when conditions prevent splitting", "statement": "From sources of the three kinds, with or without locks, in any number and order, a mesh is built without raising. The boxes of its cells are exactly those that come out if the sources take turns in their order: in the turn of a source every box above the depth is divided that some source up to this one finds inhomogeneous and that no source up to this one locks, and so on with the quarters, until no such box is left. Hence a box that a source locks is only ever divided if an earlier source finds it inhomogeneous, and what the first source locks stays in one piece. That a locked box is never divided is false: the lock of a later source does not hold against an earlier one.", "quantifier": "all regions that do not cross the antimeridian, cell sizes, data, conditions with and without locks, depths, lists of sources", "why_tests_cant": "tests build a few meshes whose locks agree with the order of the sources; the influence of the order shows for combinations of data, locks and depth only, and exactness is a statement on all cells of all meshes", "anchors": ["meshiphi/mesh_generation/mesh_builder.py:558-602", "meshiphi/mesh_generation/cellbox.py:153-194", "meshiphi/dataloaders/scalar/abstract_scalar.py:468-602", "meshiphi/dataloaders/vector/abstract_vector.py:527-600", "meshiphi/dataloaders/lut/abstract_lut.py:311-349"]}
{"id": "C115", "title": "A mesh over a block of cells is a part of that over the whole region", "statement": "Take a region, a block of whole cells of its grid, and for both of them sources of the three kinds with the same parameters, locks and curls included, that have the same data in the block. Both meshes are built without raising. The boxes of the mesh over the block are exactly those of the mesh over the region that lie in the block, and the values of cells with the same box are the same. So a cell depends neither on the extent of the region nor on data outside of the cell of the grid that it comes from.", "quantifier": "all regions that do not cross the antimeridian, blocks, cell sizes, data, conditions, depths, lists of sources", "why_tests_cant": "tests build each region once; that nothing leaks from one cell of the grid to another (by the order of the list, indices, shared sources, trimming) is a relation between two runs on different inputs, for all of them", "anchors": ["meshiphi/mesh_generation/mesh_builder.py:45-139", "meshiphi/mesh_generation/mesh_builder.py:186-218", "meshiphi/mesh_generation/mesh_builder.py:558-602", "meshiphi/mesh_generation/cellbox.py:153-194", "meshiphi/mesh_generation/cellbox.py:234-381", "meshiphi/dataloaders/scalar/abstract_scalar.py:248-332"]}
{"id": "C116", "title": "A larger depth only refines what was at the limit", "statement": "Build two meshes from the same sources, locks and curls included, with two depths d \u2264 d'. Boxes wider than the cell width divided by 2^d are cells of both or of none; every cell of the deeper mesh lies in a cell of the other; every cell of the other contains one of the deeper mesh; a cell of the deeper mesh that is not smaller than those at depth d is a cell of the other; and cells with the same box have the same values.", "quantifier": "all regions that do not cross the antimeridian, cell sizes, data, conditions, pairs of depths, lists of sources", "why_tests_cant": "a relation between two runs that differ in a parameter; tests compare single meshes with stored ones", "anchors": ["meshiphi/mesh_generation/mesh_builder.py:45-139", "meshiphi/mesh_generation/mesh_builder.py:186-218", "meshiphi/mesh_generation/mesh_builder.py:558-602", "meshiphi/mesh_generation/cellbox.py:153-194", "meshiphi/mesh_generation/cellbox.py:234-381", "meshiphi/dataloaders/scalar/abstract_scalar.py:248-332"]}
{"id": "C117", "title": "What the order of the sources and additional sources change", "statement": "If no condition locks, the cells do not depend on the order of the sources, and neither do the values under a name that only one source provides. Adding sources at the end only refines: every cell of the mesh with them lies in a cell of the mesh without them, and cells with the same box have the same values under the names that the additional sources do not provide.", "quantifier": "all regions that do not cross the antimeridian, cell sizes, data, conditions without locks, depths, lists of sources, permutations and extensions of them", "why_tests_cant": "a relation between two runs on permuted or extended configurations; passes over the sources work on a list that grows while it is walked, so that the order could matter in many ways", "anchors": ["meshiphi/mesh_generation/mesh_builder.py:45-139", "meshiphi/mesh_generation/mesh_builder.py:186-218", "meshiphi/mesh_generation/mesh_builder.py:558-602", "meshiphi/mesh_generation/cellbox.py:153-194", "meshiphi/mesh_generation/cellbox.py:234-381", "meshiphi/dataloaders/scalar/abstract_scalar.py:248-332"]}
{"id": "C118", "title": "Where the antimeridian lies makes no difference to gridded data", "statement": "Turn a region and the gridded data in it eastwards by any number of degrees, so that longitudes wrap from 180 to -180 where they must. Both meshes are built without an error; the cells of one are those of the other, turned by the same number of degrees, and corresponding cells have the same values under every name. This holds whether none, one or both of the regions cross the antimeridian, with locks and parent filling included.", "quantifier": "all regions (crossing the antimeridian or not, full circles with at least two columns), cell sizes, depths, rotations, lists of scalar gridded sources with any conditions and of vector gridded sources without conditions taken by mean or number, all orders of the datapoints", "why_tests_cant": "a relation between two runs in different places of the Earth; the code treats boxes over the antimeridian by separate branches in the bounds, the splitting, the trimming and the adjacency, and the tests use single regions", "anchors": ["meshiphi/mesh_generation/mesh_builder.py:319-602", "meshiphi/mesh_generation/cellbox.py:234-401", "meshiphi/dataloaders/scalar/abstract_scalar.py:236-600", "meshiphi/dataloaders/vector/abstract_vector.py:304-525", "meshiphi/utils.py:15-29"]}
{"id": "C119", "title": "The units of the data and the order of the datapoints make no difference", "statement": "Convert the data of a scalar source to another unit (a positive factor and an offset), and with it the thresholds of its conditions, its constant filling value and nothing else, and write the datapoints of scalar and vector sources in another order. The mesh is built with the same cells, and every value of every cell is the converted value of the same cell before.", "quantifier": "all regions that do not cross the antimeridian with scalar, vector and look-up table sources, and all regions with gridded sources; all cell sizes, depths, data, conditions (with locks), units with a positive factor, orders of the datapoints; scalars taken by MIN, MAX, MEAN or MEDIAN (in an unchanged unit any way but STD), vectors by mean or number", "why_tests_cant": "a metamorphic relation between two runs over all units and orders; the tests compare single runs with stored meshes", "anchors": ["meshiphi/mesh_generation/mesh_builder.py:45-139", "meshiphi/mesh_generation/mesh_builder.py:558-602", "meshiphi/mesh_generation/cellbox.py:153-381", "meshiphi/dataloaders/scalar/abstract_scalar.py:236-600", "meshiphi/dataloaders/vector/abstract_vector.py:304-525"]}
{"id": "C120", "title": "Looser conditions only refine a mesh", "statement": "Loosen the conditions of the sources: lower the least numbers of datapoints, lower the lower bounds, raise the upper bounds, add conditions. If no condition is a lock, every cell of the new mesh lies in a cell of the old one, and cells with the same box have the same values.", "quantifier": "all regions that do not cross the antimeridian with scalar, vector (distance conditions) and look-up table sources, and all regions (full circles with at least two columns) with gridded sources; all cell sizes, depths, data, conditions without locks", "why_tests_cant": "a relation between two runs under two configurations; a test compares a pair of configurations at best", "anchors": ["meshiphi/mesh_generation/mesh_builder.py:45-139", "meshiphi/mesh_generation/mesh_builder.py:558-602", "meshiphi/mesh_generation/cellbox.py:153-381", "meshiphi/dataloaders/scalar/abstract_scalar.py:236-600", "meshiphi/dataloaders/vector/abstract_vector.py:304-525"]}
{"id": "C121", "title": "The order of the sources and additional sources over the antimeridian", "statement": "C117 for regions that may cross the antimeridian, with gridded sources: if no condition locks, the cells do not depend on the order of the sources, and neither do the values under a name that only one source provides. Adding sources at the end only refines the cells, and cells with the same box have the same values under the names that the additional sources do not provide.", "quantifier": "all regions (crossing the antimeridian or not, full circles with at least two columns), cell sizes, depths, gridded data, conditions without locks, lists of sources, permutations and extensions of them", "why_tests_cant": "a relation between two runs on permuted or extended configurations, over separate branches for boxes that cross the antimeridian", "anchors": ["meshiphi/mesh_generation/mesh_builder.py:45-139", "meshiphi/mesh_generation/mesh_builder.py:558-602", "meshiphi/mesh_generation/cellbox.py:153-381", "meshiphi/dataloaders/scalar/abstract_scalar.py:236-600", "meshiphi/dataloaders/vector/abstract_vector.py:304-525"]}
{"id": "C122", "title": "Starting with smaller cells", "statement": "Build a mesh from the same sources twice: from cells of some size with a depth d+e, and from cells 2^e times smaller with a depth d. Whether conditions lock or not, both meshes are built, and every cell of the second lies in a cell of the first; cells with the same box have the same values under a name that only one source provides, except that where the source fills gaps from the cells before, the value may be missing in the second. If no condition locks, every cell of the first mesh that is not larger than the smaller cells is a cell of the second, and every cell of the second is a cell of the first or lies in one that is larger than the smaller cells.", "quantifier": "all regions that do not cross the antimeridian with scalar, vector and look-up table sources, and all regions (full circles with at least two columns) with gridded sources; all cell sizes, depths d and e, data, conditions", "why_tests_cant": "a relation between two runs with different cell sizes and depths, over arbitrary data and numbers of divisions", "anchors": ["meshiphi/mesh_generation/mesh_builder.py:45-139", "meshiphi/mesh_generation/mesh_builder.py:238-272", "meshiphi/mesh_generation/mesh_builder.py:558-602", "meshiphi/mesh_generation/cellbox.py:153-381", "meshiphi/dataloaders/scalar/abstract_scalar.py:236-600"]}
{"id": "C123", "title": "Locks and depths over the antimeridian", "statement": "C114 and C116 for regions that may cross the antimeridian, with gridded sources. The cells are exactly those that come out if the sources take turns, each dividing the boxes above the depth that some source so far finds inhomogeneous and no source so far locks; so a box that a source locks and that no source before it finds inhomogeneous is never divided. A larger depth only refines the cells at the limit: larger cells are the same, every cell of the deeper mesh lies in a cell of the other and every cell of the other contains one, and cells with the same box have the same values.", "quantifier": "all regions (crossing the antimeridian or not, full circles with at least two columns), cell sizes, depths, gridded data, conditions with or without locks, lists of sources", "why_tests_cant": "the shape of the mesh depends on the order in which sources lock and split at every depth, over separate branches for boxes that cross the antimeridian", "anchors": ["meshiphi/mesh_generation/mesh_builder.py:45-139", "meshiphi/mesh_generation/mesh_builder.py:238-272", "meshiphi/mesh_generation/mesh_builder.py:558-602", "meshiphi/mesh_generation/cellbox.py:153-381", "meshiphi/dataloaders/scalar/abstract_scalar.py:236-600"]}
{"id": "C124", "title": "Updating a part of a mesh", "statement": "Data outside of a block of whole cells of the grid make no difference to the cells in it: meshes over the same region, from sources with the same parameters that have the same data in the block, have the same cells there, with the same values. Consequently a part of a mesh can be updated by merging: build the mesh of a block with new data, save and load it and the mesh of the region with the old data, and merge the first into the second. The result has exactly the boxes, the data (apart from the entry id) and the neighbours that the mesh of the region has, saved and loaded, when it is built from the new data in the block and the old data elsewhere. The same holds for any number of updates one after the other, of overlapping blocks too.", "quantifier": "all regions that do not cross the antimeridian and are not the whole circle (for merging), cell sizes, depths, blocks of whole cells, lists of sources of the three kinds, with or without locks", "why_tests_cant": "relates three builds, three round trips through JSON and a merge for all regions, blocks and data; a dependency of a cell on data elsewhere or a single missing tie shows only for particular combinations", "anchors": ["meshiphi/mesh_generation/environment_mesh.py:211-260", "meshiphi/mesh_generation/environment_mesh.py:33-98", "meshiphi/mesh_generation/mesh_builder.py:45-139", "meshiphi/mesh_generation/mesh_builder.py:558-626", "meshiphi/mesh_generation/cellbox.py:153-381", "meshiphi/cli.py:158-198"]}
{"id": "C125", "title": "A cell depends only on the data in it", "statement": "What becomes of a cell of the grid depends only on the datapoints in it and the parameters. Take two regions, either of which may cross the antimeridian, whose grids share a cell, and for each of them sources with gridded data, of the same parameters and with the same datapoints in that cell. Both meshes are built without raising; the boxes into which the shared cell is divided are the same in both, and the cells have the same values under all names. For regions that do not cross the antimeridian the same holds for every block of whole cells that both grids have, with sources of all three kinds, locks and curl included.", "quantifier": "all pairs of regions with a common cell (or block), cell sizes, depths, lists of sources, data outside of the cell", "why_tests_cant": "relates two builds over different regions for all data outside of the shared cell; a leak of data, of the position in the grid or of the region into a cell shows only for particular pairs", "anchors": ["meshiphi/mesh_generation/mesh_builder.py:45-139", "meshiphi/mesh_generation/mesh_builder.py:558-626", "meshiphi/mesh_generation/cellbox.py:153-381", "meshiphi/dataloaders/scalar/abstract_scalar.py:285-323"]}
{"id": "C126", "title": "Only places relative to the region and being in the time range matter", "statement": "Take a region that does not cross the antimeridian and the same region moved north by dy and east by dx, with another time range or none, and for each of them scalar and vector sources of the same parameters such that the datapoints in the second region and its time range are those in the first and its time range, moved by dy and dx. Their order, their times, datapoints at other times or outside of the region, and whether the data has times at all, may differ. Both meshes are built without raising, the cells of the one are exactly those of the other moved by dy and dx, and corresponding cells have the same values under all names. The same holds for gridded data and regions that may cross the antimeridian (other than full circles written with equal edges), moved north. Vectors are taken by mean or number and divide cells by distances from the mean.", "quantifier": "all regions, distances, time ranges, cell sizes, depths, lists of sources, datasets", "why_tests_cant": "relates two builds for all distances and time ranges; an absolute latitude, longitude or time that has an influence shows only for particular ones", "anchors": ["meshiphi/mesh_generation/mesh_builder.py:45-139", "meshiphi/mesh_generation/mesh_builder.py:558-626", "meshiphi/mesh_generation/cellbox.py:153-381", "meshiphi/mesh_generation/boundary.py:15-60", "meshiphi/dataloaders/scalar/abstract_scalar.py:144-323", "meshiphi/dataloaders/vector/abstract_vector.py:139-330"]}
{"id": "C127", "title": "Rounding in the aggregated values stays small", "statement": "Build a mesh from scalar sources of which MIN, MAX, MEAN, MEDIAN or COUNT is taken and vector sources without splitting conditions of which MEAN or COUNT is taken, once exactly and once in arithmetic in which every sum (in any order and bracketing), quotient and mean of two is rounded with a relative error of at most u, as are the bounds of conditions and the shares of values compared with them. Let each source have at most N datapoints with values or components of absolute value at most M, and let the bounds be fractions between 0 and 1 with a common denominator D such that 2*N*D*u < 1. Then both meshes have the same cells; a value is missing in the one exactly if it is in the other; and two values differ by at most ((1+u)^N - 1)*M. In double precision, geometry included, for regions and cells that are multiples of 2^-n, at most 2^20 datapoints and bounds of at most nine decimals, the values differ by at most 2^-32*M. The same holds over the antimeridian for gridded data (geometry exact there). The rounded mean need not lie between the least and the greatest value: that of three times 0.1 is 0.10000000000000002.", "quantifier": "all regions, cell sizes, depths, lists of scalar and vector sources, datasets, conditions of scalar sources, roundings of a given precision, orders and bracketings of sums", "why_tests_cant": "an error bound over all data, sizes and orders of summation; a decision that flips by rounding shows only for particular counts and bounds", "anchors": ["meshiphi/dataloaders/scalar/abstract_scalar.py:334-466", "meshiphi/dataloaders/scalar/abstract_scalar.py:468-602", "meshiphi/mesh_generation/cellbox.py:153-381", "meshiphi/mesh_generation/mesh_builder.py:45-139", "meshiphi/dataloaders/vector/abstract_vector.py:373-525"]}
{"id": "C128", "title": "The scale and the directions of the coordinates make no difference, except on edges", "statement": "Take a region that does not cross the antimeridian, and its image under stretching or mirroring latitudes and longitudes by any non-zero factors and moving them, with cells scaled by the absolute values of the factors and any time range. Let scalar sources, and vector sources taken by mean or number and split by distance from the mean, have the same parameters for both, and in the image and its time range exactly the images of the datapoints in the region, in any order. Where a direction is reversed, let no datapoint lie on an edge of a cell, or of a half, quarter and so on of it. Then both meshes are built, the cells of one are exactly the images of those of the other, and corresponding cells have the same values. Datapoints on edges belong to the cell to the south and west, so that mirroring them does not mirror their cells.", "quantifier": "all regions, factors other than zero, displacements, time ranges, cell sizes, depths, lists of sources, conditions and datasets", "why_tests_cant": "relates two builds over all regions, data and factors; a direction or a size that enters anywhere shows only for data it happens to touch", "anchors": ["meshiphi/mesh_generation/mesh_builder.py:45-139", "meshiphi/mesh_generation/mesh_builder.py:558-626", "meshiphi/mesh_generation/cellbox.py:153-381", "meshiphi/mesh_generation/boundary.py:15-60", "meshiphi/dataloaders/scalar/abstract_scalar.py:144-323", "meshiphi/dataloaders/vector/abstract_vector.py:139-330"]}
{"id": "C129", "title": "Small changes of the data change a mesh little", "statement": "Let the values of scalar sources of which MIN, MAX, MEAN, MEDIAN or COUNT is taken change so that each rises by at most hi and falls by at most -lo, missing values stay missing, and no value crosses a threshold of a condition of its source; let the components of vector sources without conditions, of which MEAN or COUNT is taken, change in the same way; other sources stay as they are. Then both meshes are built and have the same cells, a value is missing in one exactly if it is in the other, and every value of a cell rises by at most hi and falls by at most -lo, filled and merged ones included. In particular larger data never give smaller values. The same holds over the antimeridian for gridded data. Without the condition on thresholds it fails: a change by a thousandth can change whether a cell is divided, and values by much more than it. Nor does it hold for the MIN of vectors: where two are of almost the same length, a change by thousandths can make another one the shortest.", "quantifier": "all regions, cell sizes, depths, lists of sources, conditions, datasets and changes of their values", "why_tests_cant": "a bound over all data and all changes of it, through sorting, averaging, filling from ancestors and merging of sources", "anchors": ["meshiphi/dataloaders/scalar/abstract_scalar.py:334-466", "meshiphi/dataloaders/scalar/abstract_scalar.py:468-602", "meshiphi/mesh_generation/cellbox.py:153-381", "meshiphi/mesh_generation/mesh_builder.py:45-139"]}
{"id": "C130", "title": "How many cells a mesh has", "statement": "After n splits, of whatever cells in whatever order, a mesh has 3 n cells more than it was created with, exactly n positions of its list of cells are empty, and the list has 4 n entries more. The shares 4^-depth of the cells always add up to the number of initial cells, which is the width of the region divided by that of the cells, times the same for the heights. So a built mesh has at least as many cells as it was created with, at most 4^depth times as many, and their numbers differ by a multiple of three; both bounds are reached. The number of splits of a build is at most a third of (4^depth - 1) times the number of initial cells.", "quantifier": "all regions (crossing the antimeridian or not), cell sizes, data, split decisions and sequences of splits", "why_tests_cant": "a count over all sequences of splits; the bound limits memory and time of every build in advance", "anchors": ["meshiphi/mesh_generation/mesh_builder.py:378-486", "meshiphi/mesh_generation/mesh_builder.py:558-602", "meshiphi/mesh_generation/cellbox.py:293-381"]}
{"id": "C131", "title": "Where cells can lie and how many neighbours they can have", "statement": "A cell of depth k is one of the boxes of the regular grid over the region whose cells are 2^k times narrower and lower than the initial ones. A cell has at most one neighbour in the direction of each corner, and on each side at most 2^(M - k) neighbours if k is its depth and no cell is deeper than M; the bound is reached. In particular no cell of a built mesh has more than 2^depth neighbours on a side.", "quantifier": "all regions, also over the antimeridian, and whole bands around the globe with at least two columns, all cell sizes, data, split decisions and sequences of splits", "why_tests_cant": "a bound over all sequences of splits; tests look at the neighbours of single cells", "anchors": ["meshiphi/mesh_generation/neighbour_graph.py:136-413", "meshiphi/mesh_generation/mesh_builder.py:378-486", "meshiphi/mesh_generation/mesh_builder.py:558-602"]}
{"id": "C132", "title": "The neighbours of a cell line its sides without gaps", "statement": "In a mesh over a region that does not cross the antimeridian, beside every point of a side of a cell lies exactly one of the cells listed as neighbours for that side, unless the side is on the border of the region, where none is listed; around the globe there is no border in the east and west. So one never leaves the mesh, nor has a choice, when one crosses a side at a given point. This holds after any sequence of splits, for built meshes, and, for regions that are not whole bands around the globe, for consistent meshes read from a file and split further and for meshes merged as in C38. In a region over the antimeridian it fails: a side within the region can have no neighbours. But if such a region starts before the antimeridian and is narrower than the circle, it holds for the sides from its western edge up to the antimeridian, among the cells that start there, and for the sides within the columns that start after it.", "quantifier": "all regions, cell sizes, data, split decisions, sequences of splits and of merges, cells and points of their sides", "why_tests_cant": "quantifies over all points of all sides of all reachable meshes", "anchors": ["meshiphi/mesh_generation/neighbour_graph.py:136-413", "meshiphi/mesh_generation/mesh_builder.py:378-486", "meshiphi/mesh_generation/environment_mesh.py:127-385"]}
{"id": "C133", "title": "What a mesh says altogether is what its data say", "statement": "Let a mesh be built from scalar, vector and look-up table sources over a region that does not cross the antimeridian, or from gridded scalar and vector sources over one that does, and let a scalar source have a name of its own. Over the cells of the mesh its COUNTs add up to the number of datapoints in the region (of those with a value, for tables). Its MEANs, each weighted with the number of values in the cell, add up to the sum of the values in the region. The least MIN and the greatest MAX over the cells that have data are those of the data in the region. If empty cells are filled from the boxes they were split from, or not at all, the same holds over all cells, and no MIN, MAX, MEAN or MEDIAN lies outside of the range of the data. If they are filled with a number, it may be the greatest value of all.", "quantifier": "all regions, cell sizes, depths, lists of sources, conditions and locks, datasets", "why_tests_cant": "quantifies over all datasets and all meshes that splitting can lead to; a datapoint lost or counted twice at one edge of one cell would pass any test that has none there", "anchors": ["meshiphi/dataloaders/scalar/abstract_scalar.py:236-466", "meshiphi/mesh_generation/cellbox.py:234-382", "meshiphi/mesh_generation/mesh_builder.py:558-626"]}
{"id": "C134", "title": "What a mesh says altogether about vectors", "statement": "Let a mesh be built as in C133, and let a vector source have names of its own. If it aggregates by MEAN, the components in the cells, weighted with the numbers of values in them, add up to the sums of the components in the region. If by MIN or MAX, every cell has no vector or a complete vector of the data, and some cell has a shortest (longest) complete vector of the region. If by COUNT, the numbers add up to the number of datapoints over the cells that have data; over all cells they do not, since empty cells get the number of the cell they were split from. For MEAN and COUNT of grids all vectors have to be complete.", "quantifier": "all regions, cell sizes, depths, lists of sources, conditions and locks, datasets", "why_tests_cant": "quantifies over all datasets and all meshes that splitting can lead to", "anchors": ["meshiphi/dataloaders/vector/abstract_vector.py:304-525", "meshiphi/mesh_generation/cellbox.py:234-382", "meshiphi/mesh_generation/mesh_builder.py:558-626"]}
{"id": "C135", "title": "A cell tells on which side of a threshold its data lie", "statement": "Let a mesh be built as in C133 from sources that never prevent splitting, and let a scalar source have a name of its own. In every cell that is larger than the smallest ones allowed and has at least the smallest number of datapoints, the share of values over a threshold of the source is at most the lower bound or at least the upper bound. If these bounds are 0 and 1, all values in the cell lie on the same side of the threshold, and the MIN, MAX, MEAN or MEDIAN of the cell is there and lies on that side too. If a half is strictly between the bounds and a value is there, then the share is not a half, and the MEDIAN of the cell is over the threshold exactly if more than half of the values are. A datapoint strictly inside of a cell is found in that cell when the mesh is asked for it. For cells of the smallest size this is not so.", "quantifier": "all regions, cell sizes, depths, lists of sources without locks, conditions, datasets, datapoints", "why_tests_cant": "quantifies over all datasets and all meshes that splitting can lead to; a single cell with mixed data that was left whole would mislead whoever reads the mesh there", "anchors": ["meshiphi/dataloaders/scalar/abstract_scalar.py:236-466", "meshiphi/mesh_generation/cellbox.py:124-232", "meshiphi/mesh_generation/mesh_builder.py:558-626", "meshiphi/mesh_generation/environment_mesh.py:129-148"]}
{"id": "C136", "title": "Straight lines lead from neighbour to neighbour", "statement": "In a mesh over a region that does not cross the antimeridian, whoever goes straight (in longitude and latitude) from any point of the region to any other, starting in any cell that has the first point, passes through finitely many cells, each of which is listed in the neighbour graph for the one before, in a direction that does not lead back (never west on a way that leads east, and so on). No cell is entered twice, no part of the way is outside of the cells passed, and if the end is inside of a cell, that is the last one. This holds after any sequence of splits, for built meshes, for consistent meshes read from a file and split further, and for meshes merged as in C38. In a region that crosses the antimeridian, starts before it and is narrower than the circle, the same holds for lines from its western edge up to the antimeridian, and for lines within the columns that start after it.", "quantifier": "all regions (over the antimeridian either part), cell sizes, data, split decisions, sequences of splits and of merges, pairs of points, cells at the first point", "why_tests_cant": "quantifies over all meshes and all lines; a link missing at one corner stops only the few lines that run through that corner", "anchors": ["meshiphi/mesh_generation/neighbour_graph.py: initialise_neighbour_graph, get_neighbour_case, update_neighbours", "meshiphi/mesh_generation/mesh_builder.py: split_and_replace", "meshiphi/mesh_generation/environment_mesh.py: split_and_replace, merge_mesh"]}
{"id": "C137", "title": "What is read at a point survives saving, splitting and merging", "statement": "Asking an aggregated mesh for the cell at a point (query_index, then get_cellbox and its data) gives the same entry before and after: writing the mesh to a file and reading it back (at every point, edges included, where nothing is found either time; all entries except those a cell of the file has by itself: geometry, cx, cy, dcx, dcy, id); splitting any cells in any order, or splitting around any points (at every point that is not on an edge of the new mesh; all entries except id). After a mesh was merged into another, every point that is not on an edge gives what the mesh merged in gives, if the point is in the region of that mesh, and what the other gave, if it is outside.", "quantifier": "all meshes over regions that neither cross the antimeridian nor go all around, cell sizes, data, sequences of splits, lists of points, pairs of meshes that merge, query points, entries", "why_tests_cant": "quantifies over all query points and all sequences of changes; a cell lost or put in the wrong place shows only at points inside of it", "anchors": ["meshiphi/mesh_generation/environment_mesh.py: load_from_json, to_json, split_and_replace, split_points, merge_mesh, query_index, get_cellbox", "meshiphi/mesh_generation/aggregated_cellbox.py: from_json, to_json, contains_point"]}
{"id": "C138", "title": "What a sequence of merges gives at a point", "statement": "When meshes whose regions and cells fit the lattice of a first mesh are merged into it one after the other (as merge_mesh_cli does with the meshes of a directory), the result gives at every point, edges included, what the last of the meshes whose region has the point gives there, and what the first mesh gave where there is none (all entries except id). So the order, which is the arbitrary one of listdir, makes no difference at any point if the regions do not overlap. If they do overlap it does (witness).", "quantifier": "all meshes that can be merged into, lists of meshes that fit, orders of the list, query points, entries", "why_tests_cant": "quantifies over all lists of meshes and all points; a rest of an earlier mesh that stays under a later one shows only where both have the point", "anchors": ["meshiphi/mesh_generation/environment_mesh.py: merge_mesh, remove_cellboxes_within_bounds, query_index, get_cellbox", "meshiphi/cli.py: merge_mesh_cli"]}
{"id": "C139", "title": "A mesh of smooth data is near to them", "statement": "Let a mesh be built as in C133 over a region that does not cross the antimeridian, and let the datapoints of a scalar source with a name of its own be samples, up to e, of a function of latitude and longitude that changes by at most ky per degree of latitude and kx per degree of longitude. The MIN, MAX, MEAN or MEDIAN of a cell that has values of its own differs from the function, at every point of the cell, by at most e plus ky times the height plus kx times the width of the cell. If empty cells are filled from the boxes they were split from, every cell with a value in a box above it has a value, and the same bound holds with the size of that box. So if every box of the initial grid has a value, whatever is read from the mesh at any point is a number and differs from the function there by at most e + ky H + kx W. If empty cells are filled with a number, this fails (witness).", "quantifier": "all regions not over the antimeridian, cell sizes, depths, lists of sources, conditions and locks, datasets, functions, constants e, ky, kx, points", "why_tests_cant": "quantifies over all data and all functions they may be samples of; a value taken from a wrong box or from a neighbour's datapoints can be plausible and still too far off", "anchors": ["meshiphi/mesh_generation/mesh_builder.py: build_environmental_mesh, split_to_depth", "meshiphi/mesh_generation/cellbox.py: aggregate, split", "meshiphi/dataloaders/scalar/abstract_scalar.py: get_value, trim_datapoints"]}
{"id": "C140", "title": "A mesh of smooth vector data is near to them", "statement": "The same as C139 for vector sources: let a mesh be built as in C134 over a region that does not cross the antimeridian, and let the components of the vectors of a source with names of its own be samples, up to e, of two functions that change by at most ky per degree of latitude and kx per degree of longitude; components may be missing. For every cell and every box it was split from, or the cell itself, that has a complete vector, both components of the MIN, MAX or MEAN vector of the cell are there and differ from the functions, at every point of the cell, by at most e plus ky times the height plus kx times the width of the box. If every box of the initial grid has a complete vector, both components of whatever is read from the mesh at any point are numbers within e + ky H + kx W of the functions there.", "quantifier": "all regions not over the antimeridian, cell sizes, depths, lists of sources, conditions and locks, datasets, pairs of functions, constants e, ky, kx, points", "why_tests_cant": "quantifies over all data and all functions they may be samples of; components exchanged or taken from different boxes can be plausible and still too far off", "anchors": ["meshiphi/mesh_generation/mesh_builder.py: build_environmental_mesh, split_to_depth", "meshiphi/mesh_generation/cellbox.py: aggregate, split", "meshiphi/dataloaders/vector/abstract_vector.py: get_value, trim_datapoints"]}
{"id": "C141", "title": "A mesh of smooth data over the antimeridian is near to them", "statement": "The same as C139 and C140 over a region that crosses the antimeridian, with the sources of C113 (scalar and vector sources with gridded data): let the data of a source with names of its own be samples, up to e, of a function that is the same for longitudes 360 degrees apart and changes by at most ky per degree of latitude and kx per degree of longitude; values may be missing. A cell with data of its own has a MIN, MAX, MEAN or MEDIAN that differs from the function, at every point of the cell on either side of the antimeridian (without its southern and western edges), by at most e plus ky times the height plus kx times the width of the cell. If cells are filled from the boxes they were split from, the same holds with the size of every such box that has data. For vector sources it holds for both components of the MIN, MAX or MEAN vector, with every such box that has a complete vector. If cells are filled in this way and every box of the initial grid has data (a complete vector), whatever is read from the mesh at any point that is not on the antimeridian itself is a number (both components are numbers) within e + ky H + kx W of the function there.", "quantifier": "all accepted regions over the antimeridian, cell sizes, depths, lists of sources with gridded data, conditions and locks, functions on the circle, constants e, ky, kx, points", "why_tests_cant": "quantifies over all data and all functions they may be samples of; a datapoint taken from the wrong side of the antimeridian can give a plausible value that is too far off", "anchors": ["meshiphi/mesh_generation/mesh_builder.py: build_environmental_mesh, split_to_depth", "meshiphi/mesh_generation/cellbox.py: aggregate, split", "meshiphi/dataloaders/scalar/abstract_scalar.py: get_value, trim_datapoints", "meshiphi/dataloaders/vector/abstract_vector.py: get_value, trim_datapoints"]}
