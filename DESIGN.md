# Formal model of MeshiPhi: design

Source: `/repo` (python), read as text.  The model is Lean 4 in `/verif/lean/Verif`.
`properties.jsonl` lists the claims C01.., `MANIFEST.json` maps them to theorems.

## 1. Trusted base

* Lean 4.33.0's kernel (and the elaborator, for stating what is meant).
* Mathlib 4.33.0 (only proved lemmas; no axioms added).
* Axioms used by the theorems: at most `propext`, `Classical.choice`, `Quot.sound`.
  `AXIOMS.md` (written by `tools/axioms.py` from `#print axioms`) lists them for every
  property theorem.
  No own axioms, no `sorry`, no `native_decide`, no `bv_decide`.  Concrete examples and
  counterexamples use `decide +kernel` / `norm_num` / `rfl`, which add no axioms.
* The hand translation from Python to Lean.  Every definition in `Verif/Model` cites
  file and lines.  Simplifications are stated in the comment of the definition.

### Modelling conventions

| Python | model |
|---|---|
| float / numpy scalar | `ℚ`, exact arithmetic; overflow and `inf` are not modelled. Rounding is modelled for building meshes (`Model/Rounding`, C101), where it is shown to change nothing for dyadic regions; for other regions C111 bounds the errors; and for values and decisions of scalar data and means of vectors (`Model/RoundedData`, `Model/RoundedVector`, C127; not for STD, RMSE, nor for the lengths of vectors that MIN and MAX compare), where the errors are bounded. NaN is `none : Option ℚ` where it matters (data values). |
| exceptions | `Except Err` (abbrev `Py`), branch by branch |
| dict | `Dict` = association list in insertion order with get/set/pop, `KeyError` as value. `AggCell.pyEq` compares the order too, unlike Python; it is only used to remove a cell by its own id |
| list with `None` holes (`Mesh.cellboxes`) | `List (Option Cell)` |
| `for` loops | structural recursion / `foldlM` |
| loop over a list that grows (`split_to_depth`), `while` loops | fuel; theorems state that enough fuel always exists |
| dates | day ordinals (`ℤ`) after parsing; the string level is modelled separately for C42. Datapoints have whole days as times: for times within a day a grid is cut after the last day (`sel` with a date as text), a table at its beginning |
| cell ids (`str(int)` and `int`) | `ℕ`; whether the keys of a graph are strings or ints is a flag of the graph |
| shapely polygons | axis-parallel rectangles (lists of vertices); `contains` = strict interior |
| data loaders | pure functions given as parameters (mesh level) or modelled (scalar/vector/LUT logic) |
| pandas / xarray | lists of datapoints; xarray grid = product of two coordinate lists |

### What is modelled

| code in `meshiphi/` | model | part |
|---|---|---|
| `utils.py` longitude helpers, dates, rounding, time strings, random fields | `Utils`, `Calendar`, `Numeric`, `TimeStr`, `Grf` | everything but logging, timing, memory tracing; of random fields the indices, amplitudes and scaling |
| `mesh_generation/boundary.py` | `Boundary`, `Sphere` | all but `__str__`; areas in square degrees and by cosine weights; sizes over ℝ |
| `mesh_generation/direction.py`, `neighbour_graph.py` | `NeighbourGraph` | all |
| `mesh_generation/cellbox.py`, `aggregated_cellbox.py`, `metadata.py` | `CellBox`, `Data`, `Sources` | all but setters/getters and memory deallocation |
| `mesh_generation/mesh_builder.py`, `mesh.py` | `MeshBuilder`, `Sources`, `EnvMesh` | building, splitting, adding loaders, conversion |
| `mesh_generation/environment_mesh.py`, `mesh_plotting/mesh_plotter.py` | `EnvMesh`, `Tif`, `Season`, `Export` | loading, saving, splitting, merging, queries, all exports (without GDAL and matplotlib) |
| `config_validation/*` | `ConfigValidator`, `TimeStr`, `Config` | all; of `jsonschema` the keywords that occur |
| `mesh_validation/*` | `Validation`, `Compare`, `ErrorStats` | sampling, comparison, distances, error statistics |
| `dataloaders/scalar/abstract_scalar.py`, `vector/abstract_vector.py` | `Data`, `Vector`, `VectorHom`, `Downsample`, `LoaderInit`, `Reproject` | trimming, values, homogeneity, downsampling, coverage, names, reprojection (transformations are parameters) |
| `dataloaders/lut/*` | `Lut`, `Season`, `LutInit` | values, homogeneity, the tables of density and thickness; loading from CSV, GeoJSON and shape files, verification, names of columns |
| `dataloaders/scalar/*`, `vector/*` file formats | `Importers`, `Forecast`, `Shape`, `Grf` | choice of files, axes, values, artificial shapes, random fields; the content of files is a parameter, and AMSR data is modelled up to the choice of files |
| `dataloaders/factory.py`, `add_default_params` of all loaders | `Factory`, `Params` | all; files in folders are a parameter |
| `cli.py` | `Params`, `Export` | the commands after their arguments have been parsed |
| `test_automation/test_automater.py`, `__init__.py` | `TestRun` | choice of tests, reading their results, comparison and saving of outputs; pytest is a parameter, git a small model, plots are left out |
| `mesh_generation/boundary.py` (texts) | `PolyText` | `from_poly_string`, `to_poly_string` character by character; shapely's `wkt` for polygons without holes; numerals are a parameter |

Not modelled: file reading, the formulas of projections (pyproj), the pictures that matplotlib draws, GDAL writing, logging, progress
bars, memory deallocation, floating point rounding (but for C101, C111), random numbers, command line parsing.

## 2. Layout

* `Verif/Py.lean` Python primitives (errors, dict, list.remove, `%`, arange).
* `Verif/Model/*.lean` the model, function by function.
* `Verif/Spec/*.lean` small independent specifications (geometry on the plane and on the
  cylinder, tiling, ...), which do not mention model helpers.
* `Verif/Proof/*.lean` helper lemmas.
* `Verif/Props/*.lean` the property theorems, each with a concrete example beside it.

## 3. Central idea: exactness of the neighbour graph

Spec: a direction is a pair (horizontal side, vertical side), each of `lo / mid / hi`, not both
`mid`.  In one dimension `b` is `hi` of `a` when `a`'s upper end is `b`'s lower end, `lo` when it is
the other way around, and `mid` when the intervals overlap with positive length.  `Adj d a b` is the
conjunction for the two axes; on the cylinder `b` may be shifted by a whole turn.

Invariant of a mesh: keys = live cells, cells have positive size, interiors pairwise disjoint, and
for all live `i`,`d`: the list of `i` in direction `d` has no duplicates and contains exactly the
live `j` with `Adj d i j`.  It holds for the initial grid (index arithmetic) and is preserved by
`split_and_replace` (1-D case analysis lifted to 2-D), by the loaded-mesh variant and by merge.
Everything else about the graph (symmetry, no dangling ids, history independence) is a corollary.

## 4. Plan per property

| id | model | proof plan |
|---|---|---|
| C01, C02 | `longitude_domain`, `longitude_distance` on ℚ with floor-mod | floor arithmetic; list version by map |
| C03 | `validate_bounds` on lists | full decision table; the "longitudes in range" part is false (one side of each check is missing): negation with witness + `_partial` |
| C04 | getters | case split on crossing, linear arithmetic; false for degenerate accepted boundaries, shown |
| C05 | `__eq__` | false (time ignored): negation witness; `_partial`: spatial part exact |
| C06 | `to_polygon` as vertex lists, WKT-level structure, `from_poly_string`, `load_bounds` | case analysis; string formatting of floats not modelled (vertex lists instead; for the text see C106) |
| C07 | `Boundary.split` | non-crossing: full; crossing with mid > 180 raises: negation + exact guard |
| C08 | `initialize_cellboxes` with arange | induction over ranges, floor arithmetic |
| C09 | both validators | false for global regions and for negative sizes: witnesses; `_partial` under width < 360, size > 0 |
| C10, C11 | `initialise_map`, `check_global_mesh` | index arithmetic vs geometric adjacency |
| C12, C13 | `get_neighbour_case*` | equivalence with `Adj`; seam case under the width guard, with witness that the guard is needed |
| C14 | `create_splitted_cell_boxes` | arithmetic incl. antimeridian |
| C15-C17, C19, C20, C23 | `MeshBuilder.split_and_replace` on state | invariant by induction over split sequences |
| C18, C19 crossing | same | `Proof/SoundSplit`: splitting keeps a sound symmetric graph, for any relation of touching with the laws of `TouchLaws`; unrolled cells within one turn (touching in the plane), except on the full circle that starts at 180, which the code flags as global (touching on the ring); exactness after splits holds among the cells starting at or before the antimeridian and among the columns starting after it (`Spec.Lists` for a set of rectangles closed under parents on which the code's longitudes differ by the same turn); negation of exactness in general with witness |
| C21, C22 | `split_to_depth` with fuel | measure = weighted quadtree size; postcondition by loop invariant |
| C24-C26 | `trim_datapoints` df/xr | tiling + filter lemmas; crossing table branch is wrong: negation |
| C27-C29 | `get_hom_condition`, `should_split`, `get_value` on `List (Option ℚ)` | decision tables, permutation lemmas |
| C30 | get_value over four children | sums over partitions; grids in ascending or descending order, fails for others |
| C31-C33 | `aggregate`, `check_vector_data` | induction on ancestor chain; C33 fill is wrong: negation |
| C34 | JSON trees for mesh | round trip; the global flag and key type change, recorded |
| C35, C36 | `query_index`, `split_points` | tiling invariant; measure; edge case negation |
| C37 | `EnvironmentMesh.split_and_replace` | reuses the abstract split lemma |
| C38-C41 | merge, renumbering, removal | exactness of union; C39 false: negation |
| C42 | string-level validator and parser | negation + `_partial` for the documented forms |
| C43 | `to_tif` pixel loop (`Tif`) | index arithmetic on pixel centres; swapped resolution and edge centres by witness |
| C44 | `Mesh.neighbour_split`, getters by index | decision table; negative indices by witness |
| C45, C46, C57, C58 | `Validation`: sampler, comparator, validators | set-level lemmas on lists of cells; measure-free tiling argument |
| C47, C59 | `Lut`: polygons as vertex lists, intersection test by edges | exact geometry over ℚ (segments meeting a closed rectangle); weights |
| C48 | `Season`: density and thickness tables | case split over months; sums over ranges of days |
| C49 | `Forecast`: choice of files | maximum over sorted/unsorted lists |
| C50 | `Calendar`: months, days, ranges | calendar arithmetic on day ordinals |
| C51 | `Factory` | dictionary lemmas |
| C52 | whole building loop | C16-C23 invariants + fuel bound: never out of fuel, errors only from sources; regions over the antimeridian by soundness of the graph only (`BuildCrossing`) |
| C53, C54 | table/grid agreement, vector `calc_*` | pointwise comparison |
| C55, C56 | `Numeric`, `TimeStr` | floor arithmetic |
| C60, C61 | data at points, written cells (`EnvMesh`) | dictionary lemmas |
| C62, C63 | `Shape` | membership in the list of rows, for every lattice |
| C64 | `Downsample` | two-pass block aggregation vs. one pass; STD (a parameter that is a standard deviation) is 0 in most cases |
| C65, C66 | `LoaderInit` | area of unions of rectangles compared with Lebesgue measure; renaming as dictionary lookup |
| C67, C68 | `Sources` | C25 + C65 along the history of a cell; `add_dataloader` false |
| C69 | `Sphere`: `calc_size` over ℝ | haversine = angle between unit vectors |
| C70, C71 | `Grf`: scaling, clipping, thresholds, grid; the transformed noise is an argument | extremes of mapped lists; lattice lemma of C62 |
| C72 | `Grf`: `fftind`, amplitude | index arithmetic; real powers |
| C73, C74 | `VectorHom`: meshgrid, curl, distances, condition | shares of lists; lattice lookup; C54 for linear fields; distances over ℝ |
| C75, C76 | `Compare`: columns, rounding, one row per geometry, return types | both frames as lists of attributes; rounding by significant figures |
| C77, C78 | `ErrorStats`: error by cell, error by samples | nested loops are one loop; Cauchy-Schwarz for mean and rms; interiors from C35 |
| C79 | `ErrorStats`: getters of `Mesh` | list of cells; C15 for the tiling |
| C80 | `Importers`: longitudes, latitudes, first trimming | wrapped longitudes are one name per meridian; C26's mask |
| C81 | `Importers`: choice of files | dates in names by C42's reading of dates |
| C82 | `Importers`: values | polar form of complex numbers; lists |
| C83 | `Config`: schemas as an inductive type, their interpreter, the checks | direct specification of each object, equivalence key by key |
| C84 | `Config`: boundary from JSON, text of dates | day number to date and back; text of a date is read as that date |
| C85, C86 | `Config`: vessels, routes, waypoints | as C83 |
| C87 | `Export`: cells as JSON dictionaries, columns with the dtype of pandas | each value described by a relation; equivalence of success, then feature by feature |
| C88, C89 | `Export`: files by directory and name, exceptions with the files left behind | case analysis over the steps; least and greatest value of an image |
| C90 | `Export`: drawings as lists of polygons with colours | minimum and maximum of a column, order of the normalised values |
| C91 | `LutInit`: tables with labelled rows | frames row by row; counting of labels |
| C92-C94 | `LutInit`: shapes as sets of points, rest of the globe as closure of the difference | composition of import, verification, coverage and trimming into what a cell finds |
| C95 | `LutInit` with the rows of `Season` | C91 for labels that are days, C48's rows |
| C96 | `LutInit`: CSV files as columns and rows | equivalence of acceptance; as C92 |
| C97 | `Params`: parameters as dictionaries of JSON values | tables of defaults looked up key by key |
| C98 | `Params`: a world of folders, loaders and growing cells as parameters | completion and choice of files are idempotent; C84 for the region |
| C99 | `Params`: a directory of JSON files | C98; induction over the meshes to merge |
| C100 | `Reproject`: frames by column names, datasets by dimensions; pyproj and rioxarray as parameters | positions enumerated once; sorting along an axis is a bijection of positions |
| C101 | `Rounding`: the geometry of building once more, each operation followed by a rounding `r` | multiples of 2^-n below 2^10 are doubles for n ≤ 43; the invariant "a cell split k times has edges in multiples of 2^-(n+k)" makes every rounding the identity; `round64` is shown to be nearest, hence faithful; the failing 0.1-degree build is evaluated in the kernel |
| C102 | `TestRun`: texts as lists of characters | splitting at blanks after replacement, part by part; induction over the lines |
| C103 | `TestRun`: pytest as a function from a file of tests and a folder to text and folder; `list(set(..))` as any listing without repetition | last components of paths; induction over the runs |
| C104 | `TestRun`: folders as dictionaries; the comparisons of `Validation` and `Compare` | C46, C57, C75, C76 give the meaning of "unchanged"; loop invariant over the listed names |
| C105 | `TestRun`: a repository as the contents of working tree, tips and merge bases | evaluation of the two git commands |
| C106 | `PolyText`: texts as lists of characters, `str.split` as a loop with skipping | passing clean parts, hitting separators; induction over vertices and rings; then C06 |
| C107 | `splitToDepth`, `shouldSplit`, scalar sources | chains of boxes with their data; splitting keeps that all parts of a box that is no cell any more were visited; decisions by datapoints of the box (C25, C27, C28) |
| C108 | `buildEnvironmentalMesh` with scalar sources and `aggregate` | composition of C107, C25, C29, C31, C32 and C52; the median is characterised exactly (`listMedian_middle`) |
| C109 | `Lut.stdSq`, `Lut.medianRow`, `Lut.getSpread`, `Lut.Result.isNan` | constant weights cancel; positions of partial sums of constant weights; the order of the search tree is a parameter |
| C110 | `LutTable`, `lutLoader`, `vectorSource`, `AnyData`, `AnyCond`, `Source.wrap` | a list of loaders of different classes is a list over sum types; C107 and C108 generalised to any loader whose verdicts and values on trimmed data are those on the full data (`Faithful`, `Valued`), then the three kinds are shown to be such |
| C111 | `Rounding`, `Proof/RoundingError` | a mesh built with rounding is simulated by an exactly divided region (`Spec.Divided`: grid, then quarters appended): each cell stands for one rectangle with edges off by at most the start error + 7u per split; the rectangles are counted to cover each point of the region once, from which gaps, overlaps and overhang follow; `validateBounds` is inverted to get the number of columns |
| C112 | `MeshBuilder`, `NeighbourGraph`, `EnvMesh`, `Proof/Connected` | `Spec.Beside` (listed N, E, S or W), `Spec.Linked` (reflexive transitive closure). From an exact graph over rectangles filling a rectangle: from every cell one steps west or south to a cell with a smaller west or south edge (the point just beyond the corner is covered), so every cell is linked to the one in the south west corner; exactness comes from C10/C11, C37, C38 |
| C113 | the same as C110, on boxes over the antimeridian | `Spec.turnQuarters`, `Spec.TurnGridBox` (boxes on the circle), `Spec.rowsAround` (datapoints in a half-open box, perhaps after one turn). `Faithful`, `Valued`, `Refined` and `Lineage` are instances of `FaithfulOn`, `ValuedOn`, `RefinedBy` and `LineageBy`, which are stated for any family of boxes closed under splitting (`BoxSystem`); C107, C108 and C110 use the plain boxes (`inner_system`), C113 those over the antimeridian (`around_system`) |
| C114 | the same as C110 | `Spec.Locks` (a condition of the source prevents splitting the box), `Spec.Agreed` (one source uneven, none locks), `Spec.byTurns` (the sources take turns, `Spec.turn`; `Spec.DividedFrom`: boxes that come about from given ones). `Proof/SplitTurns`: one pass over a list that grows while it is walked is shown to be exact from any antichain of chains of boxes (`splitPass_exact`), then the passes are composed (`splitSources_exact`) |
| C115–C117 | the same as C110 | `Spec.Block` (a block of whole cells of the grid), `Spec.Enclosed` (one box in another), `Spec.SameIn` (two sources of the same kind and parameters whose data trimmed to a box are equal). `Proof/Locality`: each cell of a mesh has one line of ancestors, its data are a function of that line (`DataOf`), and the exact cells of C114 restrict to blocks and to smaller depths (`block_built`, `depth_built`) |
| C118 | the same as C113 | `Spec.TurnedBox`, `Spec.turnLong`, `Spec.TurnedData`, `Spec.TurnedSource` (boxes, longitudes, data and sources turned eastwards by a number of degrees). `Proof/Turning`: every box of a mesh comes from a box counted eastwards without wrapping (`Flat`), and two splittings whose boxes correspond and whose sources agree on corresponding boxes correspond (`byTurns_related`, `DataAlong.related`) |
| C119 | the same as C110 and C113 | `Spec.inUnit`, `Spec.valueIn`, `Spec.fillIn`, `Spec.ConvertedData`, `Spec.Converted` (units as a factor and an offset, converted data in any order, converted thresholds and constants). `Proof/Related`: two splittings over the same boxes whose sources give mapped values give mapped meshes (`MappedAt`, `mapped_cells`) |
| C120 | the same as C110 and C113 | `Spec.Looser` (each condition has one with the same threshold and wider bounds; there may be others and fewer datapoints required), `Spec.Within` (C01) |
| C121 | the same as C113 | permutations and extensions of the list of sources, `Spec.Within` (C01) |
| C122 | the same as C110 and C113 | the mesh from cells of `W / 2 ^ e` by `H / 2 ^ e` with depth `d` against that from `W` by `H` with depth `d + e`; sizes compared by the height of the boxes, `Spec.Within` (C01) |
| C123 | the same as C113 | `Spec.LocksAround`, `Spec.AgreedAround` (as `Spec.Locks`, `Spec.Agreed` of C114, with `Spec.rowsAround`), `Spec.byTurns` with `Spec.turnQuarters` and `Spec.TurnGridBox`, `Spec.Within` (C01) |
| C124 | `EnvMesh.mergeMesh`, `EnvMesh.mergeAll`, `EnvMesh.toJson`, `EnvMesh.fromJson` and the same as C110 | `Spec.SameIn`, `Spec.Block`, `Spec.Enclosed` (C115), `Spec.SameCells` (same boxes, same data apart from `id`), `Spec.SameNeighbours`, `Spec.UpdatedIn`, `Spec.Updates`, `Spec.MadeFrom` |
| C125 | the same as C110 and C113 | `Spec.CutFrom` (a box that comes from a cell by quartering), `Spec.SameAround` (same parameters, same datapoints in the cell), `Spec.SameIn`, `Spec.Block`, `Spec.Enclosed` (C115) |
| C126 | the same as C110 and C113 | `Spec.shifted` (the box moved), `Spec.ShiftedRows` (the same datapoints moved, in any order and of any times), `Spec.ShiftedSource` |
| C127 | `RoundedData`: values and decisions of scalar data once more, each operation followed by a rounding `r`, sums by any function `sum`; `RoundedVector`: the same for MEAN and COUNT of vectors | `Spec.Precise` (relative error), `Spec.Summed` (any order and brackets), `Spec.Near`; a relation between values in place of a function carries over filling and merging (`Proof/Near`); different fractions of small denominators are farther apart than the rounding error, so decisions agree; C101 for the geometry |
| C128 | the build (as for C110), on two regions | `Spec.stretch`, `Spec.image` of boxes, `Spec.ImageRows`, `Spec.OffEdges`; quarters and grids are products of halves and pieces of intervals, which a stretching permutes; between the boxes and their images the sources do the same (`TwinAt`, as for C126) |
| C129 | the build (as for C110 and C113), from two sets of data | `Spec.Drifted` (bounds of a change), `Spec.SameSides` (of thresholds), `Spec.DriftedSource`, `Spec.DriftedVectors`; sorting keeps pointwise order, so that medians move no more than the values; `near_cells` as for C127 |
| C130 | `splitAndReplace`, `init`, `buildEnvironmentalMesh` | `Spec.liveCount`, `Spec.holeCount`, `Spec.totalShare` (sum of `4 ^ -depth`), `Spec.SplitTimes` (counted splits) |
| C131 | `splitAndReplace`, the neighbour graph, `buildEnvironmentalMesh` | `Spec.InSlot` (boxes of the regular grid of a depth), `Spec.isCorner`; neighbours on a side are disjoint intervals of integers on the finest grid; over the antimeridian `Spec.SlotAround` (`Verif/Props/DegreeAround.lean`) |
| C132 | as C112 | `Spec.SidesLined` on rectangles and lists of neighbours only; from `Spec.Exact` and the tiling; over the antimeridian `Spec.SidesLinedParts`, `Spec.PartLined` (see C136) |
| C133 | the build (as for C110 and C113) | `Spec.SaysAltogether` relates the values of the cells to the list of all values in the region; from the tiling, each datapoint is in one cell (`tiles_rows`) |
| C134 | the build (as for C110 and C113) | `Spec.VectorsAltogether`, as `Spec.SaysAltogether`; two components that are missing together are filled from the same box (`first_pair`) |
| C135 | the build (as for C110 and C113), `EnvMesh.queryIndex` | `Spec.TellsSide`: shares of values over a threshold, sides of the threshold, against the datapoints in the half-open box of the cell |
| C136 | neighbour graphs (as for C132) | `Spec.Walk`, `Spec.LinesLead`: a straight walk is covered piece by piece by closed rectangles of cells, each a listed neighbour of the one before in a direction that does not lead back; over the antimeridian `Spec.LinesLeadParts` (`Spec.westCells`, `Spec.eastCells`: the cells of either part, unrolled), from the invariant of C18 |
| C137 | `EnvMesh.queryIndex`, `getCellbox`, `toJson`, `fromJson`, `splitAndReplace`, `splitPoints`, `mergeMesh` | `Spec.ReadAt` (what a query at a point, then at the cell found, gives), `Spec.InSomeCell` |
| C138 | `EnvMesh.mergeMesh`, `mergeAll`, `queryIndex`, `getCellbox` | `Spec.Shows` (the last mesh of the list whose region has the point), `Spec.Fits` (regions and cells on the lattice), `Spec.ReadAt` |
| C139 | building and aggregation (as for C110), `EnvMesh.queryIndex`, `getCellbox` | `Spec.Smooth` (a bound on the change per degree), `Spec.Samples`, `Spec.HasValue`, `Spec.NearIn`, `Spec.ReadAt` |
| C140 | building and aggregation (as for C110), `EnvMesh.queryIndex`, `getCellbox` | `Spec.Smooth`, `Spec.VectorSamples`, `Spec.HasVector`, `Spec.NearIn`, `Spec.ReadAt` |
| C141 | building and aggregation (as for C113), `EnvMesh.queryIndex`, `getCellbox` | `Spec.SmoothAround`, `Spec.SamplesAround`, `Spec.VectorSamplesAround`, `Spec.HasValueAround`, `Spec.HasVectorAround`, `Spec.NearAround`, `Spec.ReadAt` |

Where the code does not satisfy a property, the theorem named `..._false`/`not_...` proves the
negation on a concrete input and a `_partial` theorem proves the property under the exact guard.
