import Verif.Model.EnvMesh
import Verif.Model.Numeric
import Mathlib.Data.List.Sort

/-!
# Model of `meshiphi/mesh_validation`

The Sobol generator is not modelled: its points are an argument.
-/

namespace Verif.Validation

/-- One coordinate, `/repo/meshiphi/mesh_validation/sampler.py` 40. -/
def mapCoord (r : ℚ × ℚ) (u : ℚ) : ℚ := r.1 + u * (r.2 - r.1)

/-- Models `sampler.py` 20-41, `generate_samples`, for the points `unit` of the generator. -/
def generateSamples (dimensions : ℕ) (ranges : List (ℚ × ℚ)) (unit : List (List ℚ)) : Py (List (List ℚ)) :=
  if ranges.length ≠ dimensions then .error .valueError
  else .ok (unit.map (fun sample => List.zipWith mapCoord ranges sample))

/-- Models `/repo/meshiphi/mesh_validation/mesh_validator.py` 96-111, `get_range_end`; `len` is
`validation_length` (0.1, line 35). -/
def rangeEnd (b : Boundary) (len : ℚ) (lat long : ℚ) : ℚ × ℚ :=
  let latEnd := lat + len
  let longEnd := long + len
  let latEnd := if latEnd > b.latMax then b.latMax else latEnd
  let longEnd := if longEnd > b.longMax then b.longMax else longEnd
  (latEnd, longEnd)

/-- The box whose data is compared, `mesh_validator.py` 84-91 and 126-134. -/
def sampleBox (b : Boundary) (len : ℚ) (lat long : ℚ) : Py Boundary :=
  let e := rangeEnd b len lat long
  Boundary.mk? [lat, e.1] [long, e.2] b.time

/-- The rows of a data frame of cells, with the geometry as index.  See `/repo/meshiphi/mesh_validation/mesh_comparator.py` 51-52. -/
abbrev Rows := List (Boundary.Poly × Dict String Val)

/-- `pd.DataFrame(mesh['cellboxes']).set_index('geometry')`
(`/repo/meshiphi/mesh_validation/mesh_comparator.py` 51-52): without cells there is no such column. -/
def frame (cells : List AggCell) : Py Rows :=
  if cells = [] then .error .keyError else .ok (cells.map (fun c => (c.bounds.toPolygon, c.data)))

/-- Models `mesh_comparator.py` 36-70, `compare_cellbox_boundaries`, with the default return type. -/
def compareBoundaries (m1 m2 : List AggCell) : Py Rows := do
  let f1 ← frame m1
  let f2 ← frame m2
  return f2.filter (fun row => row.1 ∉ f1.map Prod.fst)

/-- `{k: sorted(v)}` on both sides and the comparison of the two dicts (`mesh_comparator.py` 207-210). -/
def sameNeighbours (a b : NMap) : Bool := Dir.all.all (fun d => (a d).insertionSort (· ≤ ·) = (b d).insertionSort (· ≤ ·))

/-- The ids whose rows are put together by `mesh_comparator.py` 201-214,
`compare_neighbour_graph_values`. -/
def mismatchedNodes (g1 g2 : Dict ℕ NMap) : List ℕ :=
  (g2.filter (fun p => match g1.get? p.1 with
    | some m => !sameNeighbours m p.2
    | none => false)).map Prod.fst

/-- The rows found by `mesh_comparator.py` 211-214: those of the cells with that id. -/
def compareGraphs (m1 m2 : EnvMesh) : List AggCell :=
  (mismatchedNodes m1.graph.nodes m2.graph.nodes).flatMap (fun i => m2.cells.filter (fun c => c.id = i))

/-- Models `/repo/meshiphi/mesh_validation/full_mesh_validator.py` 120-133, `slice_data`; `between` includes
both ends. -/
def sliceData (b : Boundary) (pts : List (ℚ × ℚ)) : List (ℚ × ℚ) :=
  (pts.filter (fun p => b.latMin ≤ p.1 && p.1 ≤ b.latMax)).filter (fun p => b.longMin ≤ p.2 && p.2 ≤ b.longMax)

/-- The points that `validate_scalar` compares (`full_mesh_validator.py` 91-106): the slices of all cells
one after the other. -/
def comparedPoints (m : EnvMesh) (pts : List (ℚ × ℚ)) : List (ℚ × ℚ) := m.cells.flatMap (fun c => sliceData c.bounds pts)

end Verif.Validation
