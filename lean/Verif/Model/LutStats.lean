import Verif.Model.Lut

/-!
# Model of the median and the standard deviation of look-up tables

`/repo/meshiphi/dataloaders/lut/abstract_lut.py` 271-300, the branches `MEDIAN` and `STD` of `get_value`, and the test for
missing values in `/repo/meshiphi/mesh_generation/cellbox.py` 328.

The polygons come out of the search tree in an order of its own (`abstract_lut.py` 226-229): it is a parameter.
-/

namespace Verif.Lut

/-- What `get_value` may hand over (`abstract_lut.py` 265-309): a number or NaN, or a row of the table. -/
inductive Result where
  | num (x : Option ℚ)
  | row (r : Row)

/-- The polygons of the branch, with missing values left out if asked for (`abstract_lut.py` 271-274). -/
def kept (skipna : Bool) (polygons : List Row) : List Row := if skipna then polygons.filter (fun r => r.value.isSome) else polygons

/-- `STD` (`abstract_lut.py` 294-300), squared.  Every row has the same weight (276-278, see `getValue`). -/
def stdSq (coverage : List Geom → ℚ) (skipna : Bool) (polygons : List Row) : Py (Option ℚ) := do
  let polygons := kept skipna polygons
  let weight := coverage (polygons.map (·.geom))
  let average ← weightedMean (polygons.map (fun r => (r.value, weight)))
  weightedMean (polygons.map (fun r => ((do let x ← r.value; let a ← average; return (x - a) ^ 2), weight)))

/-- `polygons['cumulative_weights']` (`abstract_lut.py` 285-286): partial sums. -/
def cumulate (acc : ℚ) : List ℚ → List ℚ
  | [] => []
  | w :: ws => (acc + w) :: cumulate (acc + w) ws

/-- `MEDIAN` (`abstract_lut.py` 283-292): the first row whose cumulative weight reaches half of the total; `iloc[0]` of nothing
raises `IndexError`. -/
def medianRow (coverage : List Geom → ℚ) (skipna : Bool) (polygons : List Row) : Py Row :=
  let polygons := kept skipna polygons
  let weight := coverage (polygons.map (·.geom))
  let weights := polygons.map (fun _ => weight)
  let medianPos := weights.sum / 2
  match (polygons.zip (cumulate 0 weights)).find? (fun p => p.2 ≥ medianPos) with
  | some p => .ok p.1
  | none => .error .indexError

/-- `get_value` (`abstract_lut.py` 263-309) with `MEDIAN` or `STD`; `found` are the polygons of the cell in the order of the
search tree. -/
def spread (coverage : List Geom → ℚ) (median : Bool) (skipna : Bool) (found : List Row) : Py Result :=
  if found.length = 0 then .ok (.num none)
  else if median then do
    let r ← medianRow coverage skipna found
    return .row r
  else do
    let x ← stdSq coverage skipna found
    return .num x

/-- `get_value` (`abstract_lut.py` 231-309) with `MEDIAN` or `STD` of a cell with the points `cell`; `order` is the order in which
the search tree returns the polygons. -/
noncomputable def getSpread (coverage : List Geom → ℚ) (order : List Row → List Row) (cell : ℚ → ℚ → Prop) (time : ℤ × ℤ)
    (median skipna : Bool) (data : List Row) : Py Result :=
  spread coverage median skipna (order (trim cell time data))

/-- `np.isnan(agg_value[data_name])` (`cellbox.py` 328): a row holds a polygon, for which the test is not defined. -/
def Result.isNan : Result → Py Bool
  | .num x => .ok x.isNone
  | .row _ => .error .typeError

end Verif.Lut
