import Mathlib.Data.Rat.Defs
import Mathlib.Algebra.Order.Ring.Rat
import Verif.Py

/-!
# Model of `meshiphi/dataloaders/lut/abstract_lut.py`

A polygon is the set of its points together with the set of the points on its edges; two geometries
intersect when they have a common point, as in Shapely.  How Shapely computes this is not modelled, and
neither are areas: `calculate_coverage` is an arbitrary function of the polygons.
-/

namespace Verif.Lut
open Classical

/-- A Shapely polygon, as used by `abstract_lut.py` 225-227 and 339-345: its points (edges included), and
the points of its `boundary`.  First argument longitude, second latitude. -/
structure Geom where
  mem : ℚ → ℚ → Prop
  edge : ℚ → ℚ → Prop

/-- One row of the table (`abstract_lut.py` 131-169): the day if the table is indexed by `time`, the
polygon and the value. -/
structure Row where
  day : Option ℤ
  geom : Geom
  value : Option ℚ

/-- `a.intersects(b)` (`abstract_lut.py` 227, 339, 344). -/
def Meets (a b : ℚ → ℚ → Prop) : Prop := ∃ x y, a x y ∧ b x y

/-- `data.loc[time_min:time_max]` of a table indexed by `time` (`abstract_lut.py` 221-222). -/
def InTime (time : ℤ × ℤ) (r : Row) : Prop := ∀ d ∈ r.day, time.1 ≤ d ∧ d ≤ time.2

/-- `trim_datapoints` (`abstract_lut.py` 206-229), for the cell with the points `cell`. -/
noncomputable def trim (cell : ℚ → ℚ → Prop) (time : ℤ × ℤ) (data : List Row) : List Row :=
  (data.filter (fun r => InTime time r)).filter (fun r => Meets r.geom.mem cell)

/-- The verdicts of `get_hom_condition` (`abstract_lut.py` 335-348). -/
inductive Cond where
  | clr | hom | het
  deriving DecidableEq

/-- The entries of `splitting_conds` used by `get_hom_condition` (`abstract_lut.py` 340, 343), absent or
present. -/
structure Conds where
  boundary : Option Bool
  splitLock : Option Bool

/-- `splitting_conds[key]` (`abstract_lut.py` 340, 343). -/
def entry : Option Bool → Py Bool
  | some b => .ok b
  | none => .error .keyError

/-- `get_hom_condition` (`abstract_lut.py` 311-348). -/
noncomputable def homCondition (cell : ℚ → ℚ → Prop) (time : ℤ × ℤ) (conds : Conds) (data : List Row) : Py Cond :=
  let polygons := (trim cell time data).map (·.geom)
  if ¬ ∃ p ∈ polygons, Meets p.mem cell then do
    let lock ← entry conds.splitLock
    if lock = true then .ok .hom else .ok .clr
  else do
    let b ← entry conds.boundary
    if b = true then
      if ∃ p ∈ polygons, Meets p.edge cell then .ok .het else .ok .clr
    else .ok .clr

/-- The aggregation types of `get_value` that are modelled (`abstract_lut.py` 260-282). -/
inductive Agg where
  | min | max | mean | count
  deriving DecidableEq

/-- `Series.min(skipna)`, `Series.max(skipna)` (`abstract_lut.py` 267, 269). -/
def extreme (better : ℚ → ℚ → ℚ) (skipna : Bool) (vs : List (Option ℚ)) : Option ℚ :=
  if skipna = false ∧ none ∈ vs then none
  else
    match vs.filterMap id with
    | [] => none
    | v :: r => some (r.foldl better v)

/-- `np.average(values, weights=weights)` (`abstract_lut.py` 280-281): raises when the weights sum to 0,
NaN values give NaN. -/
def weightedMean (rows : List (Option ℚ × ℚ)) : Py (Option ℚ) :=
  let total := (rows.map Prod.snd).sum
  if total = 0 then .error .zeroDivision
  else if none ∈ rows.map Prod.fst then .ok none
  else .ok (some ((rows.map (fun r => r.1.getD 0 * r.2)).sum / total))

/-- `get_value` (`abstract_lut.py` 231-309).  For `MEAN` the function given to `assign` (276-278) receives
the whole table, so `row['geometry']` is the column of all the polygons and every row gets the coverage of
all of them together.  `dropna` (274) is modelled for the column of the values. `MEDIAN` and `STD` are
in `LutStats.lean`. -/
noncomputable def getValue (coverage : List Geom → ℚ) (cell : ℚ → ℚ → Prop) (time : ℤ × ℤ) (agg : Agg) (skipna : Bool)
    (data : List Row) : Py (Option ℚ) :=
  let polygons := trim cell time data
  match agg with
  | .count => .ok (some polygons.length)
  | _ =>
    if polygons.length = 0 then .ok none
    else
      match agg with
      | .min => .ok (extreme min skipna (polygons.map (·.value)))
      | .max => .ok (extreme max skipna (polygons.map (·.value)))
      | _ =>
        let polygons := if skipna then polygons.filter (fun r => r.value.isSome) else polygons
        let weight := coverage (polygons.map (·.geom))
        weightedMean (polygons.map (fun r => (r.value, weight)))

end Verif.Lut
