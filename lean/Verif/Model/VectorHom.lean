import Verif.Model.Vector
import Mathlib.Analysis.SpecialFunctions.Pow.Real

/-!
# Model of the homogeneity of vector data

`/repo/meshiphi/dataloaders/vector/abstract_vector.py`: `get_hom_condition` (527-600), `calc_curl` (928-981),
`calc_dmag` (983-1034) and `_create_vector_meshgrid` (1036-1075), with NaN.

Magnitudes are compared by their squares; the collapsed values are over the real numbers.  Grids have the
dimensions `(lat, long)`; grids with a time axis are not modelled (`notImplemented`).
-/

namespace Verif.VectorHom

/-- The splitting conditions of a vector source: the keys `curl` and `dmag` (`abstract_vector.py` 564-575). -/
structure Conds where
  curl : Option Cond := none
  dmag : Option Cond := none
  deriving DecidableEq, Repr

/-- The labels of one axis of a pivoted table: distinct and sorted (`abstract_vector.py` 1058). -/
def axis (l : List ℚ) : List ℚ := l.dedup.insertionSort (· ≤ ·)

/-- A two-dimensional array of vectors.  See `/repo/meshiphi/dataloaders/vector/abstract_vector.py` 1036-1075. -/
structure VField where
  n : ℕ
  m : ℕ
  at_ : ℕ → ℕ → Vec

/-- The value of a pivoted table: NaN where there is no row (`abstract_vector.py` 1058-1059). -/
def lookup (rows : List (Row Vec)) (y x : ℚ) : Vec :=
  match rows.find? (fun r => r.lat = y ∧ r.long = x) with
  | some r => r.val
  | none => (none, none)

/-- Models `meshgrid_from_df` (`abstract_vector.py` 1053-1063): `pivot` raises `ValueError` on duplicate
positions; after `swapaxes` the first axis is the longitude. -/
def meshgridTable (rows : List (Row Vec)) : Py VField :=
  if (rows.map (fun r => (r.lat, r.long))).Nodup then
    let lats := axis (rows.map Row.lat)
    let longs := axis (rows.map Row.long)
    .ok ⟨longs.length, lats.length, fun i j => lookup rows (lats.getD j 0) (longs.getD i 0)⟩
  else .error .valueError

/-- Models `_create_vector_meshgrid` (`abstract_vector.py` 1036-1075). -/
def meshgrid : Dataset Vec → Py VField
  | .table t => meshgridTable t.rows
  | .grid g =>
    match g.times with
    | none => .ok ⟨g.lats.length, g.longs.length, fun i j => g.val (g.lats.getD i 0) (g.longs.getD j 0) 0⟩
    | some _ => .error .notImplemented

/-- A difference of numbers that may be NaN.  See `/repo/meshiphi/dataloaders/vector/abstract_vector.py` 964-969. -/
def sub? (a b : Option ℚ) : Option ℚ :=
  match a, b with
  | some a, some b => some (a - b)
  | _, _ => none

/-- `np.gradient` of a sequence of `n ≥ 2` values that may be NaN (`abstract_vector.py` 964-965). -/
def gradient? (n : ℕ) (f : ℕ → Option ℚ) (i : ℕ) : Option ℚ :=
  if i = 0 then sub? (f 1) (f 0)
  else if i + 1 = n then sub? (f i) (f (i - 1))
  else (sub? (f (i + 1)) (f (i - 1))).map (· / 2)

/-- The entries of an array row by row.  See `/repo/meshiphi/dataloaders/vector/abstract_vector.py` 970-981. -/
def entries {V : Type} (n m : ℕ) (f : ℕ → ℕ → V) : List V :=
  (List.range n).flatMap (fun i => (List.range m).map (fun j => f i j))

/-- Models `abstract_vector.py` 955-981, `calc_curl(collapse=False)`: `none` for NaN.  `np.gradient` raises
`ValueError` on an axis of length zero. -/
def curlField (f : VField) : Py (Option (List (Option ℚ))) :=
  if f.n = 1 ∨ f.m = 1 then .ok none
  else if f.n = 0 ∨ f.m = 0 then .error .valueError
  else
    let l := entries f.n f.m (fun i j =>
      sub? (gradient? f.n (fun k => (f.at_ k j).2) i) (gradient? f.m (fun k => (f.at_ i k).1) j))
    if l.all Option.isNone then .ok none else .ok (some l)

/-- `delta_vector = each_vector - ave_vector` and the square of its norm (`abstract_vector.py` 1017-1019). -/
def deltaSq (ave : Vec) (v : Vec) : Option ℚ :=
  match sub? v.1 ave.1, sub? v.2 ave.2 with
  | some x, some y => some (x ^ 2 + y ^ 2)
  | _, _ => none

/-- Models `abstract_vector.py` 1009-1034, `calc_dmag(collapse=False)` (squares; `none` for NaN): on grids
`Dataset` has no `to_numpy`. -/
def dmagField (agg : AggType) : Dataset Vec → Py (Option (List (Option ℚ)))
  | .grid _ => .error .attributeError
  | .table t => do
    let ave ← vectorValueDf agg (t.rows.map Row.val)
    let l := t.rows.map (fun r => deltaSq ave r.val)
    if l.length = 0 then return none
    else if l.all Option.isNone then return none
    else return some l

/-- The number of datapoints (`abstract_vector.py` 551-554): rows of a table; for a grid the least number of
present values of a variable (`_magnitude` is one of them). -/
def numDp : Dataset Vec → ℕ
  | .table t => t.rows.length
  | .grid g =>
    let l := g.rows.map Row.val
    min (min (l.countP (fun v => v.1.isSome)) (l.countP (fun v => v.2.isSome))) (l.countP (fun v => v.magSq.isSome))

/-- Models `abstract_vector.py` 579-595: the decision from the comparisons of the field with the threshold
(`none` for NaN). -/
def verdict (c : Cond) (over : List (Option Bool)) : Verdict :=
  let numOver := over.countP (fun o => o == some true)
  let numNonNan := over.countP Option.isSome
  let frac : ℚ := if numNonNan > 0 then (numOver : ℚ) / numNonNan else 0
  if frac ≤ c.lower then .clr
  else if frac ≥ c.upper then (if c.splitLock = true then .hom else .clr)
  else .het

/-- The comparison of a curl with the threshold (`abstract_vector.py` 579). -/
def overCurl (t : ℚ) (x : Option ℚ) : Option Bool := x.map (fun x => decide (x > t))

/-- The comparison of a magnitude, given by its square, with the threshold (`abstract_vector.py` 579). -/
def overMag (t : ℚ) (s : Option ℚ) : Option Bool := s.map (fun s => decide (t < 0 ∨ s > t ^ 2))

/-- Models `abstract_vector.py` 556-600 on the trimmed data. -/
def homTrimmed (minDp : ℕ) (c : Conds) (d : Dataset Vec) : Py Verdict :=
  if numDp d < minDp then .ok .clr
  else match c.curl, c.dmag with
    | some sc, _ => do
      let f ← meshgrid d
      match ← curlField f with
      | none => return .clr
      | some l => return verdict sc (l.map (overCurl sc.threshold))
    | none, some sc => do
      match ← dmagField .mean d with
      | none => return .clr
      | some l => return verdict sc (l.map (overMag sc.threshold))
    | none, none => .error .unboundLocal

/-- Models `abstract_vector.py` 527-600, `get_hom_condition`: the data handed over is not used (551-554, 567, 571), all of the data
is trimmed again. -/
def hom (minDp : ℕ) (c : Conds) (b : Boundary) (d : Dataset Vec) : Py Verdict := do
  let d ← d.trim b
  homTrimmed minDp c d

/-! ## Collapsed values -/

/-- Models `abstract_vector.py` 973-979, `calc_curl(collapse=True)` on the field: `max(max, min, key=abs)`
takes the first when both are as large. -/
def calcCurl (agg : AggType) (f : VField) : Py (Option ℚ) := do
  match ← curlField f with
  | none => return none
  | some l =>
    match agg with
    | .max =>
      match listMax (present l), listMin (present l) with
      | some a, some b => return some (if |b| > |a| then b else a)
      | _, _ => .error .valueError
    | .mean => return listMean (present l)
    | _ => .error .valueError

/-- Models `abstract_vector.py` 1009-1032, `calc_dmag(collapse=True)` on the rows of a table.  `agg_type` also
chooses the vector that the others are compared with (1015). -/
noncomputable def calcDmag (agg : AggType) (l : List Vec) : Py (Option ℝ) := do
  let ave ← vectorValueDf agg l
  let d := l.map (deltaSq ave)
  if d.length = 0 then return none
  else if d.all Option.isNone then return none
  else
    let mags : List ℝ := (present d).map (fun s : ℚ => Real.sqrt (s : ℝ))
    match agg with
    | .max => return mags.max?
    | .mean => return some (mags.sum / mags.length)
    | _ => .error .valueError

end Verif.VectorHom
