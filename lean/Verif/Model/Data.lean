import Verif.Model.CellBox
import Mathlib.Data.List.Sort

/-!
# Model of the data handling

* `meshiphi/dataloaders/scalar/abstract_scalar.py` (trimming, homogeneity, aggregation),
* the same trimming code in `meshiphi/dataloaders/vector/abstract_vector.py`,
* `meshiphi/mesh_generation/cellbox.py` (split decision, aggregation, filling),
* `meshiphi/mesh_generation/metadata.py` and the fill types of `mesh_builder.py`.

Tables (`pd.DataFrame`) are lists of rows, grids (`xr.Dataset`) are coordinate lists with a value
function.  Missing values (NaN) are `none`.
-/

namespace Verif

/-- One datapoint: position, time (only meaningful when the data has a time column) and value.
See `/repo/meshiphi/dataloaders/scalar/abstract_scalar.py` 248-323. -/
structure Row (V : Type) where
  lat : ℚ
  long : ℚ
  time : ℤ
  val : V
  deriving DecidableEq, Repr

/-- A `pd.DataFrame` with columns `lat`, `long`, the data, and possibly `time`.
See `/repo/meshiphi/dataloaders/scalar/abstract_scalar.py` 248-283. -/
structure Table (V : Type) where
  hasTime : Bool
  rows : List (Row V)
  deriving DecidableEq, Repr

/-- `bounds.get_time_min()`, `bounds.get_time_max()` (`boundary.py` 295-305): `IndexError` without a
time range. -/
def timeLimits (b : Boundary) : Py (ℤ × ℤ) :=
  match b.time with
  | t0 :: t1 :: _ => .ok (t0, t1)
  | _ => .error .indexError

namespace Table
variable {V : Type}

/-- Models the spatial mask of `/repo/meshiphi/dataloaders/scalar/abstract_scalar.py` 267-276 (and
`vector/abstract_vector.py` 322-331). -/
def mask (b : Boundary) (r : Row V) : Bool :=
  if b.longMin < b.longMax then
    r.lat > b.latMin && r.lat ≤ b.latMax && r.long > b.longMin && r.long ≤ b.longMax
  else
    r.lat > b.latMin && r.lat ≤ b.latMax && r.long ≤ b.longMin && r.long > b.longMax

/-- Models `abstract_scalar.py` 248-283, `trim_datapoints_from_df`. -/
def trim (b : Boundary) (t : Table V) : Py (Table V) :=
  if t.hasTime then do
    let (t0, t1) ← timeLimits b
    return { t with rows := t.rows.filter (fun r => mask b r && (r.time ≥ t0 && r.time ≤ t1)) }
  else .ok { t with rows := t.rows.filter (mask b) }

end Table

/-- `index.slice_indexer(lo, hi)` of a pandas index, as used by `xr.Dataset.sel(x=slice(lo, hi))`:
label slices are inclusive on a monotonic index; on an index that is not monotonic both labels must be
present (exactly once), otherwise `KeyError`.  See `/repo/meshiphi/dataloaders/scalar/abstract_scalar.py` 304-314. -/
def selSlice (l : List ℚ) (lo hi : ℚ) : Py (List ℚ) :=
  if l.Pairwise (· ≤ ·) then .ok (l.filter (fun x => lo ≤ x ∧ x ≤ hi))
  else if l.Pairwise (· ≥ ·) then .ok ((l.take (l.countP (fun x => x ≥ hi))).drop (l.countP (fun x => x > lo)))
  else if l.count lo = 1 ∧ l.count hi = 1 then .ok ((l.take (l.idxOf hi + 1)).drop (l.idxOf lo))
  else .error .keyError

/-- An `xr.Dataset` over coordinates `lat`, `long` and possibly `time`.  See `/repo/meshiphi/dataloaders/scalar/abstract_scalar.py` 285-323. -/
structure Grid (V : Type) where
  lats : List ℚ
  longs : List ℚ
  times : Option (List ℤ)
  val : ℚ → ℚ → ℤ → V

namespace Grid
variable {V : Type}

/-- The longitudes selected by `abstract_scalar.py` 304-309. -/
def selLongs (b : Boundary) (l : List ℚ) : Py (List ℚ) :=
  if b.longMin < b.longMax then selSlice l b.longMin b.longMax
  else do
    let lhs ← selSlice l (-180) b.longMax
    let rhs ← selSlice l b.longMin 180
    return lhs ++ rhs

/-- Models `abstract_scalar.py` 285-323, `trim_datapoints_from_xr` (and `vector/abstract_vector.py`
340-366).  Time is assumed ascending. -/
def trim (b : Boundary) (g : Grid V) : Py (Grid V) := do
  let lats ← selSlice g.lats b.latMin b.latMax
  let longs ← selLongs b g.longs
  let times ← (match g.times with
    | none => .ok none
    | some ts => do
      let (t0, t1) ← timeLimits b
      return some (ts.filter (fun t => t0 ≤ t ∧ t ≤ t1)) : Py (Option (List ℤ)))
  let lats := if b.latMin ∈ lats then lats.filter (fun x => x ≠ b.latMin) else lats
  let longs := if b.longMin ∈ longs then longs.filter (fun x => x ≠ b.longMin) else longs
  return { g with lats := lats, longs := longs, times := times }

/-- The datapoints of a grid, without time as if at time `0`.  See `/repo/meshiphi/dataloaders/scalar/abstract_scalar.py` 285-323. -/
def rows (g : Grid V) : List (Row V) :=
  g.lats.flatMap (fun y => g.longs.flatMap (fun x =>
    match g.times with
    | none => [⟨y, x, 0, g.val y x 0⟩]
    | some ts => ts.map (fun t => ⟨y, x, t, g.val y x t⟩)))

end Grid

/-- The `data` of a scalar or vector loader.  See `/repo/meshiphi/dataloaders/scalar/abstract_scalar.py` 325-332. -/
inductive Dataset (V : Type) where
  | table (t : Table V)
  | grid (g : Grid V)

namespace Dataset
variable {V : Type}

/-- Models `abstract_scalar.py` 325-332: dispatch on the type of the data. -/
def trim (b : Boundary) : Dataset V → Py (Dataset V)
  | table t => do let t ← t.trim b; return table t
  | grid g => do let g ← g.trim b; return grid g

/-- All datapoints.  See `/repo/meshiphi/dataloaders/scalar/abstract_scalar.py` 285-323. -/
def rows : Dataset V → List (Row V)
  | table t => t.rows
  | grid g => g.rows

/-- `data[self.data_name]`, flattened.  See `/repo/meshiphi/dataloaders/scalar/abstract_scalar.py` 458, 588-591. -/
def vals (d : Dataset V) : List V := d.rows.map Row.val

end Dataset

/-! ## Homogeneity and split decision -/

/-- The strings returned by `get_hom_condition`.
See `/repo/meshiphi/dataloaders/scalar/abstract_scalar.py` 505-583 and `/repo/meshiphi/mesh_generation/cellbox.py` 187-194. -/
inductive Verdict where
  | clr | hom | min | het
  deriving DecidableEq, Repr

/-- One splitting condition of a scalar source; `split_lock` defaults to false
(`abstract_scalar.py` 585-587). -/
structure Cond where
  threshold : ℚ
  lower : ℚ
  upper : ℚ
  splitLock : Bool := false
  deriving DecidableEq, Repr

/-- Number of values over the threshold (`dps > threshold`; comparisons with NaN are false).
See `/repo/meshiphi/dataloaders/scalar/abstract_scalar.py` 526, 566. -/
def numOver (th : ℚ) (vals : List (Option ℚ)) : ℕ :=
  vals.countP (fun v => match v with | some x => decide (x > th) | none => false)

/-- `np.count_nonzero(~np.isnan(dps))` (`/repo/meshiphi/dataloaders/scalar/abstract_scalar.py` 527, 567). -/
def numNonNan (vals : List (Option ℚ)) : ℕ := vals.countP Option.isSome

/-- Models `abstract_scalar.py` 505-543 (`get_hom_condition_from_df`) and 545-581
(`get_hom_condition_from_xr`), which make the same decisions. -/
def homCondition (minDp : ℕ) (c : Cond) (vals : List (Option ℚ)) : Verdict :=
  if vals.length < minDp then .clr
  else
    let frac : ℚ := if numNonNan vals > 0 then (numOver c.threshold vals : ℚ) / numNonNan vals else 0
    if frac ≤ c.lower then .clr
    else if frac ≥ c.upper then (if c.splitLock = true then .hom else .clr)
    else .het

/-- Models `cellbox.py` 187-194 (and 225-232): the decision from the list of verdicts. -/
def decideSplit (l : List Verdict) : Bool :=
  if Verdict.hom ∈ l then false
  else if Verdict.min ∈ l then false
  else if l.count .clr = l.length then false
  else true

/-! ## Loaders, sources, cells -/

/-- A value of the aggregated data of a cell: a number (or NaN), or a string (a fill type given as a
string is stored as it is).  See `/repo/meshiphi/mesh_generation/cellbox.py` 316-351. -/
inductive Val where
  | num (x : Option ℚ)
  | str (s : String)
  deriving DecidableEq, Repr

/-- `np.isnan(v)`: `TypeError` on strings.  See `/repo/meshiphi/mesh_generation/cellbox.py` 328, 331, 347, 365, 368. -/
def Val.isNan : Val → Py Bool
  | .num x => .ok x.isNone
  | .str _ => .error .typeError

/-- `value_fill_type`: `'parent'`, or the value to store.  See `/repo/meshiphi/mesh_generation/cellbox.py` 329, 342-343, 366, 379-380. -/
inductive Fill where
  | parent
  | const (v : Val)
  deriving DecidableEq, Repr

/-- What a cell uses of a data loader; `S` is the type of its data subsets, `C` of its splitting
conditions.  `id` stands for the identity of the loader object (loaders define no `__eq__`).
See `/repo/meshiphi/mesh_generation/cellbox.py` 176-186, 250-259, 316-343. -/
structure Loader (S C : Type) where
  id : ℕ
  dataName : String
  trim : Boundary → S → S
  getValue : Boundary → S → Py (Dict String Val)
  homCond : Boundary → C → S → Py Verdict

/-- Models `/repo/meshiphi/mesh_generation/metadata.py` 17-41, `Metadata`. -/
structure Source (S C : Type) where
  loader : Loader S C
  conds : List C
  fill : Fill
  subset : S

variable {S C : Type}

/-- The inner loops of `cellbox.py` 180-186: the verdicts of one source. -/
def Source.verdicts (b : Boundary) (s : Source S C) : Py (List Verdict) :=
  s.conds.mapM (fun c => s.loader.homCond b c s.subset)

/-- The verdicts of a list of sources, in order.  See `/repo/meshiphi/mesh_generation/cellbox.py` 176-186. -/
def verdictsOf (b : Boundary) : List (Source S C) → Py (List Verdict)
  | [] => .ok []
  | s :: rest => do
    let l ← s.verdicts b
    let r ← verdictsOf b rest
    return l ++ r

/-- Models `cellbox.py` 153-194, `should_split(stop_index)`: sources `0 .. stop_index - 1`; the
`IndexError` of a too large index is raised when the loop gets there. -/
def shouldSplit (stop : ℕ) (b : Boundary) (d : List (Source S C)) : Py Bool := do
  let l ← verdictsOf b (d.take stop)
  if stop > d.length then .error .indexError else return decideSplit l

/-- Models `cellbox.py` 196-232, `should_split_breadth_first`. -/
def shouldSplitBreadthFirst (b : Boundary) (d : List (Source S C)) : Py Bool := do
  let l ← verdictsOf b d
  return decideSplit l

/-- Models `cellbox.py` 250-259: every source trimmed to a new cell. -/
def trimSources (b : Boundary) (d : List (Source S C)) : List (Source S C) :=
  d.map (fun s => { s with subset := s.loader.trim b s.subset })

/-- The data operations of cells with lists of sources.  See `/repo/meshiphi/mesh_generation/cellbox.py` 153-194, 250-259. -/
def sourceOps (S C : Type) : DataOps (List (Source S C)) where
  trim := trimSources
  nConds := fun d => d.map (fun s => s.conds.length)
  shouldSplit := shouldSplit

/-! ## Aggregation of a cell -/

/-- The search of `cellbox.py` 333-338 (and 370-375) for the source with the same loader. -/
def findSource (l : Loader S C) : List (Source S C) → Py (Source S C)
  | [] => .error .valueError
  | s :: rest => if s.loader.id = l.id then .ok s else findSource l rest

/-- Models the `while` loop of `cellbox.py` 331-341: walk up the ancestors while the value is NaN. -/
def fillFromParents (l : Loader S C) (name : String) :
    List (Boundary × List (Source S C)) → Dict String Val → Py (Dict String Val)
  | [], agg => .ok agg
  | (b, d) :: rest, agg => do
    let v ← agg.get name
    let nan ← v.isNan
    if nan then do
      let s ← findSource l d
      let agg ← l.getValue b s.subset
      fillFromParents l name rest agg
    else return agg

/-- Models the `while` loop of `cellbox.py` 368-378 (`check_vector_data`): only the component `name` is
replaced. -/
def fillComponent (l : Loader S C) (name : String) :
    List (Boundary × List (Source S C)) → Dict String Val → Py (Dict String Val)
  | [], agg => .ok agg
  | (b, d) :: rest, agg => do
    let v ← agg.get name
    let nan ← v.isNan
    if nan then do
      let s ← findSource l d
      let pv ← l.getValue b s.subset
      let x ← pv.get name
      fillComponent l name rest (agg.set name x)
    else return agg

/-- Models the loop body of `cellbox.py` 363-380, one component of a vector. -/
def checkComponent (src : Source S C) (anc : List (Boundary × List (Source S C))) (agg : Dict String Val)
    (name : String) : Py (Dict String Val) := do
  let v ← agg.get name
  let nan ← v.isNan
  if nan then
    match src.fill with
    | .parent => fillComponent src.loader name anc agg
    | .const x => return agg.set src.loader.dataName x
  else return agg

/-- `split(',')` on characters.  See `/repo/meshiphi/mesh_generation/cellbox.py` 362. -/
def splitChars : List Char → List (List Char)
  | [] => [[]]
  | c :: cs =>
    if c = ',' then [] :: splitChars cs
    else match splitChars cs with
      | [] => [[c]]
      | w :: ws => (c :: w) :: ws

/-- `data_name.split(',')` (`/repo/meshiphi/mesh_generation/cellbox.py` 362). -/
def splitName (s : String) : List String := (splitChars s.toList).map String.ofList

/-- Models `cellbox.py` 358-381, `check_vector_data`. -/
def checkVectorData (src : Source S C) (anc : List (Boundary × List (Source S C))) (agg : Dict String Val) :
    Py (Dict String Val) :=
  (splitName src.loader.dataName).foldlM (checkComponent src anc) agg

/-- Models `cellbox.py` 316-343: the value of one source, filled if missing. -/
def sourceValue (bounds : Boundary) (anc : List (Boundary × List (Source S C))) (src : Source S C) :
    Py (Dict String Val) := do
  let agg ← src.loader.getValue bounds src.subset
  let name := src.loader.dataName
  if 1 < (splitName name).length then checkVectorData src anc agg
  else do
    let v ← agg.get name
    let nan ← v.isNan
    if nan then
      match src.fill with
      | .parent => fillFromParents src.loader name anc agg
      | .const x => return agg.set name x
    else return agg

/-- Models the loop body of `cellbox.py` 315-351 (316-343 and the merge 345-351). -/
def aggregateStep (bounds : Boundary) (anc : List (Boundary × List (Source S C))) (acc : Dict String Val)
    (src : Source S C) : Py (Dict String Val) := do
  let agg ← sourceValue bounds anc src
  match acc.get? src.loader.dataName with
  | some old => do
    let nan ← old.isNan
    return if nan then acc.update agg else acc
  | none => return acc.update agg

/-- Models `cellbox.py` 306-356, `aggregate`: the aggregated data of a cell.  The final memory
deallocation has no effect on values. -/
def aggregate (c : CellBox (List (Source S C))) : Py (Dict String Val) :=
  c.data.foldlM (aggregateStep c.bounds c.anc) []

/-! ## Values of scalar data -/

/-- `aggregate_type`.  See `/repo/meshiphi/dataloaders/scalar/abstract_scalar.py` 385-394, 431-448. -/
inductive AggType where
  | min | max | mean | median | std | count | rmse
  | unknown (s : String)
  deriving DecidableEq, Repr

/-- The present values.  See `/repo/meshiphi/dataloaders/scalar/abstract_scalar.py` 385-394, 431-448, where NaN is skipped. -/
def present (vals : List (Option ℚ)) : List ℚ := vals.filterMap id

/-- `min` of a list (`none` when empty).  See `/repo/meshiphi/dataloaders/scalar/abstract_scalar.py` 386, 432. -/
def listMin : List ℚ → Option ℚ
  | [] => none
  | x :: xs => some (xs.foldl min x)

/-- `max` of a list (`none` when empty).  See `/repo/meshiphi/dataloaders/scalar/abstract_scalar.py` 388, 435. -/
def listMax : List ℚ → Option ℚ
  | [] => none
  | x :: xs => some (xs.foldl max x)

/-- Arithmetic mean (`none` when empty).  See `/repo/meshiphi/dataloaders/scalar/abstract_scalar.py` 390, 438. -/
def listMean (l : List ℚ) : Option ℚ := if l = [] then none else some (l.sum / l.length)

/-- Median: middle of the sorted values, or the mean of the two middle ones.  See `/repo/meshiphi/dataloaders/scalar/abstract_scalar.py` 392, 441. -/
def listMedian (l : List ℚ) : Option ℚ :=
  let s := l.insertionSort (· ≤ ·)
  let n := l.length
  if n % 2 = 1 then s[n / 2]?
  else match s[n / 2 - 1]?, s[n / 2]? with
    | some a, some b => some ((a + b) / 2)
    | _, _ => none

/-- Sum of squared deviations from the mean.  See `/repo/meshiphi/dataloaders/scalar/abstract_scalar.py` 394, 444. -/
def sqDev (l : List ℚ) : ℚ := (l.map (fun x => (x - l.sum / l.length) ^ 2)).sum

/-- Square of `pd.Series.std` (sample standard deviation: NaN for fewer than two values).
See `/repo/meshiphi/dataloaders/scalar/abstract_scalar.py` 394. -/
def listVarSample (l : List ℚ) : Option ℚ := if l.length < 2 then none else some (sqDev l / (l.length - 1))

/-- Square of `np.std` (population standard deviation).  See `/repo/meshiphi/dataloaders/scalar/abstract_scalar.py` 444. -/
def listVarPop (l : List ℚ) : Option ℚ := if l = [] then none else some (sqDev l / l.length)

/-- A reduction that propagates NaN unless `skipna`.  See `/repo/meshiphi/dataloaders/scalar/abstract_scalar.py` 385-394, 431-448. -/
def reduce (skipna : Bool) (f : List ℚ → Option ℚ) (vals : List (Option ℚ)) : Option ℚ :=
  if skipna = false ∧ none ∈ vals then none else f (present vals)

/-- Models `abstract_scalar.py` 354-397, `get_value_from_df`.  STD is represented by its square. -/
def valueDf (agg : AggType) (skipna : Bool) (vals : List (Option ℚ)) : Py (Option ℚ) :=
  let dps := if skipna then vals.filter Option.isSome else vals
  if agg = .count then .ok (some dps.length)
  else if dps.length = 0 then .ok none
  else if dps.all Option.isNone then .ok none
  else match agg with
    | .min => .ok (reduce skipna listMin dps)
    | .max => .ok (reduce skipna listMax dps)
    | .mean => .ok (reduce skipna listMean dps)
    | .median => .ok (reduce skipna listMedian dps)
    | .std => .ok (reduce skipna listVarSample dps)
    | _ => .error .valueError

/-- Models `abstract_scalar.py` 400-451, `get_value_from_xr`.  STD and RMSE are represented by their
squares. -/
def valueXr (agg : AggType) (skipna : Bool) (vals : List (Option ℚ)) : Py (Option ℚ) :=
  if agg = .count then .ok (some vals.length)
  else if vals.length = 0 then .ok none
  else if vals.all Option.isNone then .ok none
  else match agg with
    | .min => .ok (reduce skipna listMin vals)
    | .max => .ok (reduce skipna listMax vals)
    | .mean => .ok (reduce skipna listMean vals)
    | .median => .ok (reduce skipna listMedian vals)
    | .std => .ok (reduce skipna listVarPop vals)
    | .rmse => .ok (reduce skipna listVarPop vals)
    | _ => .error .valueError

/-- Models `abstract_scalar.py` 334-466, `get_value(bounds, data=subset)` with the default
`skipna=True`: trims again, then aggregates. -/
def scalarValue (agg : AggType) (b : Boundary) (d : Dataset (Option ℚ)) : Py (Option ℚ) := do
  let d ← d.trim b
  match d with
  | .table t => valueDf agg true (t.rows.map Row.val)
  | .grid g => valueXr agg true (g.rows.map Row.val)

/-- A scalar loader as seen by cells.  Trimming that raises leaves the subset alone here; the theorems
on meshes with scalar data state when it does not raise.  See `/repo/meshiphi/dataloaders/scalar/abstract_scalar.py` 236-332, 334-466, 468-602. -/
def scalarLoader (id : ℕ) (name : String) (agg : AggType) (minDp : ℕ) : Loader (Dataset (Option ℚ)) Cond where
  id := id
  dataName := name
  trim := fun b d => match d.trim b with | .ok d' => d' | .error _ => d
  getValue := fun b d => do let v ← scalarValue agg b d; return [(name, .num v)]
  homCond := fun _ c d => .ok (homCondition minDp c d.vals)

/-! ## Fill types -/

/-- A JSON value given as `value_fill_types`.  See `/repo/meshiphi/mesh_generation/mesh_builder.py` 230-232. -/
inductive FillSpec where
  | absent
  | null
  | num (x : ℚ)
  | bool (x : Bool)
  | str (s : String)
  | other          -- list or object
  deriving DecidableEq, Repr

/-- Models `/repo/meshiphi/mesh_generation/mesh_builder.py` 220-235, `check_value_fill_type`;
`floatStr s` says whether `float(s)` succeeds.  `float` of a list raises `TypeError`, which is not
caught.  `in ["parent", "Nan"]` is an exact string comparison.  Booleans pass `float()` and are stored
like the numbers 0 and 1. -/
def checkValueFillType (floatStr : String → Bool) : FillSpec → Py Fill
  | .absent => .ok .parent
  | .null => .ok .parent
  | .num x => .ok (.const (.num (some x)))
  | .bool x => .ok (.const (.num (some (if x then 1 else 0))))
  | .str s =>
    if floatStr s = true ∨ s = "parent" ∨ s = "Nan" then
      .ok (if s = "parent" then .parent else .const (.str s))
    else .ok .parent
  | .other => .error .typeError

end Verif
