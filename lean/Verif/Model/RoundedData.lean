import Verif.Model.Data
import Verif.Model.Rounding

/-!
# Model of aggregating scalar data in floating point

`/repo/meshiphi/dataloaders/scalar/abstract_scalar.py` 334-602 once more, with every operation on numbers followed by a rounding `r`.
How numpy and pandas add up a list (one by one, by pairs, in several lanes) is left open: `sum` is any way of adding.

Not modelled: STD and RMSE (an error here), overflow, NaN and infinity as intermediate results.  Comparisons are exact, as they
are in floating point.
-/

namespace Verif.Fl

variable (r : ℚ → ℚ) (sum : List ℚ → ℚ)

/-- `dps.mean()`, `np.nanmean`: the sum is divided by the number of values.  Models
`/repo/meshiphi/dataloaders/scalar/abstract_scalar.py` 390, 438. -/
def listMean (l : List ℚ) : Option ℚ := if l = [] then none else some (r (sum l / l.length))

/-- `dps.median()`, `np.nanmedian`: the middle of the sorted values, or the mean of the two middle ones.  Models
`/repo/meshiphi/dataloaders/scalar/abstract_scalar.py` 392, 441. -/
def listMedian (l : List ℚ) : Option ℚ :=
  let s := l.insertionSort (· ≤ ·)
  let n := l.length
  if n % 2 = 1 then s[n / 2]?
  else match s[n / 2 - 1]?, s[n / 2]? with
    | some a, some b => some (r (r (a + b) / 2))
    | _, _ => none

/-- Models `abstract_scalar.py` 354-397, `get_value_from_df`, with `skipna=True`. -/
def valueDf (agg : AggType) (vals : List (Option ℚ)) : Py (Option ℚ) :=
  let dps := vals.filter Option.isSome
  if agg = .count then .ok (some dps.length)
  else if dps.length = 0 then .ok none
  else match agg with
    | .min => .ok (listMin (present dps))
    | .max => .ok (listMax (present dps))
    | .mean => .ok (listMean r sum (present dps))
    | .median => .ok (listMedian r (present dps))
    | _ => .error .valueError

/-- Models `abstract_scalar.py` 400-451, `get_value_from_xr`, with `skipna=True`. -/
def valueXr (agg : AggType) (vals : List (Option ℚ)) : Py (Option ℚ) :=
  if agg = .count then .ok (some vals.length)
  else if vals.length = 0 then .ok none
  else if vals.all Option.isNone then .ok none
  else match agg with
    | .min => .ok (listMin (present vals))
    | .max => .ok (listMax (present vals))
    | .mean => .ok (listMean r sum (present vals))
    | .median => .ok (listMedian r (present vals))
    | _ => .error .valueError

/-- Models `abstract_scalar.py` 334-466, `get_value(bounds, data=subset)`. -/
def scalarValue (agg : AggType) (b : Boundary) (d : Dataset (Option ℚ)) : Py (Option ℚ) := do
  let d ← d.trim b
  match d with
  | .table t => valueDf r sum agg (t.rows.map Row.val)
  | .grid g => valueXr r sum agg (g.rows.map Row.val)

/-- Models `abstract_scalar.py` 505-581: the share of values over the threshold is a quotient of two integers. -/
def homCondition (minDp : ℕ) (c : Cond) (vals : List (Option ℚ)) : Verdict :=
  if vals.length < minDp then .clr
  else
    let frac : ℚ := if numNonNan vals > 0 then r ((numOver c.threshold vals : ℚ) / numNonNan vals) else 0
    if frac ≤ c.lower then .clr
    else if frac ≥ c.upper then (if c.splitLock = true then .hom else .clr)
    else .het

/-- A scalar loader as seen by cells.  See `/repo/meshiphi/dataloaders/scalar/abstract_scalar.py` 236-332, 334-466, 468-602. -/
def scalarLoader (id : ℕ) (name : String) (agg : AggType) (minDp : ℕ) : Loader (Dataset (Option ℚ)) Cond where
  id := id
  dataName := name
  trim := fun b d => match d.trim b with | .ok d' => d' | .error _ => d
  getValue := fun b d => do let v ← scalarValue r sum agg b d; return [(name, .num v)]
  homCond := fun _ c d => .ok (homCondition r minDp c d.vals)

/-- The two bounds of a condition as read from a configuration, where they are written with decimals
(`abstract_scalar.py` 534-535, 573-574).  The threshold is compared with data and taken as it is stored. -/
def condRead (c : Cond) : Cond := { c with lower := r c.lower, upper := r c.upper }

/-- Adding one by one from the left, as `functools.reduce` does; numpy adds short lists so
(`/repo/meshiphi/dataloaders/scalar/abstract_scalar.py` 390, 438). -/
def sumLeft : List ℚ → ℚ
  | [] => 0
  | x :: xs => xs.foldl (fun a y => r (a + y)) x

end Verif.Fl
