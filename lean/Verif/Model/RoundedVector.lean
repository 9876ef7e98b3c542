import Verif.Model.RoundedData
import Verif.Model.Vector

/-!
# Model of aggregating vector data in floating point

`/repo/meshiphi/dataloaders/vector/abstract_vector.py` 373-525 once more, with rounding as in `Verif/Model/RoundedData.lean`.

Not modelled: MIN and MAX, which compare rounded lengths of vectors, and STD (errors here).
-/

namespace Verif.Fl

variable (r : ℚ → ℚ) (sum : List ℚ → ℚ)

/-- Models `abstract_vector.py` 397-444, `get_value_from_df` with `skipna=True`: the components are added up one after the other. -/
def vectorValueDf (agg : AggType) (l : List Vec) : Py Vec :=
  if l = [] then .ok (none, none)
  else match agg with
    | .count => .ok (some (l.length : ℚ), some (l.length : ℚ))
    | .mean => .ok (listMean r sum (xsOf l), listMean r sum (ysOf l))
    | _ => .error .valueError

/-- Models `abstract_vector.py` 447-506, `get_value_from_xr` with `skipna=True`.  Whether a length is NaN does not depend on rounding. -/
def vectorValueXr (agg : AggType) (l : List Vec) : Py Vec :=
  if l = [] then .ok (none, none)
  else if l.all (fun v => v.magSq.isNone) then .ok (none, none)
  else match agg with
    | .count => .ok (some (l.length : ℚ), some (l.length : ℚ))
    | .mean => .ok (listMean r sum (xsOf l), listMean r sum (ysOf l))
    | _ => .error .valueError

/-- Models `abstract_vector.py` 509-525: a given subset is not trimmed again. -/
def vectorValue (agg : AggType) : Dataset Vec → Py Vec
  | .table t => vectorValueDf r sum agg (t.rows.map Row.val)
  | .grid g => vectorValueXr r sum agg (g.rows.map Row.val)

/-- A vector loader as seen by cells, as `vectorLoader`.  See `/repo/meshiphi/dataloaders/vector/abstract_vector.py` 304-600. -/
def vectorLoader {C : Type} (id : ℕ) (name : String) (agg : AggType) (hom : Boundary → C → Dataset Vec → Py Verdict) :
    Loader (Dataset Vec) C where
  id := id
  dataName := name
  trim := fun b d => match d.trim b with | .ok d' => d' | .error _ => d
  getValue := fun _ d => do
    let v ← vectorValue r sum agg d
    match splitName name with
    | [x, y] => return [(x, .num v.1), (y, .num v.2)]
    | _ => .error .valueError
  homCond := hom

end Verif.Fl
