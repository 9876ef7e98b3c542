import Verif.Model.Data

/-!
# Model of `meshiphi/dataloaders/vector/abstract_vector.py`

Datapoints are pairs of components, each possibly NaN (`add_mag_dir` unpacks exactly two names, 199 and
214).  Trimming is the same code as for scalar data (`Verif.Dataset.trim`).  Magnitudes are represented by
their squares, which order the datapoints in the same way.
-/

namespace Verif

/-- A vector datapoint.  See `/repo/meshiphi/dataloaders/vector/abstract_vector.py` 189-217. -/
abbrev Vec := Option ℚ × Option ℚ

/-- Models `/repo/meshiphi/dataloaders/vector/abstract_vector.py` 199-200 and 214-217, `_magnitude`
(squared); NaN if a component is. -/
def Vec.magSq : Vec → Option ℚ
  | (some x, some y) => some (x ^ 2 + y ^ 2)
  | _ => none

/-- One step of the search for the best magnitude; datapoints without magnitude are skipped.
See `/repo/meshiphi/dataloaders/vector/abstract_vector.py` 424, 430, 485, 492. -/
def pickStep (better : ℚ → ℚ → Bool) (acc : Vec × ℚ) (w : Vec) : Vec × ℚ :=
  match w.magSq with
  | some k => if better k acc.2 then (w, k) else acc
  | none => acc

/-- `idxmin(skipna=True)`, `argmin(skipna=True)` and their maximum versions: the first datapoint whose
magnitude is present and better than or as good as all others (`none` if there is none).  `better a b`
says that a later datapoint of magnitude `a` replaces the best so far of magnitude `b`.
See `/repo/meshiphi/dataloaders/vector/abstract_vector.py` 424, 430, 485, 492. -/
def bestVec (better : ℚ → ℚ → Bool) : List Vec → Option (Vec × ℚ)
  | [] => none
  | v :: rest =>
    match v.magSq with
    | none => bestVec better rest
    | some m => some (rest.foldl (pickStep better) (v, m))

/-- The chosen datapoint, NaNs if there is none (`abstract_vector.py` 423-434). -/
def pickVec (better : ℚ → ℚ → Bool) (l : List Vec) : Vec :=
  match bestVec better l with
  | some (v, _) => v
  | none => (none, none)

/-- The present values of the components.  See `/repo/meshiphi/dataloaders/vector/abstract_vector.py` 436, 498. -/
def xsOf (l : List Vec) : List ℚ := l.filterMap Prod.fst
/-- The present values of the second components.  See `/repo/meshiphi/dataloaders/vector/abstract_vector.py` 436, 498. -/
def ysOf (l : List Vec) : List ℚ := l.filterMap Prod.snd

/-- Models `abstract_vector.py` 397-444, `get_value_from_df` with `skipna=True`.  STD is represented by
its square.  For data without any complete vector, `idxmin` gives NaN (later pandas versions raise). -/
def vectorValueDf (agg : AggType) (l : List Vec) : Py Vec :=
  if l = [] then .ok (none, none)
  else match agg with
    | .count => .ok (some (l.length : ℚ), some (l.length : ℚ))
    | .min => .ok (pickVec (fun a b => a < b) l)
    | .max => .ok (pickVec (fun a b => a > b) l)
    | .mean => .ok (listMean (xsOf l), listMean (ysOf l))
    | .std => .ok (listVarSample (xsOf l), listVarSample (ysOf l))
    | _ => .error .valueError

/-- Models `abstract_vector.py` 447-506, `get_value_from_xr` with `skipna=True`. -/
def vectorValueXr (agg : AggType) (l : List Vec) : Py Vec :=
  if l = [] then .ok (none, none)
  else if l.all (fun v => v.magSq.isNone) then .ok (none, none)
  else match agg with
    | .count => .ok (some (l.length : ℚ), some (l.length : ℚ))
    | .min => .ok (pickVec (fun a b => a < b) l)
    | .max => .ok (pickVec (fun a b => a > b) l)
    | .mean => .ok (listMean (xsOf l), listMean (ysOf l))
    | .std => .ok (listVarPop (xsOf l), listVarPop (ysOf l))
    | _ => .error .valueError

/-- Models `abstract_vector.py` 509-525: a given subset is not trimmed again. -/
def vectorValue (agg : AggType) : Dataset Vec → Py Vec
  | .table t => vectorValueDf agg (t.rows.map Row.val)
  | .grid g => vectorValueXr agg (g.rows.map Row.val)

/-- A vector loader as seen by cells; the components are named by the comma separated name.  The
homogeneity condition is a parameter here.  See `/repo/meshiphi/dataloaders/vector/abstract_vector.py` 304-600. -/
def vectorLoader {C : Type} (id : ℕ) (name : String) (agg : AggType) (hom : Boundary → C → Dataset Vec → Py Verdict) :
    Loader (Dataset Vec) C where
  id := id
  dataName := name
  trim := fun b d => match d.trim b with | .ok d' => d' | .error _ => d
  getValue := fun _ d => do
    let v ← vectorValue agg d
    match splitName name with
    | [x, y] => return [(x, .num v.1), (y, .num v.2)]
    | _ => .error .valueError
  homCond := hom

/-! ## Curl -/

/-- A two-dimensional array given by its shape and its entries.  See `/repo/meshiphi/dataloaders/vector/abstract_vector.py` 955-969. -/
structure Field where
  n : ℕ
  m : ℕ
  at_ : ℕ → ℕ → ℚ

/-- `np.gradient` of a sequence of `n ≥ 2` values with unit spacing: central differences inside, one-sided
differences at the ends.  See `/repo/meshiphi/dataloaders/vector/abstract_vector.py` 964-965. -/
def gradient1 (n : ℕ) (f : ℕ → ℚ) (i : ℕ) : ℚ :=
  if i = 0 then f 1 - f 0
  else if i + 1 = n then f i - f (i - 1)
  else (f (i + 1) - f (i - 1)) / 2

/-- Models the array operations of `abstract_vector.py` 957-969 in `calc_curl`, on data without NaN:
`np.gradient(fy, axis=0) - np.gradient(fx, axis=1)`; `none` (NaN) if an axis has length one. -/
def curlOf (fx fy : Field) : Option Field :=
  if fx.n = 1 ∨ fx.m = 1 then none
  else some ⟨fx.n, fx.m, fun i j => gradient1 fx.n (fun k => fy.at_ k j) i - gradient1 fx.m (fun k => fx.at_ i k) j⟩

/-- Models `meshgrid_from_df` (`abstract_vector.py` 1053-1063) on a complete table over `lats` x `longs`:
`pivot(index='lat', columns='long')`, then `swapaxes(0, 1)`: the first axis is the longitude. -/
def meshgridDf (lats longs : List ℚ) (f : ℚ → ℚ → ℚ) : Field :=
  ⟨longs.length, lats.length, fun i j => f (lats.getD j 0) (longs.getD i 0)⟩

/-- Models `meshgrid_from_xr` (`abstract_vector.py` 1065-1070) on a grid with dimensions `(lat, long)`:
the first axis is the latitude. -/
def meshgridXr (lats longs : List ℚ) (f : ℚ → ℚ → ℚ) : Field :=
  ⟨lats.length, longs.length, fun i j => f (lats.getD i 0) (longs.getD j 0)⟩

/-- Models `abstract_vector.py` 928-981, `calc_curl(collapse=False)`, for a table. -/
def curlDf (lats longs : List ℚ) (fx fy : ℚ → ℚ → ℚ) : Option Field :=
  curlOf (meshgridDf lats longs fx) (meshgridDf lats longs fy)

/-- `calc_curl(collapse=False)` for a grid.  See `/repo/meshiphi/dataloaders/vector/abstract_vector.py` 928-981. -/
def curlXr (lats longs : List ℚ) (fx fy : ℚ → ℚ → ℚ) : Option Field :=
  curlOf (meshgridXr lats longs fx) (meshgridXr lats longs fy)

end Verif
