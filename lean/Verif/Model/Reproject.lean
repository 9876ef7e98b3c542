import Verif.Model.Downsample
import Verif.Model.Params

/-!
# Model of reprojection

`/repo/meshiphi/dataloaders/scalar/abstract_scalar.py` 56-66 and 602-721, `reproject`, and the identical code in
`/repo/meshiphi/dataloaders/vector/abstract_vector.py` 54-63 and 602-721.

The transformation of a pair of coordinates (pyproj) and the interpolation onto a new grid (rioxarray) are parameters.
Values of all columns are elements of one type `V`.
-/

namespace Verif.Reproject

/-- A `pd.DataFrame`: names of the columns and the rows; what a row has at other names means nothing.
See `/repo/meshiphi/dataloaders/scalar/abstract_scalar.py` 626-662. -/
structure Frame (V : Type) where
  cols : List String
  rows : List (String → V)

/-- An `xr.Dataset`: dimensions with their coordinates, and variables over all dimensions, given by the position in each
dimension.  See `/repo/meshiphi/dataloaders/scalar/abstract_scalar.py` 664-708. -/
structure NDSet (V : Type) where
  dims : List (String × List V)
  vars : List (String × (List ℕ → V))

/-- The data of a loader (`abstract_scalar.py` 717-719). -/
inductive XData (V : Type) where
  | table (f : Frame V)
  | grid (g : NDSet V)

variable {V : Type}

/-- `data.drop(c, axis=1)` of pandas: `KeyError` when there is no such column.  See `/repo/meshiphi/dataloaders/scalar/abstract_scalar.py` 657-658. -/
def dropCol (c : String) (f : Frame V) : Py (Frame V) :=
  if c ∈ f.cols then .ok { f with cols := f.cols.filter (· ≠ c) } else .error .keyError

/-- `data[c] = values` of pandas, for as many values as rows: replaces the column or appends it.
See `/repo/meshiphi/dataloaders/scalar/abstract_scalar.py` 659-660. -/
def setCol (c : String) (vals : List V) (f : Frame V) : Frame V where
  cols := if c ∈ f.cols then f.cols else f.cols ++ [c]
  rows := List.zipWith (fun r v => Function.update r c v) f.rows vals

/-- Models `abstract_scalar.py` 626-662, `reproject_df`: `mkTr` is `Transformer.from_crs(..., always_xy=True)`, which may
refuse the names of the projections. -/
def reprojectDf (mkTr : Py (V → V → V × V)) (x y : String) (f : Frame V) : Py (Frame V) := do
  let tr ← mkTr
  if x ∉ f.cols then throw .keyError
  if y ∉ f.cols then throw .keyError
  let moved := f.rows.map (fun r => tr (r x) (r y))
  let f ← if x ≠ "long" then dropCol x f else pure f
  let f ← if y ≠ "lat" then dropCol y f else pure f
  let f := setCol "lat" (moved.map (·.2)) f
  return setCol "long" (moved.map (·.1)) f

/-- All positions in axes of the given sizes, the last one running fastest.  See `/repo/meshiphi/dataloaders/scalar/abstract_scalar.py` 707. -/
def positions : List ℕ → List (List ℕ)
  | [] => [[]]
  | n :: l => (List.range n).flatMap (fun i => (positions l).map (fun p => i :: p))

/-- The coordinate of the dimension `c` at a position.  See `/repo/meshiphi/dataloaders/scalar/abstract_scalar.py` 707. -/
def coordAt (dims : List (String × List V)) (c : String) (p : List ℕ) : Option V :=
  match dims, p with
  | d :: dims, i :: p => if d.1 = c then d.2[i]? else coordAt dims c p
  | _, _ => none

/-- What `data.to_dataframe().reset_index()` has in column `c` for a position.  See `/repo/meshiphi/dataloaders/scalar/abstract_scalar.py` 707. -/
def entryAt (dflt : V) (g : NDSet V) (p : List ℕ) (c : String) : V :=
  match coordAt g.dims c p with
  | some v => v
  | none =>
    match g.vars.lookup c with
    | some f => f p
    | none => dflt

/-- `data.to_dataframe().reset_index()` of xarray (`abstract_scalar.py` 707): a row for each position, with its coordinates
and the variables.  `dflt` stands at names that are no columns. -/
def toFrame (dflt : V) (g : NDSet V) : Frame V where
  cols := g.dims.map (·.1) ++ g.vars.map (·.1)
  rows := (positions (g.dims.map (·.2.length))).map (entryAt dflt g)

/-- `data.dropna()` of pandas (707): only rows without any missing value remain. -/
def dropna (nan : V → Bool) (f : Frame V) : Frame V :=
  { f with rows := f.rows.filter (fun r => f.cols.all (fun c => !nan (r c))) }

/-- `data.rename({x_col: 'long', y_col: 'lat'})` of xarray (700): `ValueError` for names that are absent and for names that
would occur twice. -/
def renameDims (x y : String) (g : NDSet V) : Py (NDSet V) :=
  let names := g.dims.map (·.1) ++ g.vars.map (·.1)
  let new := fun c : String => if c = y then "lat" else if c = x then "long" else c
  if x ∉ names ∨ y ∉ names then .error .valueError
  else if (names.map new).Nodup then
    .ok { dims := g.dims.map (fun d => (new d.1, d.2)), vars := g.vars.map (fun d => (new d.1, d.2)) }
  else .error .valueError

/-- The positions of a list in ascending order of its values (`argsort`, stable).
See `/repo/meshiphi/dataloaders/scalar/abstract_scalar.py` 702-703. -/
def argsort (le : V → V → Bool) (l : List V) : List ℕ :=
  ((l.zipIdx).mergeSort (fun a b => le a.1 b.1)).map (·.2)

/-- Takes the elements at the given positions.  See `/repo/meshiphi/dataloaders/scalar/abstract_scalar.py` 702-703. -/
def take (l : List V) (p : List ℕ) : List V := p.filterMap (fun i => l[i]?)

/-- `data.sortby(c, ascending=True)` of xarray for a dimension (702-703): its coordinates are put in order and the variables
follow them.  A name that is no dimension raises. -/
def sortby (le : V → V → Bool) (c : String) (g : NDSet V) : Py (NDSet V) :=
  match g.dims.findIdx? (fun d => d.1 = c) with
  | none => .error .keyError
  | some k =>
    match g.dims[k]? with
    | none => .error .keyError
    | some d =>
      let order := argsort le d.2
      .ok { dims := g.dims.set k (c, take d.2 order),
            vars := g.vars.map (fun v => (v.1, fun p => v.2 (p.modify k (fun i => order.getD i 0)))) }

/-- Models `abstract_scalar.py` 664-708, `reproject_xr`: `warp` is `rio.write_crs` and `rio.reproject` to a grid of
`max_size` times `max_size`. -/
def reprojectXr (dflt : V) (nan : V → Bool) (le : V → V → Bool) (mkTr : Py (V → V → V × V))
    (warp : ℕ → NDSet V → Py (NDSet V)) (fast : Bool) (x y : String) (g : NDSet V) : Py (XData V) :=
  if fast then do
    let maxSize := (g.dims.map (·.2.length)).sum
    let g ← warp maxSize g
    let g ← renameDims x y g
    let g ← sortby le "lat" g
    let g ← sortby le "long" g
    return .grid g
  else do
    let f ← reprojectDf mkTr x y (dropna nan (toFrame dflt g))
    return .table f

/-- The libraries: transformation of points and of grids for two projections, order and missing values.
See `/repo/meshiphi/dataloaders/scalar/abstract_scalar.py` 602-721. -/
structure Libs (V : Type) where
  dflt : V
  nan : V → Bool
  le : V → V → Bool
  mkTr : String → String → Py (V → V → V × V)
  warp : String → String → ℕ → NDSet V → Py (NDSet V)
  /-- `downsample_xr` of a dataset that has the dimensions `lat` and `long` (see `Verif.Model.Downsample`). -/
  coarsen : NDSet V → Py (NDSet V)

/-- Models `abstract_scalar.py` 602-721, `reproject`. -/
def reproject (L : Libs V) (inProj outProj x y : String) (fast : Bool) : XData V → Py (XData V)
  | d =>
    if inProj = outProj then .ok d
    else match d with
      | .table f => do
        let f ← reprojectDf (L.mkTr inProj outProj) x y f
        return .table f
      | .grid g => reprojectXr L.dflt L.nan L.le (L.mkTr inProj outProj) (L.warp inProj outProj) fast x y g

/-- Models `abstract_scalar.py` 723-812, `downsample`, as far as names matter: `coarsen` and `thin` raise `ValueError` for a
dimension that is absent.  A table is left as it is. -/
def downsampleAny (L : Libs V) (agg : AggType) (ds : ℕ × ℕ) : XData V → Py (XData V)
  | .table f => .ok (.table f)
  | .grid g =>
    if ds = (1, 1) then .ok (.grid g)
    else if Downsample.usesFactors agg then
      if "lat" ∈ g.dims.map (·.1) ∧ "long" ∈ g.dims.map (·.1) then do
        let g ← L.coarsen g
        return .grid g
      else .error .valueError
    else .ok (.grid g)

/-- Models `abstract_scalar.py` 56-66 (`abstract_vector.py` 54-63): imported data is downsampled, then reprojected. -/
def standardise (L : Libs V) (agg : AggType) (ds : ℕ × ℕ) (inProj outProj x y : String) (fast : Bool)
    (d : XData V) : Py (XData V) := do
  let d ← downsampleAny L agg ds d
  if inProj ≠ outProj then reproject L inProj outProj x y fast d else return d

end Verif.Reproject
