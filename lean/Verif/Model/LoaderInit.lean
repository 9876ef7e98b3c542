import Verif.Model.Data

/-!
# Model of the construction of scalar and vector data loaders

`/repo/meshiphi/dataloaders/scalar/abstract_scalar.py` 20-95, 165-234, 814-936 and the corresponding
code of `/repo/meshiphi/dataloaders/vector/abstract_vector.py` (19-97, 232-302, 814-926): naming the
data, measuring how much of the region is covered by it, and cutting it down to the region.

Simplified: the data starts as it is after importing, downsampling and reprojecting; logging is left out;
the area of the intersection of two rectangles (shapely) is computed exactly.
-/

namespace Verif.LoaderInit

/-! ## Coverage -/

/-- An axis-parallel rectangle: longitudes `x0` to `x1`, latitudes `y0` to `y1`.  See `/repo/meshiphi/mesh_generation/boundary.py` 340-393. -/
structure MapRect where
  x0 : ℚ
  x1 : ℚ
  y0 : ℚ
  y1 : ℚ
  deriving DecidableEq, Repr

/-- The rectangles that make up `Boundary.to_polygon()` (`boundary.py` 340-393; see
`Boundary.toPolygon`). -/
def rects (b : Boundary) : List MapRect :=
  if b.longMin < b.longMax then [⟨b.longMin, b.longMax, b.latMin, b.latMax⟩]
  else if b.longMin = 180 then [⟨-180, b.longMax, b.latMin, b.latMax⟩]
  else if b.longMax = -180 then [⟨b.longMin, 180, b.latMin, b.latMax⟩]
  else [⟨b.longMin, 180, b.latMin, b.latMax⟩, ⟨-180, b.longMax, b.latMin, b.latMax⟩]

/-- Area of a rectangle (shapely's `area`, in square degrees).  See `/repo/meshiphi/dataloaders/scalar/abstract_scalar.py` 199-200, 222-223. -/
def MapRect.area (r : MapRect) : ℚ := (r.x1 - r.x0) * (r.y1 - r.y0)

/-- Area common to two rectangles.  See `/repo/meshiphi/dataloaders/scalar/abstract_scalar.py` 199, 222. -/
def MapRect.overlap (r s : MapRect) : ℚ :=
  max 0 (min r.x1 s.x1 - max r.x0 s.x0) * max 0 (min r.y1 s.y1 - max r.y0 s.y0)

/-- `data_polygon.intersection(bounds_polygon).area`: the parts of each polygon do not overlap.
See `/repo/meshiphi/dataloaders/scalar/abstract_scalar.py` 199, 222. -/
def overlapArea (a b : Boundary) : ℚ :=
  ((rects a).map (fun r => ((rects b).map (fun s => r.overlap s)).sum)).sum

/-- `bounds_polygon.area`.  See `/repo/meshiphi/dataloaders/scalar/abstract_scalar.py` 200, 223. -/
def area (b : Boundary) : ℚ := ((rects b).map MapRect.area).sum

/-- Models `abstract_scalar.py` 193-202 = 215-225 (`abstract_vector.py` 260-269 = 283-293): the fraction of
`b` covered by the box around the given coordinates. -/
def boxCoverage (b : Boundary) (lats longs : List ℚ) : Py ℚ :=
  match listMin lats, listMax lats, listMin longs, listMax longs with
  | some y0, some y1, some x0, some x1 => do
    let box ← Boundary.mk? [y0, y1] [x0, x1]
    if area b = 0 then throw .zeroDivision
    return overlapArea box b / area b
  | _, _, _, _ => .ok 0

/-- Models `abstract_scalar.py` 181-202, `calculate_coverage_from_df`: rows with a missing value do not
count. -/
def coverageDf {V : Type} (nan : V → Bool) (b : Boundary) (t : Table V) : Py ℚ :=
  let rows := t.rows.filter (fun r => !nan r.val)
  boxCoverage b (rows.map (·.lat)) (rows.map (·.long))

/-- Models `abstract_scalar.py` 205-225, `calculate_coverage_from_xr`: latitudes without any value are
dropped, then longitudes without any value. -/
def coverageXr {V : Type} (nan : V → Bool) (b : Boundary) (g : Grid V) : Py ℚ :=
  let times := (g.times.getD [0])
  let lats := g.lats.filter (fun y => g.longs.any (fun x => times.any (fun t => !nan (g.val y x t))))
  let longs := g.longs.filter (fun x => lats.any (fun y => times.any (fun t => !nan (g.val y x t))))
  boxCoverage b lats longs

/-- Models `abstract_scalar.py` 227-234. -/
def coverage {V : Type} (nan : V → Bool) (b : Boundary) : Dataset V → Py ℚ
  | .table t => coverageDf nan b t
  | .grid g => coverageXr nan b g

/-- Models `abstract_scalar.py` 77-95 (`abstract_vector.py` 79-97): when nothing of the region is covered
the data is left as it is, otherwise it is cut down to the region. -/
def cutDown {V : Type} (nan : V → Bool) (b : Boundary) (d : Dataset V) : Py (Dataset V) := do
  let c ← coverage nan b d
  if c = 0 then return d
  else d.trim b

/-! ## Names -/

/-- The columns of a `pd.DataFrame`, or the data variables of an `xr.Dataset` (without its coordinates).
See `/repo/meshiphi/dataloaders/scalar/abstract_scalar.py` 814-936. -/
structure Names where
  isTable : Bool
  cols : List String
  deriving DecidableEq, Repr

/-- The names that are not coordinates: `abstract_scalar.py` 840-844 and 866. -/
def Names.data (n : Names) : List String :=
  if n.isTable then n.cols.filter (fun c => c ∉ ["lat", "long", "time"]) else n.cols

/-- Models `abstract_scalar.py` 814-879, `get_data_col_name` of scalar loaders. -/
def getName (n : Names) : Py String :=
  match n.data with
  | [name] => .ok name
  | _ => .error .valueError

/-- `data.rename(columns=d)` of pandas and `data.rename(d)` of xarray.  xarray refuses names that are
taken by another variable or coordinate; pandas does not.
See `/repo/meshiphi/dataloaders/scalar/abstract_scalar.py` 909, 927 and `/repo/meshiphi/dataloaders/vector/abstract_vector.py` 882, 888. -/
def Names.rename (d : Dict String String) (n : Names) : Py Names :=
  let new := n.cols.map (fun c => (d.get? c).getD c)
  if n.isTable then .ok { n with cols := new }
  else if new.Nodup ∧ ∀ c ∈ new, c ∉ ["lat", "long", "time"] then .ok { n with cols := new }
  else .error .valueError

/-- Models `abstract_scalar.py` 881-936, `set_data_col_name` of scalar loaders. -/
def setName (new : String) (n : Names) : Py Names := do
  let old ← getName n
  n.rename [(old, new)]

/-- Models `abstract_scalar.py` 68-75: the name of the data and the renamed data. -/
def nameScalar (dataName : Option String) (n : Names) : Py (String × Names) :=
  match dataName with
  | none => do
    let name ← getName n
    return (name, n)
  | some name => do
    let n ← setName name n
    return (name, n)

/-- `','.join(names)`.  See `/repo/meshiphi/dataloaders/vector/abstract_vector.py` 835, 844, 921. -/
def joinNames : List String → String
  | [] => ""
  | [a] => a
  | a :: l => a ++ "," ++ joinNames l

/-- Models `abstract_vector.py` 814-851, `get_data_col_name` of vector loaders. -/
def getNames (n : Names) : String := joinNames n.data

/-- Models `abstract_vector.py` 864-901, `set_data_col_name` of vector loaders, called with a list. -/
def setNames (new : List String) (n : Names) : Py Names := do
  let old := splitName (getNames n)
  if old.length ≠ new.length then throw .assertionError
  n.rename ((old.zip new).foldl (fun d p => d.set p.1 p.2) [])

/-- Models `abstract_vector.py` 64-74: the name, the renamed data and the list of names. -/
def nameVector (dataName : Option String) (n : Names) : Py (String × Names × List String) :=
  match dataName with
  | none => .ok (getNames n, n, splitName (getNames n))
  | some name => do
    let n ← setNames (splitName name) n
    return (name, n, splitName name)

/-- Models `abstract_vector.py` 903-926, `set_data_col_name_list`, called with a list of names: the comma
separated string (not the list) is handed to `set_data_col_name`, which takes its characters for names. -/
def setNamesList (new : List String) (n : Names) : Py Names := do
  if new.length ≠ 2 then throw .assertionError
  setNames ((joinNames new).toList.map (fun c => String.ofList [c])) n

end Verif.LoaderInit
