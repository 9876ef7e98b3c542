import Verif.Model.Lut
import Verif.Model.Season
import Verif.Model.Export

/-!
# Model of the loading of look-up tables

`/repo/meshiphi/dataloaders/lut/abstract_lut.py` (`__init__`, `add_default_params`, `verify_data`, `calculate_coverage`,
names of columns), `lut_csv.py`, `lut_geojson.py`, `lut_shapefile.py`, `scotland_ncmpa.py`, and the tables of `density.py` and
`thickness.py` as they are loaded.

Shapes are sets of points as in `Lut`.  The difference of the world and the given shapes is the closure of the set
difference, as in Shapely; how it is divided into polygons is a parameter `rep`.  Areas are a parameter.  The order of the
rows found by the search tree is not modelled.  Rows without any geometry (`null`) are left out.
-/

namespace Verif.LutInit
open Verif.Lut Classical

/-- A value in a table: a number or `NaN`, a boolean or a text (`/repo/meshiphi/dataloaders/lut/lut_geojson.py` 55-66). -/
inductive LVal where
  | num (q : Option ℚ)
  | bool (b : Bool)
  | text (s : List Char)
  deriving DecidableEq

/-- A geometry (`/repo/meshiphi/dataloaders/lut/abstract_lut.py` 153-166): polygons, multipolygons and everything else. -/
inductive Shape where
  | polygon (g : Geom)
  | multi (parts : List Geom)
  | other (points : ℚ → ℚ → Prop)

/-- The points of a geometry (`abstract_lut.py` 227). -/
def Shape.mem : Shape → ℚ → ℚ → Prop
  | .polygon g => g.mem
  | .multi parts => fun x y => ∃ g ∈ parts, g.mem x y
  | .other points => points

/-- The edge of a geometry (`abstract_lut.py` 344); that of other geometries is not modelled. -/
def Shape.geom : Shape → Geom
  | .polygon g => g
  | .multi parts => ⟨fun x y => ∃ g ∈ parts, g.mem x y, fun x y => ∃ g ∈ parts, g.edge x y⟩
  | .other points => ⟨points, fun _ _ => False⟩

/-- A row: its label in the index, the geometry and the value (`abstract_lut.py` 149-166).  Labels of an index of times are
days. -/
structure TRow where
  label : ℤ
  shape : Shape
  value : LVal

/-- A table: whether the index is called `time`, the names of the columns, and the rows (`abstract_lut.py` 221, 379). -/
structure LTable where
  timed : Bool
  columns : List (Option String)
  rows : List TRow

/-- Models `abstract_lut.py` 206-229, `trim_datapoints`. -/
noncomputable def trim (cell : ℚ → ℚ → Prop) (time : ℤ × ℤ) (t : LTable) : LTable :=
  let rows := if t.timed then t.rows.filter (fun r => time.1 ≤ r.label ∧ r.label ≤ time.2) else t.rows
  { t with rows := rows.filter (fun r => Meets r.shape.mem cell) }

/-- The rows with the given label, `data.loc[[index]]` (`abstract_lut.py` 154, 158). -/
def labelled (rows : List TRow) (label : ℤ) : List TRow := rows.filter (fun r => r.label = label)

/-- The frame that one row contributes (`abstract_lut.py` 149-166).  `pd.concat` refuses an empty list, and the column
`geometry` must have as many entries as there are rows. -/
def verifyRow (rows : List TRow) (r : TRow) : Py (List TRow) :=
  match r.shape with
  | .polygon _ => .ok (labelled rows r.label)
  | .multi parts =>
    if parts = [] then .error .valueError
    else
      let copies := (List.replicate parts.length (labelled rows r.label)).flatten
      if copies.length = parts.length then .ok (copies.zipWith (fun c g => { c with shape := .polygon g }) parts)
      else .error .valueError
  | .other _ => .error .valueError

/-- Models `abstract_lut.py` 131-169, `verify_data`: the index is replaced by the numbers of the rows. -/
def verify (t : LTable) : Py LTable := do
  let frames ← t.rows.mapM (verifyRow t.rows)
  if frames = [] then .error .valueError
  else return { timed := false, columns := t.columns, rows := frames.flatten.mapIdx (fun i r => { r with label := i }) }

/-- Models `abstract_lut.py` 171-203, `calculate_coverage`. -/
noncomputable def coverage (area : (ℚ → ℚ → Prop) → ℚ) (cell : ℚ → ℚ → Prop) (t : LTable) : Py ℚ :=
  if t.rows = [] then .ok 0
  else if area cell = 0 then .error .zeroDivision
  else .ok (area (fun x y => (∃ r ∈ t.rows, r.shape.mem x y) ∧ cell x y) / area cell)

/-- `if key not in params: params[key] = value` (`abstract_lut.py` 120-127). -/
def addDefault (params : Dict String JVal) (key : String) (value : JVal) : Dict String JVal :=
  match Dict.get? params key with
  | some _ => params
  | none => Dict.set params key value

/-- Models `abstract_lut.py` 105-129, `add_default_params`, for the class `cls`. -/
def addDefaults (cls : String) (params : Dict String JVal) : Dict String JVal :=
  addDefault (addDefault (addDefault params "dataloader_name" (.str cls.toList)) "data_name" .null) "aggregate_type"
    (.str ['M', 'E', 'A', 'N'])

/-- Models `lut_geojson.py` 12-34 and `/repo/meshiphi/dataloaders/lut/lut_shapefile.py` 12-34, `add_default_params`. -/
def addFileDefaults (cls : String) (params : Dict String JVal) : Dict String JVal :=
  addDefault (addDefaults cls params) "data_name" (.str "dummy_data".toList)

/-- `self.data_name` (`abstract_lut.py` 47-48, 58); names that are neither texts nor `None` are not modelled. -/
def dataName (params : Dict String JVal) : Py (Option String) := do
  match ← Dict.get params "data_name" with
  | .null => return none
  | .str s => return some (String.ofList s)
  | _ => .error .notImplemented

/-- Models `abstract_lut.py` 362-384, `get_data_col_name`. -/
def getDataColName (t : LTable) : Py (Option String) :=
  match (t.columns.filter (fun c => c ∉ [some "time", some "geometry"])).dedup with
  | [c] => .ok c
  | _ => .error .assertionError

/-- Models `abstract_lut.py` 386-404, `set_data_col_name`: `rename` with a dictionary changes the labels of rows, of which none
is a name, so that the table stays as it is. -/
def setDataColName (t : LTable) : Py LTable := do
  let _ ← getDataColName t
  return t

/-- A loader: its attributes `data_name`, `data` (`abstract_lut.py` 19-87). -/
structure Loader where
  name : Option String
  table : LTable

/-- Models `abstract_lut.py` 44-87, `__init__`, from the completed parameters on.  `imp` is `import_data`, which gets `self.data_name`
and may change it. -/
noncomputable def init (area : (ℚ → ℚ → Prop) → ℚ) (imp : Option String → Py (Option String × LTable)) (cell : ℚ → ℚ → Prop)
    (time : ℤ × ℤ) (params : Dict String JVal) : Py Loader := do
  let (name, t) ← imp (← dataName params)
  let (name, t) ← match name with
    | none => do pure (← getDataColName t, t)
    | some n => do pure (some n, ← setDataColName t)
  let t ← verify t
  let c ← coverage area cell t
  if c = 0 then .error .valueError
  else return ⟨name, trim cell time t⟩

/-! ### Tables from files -/

/-- The points of `Boundary([-90, 90], [-180, 180])` (`lut_geojson.py` 59). -/
def world (x y : ℚ) : Prop := -180 ≤ x ∧ x ≤ 180 ∧ -90 ≤ y ∧ y ≤ 90

/-- `world_polygon - defined_polygon` (`lut_geojson.py` 61-62): the closure of the set difference. -/
def complement (defined : List Shape) (x y : ℚ) : Prop :=
  ∀ e : ℚ, 0 < e → ∃ x' y', |x' - x| < e ∧ |y' - y| < e ∧ world x' y' ∧ ¬ ∃ s ∈ defined, s.mem x' y'

/-- The value of the rest of the world (`lut_geojson.py` 63-66). -/
def alternative : LVal → LVal
  | .bool b => .bool (!b)
  | _ => .num none

/-- The rows of a table with the rest of the world as last row (`lut_geojson.py` 67, `/repo/meshiphi/dataloaders/lut/lut_csv.py`
49). -/
def withRest (rep : (ℚ → ℚ → Prop) → Shape) (rows : List (Shape × LVal)) (alt : LVal) : List TRow :=
  (rows ++ [(rep (complement (rows.map Prod.fst)), alt)]).mapIdx (fun i r => ⟨i, r.1, r.2⟩)

/-- Models `lut_geojson.py` 37-71, `lut_shapefile.py` 37-71 and `/repo/meshiphi/dataloaders/lut/scotland_ncmpa.py` 12-43, `import_data`:
`files` are the geometries of the files, `alt` the value of the rest. -/
noncomputable def importShapes (rep : (ℚ → ℚ → Prop) → Shape) (files : List (List Shape)) (column : Option String) (value alt : LVal)
    (cell : ℚ → ℚ → Prop) (time : ℤ × ℤ) : Py LTable :=
  if files = [] then .error .valueError
  else .ok (trim cell time ⟨false, [some "geometry", column], withRest rep (files.flatten.map (fun s => (s, value))) alt⟩)

/-- A `LutGeoJSON` or `LutShapefile` loader (`lut_geojson.py` 10-71, `lut_shapefile.py` 10-71). -/
noncomputable def shapeFiles (area : (ℚ → ℚ → Prop) → ℚ) (rep : (ℚ → ℚ → Prop) → Shape) (cls : String) (files : List (List Shape))
    (value : LVal) (cell : ℚ → ℚ → Prop) (time : ℤ × ℤ) (params : Dict String JVal) : Py Loader :=
  init area (fun n => do return (n, ← importShapes rep files n value (alternative value) cell time)) cell time (addFileDefaults cls params)

/-- A `ScotlandNCMPA` loader (`scotland_ncmpa.py` 9-43). -/
noncomputable def scotland (area : (ℚ → ℚ → Prop) → ℚ) (rep : (ℚ → ℚ → Prop) → Shape) (files : List (List Shape))
    (cell : ℚ → ℚ → Prop) (time : ℤ × ℤ) (params : Dict String JVal) : Py Loader :=
  init area (fun n => do return (n, ← importShapes rep files (some "exclusion_zone") (.bool true) (.bool false) cell time)) cell time
    (addDefaults "ScotlandNCMPA" params)

/-- A file read by `pd.read_csv`: the names of the columns and the rows (`lut_csv.py` 28). -/
structure Csv where
  columns : List String
  rows : List (Dict String LVal)

/-- The columns of `pd.concat(df_list)` (`lut_csv.py` 29). -/
def csvColumns (files : List Csv) : List String := Export.firstSeen (files.flatMap (·.columns))

/-- An entry of the concatenated frames, `NaN` where a row has none (`lut_csv.py` 29). -/
def csvEntry (r : Dict String LVal) (column : String) : LVal := (Dict.get? r column).getD (.num none)

/-- Whether a text contains `POLYGON` (`lut_csv.py` 34). -/
def hasPolygon (s : List Char) : Bool := ("POLYGON".toList : List Char) <:+: s

/-- Whether a value is a text (`lut_csv.py` 34). -/
def isText : LVal → Bool
  | .text _ => true
  | _ => false

/-- `csv_df.geometry.str.contains('POLYGON').all()` (`lut_csv.py` 34): a column without any text has no `.str`, and `NaN`, which is the
result for entries that are no texts, counts as true. -/
def containsPolygon (l : List LVal) : Py Bool :=
  if l ≠ [] ∧ l.all (fun v => !isText v) then .error .attributeError
  else .ok (l.all (fun v => match v with | .text s => hasPolygon s | _ => true))

/-- `wkt.loads` (`lut_csv.py` 42); `loads` reads texts. -/
def loadShape (loads : List Char → Option Shape) : LVal → Py Shape
  | .text s => match loads s with
    | some p => .ok p
    | none => .error .exception
  | _ => .error .typeError

/-- The single column besides `geometry` (`lut_csv.py` 40). -/
def otherColumn (columns : List String) : String := (columns.filter (· ≠ "geometry")).headD ""

/-- Models `lut_csv.py` 13-53, `import_data`, with the name it sets.  The last row is given by position: if `geometry` is not
the first column, the geometry of that row is `NaN`, which the search tree refuses (`abstract_lut.py` 226). -/
noncomputable def importCsv (loads : List Char → Option Shape) (rep : (ℚ → ℚ → Prop) → Shape) (files : List Csv)
    (cell : ℚ → ℚ → Prop) (time : ℤ × ℤ) : Py (Option String × LTable) := do
  if files = [] then .error .valueError
  else
    let columns := csvColumns files
    let rows := files.flatMap (·.rows)
    if "geometry" ∈ columns then
      if ← containsPolygon (rows.map (csvEntry · "geometry")) then
        if columns.length = 2 then
          let name := otherColumn columns
          let shapes ← rows.mapM (fun r => do return (← loadShape loads (csvEntry r "geometry"), csvEntry r name))
          if columns.head? = some "geometry" then
            return (some name, trim cell time ⟨false, columns.map some, withRest rep shapes (.num none)⟩)
          else .error .typeError
        else .error .assertionError
      else .error .assertionError
    else .error .assertionError

/-- A `LutCSV` loader (`lut_csv.py` 11-53). -/
noncomputable def csvFiles (area : (ℚ → ℚ → Prop) → ℚ) (loads : List Char → Option Shape) (rep : (ℚ → ℚ → Prop) → Shape)
    (files : List Csv) (cell : ℚ → ℚ → Prop) (time : ℤ × ℤ) (params : Dict String JVal) : Py Loader :=
  init area (fun _ => importCsv loads rep files cell time) cell time (addDefaults "LutCSV" params)

/-! ### Tables of the seasons -/

/-- Whether a geometry is kept (`/repo/meshiphi/dataloaders/lut/density.py` 68-72, `/repo/meshiphi/dataloaders/lut/thickness.py`
111-112): polygons and multipolygons that are not empty. -/
noncomputable def usable : Shape → Bool
  | .other _ => false
  | s => ∃ x y, s.mem x y

/-- The table of `density.py` 56-79 or `thickness.py` 106-126 (there the name `column` is `thickness`) from the rows of `Season`; the shapes
are those of the regions cut to the mesh. -/
def seasonTable (shapes : String → Shape) (column : String) (rows : List Season.Row) : LTable :=
  ⟨true, [some "geometry", some column], rows.map (fun r => ⟨r.1.ordinal, shapes r.2.1, .num (some r.2.2)⟩)⟩

/-- A `DensityDataLoader` (`density.py` 9-79) for the dates from `a` to `b`. -/
noncomputable def density (area : (ℚ → ℚ → Prop) → ℚ) (shapes : String → Shape) (cell : ℚ → ℚ → Prop) (a b : PyDate)
    (params : Dict String JVal) : Py Loader :=
  init area (fun n => do return (n, seasonTable shapes "density" (← Season.density (fun s => usable (shapes s)) a b))) cell
    (a.ordinal, b.ordinal) (addDefaults "DensityDataLoader" params)

/-- A `ThicknessDataLoader` (`thickness.py` 24-126) for the dates from `a` to `b`; an empty frame has no column `time`. -/
noncomputable def thickness (area : (ℚ → ℚ → Prop) → ℚ) (shapes : String → Shape) (cell : ℚ → ℚ → Prop) (a b : PyDate)
    (params : Dict String JVal) : Py Loader :=
  init area (fun n => do
      let rows ← Season.thickness Season.regions (fun s => usable (shapes s)) a b
      if rows = [] then .error .keyError else return (n, seasonTable shapes "thickness" rows)) cell
    (a.ordinal, b.ordinal) (addDefaults "ThicknessDataLoader" params)

/-! ### Values -/

/-- A value as a number: `True` is 1 (`abstract_lut.py` 267-281). -/
def LVal.num? : LVal → Option (Option ℚ)
  | .num q => some q
  | .bool b => some (some (if b then 1 else 0))
  | .text _ => none

/-- The rows as those of `Lut` (`abstract_lut.py` 260-281). -/
def lutRows (rows : List TRow) : List Lut.Row := rows.map (fun r => ⟨none, r.shape.geom, (r.value.num?).getD none⟩)

/-- `calculate_coverage` of a column of polygons (`abstract_lut.py` 171-203, 276-278).  For a cell without area it raises
`ZeroDivisionError`; here it is 0, with which the mean raises the same. -/
noncomputable def geomCover (area : (ℚ → ℚ → Prop) → ℚ) (cell : ℚ → ℚ → Prop) (gs : List Geom) : ℚ :=
  area (fun x y => (∃ g ∈ gs, g.mem x y) ∧ cell x y) / area cell

/-- Models `abstract_lut.py` 231-309, `get_value`, of a loader: `polygons[self.data_name]` raises if the table has no column of that
name.  Texts are not modelled.  The booleans of the results are 1 and 0. -/
noncomputable def getValue (area : (ℚ → ℚ → Prop) → ℚ) (cell : ℚ → ℚ → Prop) (time : ℤ × ℤ) (agg : Agg) (skipna : Bool) (l : Loader) :
    Py (Option ℚ) :=
  let t := trim cell time l.table
  if agg ≠ .count ∧ t.rows ≠ [] ∧ l.name ∉ l.table.columns then .error .keyError
  else if agg ≠ .count ∧ (∃ r ∈ t.rows, isText r.value = true) then .error .notImplemented
  else Lut.getValue (geomCover area cell) cell time agg skipna (lutRows t.rows)

end Verif.LutInit
