import Verif.Model.TimeStr
import Verif.Model.ConfigValidator
import Verif.Model.MeshBuilder
import Verif.Model.Data

/-!
# Model of the configuration: JSON values, the schemas, the validators and what `MeshBuilder` reads

JSON values are those that `json.load` builds; objects are association lists.  Floating-point numbers are
exact rationals or `NaN` (`none`); the infinities are left out.  Of `jsonschema.validate` the keywords that
occur in the schemas of MeshiPhi are modelled; the `$ref`s of the mesh schema are replaced by what they
refer to.  Text values are lists of ASCII characters, keys are strings.
-/

namespace Verif

/-- A JSON value as Python holds it (`/repo/meshiphi/config_validation/config_validator.py` 31, `json.load`). -/
inductive JVal where
  | null
  | bool (b : Bool)
  | int (n : ℤ)
  | flt (x : Option ℚ)
  | str (s : List Char)
  | arr (l : List JVal)
  | obj (d : List (String × JVal))

namespace Config

mutual
/-- The schemas of `/repo/meshiphi/config_validation/mesh_schema.py` 1-61, `vessel_schema.py` 1-14 and
`route_schema.py` 1-31: `type` with the keywords used beside it. -/
inductive Schema where
  | any
  | num (lo hi : Option ℚ)
  | int
  | str (enum : Option (List (List Char)))
  | bool
  | arr (items : Schema) (lo hi : Option ℕ)
  | obj (required : List String) (props : Props) (additional : Bool)
/-- The `properties` of an object (`mesh_schema.py` 8-17). -/
inductive Props where
  | nil
  | cons (k : String) (s : Schema) (rest : Props)
end

/-- The keys of `properties` (the allowed keys where `additionalProperties` is false, `mesh_schema.py` 7). -/
def Props.names : Props → List String
  | .nil => []
  | .cons k _ r => k :: r.names

/-- `minimum` and `maximum` of `vessel_schema.py` 9-12: the value is refused when it is less or greater, which
`NaN` never is. -/
def inRange (lo hi : Option ℚ) : Option ℚ → Bool
  | none => true
  | some q => !(lo.any (q < ·)) && !(hi.any (· < q))

mutual
/-- `jsonschema.validate` (`config_validator.py` 105, 138, 159): whether the instance is valid.  The type
`number` takes integers and floats but no booleans; `integer` takes also floats without fraction. -/
def valid : Schema → JVal → Bool
  | .any, _ => true
  | .num lo hi, .int n => inRange lo hi (some n)
  | .num lo hi, .flt x => inRange lo hi x
  | .num _ _, _ => false
  | .int, .int _ => true
  | .int, .flt (some q) => q.den = 1
  | .int, _ => false
  | .str none, .str _ => true
  | .str (some e), .str s => s ∈ e
  | .str _, _ => false
  | .bool, .bool _ => true
  | .bool, _ => false
  | .arr items lo hi, .arr l => l.all (valid items) && lo.all (· ≤ l.length) && hi.all (l.length ≤ ·)
  | .arr _ _ _, _ => false
  | .obj required props additional, .obj d =>
    required.all (fun k => (Dict.get? d k).isSome) && validProps props d && (additional || d.all (fun p => p.1 ∈ props.names))
  | .obj _ _ _, _ => false
/-- The keyword `properties` (`mesh_schema.py` 8): each listed key that occurs has a valid value. -/
def validProps : Props → List (String × JVal) → Bool
  | .nil, _ => true
  | .cons k s r, d => (match Dict.get? d k with | none => true | some v => valid s v) && validProps r d
end

/-- A number without limits.  See `/repo/meshiphi/config_validation/mesh_schema.py` 9-12 and `/repo/meshiphi/config_validation/route_schema.py` 26, 28-29. -/
def number : Schema := .num none none

/-- `mesh_schema.py` 1-18, `region_schema`. -/
def regionSchema : Schema :=
  .obj ["lat_min", "lat_max", "long_min", "long_max", "start_time", "end_time", "cell_width", "cell_height"]
    (.cons "lat_min" number <| .cons "lat_max" number <| .cons "long_min" number <| .cons "long_max" number <|
      .cons "start_time" (.str none) <| .cons "end_time" (.str none) <| .cons "cell_width" number <| .cons "cell_height" number .nil) false

/-- `mesh_schema.py` 20-29, `dataloader_schema`. -/
def dataloaderSchema : Schema :=
  .obj ["loader", "params"] (.cons "loader" (.str none) <| .cons "params" (.obj [] .nil true) .nil) false

/-- `mesh_schema.py` 31-39, `splitting_schema`. -/
def splittingSchema : Schema :=
  .obj ["split_depth", "minimum_datapoints"] (.cons "split_depth" .int <| .cons "minimum_datapoints" .int .nil) false

/-- `mesh_schema.py` 41-61, `mesh_schema`. -/
def meshSchema : Schema :=
  .obj ["region", "data_sources", "splitting"]
    (.cons "region" regionSchema <| .cons "data_sources" (.arr dataloaderSchema none none) <| .cons "splitting" splittingSchema .nil) true

/-- `/repo/meshiphi/config_validation/vessel_schema.py` 1-14, `vessel_schema`. -/
def vesselSchema : Schema :=
  .obj ["VesselType", "MaxSpeed", "Unit", "MaxIceConc", "MinDepth"]
    (.cons "VesselType" (.str none) <| .cons "MaxSpeed" (.num (some 0) none) <| .cons "Unit" (.str none) <|
      .cons "MaxIceConc" (.num (some 0) (some 100)) <| .cons "MinDepth" (.num (some 0) none) .nil) true

/-- `/repo/meshiphi/config_validation/route_schema.py` 1-31, `route_schema`. -/
def routeSchema : Schema :=
  .obj ["objective_function", "path_variables", "vector_names", "variable_speed", "time_unit", "early_stopping_criterion", "zero_currents"]
    (.cons "objective_function" (.str none) <| .cons "path_variables" (.arr (.str none) none none) <|
      .cons "vector_names" (.arr (.str none) (some 2) (some 2)) <| .cons "variable_speed" .bool <|
      .cons "time_unit" (.str (some [['d', 'a', 'y', 's'], ['h', 'o', 'u', 'r', 's'], ['s', 'e', 'c', 'o', 'n', 'd', 's']])) <|
      .cons "early_stopping_criterion" .bool <| .cons "zero_currents" .bool <| .cons "smoothing_blocked_sic" number <|
      .cons "smoothing_max_iterations" .int <| .cons "smoothing_merge_separation" number <| .cons "smoothing_converged_sep" number .nil) true

/-- `jsonschema.validate(instance, schema)` (`config_validator.py` 105). -/
def validateSchema (s : Schema) (v : JVal) : Py Unit := if valid s v then .ok () else .error .validationError

/-- Models `config_validator.py` 13-39, `flexi_json_input`; `read` gives the content of files. -/
def flexiJson (read : List Char → Py JVal) : JVal → Py JVal
  | .str s => read s
  | .obj d => .ok (.obj d)
  | _ => .error .typeError

/-- `v[k]` for a text key (`config_validator.py` 108): on a dictionary `KeyError` where it is missing, on
everything else `TypeError`. -/
def getItem (v : JVal) (k : String) : Py JVal :=
  match v with
  | .obj d => Dict.get d k
  | _ => .error .typeError

/-- The operand of an arithmetic operation (`config_validator.py` 97); booleans count as 0 and 1. -/
def asNum : JVal → Py (Option ℚ)
  | .int n => .ok (some n)
  | .flt x => .ok x
  | .bool b => .ok (some (if b then 1 else 0))
  | _ => .error .typeError

/-- A text whose method is called (`config_validator.py` 69, `time_str.replace`). -/
def asStr : JVal → Py (List Char)
  | .str s => .ok s
  | _ => .error .attributeError

/-- Models `config_validator.py` 87-99, `assert_valid_cellsize`, for numbers that may be `NaN`: a remainder
of `NaN` is not zero. -/
def assertCellsize : Option ℚ → Option ℚ → Option ℚ → Py Unit
  | some lo, some hi, some c => ConfigValidator.assertValidCellsize lo hi c
  | _, _, some c => if c = 0 then .error .zeroDivision else .error .assertionError
  | _, _, none => .error .assertionError

/-- Models `config_validator.py` 41-117, `validate_mesh_config`.  From line 108 on it reads the argument
`config` and not the JSON value `config_json` that it has checked. -/
def validateMeshConfig (read : List Char → Py JVal) (new : Bool) (config : JVal) : Py Unit := do
  let json ← flexiJson read config
  validateSchema meshSchema json
  let region ← getItem config "region"
  TimeStr.assertValidTime new (← asStr (← getItem region "start_time"))
  TimeStr.assertValidTime new (← asStr (← getItem region "end_time"))
  assertCellsize (← asNum (← getItem region "lat_min")) (← asNum (← getItem region "lat_max")) (← asNum (← getItem region "cell_height"))
  assertCellsize (← asNum (← getItem region "long_min")) (← asNum (← getItem region "long_max")) (← asNum (← getItem region "cell_width"))

/-- Models `config_validator.py` 119-138, `validate_vessel_config`. -/
def validateVesselConfig (read : List Char → Py JVal) (config : JVal) : Py Unit := do
  validateSchema vesselSchema (← flexiJson read config)

/-- Models `config_validator.py` 140-159, `validate_route_config`. -/
def validateRouteConfig (read : List Char → Py JVal) (config : JVal) : Py Unit := do
  validateSchema routeSchema (← flexiJson read config)

/-- A coordinate that is compared (`/repo/meshiphi/mesh_generation/boundary.py` 181-215).  Boundaries of `NaN`
are left out of the model. -/
def asCoord (v : JVal) : Py ℚ := do
  match ← asNum v with
  | some q => .ok q
  | none => .error .notImplemented

/-- `k in v` (`boundary.py` 40) for the region. -/
def hasKey (v : JVal) (k : String) : Bool :=
  match v with
  | .obj d => (Dict.get? d k).isSome
  | _ => false

/-- The year, month and day of a day number: the last year, then the last month that begins before the end of
that day (the dates on which `parse_datetime`, `boundary.py` 163 and 174, calls `strftime`). -/
def dateOf (n : ℤ) : PyDate :=
  let k := n.toNat
  let y := Nat.findGreatest (fun y => PyDate.daysBeforeYear y < k) 9999
  let r := k - PyDate.daysBeforeYear y
  let m := Nat.findGreatest (fun m => PyDate.daysBeforeMonth y m < r) 12
  ⟨y, m, r - PyDate.daysBeforeMonth y m⟩

/-- The last decimal digit of a number (`strftime` at `boundary.py` 163). -/
def lastDigit (n : ℕ) : Char := Char.ofNat (48 + n % 10)

/-- `strftime("%Y")` (`boundary.py` 148).  `pad` tells whether the C library writes years below 1000 with four
digits; that of Linux does not. -/
def yearText (pad : Bool) (y : ℕ) : List Char :=
  if pad || 1000 ≤ y then [lastDigit (y / 1000), lastDigit (y / 100), lastDigit (y / 10), lastDigit y]
  else if 100 ≤ y then [lastDigit (y / 100), lastDigit (y / 10), lastDigit y]
  else if 10 ≤ y then [lastDigit (y / 10), lastDigit y]
  else [lastDigit y]

/-- `strftime("%Y-%m-%d")` (`boundary.py` 148, 153, 163 and 174). -/
def dateText (pad : Bool) (a : PyDate) : List Char :=
  yearText pad a.y ++ '-' :: [lastDigit (a.m / 10), lastDigit a.m] ++ '-' :: [lastDigit (a.d / 10), lastDigit a.d]

/-- `self.parse_datetime(time_range[i])` (`boundary.py` 117-118): the day number of the date. -/
def parseTime (now : ℚ) (v : JVal) : Py ℤ := do TimeStr.parseDatetime now (← asStr v)

/-- The reading of the resulting text by `strptime` in `validate_bounds` (`boundary.py` 199), which fails for years
that are written with less than four digits. -/
def rereadTime (pad : Bool) (t : ℤ) : Py ℤ :=
  match TimeStr.strptime (dateText pad (dateOf t)) with
  | some a => .ok a.ordinal
  | none => .error .valueError

/-- Models `boundary.py` 24-48, `from_json`, and the constructor that it calls. -/
def fromJson (pad : Bool) (now : ℚ) (config : JVal) : Py Boundary := do
  let region ← getItem config "region"
  let latMin ← getItem region "lat_min"
  let latMax ← getItem region "lat_max"
  let longMin ← getItem region "long_min"
  let longMax ← getItem region "long_max"
  if hasKey region "start_time" && hasKey region "end_time" then
    let t0 ← parseTime now (← getItem region "start_time")
    let t1 ← parseTime now (← getItem region "end_time")
    let t0 ← rereadTime pad t0
    let t1 ← rereadTime pad t1
    Boundary.mk? [← asCoord latMin, ← asCoord latMax] [← asCoord longMin, ← asCoord longMax] [t0, t1]
  else
    Boundary.mk? [← asCoord latMin, ← asCoord latMax] [← asCoord longMin, ← asCoord longMax] []

/-- `v[k] = x` for a dictionary (`/repo/meshiphi/mesh_generation/mesh_builder.py` 89-90). -/
def setItem (v : JVal) (k : String) (x : JVal) : Py JVal :=
  match v with
  | .obj d => .ok (.obj (Dict.set d k x))
  | _ => .error .typeError

/-- Models `boundary.py` 295-305, `get_time_min` and `get_time_max`, as the text that the configuration receives:
the dates of the boundary, `IndexError` where it has none. -/
def boundTime (pad : Bool) (b : Boundary) (i : ℕ) : Py JVal :=
  match b.time[i]? with
  | some t => .ok (.str (dateText pad (dateOf t)))
  | none => .error .indexError

/-- Models `mesh_builder.py` 81-96: the first part of `MeshBuilder.__init__`.  The result is the boundary, the
size of the cells and the configuration, in which the times have been replaced by dates. -/
def prepare (read : List Char → Py JVal) (new pad : Bool) (now : ℚ) (config : JVal) : Py (Boundary × ℚ × ℚ × JVal) := do
  validateMeshConfig read new config
  let bounds ← fromJson pad now config
  let region ← getItem config "region"
  let region ← setItem region "start_time" (← boundTime pad bounds 0)
  let region ← setItem region "end_time" (← boundTime pad bounds 1)
  let config ← setItem config "region" region
  let cellWidth ← asCoord (← getItem region "cell_width")
  let cellHeight ← asCoord (← getItem region "cell_height")
  MeshBuilder.validateBounds bounds cellWidth cellHeight
  return (bounds, cellWidth, cellHeight, config)

/-- The entries of `config['data_sources']` as `mesh_builder.py` 160-163 reads them: the name of the loader and its
parameters. -/
def readSource (source : JVal) : Py (JVal × JVal) := do
  let loader ← getItem source "loader"
  let params ← getItem source "params"
  return (loader, params)

/-- Models the reading of `mesh_builder.py` 159-163. -/
def readSources (config : JVal) : Py (List (JVal × JVal)) :=
  if hasKey config "data_sources" then do
    match ← getItem config "data_sources" with
    | .arr l => l.mapM readSource
    | _ => .error .typeError
  else .ok []

/-- Models `mesh_builder.py` 106-109 and `/repo/meshiphi/mesh_generation/cellbox.py` 60-67: the minimum number of
datapoints that every cell receives. -/
def readMinDatapoints (config : JVal) : Py (Option ℚ) :=
  if hasKey config "splitting" then do
    match ← asNum (← getItem (← getItem config "splitting") "minimum_datapoints") with
    | some q => if q < 0 then .error .valueError else .ok (some q)
    | none => .ok none
  else .ok (some 5)

/-- Models `mesh_builder.py` 134-136: the depth to which the mesh is split. -/
def readSplitDepth (config : JVal) : Py (Option ℚ) :=
  if hasKey config "splitting" then do
    asNum (← getItem (← getItem config "splitting") "split_depth")
  else .ok (some 0)

/-- A `DataFrame`: the name of its index, if it has one, the index and the columns
(`config_validator.py` 173-178). -/
structure Frame where
  indexName : Option String
  index : List Val
  columns : List (String × List Val)

/-- `reset_index()` (`config_validator.py` 175 and 178): the index becomes the first column. -/
def Frame.resetIndex (f : Frame) : Py (List (String × List Val)) :=
  match f.indexName with
  | some n => if (Dict.get? f.columns n).isSome then .error .valueError else .ok ((n, f.index) :: f.columns)
  | none =>
    if (Dict.get? f.columns "index").isSome then
      (if (Dict.get? f.columns "level_0").isSome then .error .valueError else .ok (("level_0", f.index) :: f.columns))
    else .ok (("index", f.index) :: f.columns)

/-- The argument of `validate_waypoints` (`config_validator.py` 173-184). -/
inductive Waypoints where
  | file (s : List Char)
  | frame (f : Frame)
  | other

/-- `pd.to_numeric(column, errors='coerce').notnull().all()` (`config_validator.py` 195-198); `toNum` reads numbers
from texts. -/
def allNumeric (toNum : String → Option ℚ) (column : List Val) : Bool :=
  column.all (fun v => match v with
    | .num x => x.isSome
    | .str s => (toNum s).isSome)

/-- Models `config_validator.py` 161-198, `validate_waypoints`, with `waypoints_columns` of
`/repo/meshiphi/config_validation/waypoints_schema.py` 1; `readCsv` gives the content of files. -/
def validateWaypoints (readCsv : List Char → Py Frame) (toNum : String → Option ℚ) (w : Waypoints) : Py Unit := do
  let f ← (match w with
    | .file s => readCsv s
    | .frame f => .ok f
    | .other => .error .typeError)
  let d ← f.resetIndex
  if ¬ ["Name", "Lat", "Long", "Source", "Destination"].all (fun c => (Dict.get? d c).isSome) then .error .assertionError
  else if Val.str "X" ∉ (← Dict.get d "Source") then .error .assertionError
  else if Val.str "X" ∉ (← Dict.get d "Destination") then .error .assertionError
  else if ¬ allNumeric toNum (← Dict.get d "Lat") then .error .assertionError
  else if ¬ allNumeric toNum (← Dict.get d "Long") then .error .assertionError
  else .ok ()

end Config
end Verif
