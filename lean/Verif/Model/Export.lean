import Verif.Model.Tif
import Verif.Model.Config

/-!
# Model of the exports of `environment_mesh.py` (GeoJSON, parameters and colours of GeoTIFF, PNG, `save`) and of
`mesh_plotting/mesh_plotter.py`

The cells are those of `to_json()`: dictionaries of numbers (with `NaN` and the infinities), booleans, texts, lists of
numbers and WKT texts (as vertex lists).  `null` does not occur.  Files are named by a directory and a name.  What
GDAL, `matplotlib` and `cartopy` do with the values they receive is left out: a drawing is the list of the polygons
drawn with their colours.
-/

namespace Verif.Export

/-- A float of a cell (`/repo/meshiphi/mesh_generation/environment_mesh.py` 1189-1190 names the infinities). -/
inductive Flt where
  | nan
  | fin (q : ℚ)
  | inf (neg : Bool)
  deriving DecidableEq

/-- A value of a cell in `to_json()` (`environment_mesh.py` 1092-1111). -/
inductive XVal where
  | flt (x : Flt)
  | bool (b : Bool)
  | str (s : String)
  | lst (l : List Flt)
  | wkt (p : Boundary.Poly)
  deriving DecidableEq

/-- One of the dictionaries of `mesh_json['cellboxes']` (`environment_mesh.py` 1423-1454). -/
abbrev XRow := Dict String XVal

/-- The values that the cells of an `EnvMesh` have in `to_json()`; ids are texts (`/repo/meshiphi/mesh_generation/aggregated_cellbox.py`
120-152). -/
def ofJVal : AggCell.JVal → XVal
  | .wkt p => .wkt p
  | .val (.num none) => .flt .nan
  | .val (.num (some q)) => .flt (.fin q)
  | .val (.str s) => .str s
  | .cellId n => .str (toString n)

/-- `self.to_json()['cellboxes']` (`environment_mesh.py` 1159, 1423-1454). -/
def rowsOf (m : EnvMesh) : List XRow := m.cells.map (fun c => c.toJson.map (fun p => (p.1, ofJVal p.2)))

/-- The names in order of first occurrence (columns of `pd.DataFrame(mesh_json['cellboxes'])`, `environment_mesh.py` 1169). -/
def firstSeen (l : List String) : List String := l.foldl (fun acc k => if k ∈ acc then acc else acc ++ [k]) []

/-- The columns of the frame (`environment_mesh.py` 1169). -/
def columns (rows : List XRow) : List String := firstSeen (rows.flatMap Dict.keys)

/-- The values of a column, `NaN` where a cell has none (`environment_mesh.py` 1169). -/
def column (rows : List XRow) (k : String) : List XVal := rows.map (fun r => (Dict.get? r k).getD (.flt .nan))

/-- What the comparisons of `dtype` at `environment_mesh.py` 1182 and 1185 tell apart. -/
inductive DType where
  | bool
  | number
  | text
  | object
  deriving DecidableEq

/-- Whether a value is a boolean (`environment_mesh.py` 1185). -/
def isBool : XVal → Bool
  | .bool _ => true
  | _ => false

/-- Whether a value is a number (`environment_mesh.py` 1182: not an object). -/
def isNumber : XVal → Bool
  | .flt _ => true
  | _ => false

/-- Whether a value can be in a column of texts (`environment_mesh.py` 1182). -/
def isTextual : XVal → Bool
  | .str _ => true
  | .wkt _ => true
  | .flt .nan => true
  | _ => false

/-- The dtype of a column that is not empty: booleans only, numbers only, and everything else `object`; from pandas 3 on
(`strings`) texts have a dtype of their own (`environment_mesh.py` 1169). -/
def dtype (strings : Bool) (l : List XVal) : DType :=
  if l.all isBool then .bool
  else if l.all isNumber then .number
  else if strings && l.all isTextual then .text
  else .object

/-- The sum of floats as `np.mean` uses it (`environment_mesh.py` 1183). -/
def Flt.add : Flt → Flt → Flt
  | .fin a, .fin b => .fin (a + b)
  | .inf s, .fin _ => .inf s
  | .fin _, .inf s => .inf s
  | .inf s, .inf t => if s = t then .inf s else .nan
  | _, _ => .nan

/-- `np.mean` of a list (`environment_mesh.py` 1183); of the empty list it is `NaN`. -/
def meanList (l : List Flt) : Flt :=
  match l.foldl Flt.add (.fin 0) with
  | .fin s => if l.length = 0 then .nan else .fin (s / l.length)
  | x => x

/-- `np.mean(x)` (`environment_mesh.py` 1183); of a text it raises. -/
def npMean : XVal → Py Flt
  | .flt x => .ok x
  | .bool b => .ok (.fin (if b then 1 else 0))
  | .lst l => .ok (meanList l)
  | .str _ => .error .typeError
  | .wkt _ => .error .typeError

/-- Models `environment_mesh.py` 1173-1180: whether a column stays in the frame; `only` is the name from the file of
parameters. -/
def kept (only : Option String) (k : String) : Bool :=
  if k ∈ ["id", "geometry"] then true
  else if only.any (fun d => k ≠ d) then false
  else if k ∈ ["cx", "cy", "dcx", "dcy"] then false
  else true

/-- Models `environment_mesh.py` 1181-1187.  `dtype == list` holds for `object`, to which numpy converts the type
`list`. -/
def convert (strings : Bool) (l : List XVal) : Py (List XVal) :=
  match dtype strings l with
  | .object => l.mapM (fun v => do return .flt (← npMean v))
  | .bool => .ok (l.map (fun v => if v = .bool true then .flt (.fin 1) else .flt .nan))
  | .number => .ok l
  | .text => .ok l

/-- `replace([np.inf, -np.inf], np.nan)` (`environment_mesh.py` 1190). -/
def noInf : XVal → XVal
  | .flt (.inf _) => .flt .nan
  | v => v

/-- Models `environment_mesh.py` 1169-1190: the frame. -/
def geoFrame (strings : Bool) (only : Option String) (rows : List XRow) : Py (List (String × List XVal)) :=
  ((columns rows).filter (kept only)).mapM (fun k => do
    let l ← if k ∈ ["id", "geometry"] then .ok (column rows k) else convert strings (column rows k)
    return (k, l.map noInf))

/-- `wkt.loads` (`environment_mesh.py` 1192). -/
def loadWkt : XVal → Py Boundary.Poly
  | .wkt p => .ok p
  | .str _ => .error .exception
  | _ => .error .typeError

/-- A feature of the GeoJSON: `null` is `none` (`environment_mesh.py` 1193-1195). -/
structure Feature where
  geometry : Boundary.Poly
  properties : List (String × Option XVal)
  deriving DecidableEq

/-- `GeoDataFrame.to_json` (`environment_mesh.py` 1195) writes `null` for `NaN`. -/
def toProperty : XVal → Option XVal
  | .flt .nan => none
  | v => some v

/-- `str(data_name)` (`environment_mesh.py` 1176); `repr` is `str` of values that are no texts. -/
def strOf (repr : JVal → String) : JVal → String
  | .str s => String.ofList s
  | v => repr v

/-- Models `environment_mesh.py` 1161-1166: the name of the layer in the file of parameters.  The result of reading
the file is given, `none` where there is no file. -/
def layerName (repr : JVal → String) : Option (Py JVal) → Py (Option String)
  | none => .ok none
  | some file => do return some (strOf repr (← Config.getItem (← file) "data_name"))

/-- The features from the columns (`environment_mesh.py` 1192-1195). -/
def features (cols : List (String × List XVal)) (polys : List Boundary.Poly) : List Feature :=
  polys.mapIdx (fun i p => ⟨p, (cols.filter (fun c => c.1 ≠ "geometry")).map (fun c => (c.1, toProperty (c.2.getD i (.flt .nan))))⟩)

/-- Models `environment_mesh.py` 1145-1197, `to_geojson`. -/
def toGeojson (strings : Bool) (repr : JVal → String) (params : Option (Py JVal)) (rows : List XRow) : Py (List Feature) := do
  let only ← layerName repr params
  let cols ← geoFrame strings only rows
  let polys ← (← Dict.get cols "geometry").mapM loadWkt
  return features cols polys

/-! ### Parameters and colours of GeoTIFF -/

/-- The default parameters (`environment_mesh.py` 1307-1308). -/
def defaultParams : Dict String JVal :=
  [("data_name", .str ['S', 'I', 'C']), ("sampling_resolution", .arr [.int 100, .int 100]), ("projection", .str ['4', '3', '2', '6'])]

/-- `if (k in input_params.keys()): params[k] = input_params[k]` (`environment_mesh.py` 1314-1315). -/
def override (input params : Dict String JVal) (k : String) : Dict String JVal :=
  match Dict.get? input k with
  | some v => Dict.set params k v
  | none => params

/-- Models `environment_mesh.py` 1296-1322, `load_params`. -/
def loadParams : Option (Py JVal) → Py (Dict String JVal)
  | none => .ok defaultParams
  | some file => do
    match ← file with
    | .null => return defaultParams
    | .obj d => return ["projection", "data_name", "sampling_resolution", "colour_conf"].foldl (override d) defaultParams
    | _ => .error .attributeError

/-- A line of the file of colours: a value (`none` for `nan`) and a colour (`environment_mesh.py` 1358-1365). -/
abbrev ColourLine := Option ℤ × (ℕ × ℕ × ℕ)

/-- Models `environment_mesh.py` 1352-1365: the lines of the file of colours.  The values of the image are those that
are not `NaN`; without any, `np.nanmax` raises. -/
def colourLines (data : List (Option ℚ)) : Py (List ColourLine) := do
  let vals := data.filterMap id
  let max ← Boundary.pyMax vals
  let min ← Boundary.pyMin vals
  let range := max - min
  let colors : List (ℕ × ℕ × ℕ) := [(255, 255, 255), (173, 216, 230), (0, 0, 128), (0, 0, 139)]
  let first := colors.dropLast.mapIdx (fun i c => (some (pyInt (min + ((i : ℚ) + 1) * range / colors.length)), c))
  let last := (some (pyInt (max - range / colors.length)), colors.getLastD (0, 0, 0))
  return first ++ [last, (none, (255, 0, 0))]

/-- What a GeoTIFF file is coloured with (`environment_mesh.py` 1367-1371): the default lines or a file. -/
inductive Colours where
  | grey
  | default (lines : List ColourLine)
  | file (name : List Char)

/-- What is in a file (`environment_mesh.py` 1469-1498). -/
inductive Content where
  | empty
  | json (j : MeshJson)
  | geojson (f : List Feature)
  | tif (image : List (List (Option ℚ))) (transform : List ℚ) (projection : Option ℤ) (colours : Colours)
  | grid
  | png (drawing : List (Boundary.Poly × (String × Option ℚ ⊕ JVal)))
  | other (n : ℕ)

/-- Files by directory and name (`os.path.split`, `environment_mesh.py` 1373-1374). -/
abbrev Files := Dict (String × String) Content

/-- `int(params["projection"])` (`environment_mesh.py` 1336); `readInt` reads texts. -/
def toInt (readInt : List Char → Option ℤ) : JVal → Py ℤ
  | .int n => .ok n
  | .bool b => .ok (if b then 1 else 0)
  | .flt (some q) => .ok (pyInt q)
  | .flt none => .error .valueError
  | .str s => match readInt s with
    | some n => .ok n
    | none => .error .valueError
  | _ => .error .typeError

/-- Models `environment_mesh.py` 1324-1338, `transform_proj`: the projection into which the file is transformed, if
any. -/
def transformProj (readInt : List Char → Option ℤ) (params : Dict String JVal) : Py (Option ℤ) := do
  match ← Dict.get params "projection" with
  | .str ['4', '3', '2', '6'] => return none
  | v => return some (← toInt readInt v)

/-- `params["sampling_resolution"][i]` as a number of pixels (`environment_mesh.py` 1390-1391); other values than
lists of natural numbers are not modelled. -/
def resolution (params : Dict String JVal) (i : ℕ) : Py ℕ := do
  match ← Dict.get params "sampling_resolution" with
  | .arr l => match l[i]? with
    | some (.int n) => if 0 ≤ n then return n.toNat else .error .notImplemented
    | some _ => .error .notImplemented
    | none => .error .indexError
  | _ => .error .notImplemented

/-- `params["data_name"]` (`environment_mesh.py` 1386); other values than texts are not modelled. -/
def tifName (params : Dict String JVal) : Py String := do
  match ← Dict.get params "data_name" with
  | .str s => return String.ofList s
  | _ => .error .notImplemented

/-- Models `environment_mesh.py` 1367-1370: what the image is coloured with; a value that is no text cannot be put into the
command. -/
def colourFile (params : Dict String JVal) (lines : List ColourLine) : Py Colours :=
  match Dict.get? params "colour_conf" with
  | some (.str s) => .ok (.file s)
  | some _ => .error .typeError
  | none => .ok (.default lines)

/-- Removes a file if it is there (`environment_mesh.py` 1376-1379). -/
def removeFile (files : Files) (f : String × String) : Files := Dict.del files f

/-- Models `environment_mesh.py` 1384-1404, the part of `to_tif` that writes nothing. -/
def tifData (m : EnvMesh) (params : Option (Py JVal)) : Py (Dict String JVal × List (List (Option ℚ)) × List ℚ) := do
  let params ← loadParams params
  let name ← tifName params
  let nlines ← resolution params 0
  let ncols ← resolution params 1
  let image ← EnvMesh.Tif.image m name nlines ncols
  return (params, image, EnvMesh.Tif.geoTransform m.bounds nlines ncols)

/-- Models `environment_mesh.py` 1199-1421, `to_tif`: the files and the exception, if any, afterwards.  The file of
colours in the directory for temporary files is left out. -/
def toTif (readInt : List Char → Option ℤ) (m : EnvMesh) (params : Option (Py JVal)) (cwd : String) (path : String × String)
    (files : Files) : Files × Py Unit :=
  match tifData m params with
  | .error e => (files, .error e)
  | .ok (params, image, gt) =>
    let files := Dict.set files (cwd, "grid_data") .grid
    let files := Dict.set files path (.tif image gt none .grey)
    match transformProj readInt params with
    | .error e => (files, .error e)
    | .ok proj =>
      let files := Dict.set files path (.tif image gt proj .grey)
      match colourLines image.flatten with
      | .error e => (files, .error e)
      | .ok lines =>
        match colourFile params lines with
        | .error e => (files, .error e)
        | .ok colours =>
          let files := Dict.set files path (.tif image gt proj colours)
          (removeFile (removeFile files (path.1, "grid_data")) (path.1, "grid_data.aux.xml"), .ok ())

/-! ### The plotter -/

/-- `x < y` of floats (minimum and maximum of a column, `/repo/meshiphi/mesh_plotting/mesh_plotter.py` 56-57). -/
def Flt.lt : Flt → Flt → Bool
  | .fin a, .fin b => a < b
  | .inf true, .fin _ => true
  | .fin _, .inf false => true
  | .inf true, .inf false => true
  | _, _ => false

/-- `x - y` of floats (`mesh_plotter.py` 58 and 65). -/
def Flt.sub : Flt → Flt → Flt
  | .fin a, .fin b => .fin (a - b)
  | .inf s, .fin _ => .inf s
  | .fin _, .inf s => .inf (!s)
  | .inf s, .inf t => if s = t then .nan else .inf s
  | _, _ => .nan

/-- `x / y` of numpy floats (`mesh_plotter.py` 65); dividing by zero gives `NaN` or an infinity. -/
def Flt.div : Flt → Flt → Flt
  | .fin a, .fin b => if b = 0 then (if a = 0 then .nan else .inf (a < 0)) else .fin (a / b)
  | .fin _, .inf _ => .fin 0
  | .inf s, .fin b => .inf (s != decide (b < 0))
  | _, _ => .nan

/-- `min` of a column of numbers (`mesh_plotter.py` 56): `NaN` is passed over. -/
def colMin (l : List Flt) : Flt :=
  match l.filter (· ≠ .nan) with
  | [] => .nan
  | x :: r => r.foldl (fun a b => if b.lt a then b else a) x

/-- `max` of a column of numbers (`mesh_plotter.py` 57). -/
def colMax (l : List Flt) : Flt :=
  match l.filter (· ≠ .nan) with
  | [] => .nan
  | x :: r => r.foldl (fun a b => if a.lt b then b else a) x

/-- The column of numbers `self.mesh_df[value_name]` (`mesh_plotter.py` 56): an unknown name raises, the difference of
booleans (58) too; columns of other values are not modelled. -/
def numberColumn (rows : List XRow) (name : String) : Py (List Flt) :=
  if name ∈ columns rows then
    match dtype false (column rows name) with
    | .number => .ok ((column rows name).map (fun v => match v with | .flt x => x | _ => .nan))
    | .bool => .error .typeError
    | _ => .error .notImplemented
  else .error .keyError

/-- A drawn polygon with its colour: a colour map with the value in it (`none` for `NaN`; infinities do not occur for finite
columns and are written as `NaN` here), or a plain colour (`mesh_plotter.py` 45 and 67). -/
abbrev Drawing := List (Boundary.Poly × (String × Option ℚ ⊕ JVal))

/-- The finite part of a float (`mesh_plotter.py` 65-67). -/
def Flt.fin? : Flt → Option ℚ
  | .fin q => some q
  | _ => none

/-- Models `mesh_plotter.py` 47-67, `plot_cmap`; `known` tells which colour maps `matplotlib` has. -/
def plotCmap (known : String → Bool) (rows : List XRow) (name cmap : String) : Py Drawing := do
  let vals ← numberColumn rows name
  let min := colMin vals
  let diff := (colMax vals).sub min
  if known cmap then
    rows.mapM (fun r => do
      let v ← Dict.get r name
      let p ← loadWkt (← Dict.get r "geometry")
      return (p, .inl (cmap, (Flt.div (Flt.sub (match v with | .flt x => x | _ => .nan) min) diff).fin?)))
  else .error .keyError

/-- `cellbox[value_name] == True` (`mesh_plotter.py` 44): the number 1 is equal to `True`. -/
def isTrue : XVal → Bool
  | .bool b => b
  | .flt (.fin q) => q = 1
  | _ => false

/-- Models `mesh_plotter.py` 35-45, `plot_bool`. -/
def plotBool (rows : List XRow) (name : String) (colour : JVal) : Py Drawing := do
  let l ← rows.mapM (fun r => do
    let p ← loadWkt (← Dict.get r "geometry")
    let v ← Dict.get r name
    return if isTrue v then some (p, Sum.inr colour) else none)
  return l.filterMap id

/-- Models `mesh_plotter.py` 15-32, `__init__`: `plt.figure` refuses a negative width. -/
def plotterInit (region : Boundary) : Py Unit :=
  if region.latMax - region.latMin = 0 then .error .zeroDivision
  else if 10 * ((region.longMax - region.longMin) / (region.latMax - region.latMin)) < 0 then .error .valueError
  else .ok ()

/-- Iterating over a JSON value (`environment_mesh.py` 1138 and 1140). -/
def items : JVal → Py (List JVal)
  | .arr l => .ok l
  | .obj d => .ok (d.map (fun p => .str p.1.toList))
  | .str s => .ok (s.map (fun c => .str [c]))
  | _ => .error .typeError

/-- A name in the file of parameters (`environment_mesh.py` 1139); a value that is no text names no column and no colour map. -/
def nameOf : JVal → Py String
  | .str s => .ok (String.ofList s)
  | _ => .error .keyError

/-- One item of `cmaps` (`environment_mesh.py` 1138-1139). -/
def drawCmap (known : String → Bool) (rows : List XRow) (item : JVal) : Py Drawing := do
  plotCmap known rows (← nameOf (← Config.getItem item "data_name")) (← nameOf (← Config.getItem item "cmap"))

/-- One item of `bools` (`environment_mesh.py` 1140-1141). -/
def drawBool (rows : List XRow) (item : JVal) : Py Drawing := do
  plotBool rows (← nameOf (← Config.getItem item "data_name")) (← Config.getItem item "colour")

/-- Models `environment_mesh.py` 1121-1143, `to_png`: what is drawn, the later polygons on top.  Without a file of
parameters the variable `format_params` is unbound. -/
def toPng (known : String → Bool) (region : Boundary) (rows : List XRow) (params : Option (Py JVal)) : Py Drawing := do
  plotterInit region
  match params with
  | none => .error .unboundLocal
  | some file =>
    let p ← file
    let a ← (← items (← Config.getItem p "cmaps")).mapM (drawCmap known rows)
    let b ← (← items (← Config.getItem p "bools")).mapM (drawBool rows)
    return a.flatten ++ b.flatten

/-! ### `save` -/

/-- `format.upper()` (`environment_mesh.py` 1483) for ASCII texts. -/
def upper (s : List Char) : List Char := s.map Char.toUpper

/-- What the exports depend on besides the mesh: the version of pandas, `str` and `int` of JSON values, the colour maps and
the directory (`environment_mesh.py` 1469-1498). -/
structure Env where
  strings : Bool
  repr : JVal → String
  readInt : List Char → Option ℤ
  known : String → Bool
  cwd : String

/-- Models `environment_mesh.py` 1469-1498, `save`: the files and the exception, if any, afterwards.  Opening the file for
writing empties it before the mesh is converted. -/
def save (env : Env) (m : EnvMesh) (path : String × String) (format : List Char) (params : Option (Py JVal)) (files : Files) :
    Files × Py Unit :=
  if upper format = ['T', 'I', 'F'] then toTif env.readInt m params env.cwd path files
  else if upper format = ['J', 'S', 'O', 'N'] then
    let files := Dict.set files path .empty
    (Dict.set files path (.json m.toJson), .ok ())
  else if upper format = ['G', 'E', 'O', 'J', 'S', 'O', 'N'] then
    let files := Dict.set files path .empty
    match toGeojson env.strings env.repr params (rowsOf m) with
    | .ok f => (Dict.set files path (.geojson f), .ok ())
    | .error e => (files, .error e)
  else if upper format = ['P', 'N', 'G'] then
    match toPng env.known m.config.region (rowsOf m) params with
    | .ok d => (Dict.set files path (.png d), .ok ())
    | .error e => (files, .error e)
  else (files, .ok ())

/-- Models `/repo/meshiphi/cli.py` 119-155, `export_mesh_cli`: the default name of the output file, by the format. -/
def defaultOutput (format : List Char) : String :=
  if upper format = ['G', 'E', 'O', 'J', 'S', 'O', 'N'] then "mesh_geo.json"
  else if upper format = ['T', 'I', 'F'] then "mesh.tif"
  else if upper format = ['P', 'N', 'G'] then "mesh.png"
  else "mesh.json"

/-- Models `cli.py` 119-155, `export_mesh_cli`, from the parsed mesh on; the output is a name in the current directory. -/
def exportCli (env : Env) (j : MeshJson) (format : List Char) (output : Option String) (params : Option (Py JVal)) (files : Files) :
    Files × Py Unit :=
  match EnvMesh.fromJson j with
  | .error e => (files, .error e)
  | .ok m => save env m (env.cwd, output.getD (defaultOutput format)) format params files

end Verif.Export
