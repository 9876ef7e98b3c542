import Verif.Model.Config
import Verif.Model.Factory
import Verif.Model.Importers
import Verif.Model.Forecast
import Verif.Model.EnvMesh
import Verif.Model.LutInit

/-!
# Model of the parameters of data loaders, of the configuration that a mesh keeps, and of the commands

`/repo/meshiphi/dataloaders/factory.py` with the methods `add_default_params` of all loaders,
`/repo/meshiphi/mesh_generation/mesh_builder.py` 45-184 as far as the configuration is read and changed, and the commands
`create_mesh`, `rebuild_mesh` and `merge_mesh` of `/repo/meshiphi/cli.py`.

Parameters are JSON values.  A tuple is written to JSON as a list, so both are `arr`; the code only takes items of it.  What
loaders do with their parameters and how cells are made from them is left to a parameter (`World`).  Names are ASCII.
-/

namespace Verif.Params
open Verif.Config

/-- A text as a JSON value (`/repo/meshiphi/dataloaders/scalar/abstract_scalar.py` 143). -/
def text (s : String) : JVal := .str s.toList

/-- `if key not in params: params[key] = value` (`abstract_scalar.py` 133-161). -/
def dflt (p : Dict String JVal) (k : String) (v : JVal) : Dict String JVal :=
  match Dict.get? p k with
  | some _ => p
  | none => Dict.set p k v

/-- Models `abstract_scalar.py` 118-163 and `/repo/meshiphi/dataloaders/vector/abstract_vector.py` 120-166,
`add_default_params`, for the class `cls`. -/
def baseDefaults (cls : String) (p : Dict String JVal) : Dict String JVal :=
  let p := dflt p "dataloader_name" (text cls)
  let p := dflt p "data_name" .null
  let p := dflt p "downsample_factors" (.arr [.int 1, .int 1])
  let p := dflt p "aggregate_type" (text "MEAN")
  let p := dflt p "min_dp" (.int 5)
  let p := dflt p "in_proj" (text "EPSG:4326")
  let p := dflt p "out_proj" (text "EPSG:4326")
  let p := dflt p "x_col" (text "lat")
  let p := dflt p "y_col" (text "long")
  dflt p "fast_reprojection" (.bool false)

/-- `v == True` (`/repo/meshiphi/dataloaders/scalar/scalar_grf.py` 36). -/
def eqTrue : JVal → Bool
  | .bool b => b
  | .int n => n = 1
  | .flt (some q) => q = 1
  | _ => false

/-- `v is None` (`scalar_grf.py` 37). -/
def isNull : JVal → Bool
  | .null => true
  | _ => false

/-- `v == s` for a text (`/repo/meshiphi/dataloaders/scalar/shape.py` 40). -/
def isText (s : String) : JVal → Bool
  | .str l => l = s.toList
  | _ => false

/-- `if params['data_name'] is None: params['data_name'] = name` (`scalar_grf.py` 37-38). -/
def nameDefault (p : Dict String JVal) (name : String) : Py (Dict String JVal) := do
  if isNull (← Dict.get p "data_name") then return Dict.set p "data_name" (text name) else return p

/-- Models `scalar_grf.py` 10-62, `add_default_params`. -/
def grfDefaults (cls : String) (p : Dict String JVal) : Py (Dict String JVal) := do
  let p := baseDefaults cls p
  let p := dflt p "seed" .null
  let p := dflt p "size" (.int 512)
  let p := dflt p "alpha" (.int 3)
  if eqTrue (← Dict.get p "binary") then
    let p ← nameDefault p "binary_data"
    let p := dflt p "min" (.int 0)
    let p := dflt p "max" (.int 1)
    return dflt p "threshold" (.flt (some (1 / 2)))
  else
    let p ← nameDefault p "scalar_data"
    let p := dflt p "min" (.int (-10))
    let p := dflt p "max" (.int 10)
    let p := dflt p "threshold" (.arr [.int 0, .int 1])
    let p := dflt p "multiplier" (.int 1)
    return dflt p "offset" (.int 0)

/-- Models `/repo/meshiphi/dataloaders/scalar/amsr.py` 8-39, `add_default_params`. -/
def amsrDefaults (cls : String) (p : Dict String JVal) : Py (Dict String JVal) := do
  let p := baseDefaults cls p
  let h := (← asStr (← Dict.get p "hemisphere")).map Char.toLower
  let p ← if h = "north".toList then .ok (Dict.set p "in_proj" (text "EPSG:3411"))
    else if h = "south".toList then .ok (Dict.set p "in_proj" (text "EPSG:3412"))
    else .error .valueError
  return Dict.set (Dict.set p "x_col" (text "x")) "y_col" (text "y")

/-- `if key not in params: params[other] = 1` (`shape.py` 49-50): with `other` another key. -/
def misDefault (p : Dict String JVal) (k other : String) : Dict String JVal :=
  match Dict.get? p k with
  | some _ => p
  | none => Dict.set p other (.int 1)

/-- The defaults of the shapes that both classes know (`shape.py` 39-56 and
`/repo/meshiphi/dataloaders/vector/vector_shape.py` 39-56). -/
def namedDefaults (name : JVal) (p : Dict String JVal) : Dict String JVal :=
  if isText "circle" name then dflt (dflt p "radius" (.int 1)) "centre" (.arr [.null, .null])
  else if isText "rectangle" name then
    dflt (misDefault (dflt p "width" (.int 1)) "height" "width") "centre" (.arr [.null, .null])
  else if isText "gradient" name then dflt p "vertical" (.bool true)
  else p

/-- Models `shape.py` 11-62, `add_default_params`. -/
def shapeDefaults (cls : String) (p : Dict String JVal) : Py (Dict String JVal) := do
  let p := baseDefaults cls p
  let p := dflt p "nx" (.int 101)
  let p := dflt p "ny" (.int 101)
  let p := dflt p "multiplier" (.int 1)
  let name ← Dict.get p "dataloader_name"
  if isText "checkerboard" name then return dflt p "gridsize" (.arr [.int 1, .int 1])
  else return namedDefaults name p

/-- Models `vector_shape.py` 10-58, `add_default_params`.  The names in the tests are those of the scalar shapes. -/
def vectorShapeDefaults (cls : String) (p : Dict String JVal) : Py (Dict String JVal) := do
  let p := baseDefaults cls p
  let p := dflt p "nx" (.int 101)
  let p := dflt p "ny" (.int 101)
  let p := misDefault p "multiplier_u" "multiplier"
  let p := misDefault p "multiplier_v" "multiplier"
  let name ← Dict.get p "dataloader_name"
  return namedDefaults name p

/-- `s.split(',')` (`/repo/meshiphi/dataloaders/vector/vector_grf.py` 39). -/
def splitComma : List Char → List (List Char)
  | [] => [[]]
  | c :: l => if c = ',' then [] :: splitComma l else
    match splitComma l with
    | [] => [[c]]
    | w :: ws => (c :: w) :: ws

/-- `if key not in params: params[key] = params['data_name'].split(',')[i]` (`vector_grf.py` 38-41). -/
def splitDefault (p : Dict String JVal) (k : String) (i : ℕ) : Py (Dict String JVal) :=
  match Dict.get? p k with
  | some _ => .ok p
  | none => do
    match (splitComma (← asStr (← Dict.get p "data_name")))[i]? with
    | some w => return Dict.set p k (.str w)
    | none => .error .indexError

/-- Models `vector_grf.py` 10-48, `add_default_params`. -/
def vectorGrfDefaults (cls : String) (p : Dict String JVal) : Py (Dict String JVal) := do
  let p := baseDefaults cls p
  let p := dflt p "seed" .null
  let p := dflt p "size" (.int 512)
  let p := dflt p "alpha" (.int 3)
  let p ← nameDefault p "uC,vC"
  let p ← splitDefault p "vec_x" 0
  let p ← splitDefault p "vec_y" 1
  return dflt (dflt p "min" (.int 0)) "max" (.int 10)

/-- The method `add_default_params` that the constructor of a class calls (`abstract_scalar.py` 46, `abstract_vector.py` 42,
`/repo/meshiphi/dataloaders/lut/abstract_lut.py` 44). -/
def classDefaults (cls : String) (p : Dict String JVal) : Py (Dict String JVal) :=
  if cls = "ScalarGRFDataLoader" then grfDefaults cls p
  else if cls = "AMSRDataLoader" then amsrDefaults cls p
  else if cls = "ShapeDataLoader" then shapeDefaults cls p
  else if cls = "VectorGRFDataLoader" then vectorGrfDefaults cls p
  else if cls = "VectorShapeDataLoader" then vectorShapeDefaults cls p
  else if cls ∈ ["LutGeoJSON", "LutShapefile"] then .ok (LutInit.addFileDefaults cls p)
  else if cls ∈ ["ThicknessDataLoader", "DensityDataLoader", "ScotlandNCMPA", "LutCSV"] then .ok (LutInit.addDefaults cls p)
  else .ok (baseDefaults cls p)

/-- Models `factory.py` 144-160, `translate_file_input`; `listing` gives the sorted content of a folder.  `os.path.join` takes
only texts. -/
def translate (listing : List Char → List (List Char)) (p : Dict String JVal) : Py (Dict String JVal) :=
  match Dict.get? p "file" with
  | some v => .ok (Dict.del (Dict.set p "files" (.arr [v])) "file")
  | none =>
    match Dict.get? p "folder" with
    | some (.str f) => .ok (Dict.del (Dict.set p "files" (.arr ((listing f).map .str))) "folder")
    | some _ => .error .typeError
    | none => .ok p

/-- Models `factory.py` 48-141, `get_dataloader`, up to the call of the constructor, and the first line of the constructors
(`abstract_scalar.py` 46): the class and the parameters that become its attributes.  `params` is changed in place. -/
def complete (listing : List Char → List (List Char)) (name params minDp : JVal) : Py (String × Dict String JVal) := do
  let name := (← asStr name).map Char.toLower
  match params with
  | .obj p =>
    let p ← translate listing p
    let p := Dict.set p "dataloader_name" (.str name)
    let p := Dict.set p "min_dp" minDp
    match Dict.get? Factory.table (String.ofList name) with
    | none => .error .valueError
    | some (cls, required) =>
      if required.all (fun k => (Dict.get? p k).isSome) then return (cls, ← classDefaults cls p) else .error .assertionError
  | _ => .error .typeError

/-- The classes whose files are chosen by the date in the name (`/repo/meshiphi/dataloaders/scalar/era5_sig_wave_height.py` 24-27 and
the other files named at `Importers.inRange`). -/
def dated : List String :=
  ["ERA5SigWaveHeightDataLoader", "ERA5MaxWaveHeightDataLoader", "ERA5MeanWaveDirDataLoader", "ERA5WavePeriodDataLoader", "ERA5WindMagDataLoader",
    "ERA5WindDirDataLoader", "ERA5WindDataLoader", "ERA5WaveDirectionLoader", "DuacsCurrentDataLoader"]

/-- `for x in v` (`era5_sig_wave_height.py` 24): the items of a list, the letters of a text, the keys of a dictionary. -/
def items : JVal → Py (List JVal)
  | .arr l => .ok l
  | .str s => .ok (s.map (fun c => .str [c]))
  | .obj d => .ok (d.map (fun p => text p.1))
  | _ => .error .typeError

/-- The names of files (`era5_sig_wave_height.py` 26, `amsr.py` 60): anything else raises `err`. -/
def fileNames (err : Err) (v : JVal) : Py (List (List Char)) := do
  (← items v).mapM (fun f => match f with | .str s => .ok s | _ => .error err)

/-- What is outside of the code that is modelled here: the content of folders (`factory.py` 158), the dates in the names of ECMWF files
(`/repo/meshiphi/dataloaders/scalar/ecmwf_sig_wave_height.py` 21-43), the rest of the constructors (`abstract_scalar.py` 47-95), which
sees the parameters without the files, the files and, where a seed is missing, random numbers; the name of the data
(`abstract_scalar.py` 69-75), which texts are numbers (`mesh_builder.py` 225), and how cells and their graph are made
(`mesh_builder.py` 98-139, 587-626). -/
structure World (L R : Type) where
  listing : List Char → List (List Char)
  base : String → ℤ
  lead : String → ℤ
  make : String → Boundary → Dict String JVal → Option JVal → Option R → Py L
  dataName : L → String
  floatStr : List Char → Bool
  grow : Boundary → ℚ → ℚ → JVal → JVal → List (L × List JVal × JVal) → Py (JVal × JVal)

variable {L R : Type}

/-- What importing data makes of `self.files` (`era5_sig_wave_height.py` 24-27, `amsr.py` 73-98, `ecmwf_sig_wave_height.py` 57-95);
in all other classes it stays as it is. -/
def select (w : World L R) (cls : String) (b : Boundary) (files : JVal) : Py JVal :=
  if cls ∈ dated then do
    let l ← Importers.filesInRange b (← fileNames .typeError files)
    return .arr (l.map .str)
  else if cls = "AMSRDataLoader" then do
    let l ← Importers.amsrFiles b (← fileNames .attributeError files)
    return .arr (l.map .str)
  else if cls = "ECMWFSigWaveHeightDataLoader" then do
    let l ← fileNames .typeError files
    match b.time with
    | [t0, t1] =>
      let used ← Forecast.ecmwf w.base w.lead (l.map String.ofList) (24 * t0) (24 * t1)
      return .arr (used.map (fun f => .str f.1.toList))
    | _ => .error .indexError
  else .ok files

/-- `np.random.seed(self.seed)` (`scalar_grf.py` 105, `vector_grf.py` 76): random numbers are drawn anew where the seed is `None`. -/
def drawn (cls : String) (p : Dict String JVal) (r : R) : Option R :=
  if cls ∈ ["ScalarGRFDataLoader", "VectorGRFDataLoader"] ∧ (Dict.get? p "seed").all isNull then some r else none

/-- Models the constructors (`abstract_scalar.py` 20-95, `abstract_vector.py` 19-97, `abstract_lut.py` 19-87): the loader and its
attribute `files`, if it has one. -/
def construct (w : World L R) (r : R) (cls : String) (b : Boundary) (p : Dict String JVal) : Py (L × Option JVal) :=
  match Dict.get? p "files" with
  | some f => do
    let f ← select w cls b f
    return (← w.make cls b (Dict.del p "files") (some f) (drawn cls p r), some f)
  | none => return (← w.make cls b p none (drawn cls p r), none)

/-- Models `mesh_builder.py` 167-172: the splitting conditions of a source. -/
def conds (name : String) (p : Dict String JVal) : Py (List JVal) :=
  match Dict.get? p "splitting_conditions" with
  | none => .ok []
  | some v => do (← items v).mapM (fun c => getItem c name)

/-- Models `mesh_builder.py` 220-235, `check_value_fill_type`. -/
def fill (floatStr : List Char → Bool) (p : Dict String JVal) : Py JVal :=
  match Dict.get? p "value_fill_types" with
  | none => .ok (text "parent")
  | some .null => .ok (text "parent")
  | some (.str s) => .ok (if floatStr s || s = "parent".toList || s = "Nan".toList then .str s else text "parent")
  | some (.arr _) => .error .typeError
  | some (.obj _) => .error .typeError
  | some v => .ok v

/-- Models the loop body of `mesh_builder.py` 161-182: the metadata, and the source as it is left in the configuration. -/
def initSource (w : World L R) (r : R) (b : Boundary) (minDp : JVal) (source : JVal) : Py ((L × List JVal × JVal) × JVal) := do
  let (cls, p) ← complete w.listing (← getItem source "loader") (← getItem source "params") minDp
  let (l, files) ← construct w r cls b p
  let cs ← conds (w.dataName l) p
  let v ← fill w.floatStr p
  let p := match files with
    | some f => Dict.set p "files" f
    | none => p
  return ((l, cs, v), ← setItem source "params" (.obj p))

/-- Models `mesh_builder.py` 141-184, `initialize_meta_data`, with the configuration that it leaves. -/
def initSources (w : World L R) (r : R) (b : Boundary) (minDp : JVal) (config : JVal) : Py (List (L × List JVal × JVal) × JVal) :=
  if hasKey config "data_sources" then do
    match ← getItem config "data_sources" with
    | .arr l =>
      let l ← l.mapM (initSource w r b minDp)
      return (l.map Prod.fst, ← setItem config "data_sources" (.arr (l.map Prod.snd)))
    | _ => .error .typeError
  else .ok ([], config)

/-- `config['splitting'][k]` or the default (`mesh_builder.py` 107-109, 134-136). -/
def splittingOr (config : JVal) (k : String) (d : ℤ) : Py JVal :=
  if hasKey config "splitting" then do getItem (← getItem config "splitting") k else .ok (.int d)

/-- Models `mesh_builder.py` 45-139 and 604-626, `MeshBuilder(config).build_environmental_mesh()`: the cells and the graph, as they are
written to JSON, and the configuration that the mesh keeps. -/
def build (w : World L R) (r : R) (read : List Char → Py JVal) (new pad : Bool) (now : ℚ) (config : JVal) : Py (JVal × JVal × JVal) := do
  let (b, width, height, config) ← prepare read new pad now config
  let minDp ← splittingOr config "minimum_datapoints" 5
  let (sources, config) ← initSources w r b minDp config
  let depth ← splittingOr config "split_depth" 0
  let (cells, graph) ← w.grow b width height minDp depth sources
  return (cells, graph, config)

/-! ## Commands -/

/-- The files of the current directory: a JSON value, or `none` where the content is something else
(`/repo/meshiphi/cli.py` 85). -/
abbrev Files := Dict String (Option JVal)

/-- `json.load` of a file (`cli.py` 85, 108): `ValueError` where it is not JSON.  Where a file does not exist the parser of the
arguments ends the program (`argparse.FileType`, 45), which is taken as `FileNotFoundError`. -/
def load (files : Files) (name : String) : Py JVal :=
  match Dict.get? files name with
  | none => .error .fileNotFound
  | some none => .error .valueError
  | some (some j) => .ok j

/-- `EnvironmentMesh.to_json` (`/repo/meshiphi/mesh_generation/environment_mesh.py` 1092-1111). -/
def meshJson (cells graph config : JVal) : JVal :=
  .obj [("config", .obj [("mesh_info", config)]), ("cellboxes", cells), ("neighbour_graph", graph)]

/-- `json.dump(result, open(output, "w"))` after the result has been computed (`cli.py` 94, 115, 198). -/
def write (files : Files) (output : String) (result : Py JVal) : Files × Py Unit :=
  match result with
  | .error e => (files, .error e)
  | .ok j => (Dict.set files output (some j), .ok ())

/-- Models `cli.py` 99-115, `create_mesh_cli`. -/
def createCli (w : World L R) (r : R) (read : List Char → Py JVal) (new pad : Bool) (now : ℚ) (config : String) (output : Option String)
    (files : Files) : Files × Py Unit :=
  write files (output.getD "create_mesh.output.json") (do
    let (cells, graph, config) ← build w r read new pad now (← load files config)
    return meshJson cells graph config)

/-- Models `cli.py` 76-94, `rebuild_mesh_cli`. -/
def rebuildCli (w : World L R) (r : R) (read : List Char → Py JVal) (new pad : Bool) (now : ℚ) (mesh : String) (output : Option String)
    (files : Files) : Files × Py Unit :=
  write files (output.getD "rebuild_mesh.output.json") (do
    let config ← getItem (← getItem (← load files mesh) "config") "mesh_info"
    let (cells, graph, config) ← build w r read new pad now config
    return meshJson cells graph config)

/-- `EnvironmentMesh.load_from_json(json.load(f))` (`cli.py` 170-172, 182-184, 189-191); `parse` takes a JSON value as a mesh. -/
def loadMesh (parse : JVal → Py MeshJson) (files : Files) (name : String) : Py EnvMesh := do
  EnvMesh.fromJson (← parse (← load files name))

/-- The meshes to merge with (`cli.py` 174-193): one file, or the files of a directory in the order of `listdir`. -/
inductive MergeArg where
  | file (name : String)
  | directory (names : List String)

/-- The names of the files to merge with (`cli.py` 178, 189). -/
def MergeArg.names : MergeArg → List String
  | .file name => [name]
  | .directory names => names

/-- Models `cli.py` 158-198, `merge_mesh_cli`; `print` gives the JSON value of a mesh. -/
def mergeCli (parse : JVal → Py MeshJson) (print : MeshJson → JVal) (mesh : String) (arg : MergeArg) (output : Option String) (files : Files) :
    Files × Py Unit :=
  write files (output.getD "merged_mesh.output.json") (do
    let m ← loadMesh parse files mesh
    let m ← arg.names.foldlM (fun m name => do return (← EnvMesh.mergeMesh m (← loadMesh parse files name)).1) m
    return print m.toJson)

/-- Models `cli.py` 252-277, the arguments of `meshiphi_test_cli`: the branches to compare, from and into, and whether regression and unit tests
are run. -/
def testArgs (branchA : String) (branchB : Option String) (regression unit : Bool) : Option String × String × Bool × Bool :=
  let both := !(regression ^^ unit)
  match branchB with
  | some b => (some branchA, b, both || regression, both || unit)
  | none => (none, branchA, both || regression, both || unit)

end Verif.Params
