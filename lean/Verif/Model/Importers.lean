import Verif.Model.Data
import Verif.Model.TimeStr
import Verif.Model.Vector
import Mathlib.Analysis.SpecialFunctions.Complex.Arg

/-!
# Model of the importers

`import_data` of `/repo/meshiphi/dataloaders/scalar/*.py` and `/repo/meshiphi/dataloaders/vector/*.py`: which files are read, how
longitudes and latitudes are brought to the standard form, how values are converted, and the first trimming.

Simplified: opening files is a function from the names of files to a grid; NetCDF datasets have distinct
coordinates (`notImplemented` where two longitudes fall together after wrapping); angles and roots are over the
real numbers; trimming is `Dataset.trim` of `Data`.  AMSR data, which is projected afterwards, is modelled up to the choice
of its files.
-/

namespace Verif.Importers

variable {V W : Type}

/-! ## Files -/

/-- `os.path.basename`: the text after the last `/`.  See `/repo/meshiphi/dataloaders/scalar/era5_sig_wave_height.py` 26. -/
def basename (l : List Char) : List Char := (l.reverse.takeWhile (· ≠ '/')).reverse

/-- `basename(file)[10:-3]` (`/repo/meshiphi/dataloaders/scalar/era5_sig_wave_height.py` 26). -/
def dateField (file : List Char) : List Char :=
  let b := basename file
  (b.take (b.length - 3)).drop 10

/-- `datetime.strptime(s, "%Y-%m-%d")` as a day number.  See `/repo/meshiphi/dataloaders/scalar/era5_sig_wave_height.py` 21, 26. -/
def dayOf (s : List Char) : Py ℤ :=
  match TimeStr.strptime s with
  | some d => .ok d.ordinal
  | none => .error .valueError

/-- The condition of `era5_sig_wave_height.py` 24-27 (also in `era5_max_wave_height.py` 25-28,
`era5_mean_wave_direction.py` 23-26, `era5_wave_period.py` 24-27, `era5_wind_dir.py` 25-28, `era5_wind_mag.py` 25-28,
`/repo/meshiphi/dataloaders/vector/duacs_current.py` 28-31, `era5_wave_direction_vector.py` 31-34, `era5_wind.py` 27-30): operands from
the left. -/
def inRange (time : List ℤ) (file : List Char) : Py Bool :=
  match time with
  | [] => .error .indexError
  | t0 :: rest => do
    let d ← dayOf (dateField file)
    if t0 ≤ d then
      match rest with
      | [] => .error .indexError
      | t1 :: _ => return decide (d ≤ t1)
    else return false

/-- A comprehension with a condition that may raise.  See `/repo/meshiphi/dataloaders/scalar/era5_sig_wave_height.py` 24-27. -/
def filterPy {α : Type} (p : α → Py Bool) : List α → Py (List α)
  | [] => .ok []
  | a :: l => do
    let k ← p a
    let r ← filterPy p l
    return if k then a :: r else r

/-- The files within the time range (same lines as `inRange`).  See `/repo/meshiphi/dataloaders/scalar/era5_sig_wave_height.py` 24-27. -/
def filesInRange (b : Boundary) (files : List (List Char)) : Py (List (List Char)) := filterPy (inRange b.time) files

/-- `xr.open_dataset` or `xr.open_mfdataset` (`era5_sig_wave_height.py` 29-30): `OSError` without files. -/
def openFiles (read : List (List Char) → Py W) (files : List (List Char)) : Py W :=
  if files = [] then .error .osError else read files

/-- `s.split('-')`.  See `/repo/meshiphi/dataloaders/scalar/amsr.py` 60. -/
def splitDash : List Char → List (List Char)
  | [] => [[]]
  | c :: l => if c = '-' then [] :: splitDash l else
    match splitDash l with
    | [] => [[c]]
    | w :: ws => (c :: w) :: ws

/-- Models `/repo/meshiphi/dataloaders/scalar/amsr.py` 55-62, `retrieve_date`. -/
def amsrDate (file : List Char) : Py (List Char) :=
  match (splitDash file).reverse with
  | _ :: d :: _ => .ok (d.take 4 ++ '-' :: ((d.take 6).drop 4) ++ '-' :: d.drop 6)
  | _ => .error .indexError

/-- Models `amsr.py` 77-86: whether a file is used. -/
def amsrInRange (b : Boundary) (file : List Char) : Py Bool := do
  let d ← amsrDate file
  match b.time with
  | [] => .error .indexError
  | t0 :: rest =>
    let d ← dayOf d
    if t0 ≤ d then
      match rest with
      | [] => .error .indexError
      | t1 :: _ => return decide (d ≤ t1)
    else return false

/-- Models `amsr.py` 73-92: the files that are read. -/
def amsrFiles (b : Boundary) (files : List (List Char)) : Py (List (List Char)) := do
  let l ← filterPy (amsrInRange b) files
  if l = [] then .error .fileNotFound else return l

/-- Models `amsr.py` 8-39, `add_default_params`: the projection of the data. -/
def amsrProj (hemisphere : Option String) : Py String :=
  match hemisphere with
  | none => .error .keyError
  | some h =>
    if h.toLower = "north" then .ok "EPSG:3411"
    else if h.toLower = "south" then .ok "EPSG:3412"
    else .error .valueError

/-! ## Axes -/

/-- `((long + 180) % 360) - 180` (`era5_sig_wave_height.py` 35, `bsose_depth.py` 28, `bsose_sea_ice.py` 36). -/
def wrapLong (x : ℚ) : ℚ := pyMod (x + 180) 360 - 180

/-- The longitude in the file that was moved to `x`.  See `/repo/meshiphi/dataloaders/scalar/era5_sig_wave_height.py` 35-37. -/
def unwrap (longs : List ℚ) (x : ℚ) : ℚ := (longs.find? (fun o => wrapLong o = x)).getD x

/-- Models `era5_sig_wave_height.py` 34-37 (also `bsose_depth.py` 27-30, `bsose_sea_ice.py` 35-38 and others): new labels of
the longitudes, then sorting. -/
def wrapGrid (g : Grid V) : Py (Grid V) :=
  if (g.longs.map wrapLong).Nodup then
    .ok { g with longs := (g.longs.map wrapLong).insertionSort (· ≤ ·), val := fun y x t => g.val y (unwrap g.longs x) t }
  else .error .notImplemented

/-- Models `data.reindex(lat=data.lat[::-1])` (`era5_sig_wave_height.py` 42, `baltic_sea_ice.py` 29): duplicates raise
`ValueError`. -/
def flipLats (g : Grid V) : Py (Grid V) :=
  if g.lats.Nodup then .ok { g with lats := g.lats.reverse } else .error .valueError

/-- Converting the values, leaving the coordinates.  See `/repo/meshiphi/dataloaders/scalar/era5_wind_mag.py` 41-42. -/
def mapVals (f : V → W) (g : Grid V) : Grid W := ⟨g.lats, g.longs, g.times, fun y x t => f (g.val y x t)⟩

/-! ## Grids -/

/-- Models `/repo/meshiphi/dataloaders/scalar/era5_sig_wave_height.py` 8-46 (and `era5_max_wave_height.py` 9-46,
`era5_mean_wave_direction.py` 7-44, `era5_wave_period.py` 8-45 with `f = id`; `era5_wind_mag.py` 9-50, `era5_wind_dir.py` 9-50,
`/repo/meshiphi/dataloaders/vector/era5_wave_direction_vector.py` 14-67 with the functions below). -/
def era5 (f : V → W) (read : List (List Char) → Py (Grid V)) (files : List (List Char)) (b : Boundary) : Py (List (List Char) × Grid W) := do
  let files ← filesInRange b files
  let g ← openFiles read files
  let g ← wrapGrid g
  let g ← flipLats (mapVals f g)
  let g ← g.trim b
  return (files, g)

/-- Models `/repo/meshiphi/dataloaders/vector/era5_wind.py` 11-49: the longitudes are left as they are; the time computed
at 40-41 is not used. -/
def era5Wind (read : List (List Char) → Py (Grid V)) (files : List (List Char)) (b : Boundary) : Py (List (List Char) × Grid V) := do
  let files ← filesInRange b files
  let g ← openFiles read files
  let _ ← (match b.time with | [] => .error .indexError | t :: _ => .ok t : Py ℤ)
  let g ← flipLats g
  let g ← g.trim b
  return (files, g)

/-- Models `/repo/meshiphi/dataloaders/vector/duacs_current.py` 11-49. -/
def duacs (read : List (List Char) → Py (Grid V)) (files : List (List Char)) (b : Boundary) : Py (List (List Char) × Grid V) := do
  let files ← filesInRange b files
  let g ← openFiles read files
  let g ← g.trim b
  return (files, g)

/-- Models `/repo/meshiphi/dataloaders/scalar/gebco.py` 7-28 and `/repo/meshiphi/dataloaders/vector/north_sea_current.py` 8-36. -/
def plainGrid (read : List (List Char) → Py (Grid V)) (files : List (List Char)) (b : Boundary) : Py (Grid V) := do
  let g ← openFiles read files
  g.trim b

/-- Models `/repo/meshiphi/dataloaders/scalar/baltic_sea_ice.py` 7-33. -/
def balticIce (read : List (List Char) → Py (Grid V)) (files : List (List Char)) (b : Boundary) : Py (Grid V) := do
  let g ← openFiles read files
  let g ← flipLats g
  g.trim b

/-- Models `/repo/meshiphi/dataloaders/scalar/bsose_depth.py` 6-40. -/
def bsoseDepth (read : List (List Char) → Py (Grid (Option ℚ))) (files : List (List Char)) (b : Boundary) : Py (Grid (Option ℚ)) := do
  let g ← openFiles read files
  let g ← wrapGrid g
  (mapVals (fun d => d.map (fun x => -1 * x)) g).trim b

/-- Models `/repo/meshiphi/dataloaders/scalar/bsose_sea_ice.py` 8-57; `units` is the attribute of this name, if there is one. -/
def bsoseIce (units : Option String) (read : List (List Char) → Py (Grid (Option ℚ))) (files : List (List Char)) (b : Boundary) :
    Py (Grid (Option ℚ)) := do
  let g ← openFiles read files
  let g ← wrapGrid g
  let g ← g.trim b
  match units with
  | none => return mapVals (fun d => d.map (fun x => x * 100)) g
  | some u =>
    if u = "percentage" then return mapVals (fun d => d.map (fun x => x * 100)) g
    else if u = "fraction" then return g
    else .error .valueError

/-- `data.mean(dim="time")` of vectors: each component over the times with a value.  See `/repo/meshiphi/dataloaders/vector/baltic_current.py` 40. -/
def meanTime (g : Grid Vec) : Py (Grid Vec) :=
  match g.times with
  | none => .error .valueError
  | some ts => .ok ⟨g.lats, g.longs, none, fun y x _ =>
      (listMean (ts.filterMap (fun t => (g.val y x t).1)), listMean (ts.filterMap (fun t => (g.val y x t).2)))⟩

/-- Models `/repo/meshiphi/dataloaders/vector/baltic_current.py` 9-42; the grid is the layer of least depth index. -/
def balticCurrent (read : List (List Char) → Py (Grid Vec)) (files : List (List Char)) (b : Boundary) : Py (Grid Vec) := do
  let g ← openFiles read files
  let g ← g.trim b
  meanTime g

/-- Models `data.where(data.cloud != 1, drop=True)` (`/repo/meshiphi/dataloaders/scalar/modis.py` 29) on pairs of ice and cloud:
values under cloud are lost, and so are latitudes and longitudes entirely under cloud. -/
def clearSky (g : Grid (Option ℚ × Option ℚ)) : Grid (Option ℚ × Option ℚ) :=
  let ts := g.times.getD [0]
  let clear := fun y x t => decide ((g.val y x t).2 ≠ some 1)
  { lats := g.lats.filter (fun y => g.longs.any (fun x => ts.any (fun t => clear y x t)))
    longs := g.longs.filter (fun x => g.lats.any (fun y => ts.any (fun t => clear y x t)))
    times := g.times.map (fun ts => ts.filter (fun t => g.lats.any (fun y => g.longs.any (fun x => clear y x t))))
    val := fun y x t => if clear y x t then g.val y x t else (none, none) }

/-- Models `modis.py` 8-33: `hasFile` says whether there is an attribute `file` (it is logged). -/
def modis (hasFile : Bool) (read : List (List Char) → Py (Grid (Option ℚ × Option ℚ))) (files : List (List Char)) (b : Boundary) :
    Py (Grid (Option ℚ × Option ℚ)) := do
  if hasFile then
    let g ← openFiles read files
    (clearSky g).trim b
  else .error .attributeError

/-! ## Tables -/

/-- Models `/repo/meshiphi/dataloaders/scalar/scalar_csv.py` 6-28 and `/repo/meshiphi/dataloaders/vector/vector_csv.py` 6-28: without
files `pd.concat` raises `ValueError`. -/
def csv (read : List Char → Py (Table V)) (files : List (List Char)) (b : Boundary) : Py (Table V) := do
  let l ← files.mapM read
  match l with
  | [] => .error .valueError
  | t :: ts => Table.trim b ⟨t.hasTime, (t :: ts).flatMap Table.rows⟩

/-- `lambda x: x-360 if x>180 else x` (`/repo/meshiphi/dataloaders/vector/sose.py` 28). -/
def soseLong (x : ℚ) : ℚ := if x > 180 then x - 360 else x

/-- Models `sose.py` 6-34. -/
def sose (read : List (List Char) → Py (Grid V)) (files : List (List Char)) (b : Boundary) : Py (Table V) := do
  let g ← openFiles read files
  Table.trim b ⟨false, g.rows.map (fun r => { r with long := soseLong r.long })⟩

/-! ## Values -/

/-- `np.mod` of real numbers.  See `/repo/meshiphi/dataloaders/scalar/era5_wind_dir.py` 41. -/
noncomputable def fmod (x m : ℝ) : ℝ := x - m * ⌊x / m⌋

/-- Models `/repo/meshiphi/dataloaders/scalar/era5_wind_dir.py` 41-42. -/
noncomputable def windDir (u v : ℝ) : ℝ := fmod (180 + 180 / Real.pi * (Complex.mk u v).arg) 360

/-- Models `/repo/meshiphi/dataloaders/scalar/era5_wind_mag.py` 41-42. -/
noncomputable def windMag (u v : ℝ) : ℝ := Real.sqrt (u ^ 2 + v ^ 2)

/-- Models `/repo/meshiphi/dataloaders/vector/era5_wave_direction_vector.py` 48-51. -/
noncomputable def waveVector (mwd : ℝ) : ℝ × ℝ :=
  let r := mwd * (Real.pi / 180)
  (-1 * Real.sin r, -1 * Real.cos r)

/-! ## Charts -/

/-- What `import_data` of `visual_iced.py` does with the file.  See `/repo/meshiphi/dataloaders/scalar/visual_iced.py` 9-84. -/
inductive IcedFile where
  | tiff | nc | other
  deriving DecidableEq, Repr

/-- Models `/repo/meshiphi/dataloaders/scalar/visual_iced.py` 9-84: percentages; `none` for a file of another type, `ValueError` for several
files. -/
def visualIced (kind : List Char → IcedFile) (read : List Char → Py (Grid (Option ℚ))) (files : List (List Char)) : Py (Option (Grid (Option ℚ))) :=
  match files with
  | [f] => do
    let g ← read f
    match kind f with
    | .other => return none
    | _ => return some (mapVals (fun d => d.map (fun x => x * 100)) g)
  | _ => .error .valueError

end Verif.Importers
