import Verif.Model.Calendar
import Mathlib.Data.List.Dedup

/-!
# Model of `meshiphi/dataloaders/lut/density.py` and `thickness.py`

The polygon of a row is the region it comes from, cut to the mesh; it is represented by the name of that
region.  Whether the cut polygon is a non-empty (multi)polygon is a parameter `hit`.  The order of the
rows (`sort_index`) is not modelled.
-/

namespace Verif.Season

/-- The seasons `su`, `sp`, `au`, `wi` (`/repo/meshiphi/dataloaders/lut/density.py` 29-47). -/
inductive Name where
  | su | sp | au | wi
  deriving DecidableEq

/-- `northern_seasons` (`density.py` 30-35, `thickness.py` 10-15). -/
def northern : Dict ℕ Name :=
  [(1, .wi), (2, .wi), (12, .wi), (3, .sp), (4, .sp), (5, .sp), (6, .su), (7, .su), (8, .su), (9, .au), (10, .au), (11, .au)]

/-- `southern_seasons` (`density.py` 36-41, `thickness.py` 16-21). -/
def southern : Dict ℕ Name :=
  [(1, .su), (2, .su), (12, .su), (3, .au), (4, .au), (5, .au), (6, .wi), (7, .wi), (8, .wi), (9, .sp), (10, .sp), (11, .sp)]

/-- `densities` (`density.py` 43-48). -/
def densities : Name → ℚ
  | .su => 875
  | .sp => 900
  | .au => 900
  | .wi => 920

/-- The day after, by which `pd.date_range` proceeds (`density.py` 54). -/
def step (a : PyDate) : PyDate :=
  if a.d + 1 ≤ PyDate.daysInMonth a.y a.m then ⟨a.y, a.m, a.d + 1⟩
  else if a.m = 12 then ⟨a.y + 1, 1, 1⟩ else ⟨a.y, a.m + 1, 1⟩

/-- `n` days from `a` on.  See `/repo/meshiphi/dataloaders/lut/density.py` 54. -/
def days : ℕ → PyDate → List PyDate
  | 0, _ => []
  | n + 1, a => a :: days n (step a)

/-- `pd.date_range(start, end)`: both ends included (`density.py` 54, `thickness.py` 103-104). -/
def dateRange (a b : PyDate) : List PyDate := days (b.ordinal - a.ordinal + 1).toNat a

/-- A row of the table: day, region, value.
See `/repo/meshiphi/dataloaders/lut/density.py` 57-65 and `/repo/meshiphi/dataloaders/lut/thickness.py` 114-119. -/
abbrev Row := PyDate × String × ℚ

/-- One data frame of `density.py` 57-65: `densities[seasons[month]]` for each date. -/
def densityFrame (region : String) (seasons : Dict ℕ Name) (dates : List PyDate) : Py (List Row) :=
  dates.mapM (fun d => do
    let s ← seasons.get d.m
    return (d, region, densities s))

/-- `DensityDataLoader.import_data` (`density.py` 10-79). -/
def density (hit : String → Bool) (a b : PyDate) : Py (List Row) := do
  let dates := dateRange a b
  let n ← densityFrame "north" northern dates
  let s ← densityFrame "south" southern dates
  return ((n ++ s).filter (fun r => hit r.2.1)).dedup

/-- `Region` (`thickness.py` 26-35): name, values of the seasons, seasons of the months. -/
structure Region where
  name : String
  values : Name → ℚ
  seasons : Dict ℕ Name

/-- `Region.get_value` (`thickness.py` 37-48). -/
def Region.value (r : Region) (month : ℕ) : Py ℚ := do
  let s ← r.seasons.get month
  return r.values s

/-- `region_df` (`thickness.py` 114-119): for each month of the dates a frame with *all* the dates. -/
def regionFrame (dates : List PyDate) (r : Region) : Py (List Row) := do
  let frames ← (dates.map (·.m)).mapM (fun month => do
    let v ← r.value month
    return dates.map (fun d => (d, r.name, v)))
  return frames.flatten

/-- `ThicknessDataLoader.import_data` (`thickness.py` 50-126) for the given regions. -/
def thickness (regions : List Region) (hit : String → Bool) (a b : PyDate) : Py (List Row) := do
  let dates := dateRange a b
  let frames ← (regions.filter (fun r => hit r.name)).mapM (regionFrame dates)
  return frames.flatten.dedup

/-- The values of a region: winter, spring, summer, autumn (`thickness.py` 67-95). -/
def values (wi sp su au : ℚ) : Name → ℚ
  | .wi => wi
  | .sp => sp
  | .su => su
  | .au => au

/-- The regions (`thickness.py` 64-97). -/
def regions : List Region :=
  [⟨"Ross E", values 0.72 0.67 1.32 0.82, southern⟩,
   ⟨"Bellinghausen", values 0.65 0.79 2.14 0.79, southern⟩,
   ⟨"Weddell W", values 1.33 1.33 1.20 1.38, southern⟩,
   ⟨"Weddell E", values 0.54 0.89 0.87 0.44, southern⟩,
   ⟨"Indian", values 0.59 0.78 1.05 0.45, southern⟩,
   ⟨"West Pacific", values 0.72 0.68 1.17 0.75, southern⟩,
   ⟨"Ross W", values 0.72 0.67 1.32 0.82, southern⟩,
   ⟨"Baltic", values 0.3 0.3 0.3 0.3, northern⟩,
   ⟨"None", values 0.72 0.67 1.32 0.82, northern⟩]

/-- A polygon of the tables: a rectangle given as latitudes and longitudes, with rectangular holes.
See `/repo/meshiphi/dataloaders/lut/density.py` 26-27 and `/repo/meshiphi/dataloaders/lut/thickness.py` 64-97. -/
structure Area where
  name : String
  latMin : ℚ
  latMax : ℚ
  longMin : ℚ
  longMax : ℚ
  holes : List (ℚ × ℚ × ℚ × ℚ)

/-- The hemispheres (`density.py` 26-27). -/
def hemispheres : List Area := [⟨"north", 0, 90, -180, 180, []⟩, ⟨"south", -90, 0, -180, 180, []⟩]

/-- The polygons of the regions (`thickness.py` 64-97). -/
def regionAreas : List Area :=
  [⟨"Ross E", -90, 0, -180, -130, []⟩,
   ⟨"Bellinghausen", -90, 0, -130, -60, []⟩,
   ⟨"Weddell W", -90, 0, -60, -45, []⟩,
   ⟨"Weddell E", -90, 0, -45, 20, []⟩,
   ⟨"Indian", -90, 0, 20, 90, []⟩,
   ⟨"West Pacific", -90, 0, 90, 160, []⟩,
   ⟨"Ross W", -90, 0, 160, 180, []⟩,
   ⟨"Baltic", 54, 66, 12, 32, []⟩,
   ⟨"None", 0, 90, -180, 180, [(54, 66, 12, 32)]⟩]

end Verif.Season
