import Verif.Model.Boundary
import Mathlib.Analysis.SpecialFunctions.Trigonometric.Inverse

/-!
# Model of `Boundary.calc_size`, on real numbers

`/repo/meshiphi/mesh_generation/boundary.py` 320-338.  `math.sin`, `math.asin` and `math.sqrt` are the exact
functions here.
-/

namespace Verif

/-- `math.radians` (`boundary.py` 326). -/
noncomputable def radians (x : ℝ) : ℝ := x * Real.pi / 180

/-- The number `a` of `boundary.py` 331-333. -/
noncomputable def haversine (lon1 lat1 lon2 lat2 : ℝ) : ℝ :=
  Real.sin ((lat2 - lat1) / 2) ^ 2 + Real.cos lat1 * Real.cos lat2 * Real.sin ((lon2 - lon1) / 2) ^ 2

/-- Models `boundary.py` 320-338, `calc_size`. -/
noncomputable def Boundary.calcSize (b : Boundary) : ℝ :=
  let lon1 := radians b.longMin
  let lat1 := radians b.latMin
  let lon2 := radians b.longMax
  let lat2 := radians b.latMax
  let a := haversine lon1 lat1 lon2 lat2
  let c := 2 * Real.arcsin (Real.sqrt a)
  let m := 6371 * c * 1000
  m / Real.sqrt 2

end Verif
