import Verif.Model.EnvMesh

/-!
# Model of the GeoTIFF export of `environment_mesh.py` (`to_tif`, 1199-1421)

What is written: the array of pixel values and the geotransform.  The colouring and reprojection of the
written file by GDAL, and the rounding of the values to 32 bits, are left out.
-/

namespace Verif.EnvMesh.Tif

/-- Models `/repo/meshiphi/mesh_generation/environment_mesh.py` 1225-1247, `generate_samples`: the
`(lat, long)` pairs.  `np.arange` raises for the step 0, and `np.reshape` when the number of samples is wrong. -/
def samples (b : Boundary) (nlines ncols : ℕ) : Py (List (ℚ × ℚ)) :=
  if ncols = 0 ∨ nlines = 0 then .error .zeroDivision
  else
    let pixelHeight := (b.latMax - b.latMin) / ncols
    let pixelWidth := (b.longMax - b.longMin) / nlines
    if pixelHeight = 0 ∨ pixelWidth = 0 then .error .zeroDivision
    else
      let s := (arange b.latMax b.latMin (-1 * pixelHeight)).flatMap (fun lat =>
        (arange b.longMin b.longMax pixelWidth).map (fun long => (lat - 1 / 2 * pixelHeight, long + 1 / 2 * pixelWidth)))
      if s.length = nlines * ncols then .ok s else .error .valueError

/-- A value as a pixel: `np.mean` of a string raises (`environment_mesh.py` 1271-1272); values that are
lists of numbers are not modelled. -/
def pixel : Option Val → Py (Option ℚ)
  | none => .ok none
  | some (.num x) => .ok x
  | some (.str _) => .error .typeError

/-- Models `environment_mesh.py` 1249-1277, `get_sample_value`. -/
def sampleValue (m : EnvMesh) (name : String) (p : ℚ × ℚ) : Py (Option ℚ) :=
  match m.cells.find? (fun c => c.containsPoint p.1 p.2) with
  | none => .ok none
  | some c => pixel (c.data.get? name)

/-- Models `environment_mesh.py` 1279-1294, `get_geo_transform`, with `extent` as at 1394-1395. -/
def geoTransform (b : Boundary) (nlines ncols : ℕ) : List ℚ :=
  [b.longMin, (b.longMax - b.longMin) / ncols, 0, b.latMax, 0, -((b.latMax - b.latMin) / nlines)]

/-- `np.reshape(l, (nlines, ncols))`.  See `/repo/meshiphi/mesh_generation/environment_mesh.py` 1403-1404. -/
def reshape (l : List (Option ℚ)) (nlines ncols : ℕ) : List (List (Option ℚ)) :=
  (List.range nlines).map (fun r => (List.range ncols).map (fun c => l.getD (r * ncols + c) none))

/-- Models `environment_mesh.py` 1398-1404: the array that is written. -/
def image (m : EnvMesh) (name : String) (nlines ncols : ℕ) : Py (List (List (Option ℚ))) := do
  let s ← samples m.bounds nlines ncols
  let v ← s.mapM (sampleValue m name)
  return reshape v nlines ncols

end Verif.EnvMesh.Tif
