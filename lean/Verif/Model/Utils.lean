import Verif.Py

/-!
# Model of `meshiphi/utils.py` (longitude helpers)
-/

namespace Verif

/-- Models `/repo/meshiphi/utils.py` 15-29, `longitude_domain`, scalar branch. -/
def longitudeDomain (long : ℚ) : ℚ :=
  if long = -180 ∨ long = 180 then long
  else pyMod (long + 180) 360 - 180

/-- Models `/repo/meshiphi/utils.py` 19-23: `longitude_domain` on a list / ndarray. -/
def longitudeDomainList (longs : List ℚ) : List ℚ := longs.map longitudeDomain

/-- Models `/repo/meshiphi/utils.py` 31-42, `longitude_distance`. -/
def longitudeDistance (longA longB : ℚ) : ℚ :=
  let dist := |longitudeDomain longB - longitudeDomain longA|
  let dist := pyMod dist 360
  if dist > 180 then 360 - dist else dist

end Verif
