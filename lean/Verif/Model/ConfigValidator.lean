import Verif.Py

/-!
# Model of `meshiphi/config_validation/config_validator.py` (cell sizes)
-/

namespace Verif.ConfigValidator

/-- Models `/repo/meshiphi/config_validation/config_validator.py` 87-99, `assert_valid_cellsize`. -/
def assertValidCellsize (boundMin boundMax cellSize : ℚ) : Py Unit :=
  if cellSize = 0 then .error .zeroDivision
  else if pyMod (pyMod (boundMax - boundMin) 360 / cellSize) 1 = 0 then .ok ()
  else .error .assertionError

end Verif.ConfigValidator
