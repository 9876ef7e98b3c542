import Verif.Py
import Mathlib.Data.Int.Log

/-!
# Model of the rounding helpers of `meshiphi/utils.py`, on exact numbers

`np.log10` and the scaling of `np.around` are exact here.
-/

namespace Verif.Utils

/-- Python `round` and `np.around` to integers: to the nearest, ties to the even one (used at
`/repo/meshiphi/utils.py` 92-104 and 145). -/
def roundEven (q : ℚ) : ℤ :=
  if q - ⌊q⌋ < 1 / 2 then ⌊q⌋ else if 1 / 2 < q - ⌊q⌋ then ⌊q⌋ + 1 else if ⌊q⌋ % 2 = 0 then ⌊q⌋ else ⌊q⌋ + 1

/-- `np.around(x, decimals=d)` (`utils.py` 145), `round(x, d)` (`utils.py` 100). -/
def around (x : ℚ) (d : ℤ) : ℚ := roundEven (x * 10 ^ d) / 10 ^ d

/-- `np.floor(np.log10(np.abs(x), where=..., out=zeros))` (`utils.py` 139-142) for finite `x`. -/
def log10Floor (x : ℚ) : ℤ := if x = 0 then 0 else Int.log 10 |x|

/-- Models `utils.py` 109-156, `round_to_sigfig`, on one finite floating point number.  (On `int`s and
lists of `int`s the function raises: `out` at 141 is then an integer array, to which `np.log10` does not write.) -/
def roundSigfig (sigfig : ℕ) (x : ℚ) : ℚ := around x (sigfig - log10Floor x - 1)

/-- `np.modf(x)[1]` (`utils.py` 87, 91): the integral part, towards zero. -/
def integral (x : ℚ) : ℤ := pyInt x

/-- Models `utils.py` 78-106, `convert_decimal_days`: the numbers in the text with their units. -/
def convertDecimalDays (x : ℚ) (mins : Bool) : List (ℚ × String) :=
  let days := integral x
  let hours := (x - days) * 24
  if mins then
    let h := integral hours
    let minutes := roundEven ((hours - h) * 60)
    if days ≠ 0 then [((days : ℚ), "days"), ((h : ℚ), "hours"), ((minutes : ℚ), "minutes")]
    else if h ≠ 0 then [((h : ℚ), "hours"), ((minutes : ℚ), "minutes")]
    else [((minutes : ℚ), "minutes")]
  else
    let hours := around hours 2
    if days ≠ 0 then [((days : ℚ), "days"), (hours, "hours")] else [(hours, "hours")]

end Verif.Utils
