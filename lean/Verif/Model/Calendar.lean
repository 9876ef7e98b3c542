import Verif.Py
import Mathlib.Algebra.Order.Floor.Ring
import Mathlib.Data.Rat.Floor

/-!
# Model of dates and of the date helpers of `meshiphi/utils.py`

Dates are those of Python's `datetime.date`: years 1 to 9999 of the proleptic Gregorian calendar.
-/

namespace Verif

/-- A `datetime` at midnight, as `str_to_datetime` (`/repo/meshiphi/utils.py` 69-70) returns it. -/
structure PyDate where
  y : ℕ
  m : ℕ
  d : ℕ
deriving DecidableEq

namespace PyDate

/-- Leap years (Python `calendar.isleap`, used through `monthrange` at `utils.py` 47). -/
def isLeap (y : ℕ) : Bool := y % 4 = 0 && (y % 100 ≠ 0 || y % 400 = 0)

/-- `monthrange(year, month)[1]`, used at `utils.py` 47. -/
def daysInMonth (y m : ℕ) : ℕ :=
  if m = 2 then (if isLeap y then 29 else 28) else if m = 4 ∨ m = 6 ∨ m = 9 ∨ m = 11 then 30 else 31

/-- The dates that exist.  See `/repo/meshiphi/utils.py` 47, 69-70, where `monthrange` and `strptime` refuse others. -/
def Exists (a : PyDate) : Prop := 1 ≤ a.y ∧ a.y ≤ 9999 ∧ 1 ≤ a.m ∧ a.m ≤ 12 ∧ 1 ≤ a.d ∧ a.d ≤ daysInMonth a.y a.m

/-- Used for `/repo/meshiphi/utils.py` 69-70. -/
instance (a : PyDate) : Decidable a.Exists := by unfold Exists; infer_instance

/-- Days before January 1st of the year (Python `datetime._days_before_year`).  See `/repo/meshiphi/utils.py` 44-60, 73-75, through `datetime`. -/
def daysBeforeYear (y : ℕ) : ℕ := (y - 1) * 365 + (y - 1) / 4 - (y - 1) / 100 + (y - 1) / 400

/-- Days of the year before the first of the month (Python `datetime._days_before_month`).
See `/repo/meshiphi/utils.py` 44-60, 73-75, through `datetime`. -/
def daysBeforeMonth (y : ℕ) : ℕ → ℕ
  | 0 => 0
  | 1 => 0
  | m + 2 => daysBeforeMonth y (m + 1) + daysInMonth y (m + 1)

/-- `toordinal`: the number of the day; `(b - a).days` for two dates is the difference of these.  See `/repo/meshiphi/utils.py` 44-60, 73-75. -/
def ordinal (a : PyDate) : ℤ := (daysBeforeYear a.y + daysBeforeMonth a.y a.m + a.d : ℕ)

end PyDate

namespace Utils

/-- Models `/repo/meshiphi/utils.py` 44-60, `frac_of_month`.  `monthrange` raises
`IllegalMonthError` (a `ValueError`) for months outside of 1 to 12. -/
def fracOfMonth (year month : ℕ) (start stop : Option PyDate) : Py ℚ :=
  if month < 1 ∨ 12 < month then .error .valueError
  else
    let n := PyDate.daysInMonth year month
    let s := start.getD ⟨year, month, 1⟩
    let e := stop.getD ⟨year, month, n⟩
    if s.m ≠ month then .error .assertionError
    else if e.m ≠ month then .error .assertionError
    else .ok (((e.ordinal - s.ordinal + 1 : ℤ) : ℚ) / n)

/-- Models `utils.py` 73-75, `date_range`, on day numbers: the days yielded. -/
def dateRange (start stop : ℤ) : List ℤ := (List.range (stop - start).toNat).map (fun n : ℕ => start + n)

end Utils
end Verif
