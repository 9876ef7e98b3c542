import Verif.Py
import Mathlib.Data.List.Sort
import Mathlib.Data.String.Basic

/-!
# Model of the choice of forecasts in `meshiphi/dataloaders/scalar/icenet.py` and
`ecmwf_sig_wave_height.py`

File names are modelled by what is read from them: the dates (day numbers for IceNet, hours for ECMWF).
-/

namespace Verif.Forecast

/-- An opened IceNet file (`/repo/meshiphi/dataloaders/scalar/icenet.py` 47-53): its coordinates `time`,
the days on which forecasts were issued, and `leadtime`, in days. -/
structure Dataset where
  times : List ℤ
  leads : List ℕ
  deriving DecidableEq

/-- `max(...)` of a generator or coordinate (`icenet.py` 44, 53): raises `ValueError` when empty. -/
def pyMax {α : Type} [LinearOrder α] : List α → Py α
  | [] => .error .valueError
  | a :: l => .ok (l.foldl max a)

/-- The loop of `icenet.py` 64-78: the first of the given numbers of days ago on which a forecast was
issued. -/
def findIssue (times : List ℤ) (start : ℤ) : List ℕ → Py ℕ
  | [] => .error .eofError
  | k :: r => if start - k ∈ times then .ok k else findIssue times start r

/-- `IceNetDataLoader.import_data` (`icenet.py` 12-104): the day the chosen forecast was issued and the
days it is used for.  Files are given with the dates of their names. -/
def iceNet (files : List (ℤ × Dataset)) (start stop : ℤ) : Py (ℤ × List ℤ) := do
  let range := stop - start
  -- dict comprehension: of several files with one date the last is kept (39-42)
  let fileDates : Dict ℤ Dataset := (files.filter (fun f => f.1 < start)).foldl (fun d f => d.set f.1 f.2) []
  let closest ← pyMax fileDates.keys
  let ds ← fileDates.get closest
  let maxLead ← pyMax ds.leads
  if ¬ range < maxLead then throw .assertionError
  if ¬ closest + maxLead > stop then throw .assertionError
  let daysAgo ← findIssue ds.times start ((List.range maxLead).map (· + 1))
  if ¬ range < (maxLead : ℤ) - daysAgo then throw .assertionError
  -- range(days_ago, time_range.days + days_ago) (88)
  let wanted : List ℕ := (List.range range.toNat).map (· + daysAgo)
  if ¬ wanted.all (fun k => decide (k ∈ ds.leads)) then throw .keyError
  let days := wanted.map (fun k : ℕ => start - daysAgo + (k : ℤ))
  -- trim_datapoints (97)
  return (start - daysAgo, days.filter (fun d => decide (start ≤ d ∧ d ≤ stop)))

/-- The first file of the list with a base date before the start (`ecmwf_sig_wave_height.py` 59-66). -/
def closestBase (base : String → ℤ) (start : ℤ) : List String → Py ℤ
  | [] => .error .fileNotFound
  | f :: r => if base f < start then .ok (base f) else closestBase base start r

/-- `ECMWFSigWaveHeightDataLoader.import_data` (`ecmwf_sig_wave_height.py` 9-97): the files used, with the
hours they are for.  `base` and `lead` are what `extract_base_date` and `calculate_timestamp` (22-42) read
from the name of a file, in hours. -/
def ecmwf (base lead : String → ℤ) (files : List String) (start stop : ℤ) : Py (List (String × ℤ)) := do
  let files := files.insertionSort (fun a b => b ≤ a)
  let closest ← closestBase base start files
  let files := files.filter (fun f => base f = closest)
  let used := (files.map (fun f => (f, base f + lead f))).filter (fun p => decide (start ≤ p.2 ∧ p.2 ≤ stop))
  if used.length = 0 then throw .fileNotFound
  return used

end Verif.Forecast
