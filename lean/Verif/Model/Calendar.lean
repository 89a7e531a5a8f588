import Verif.Prelude

/-!
# Calendar

The program leaves calendar arithmetic to numpy's `datetime64[D]` and pandas.  We model it: the
proleptic Gregorian calendar, the day number of a date and the successor of a date.
-/

namespace WG

/-- A calendar date.  Models `np.datetime64[D]` values such as `cm.start`, `cm.end`
(/repo/run_watergap.py:151-152) and the `year, month, day` arguments of
/repo/view/data_output_handler.py:122-160 (`write_daily_output`). -/
structure Date where
  /-- calendar year -/
  y : ℕ
  /-- month, 1 to 12 -/
  m : ℕ
  /-- day of the month -/
  d : ℕ
deriving DecidableEq, Repr

/-- Gregorian leap years: calendar behind `datetime64`, /repo/run_watergap.py:151-158. -/
def isLeap (y : ℕ) : Bool := (y % 4 == 0 && y % 100 != 0) || y % 400 == 0

/-- Days in a month of the Gregorian calendar (`datetime64`, /repo/run_watergap.py:158). -/
def daysInMonth (y m : ℕ) : ℕ :=
  if m = 2 then (if isLeap y then 29 else 28)
  else if m = 4 ∨ m = 6 ∨ m = 9 ∨ m = 11 then 30 else 31

/-- A date that exists.  Only existing dates occur on the time axis
(/repo/run_watergap.py:158). -/
def Date.Valid (t : Date) : Prop :=
  1 ≤ t.m ∧ t.m ≤ 12 ∧ 1 ≤ t.d ∧ t.d ≤ daysInMonth t.y t.m

instance (t : Date) : Decidable t.Valid := by unfold Date.Valid; infer_instance

/-- Days of a year. -/
def daysInYear (y : ℕ) : ℕ := if isLeap y then 366 else 365

/-- Days before the first of January of year `y` (counted from year 0). -/
def daysBeforeYear : ℕ → ℕ
  | 0 => 0
  | y + 1 => daysBeforeYear y + daysInYear y

/-- Days before the first of the month within the year. -/
def daysBeforeMonth (y : ℕ) : ℕ → ℕ
  | 0 => 0
  | 1 => 0
  | m + 2 => daysBeforeMonth y (m + 1) + daysInMonth y (m + 1)

/-- The day number behind a `datetime64[D]`: differences of dates are differences of day numbers,
as in `end_date - start_date` (/repo/run_watergap.py:155). -/
def Date.ord (t : Date) : ℕ := daysBeforeYear t.y + daysBeforeMonth t.y t.m + t.d

/-- The following day (`+ np.timedelta64(1, 'D')`, and the step of the daily time axis
/repo/run_watergap.py:158). -/
def Date.next (t : Date) : Date :=
  if t.d < daysInMonth t.y t.m then ⟨t.y, t.m, t.d + 1⟩
  else if t.m < 12 then ⟨t.y, t.m + 1, 1⟩
  else ⟨t.y + 1, 1, 1⟩

/-- `n` consecutive days from `s`: a stretch of the daily time axis `grid_coords['time']`
(/repo/controller/read_forcings_and_static.py:62-70). -/
def daysFrom (s : Date) : ℕ → List Date
  | 0 => []
  | n + 1 => s :: daysFrom s.next n

/-- The inclusive slice `sel(time=slice(s, e))` of a gap-free daily axis
(/repo/controller/read_forcings_and_static.py:62-70). -/
def daysBetween (s e : Date) : List Date := daysFrom s (e.ord + 1 - s.ord)

/-- 31 December of year `y` (`cm.start.split('-')[0]+'-12-31'`, /repo/run_watergap.py:179). -/
def yearEnd (y : ℕ) : Date := ⟨y, 12, 31⟩

end WG
