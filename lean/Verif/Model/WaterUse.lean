import Verif.Model.Calendar

/-!
# Attributing the water-use data to months

Model of `/repo/controller/wateruse_handler.py:86-100` and of the selection of a month's field in
`/repo/model/lateralwaterbalance/waterbalance_lateral.py:587-623` for one grid cell and one variable.
-/

namespace WG

/-- A water-use file: the reference date of its time axis (the part of the `units` attribute after `since`), the numbers
of the time axis taken as whole months since the reference date, and the values.  Numbers in days or other units are as
little looked at by the code as these.  wateruse_handler.py:86-95. -/
structure UseFile where
  ref : Date
  times : List ℕ
  vals : List ℝ

/-- The following month. -/
def nextMonth (ym : ℕ × ℕ) : ℕ × ℕ := if ym.2 < 12 then (ym.1, ym.2 + 1) else (ym.1 + 1, 1)

/-- First entry of `pd.date_range(start=reference_date, freq="MS")`: the reference date itself if it is the first of a
month, otherwise the first of the following month; wateruse_handler.py:97-100. -/
def firstMonth (ref : Date) : ℕ × ℕ := if ref.d = 1 then (ref.y, ref.m) else nextMonth (ref.y, ref.m)

/-- `n` months starting with a given one: `pd.date_range(…, periods=n, freq="MS")`, wateruse_handler.py:97-100. -/
def monthsFrom (s : ℕ × ℕ) : ℕ → List (ℕ × ℕ)
  | 0 => []
  | n + 1 => s :: monthsFrom (nextMonth s) n

/-- The time axis given to the data, wateruse_handler.py:94-100: the numbers in the file are not looked at. -/
def useAxis (f : UseFile) : List (ℕ × ℕ) := monthsFrom (firstMonth f.ref) f.vals.length

/-- `sel(time="year-month")[0]`: the first value of that month, `none` for the `KeyError` of a month that is not on the
axis; waterbalance_lateral.py:587-591,612-623. -/
def useSel (f : UseFile) (y m : ℕ) : Option ℝ :=
  ((useAxis f).zip f.vals).findSome? fun e => if e.1 = (y, m) then some e.2 else none

end WG
