import Verif.Model.Misc

/-!
# Bankfull flow from daily discharge

Model of `/repo/misc/bankfull_flow.py:51-120,216-234`: the annual maxima of a cell, their statistics, and the flow written
to the file. The rest of the script, from the statistics on, is in `Verif.Model.Misc`.
Only cells with a discharge on every day are modelled (an ocean cell or inland sink has NaN on every day and keeps it).
-/

namespace WG

/-- `resample(time='1Y').max()` of one cell in one year with first day `d.1` and further days `d.2`,
`bankfull_flow.py:51`. -/
noncomputable def yearMax (d : ℝ × List ℝ) : ℝ := d.2.foldl max d.1

/-- The days of a year (`bankfull_flow.py:45-46`). -/
def daysOf (d : ℝ × List ℝ) : List ℝ := d.1 :: d.2

/-- `np.mean(ams, axis=0)`, `bankfull_flow.py:63,71`. -/
noncomputable def amsMean (xs : List ℝ) : ℝ := xs.sum / xs.length

/-- `np.std(ams, axis=0)`: the standard deviation of the population, `bankfull_flow.py:64,72`. -/
noncomputable def amsStd (xs : List ℝ) : ℝ :=
  Real.sqrt ((xs.map fun x => (x - amsMean xs) ^ 2).sum / xs.length)

open Classical in
/-- `compute_skewness`, `bankfull_flow.py:103-110`. -/
noncomputable def amsSkew (xs : List ℝ) : ℝ :=
  let p1 : ℝ := xs.length / (((xs.length : ℝ) - 1) * ((xs.length : ℝ) - 2));
  let p2 : ℝ := (xs.map fun x => (x - amsMean xs) ^ 3).sum;
  if amsStd xs ^ 3 ≠ 0 then p1 * p2 / amsStd xs ^ 3 else 0

open Classical in
/-- The statistics handed to `compute_bankfull_flow`, `bankfull_flow.py:53-75,113-120`. A maximum of zero is NaN in the
logarithmic series, which makes its mean, standard deviation and skewness NaN. -/
noncomputable def amsStats (xs : List ℝ) : AmsStats where
  std := amsStd xs
  mean := amsMean xs
  skew := amsSkew xs
  logStats :=
    if ∀ x ∈ xs, x ≠ 0 then
      some (amsMean (xs.map Real.log), amsStd (xs.map Real.log), amsSkew (xs.map Real.log))
    else none

/-- The value in the file (m³/s) of a cell with the daily discharge `years` (km³/day); `none` is the `ZeroDivisionError`
of `sample_size / ((sample_size - 1) * (sample_size - 2))`, `bankfull_flow.py:103`, for one or two years.
`bankfull_flow.py:45-120,216-234`. -/
noncomputable def bankfullTool (years : List (ℝ × List ℝ)) : Option ℝ :=
  if (years.length - 1 : ℤ) * (years.length - 2) = 0 then none
  else some (bankfullOut (amsStats (years.map yearMax)))

end WG
