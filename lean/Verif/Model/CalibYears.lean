import Verif.Model.Output
import Verif.Model.CalibData
import Verif.Model.Calibration

/-!
# The discharge a calibration compares

Models how a calibration run is set up for the years with observations
(`/repo/calibration/calibration_setup.py:209-232`), how the run adds up its daily output year by year
(`/repo/run_watergap.py:319-331,405-408`) and how simulated and observed years are matched
(`/repo/calibration/find_gamma_cfa_cfs.py:40-41,96-97,159-178,318-319`).  Not modelled: the 32-bit numbers of the output
variable and of the observations.
-/

namespace WG

/-- The period written to the configuration file of the station: from 1 January of the first to 31 December of the last
year with observations; `discharge_data.index[0]` fails without any year.
`/repo/calibration/calibration_setup.py:225-232`. -/
def stationPeriod (c : RunCfg) : List ℕ → Option RunCfg
  | [] => none
  | y :: ys => some { c with start := ⟨y, 1, 1⟩, fin := ⟨(y :: ys).getLast (by simp), 12, 31⟩ }

/-- The dates of the first of the bins `resample(time='Y')` (the first year on the axis), `/repo/run_watergap.py:324,329`. -/
def OutVar.firstYear (v : OutVar) : List Date :=
  match v.axis with
  | [] => []
  | t :: _ => v.axis.filter fun u => decide (u.y = t.y)

/-- `resample(time='Y').sum()` and its first element: missing values count as zero; `/repo/run_watergap.py:320-325`. -/
def OutVar.annual (v : OutVar) : ℝ := (v.firstYear.map fun t => (v.val t).getD 0).sum

/-- `resample(time='Y').sum(skipna=False)`: a missing value makes the sum missing; `/repo/run_watergap.py:327-331`. -/
noncomputable def OutVar.annualStrict (v : OutVar) : Option ℝ :=
  open Classical in if ∀ t ∈ v.firstYear, v.val t ≠ none then some v.annual else none

/-- The yearly values of a calibration run: on the days on which other runs save files (`flush`), the sum of the output
variable is appended; nothing is converted. `x` is the daily value, `none` is NaN. `/repo/run_watergap.py:294-339`. -/
def annualValues (grid : List Date) (x : Date → Option ℝ) (tr : List Event) : Option (List ℝ) :=
  (outRun grid id x tr).map fun p => p.2.map fun f => f.data.annual

/-- The same for the runoff of a cell, `/repo/run_watergap.py:327-331`. -/
noncomputable def annualRunoff (grid : List Date) (x : Date → Option ℝ) (tr : List Event) : Option (List (Option ℝ)) :=
  (outRun grid id x tr).map fun p => p.2.map fun f => f.data.annualStrict

/-- `pd.DataFrame({"Year": sim_years, "sim_dis": sim_dis})` with `sim_years = range(start_year, end_year+1)`; columns of
different length are refused. `/repo/calibration/find_gamma_cfa_cfs.py:40-41,162-164`. -/
def simTable (c : RunCfg) (sims : List ℝ) : Option (List (ℕ × ℝ)) :=
  let years := pyRange c.start.y (c.fin.y + 1)
  if years.length = sims.length then some (years.zip sims) else none

/-- The observations in km³/year: `discharge_data * km3_year`, with 365 days in every year.
`/repo/calibration/calibration_setup.py:216-217`. -/
noncomputable def obsTable (ys : List ℕ) (obs : ℕ → ℝ) : List (ℕ × ℝ) :=
  ys.map fun y => (y, obs y * ((365 * 24 * 60 * 60) / 1000000000))

/-- `pd.merge(sim_df, obs_dis, on='Year', how='left').dropna()`: the pairs of simulated and observed values of the years in
both tables. `/repo/calibration/find_gamma_cfa_cfs.py:168-169`. -/
def matched (sim obs : List (ℕ × ℝ)) : List (ℝ × ℝ) :=
  sim.flatMap fun s => (obs.filter fun o => decide (o.1 = s.1)).map fun o => (s.2, o.2)

/-- `.mean()` of a column. -/
noncomputable def colMean (l : List ℝ) : ℝ := l.sum / l.length

/-- `mean_sim_dis` and `mean_obs_dis` of a calibration run; `x` is the daily streamflow (km³) at the station, NaN in
an inland sink (`/repo/model/waterbalance_lateral.py:781`).
`/repo/calibration/find_gamma_cfa_cfs.py:159-173`. -/
noncomputable def compared (c : RunCfg) (x : Date → Option ℝ) (tr : List Event) (ys : List ℕ) (obs : ℕ → ℝ) : Option (ℝ × ℝ) :=
  match annualValues (gridTime c) x tr with
  | none => none
  | some sims =>
    match simTable c sims with
    | none => none
    | some tab =>
      let m := matched tab (obsTable ys obs)
      some (colMean (m.map Prod.fst), colMean (m.map Prod.snd))

/-- `xr.concat(annual_pot_cell_runoff).mean(dim='time')` for a cell: missing years are left out.
`/repo/calibration/find_gamma_cfa_cfs.py:318-319`. -/
noncomputable def meanRunoff (years : List (Option ℝ)) : Option ℝ :=
  if years.filterMap id = [] then none else some (colMean (years.filterMap id))

end WG
