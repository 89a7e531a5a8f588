import Verif.Model.Calendar
import Verif.Model.LandFrac

/-!
# The potential evapotranspiration written to the output

Model of `get_land_and_water_freq` (/repo/model/land_surfacewater_fraction_init.py:312-358) and of the output `potevap`
(/repo/model/verticalwaterbalance/waterbalance_vertical_init.py:294-298,346) for one grid cell with a continental area.
Fractions are in percent except the local lake fraction reported by the routing, as in the code.
-/

namespace WG

/-- The attributes `water_freq`, `land_freq`, `updated_loclake_frac` and `land_and_water_freq_flag` of
`LandsurfacewaterFraction`, land_surfacewater_fraction_init.py:40-44. -/
structure FreqState where
  /-- `water_freq`, percent -/
  water : ℝ
  /-- `land_freq`, percent -/
  land : ℝ
  /-- `updated_loclake_frac`, a fraction -/
  updLoc : ℝ
  /-- `land_and_water_freq_flag`: nothing computed yet -/
  flag : Bool

/-- `__init__`, land_surfacewater_fraction_init.py:40-44. -/
noncomputable def freqStart : FreqState := { water := 0, land := 0, updLoc := 0, flag := true }

/-- `self.glolake_frac`, land_surfacewater_fraction_init.py:57-58,92: regulated lakes are global lakes unless reservoirs
are operated. -/
noncomputable def gloLakeShare (res : Bool) (fs : FracStatic) : ℝ :=
  if res then fs.glolake else fs.glolake + fs.reglake

/-- `self.loclake_frac`, land_surfacewater_fraction_init.py:61-62,107: local reservoirs are local lakes if reservoirs are
operated. -/
noncomputable def locLakeShare (res : Bool) (fs : FracStatic) : ℝ :=
  if res then fs.loclake + fs.locres else fs.loclake

/-- `glores_frac_currentyear` of the year of the date, land_surfacewater_fraction_init.py:329-334,348-354: the reservoir
fractions of the year, or zeros. -/
noncomputable def gloresOfYear (res : Bool) (glores : ℕ → ℝ) (t : Date) : ℝ := if res then glores t.y else 0

/-- `get_land_and_water_freq`, land_surfacewater_fraction_init.py:312-358. -/
noncomputable def freqGet (res : Bool) (fs : FracStatic) (glores : ℕ → ℝ) (t : Date) (s : FreqState) : FreqState :=
  if s.flag then
    let w := landWaterFreq fs.cont (gloLakeShare res fs) (locLakeShare res fs) (gloresOfYear res glores t)
    { s with water := w.1, land := w.2, flag := false }
  else if t.m = 1 ∧ t.d = 1 then
    let w := landWaterFreq fs.cont (gloLakeShare res fs) (s.updLoc * 100) (gloresOfYear res glores t)
    { s with water := w.1, land := w.2 }
  else s

/-- `update_landareafrac`, land_surfacewater_fraction_init.py:376-381: at the end of the day the local lake fraction the
routing arrived at is remembered. -/
noncomputable def freqUpdate (loc : ℝ) (s : FreqState) : FreqState := { s with updLoc := loc }

/-- One simulated day: its date and the fraction of the cell under local lakes at its end, run_watergap.py:242,283-284. -/
structure FreqDay where
  t : Date
  loc : ℝ

/-- The state after a day; the fractions the day's output uses are the ones in this state,
run_watergap.py:242-284. -/
noncomputable def freqStep (res : Bool) (fs : FracStatic) (glores : ℕ → ℝ) (s : FreqState) (d : FreqDay) : FreqState :=
  freqUpdate d.loc (freqGet res fs glores d.t s)

/-- The state after consecutive iterations of the day loop, run_watergap.py:225-284. -/
noncomputable def freqRun (res : Bool) (fs : FracStatic) (glores : ℕ → ℝ) (s : FreqState) (days : List FreqDay) :
    FreqState := days.foldl (freqStep res fs glores) s

/-- `total_potential_evap`, waterbalance_vertical_init.py:33-34,297-298: the output `potevap`; `pet` and `openPet` are the
potential evapotranspiration of land and of open water. -/
noncomputable def petOutput (cont : ℝ) (s : FreqState) (pet openPet : ℝ) : ℝ :=
  (s.land / 100 * pet + s.water / 100 * openPet) / (cont / 100)

end WG
