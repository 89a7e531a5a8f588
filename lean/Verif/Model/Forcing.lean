import Verif.Prelude

/-!
# Units and checks of the forcing of a day

Model of `/repo/model/utility/units_conveter_check_neg_precip.py` and its use in
`/repo/model/verticalwaterbalance/waterbalance_vertical_init.py:205-221`.  Missing values (NaN) are `none`.
-/

namespace WG

/-- A field of one day: the values of the cells and the `units` attribute. -/
structure Field (ι : Type) where
  val : ι → Option ℝ
  units : String

/-- `check_neg_precipitation`: `np.any(values < 0)`, comparisons with NaN are false;
/repo/model/utility/units_conveter_check_neg_precip.py:36-39. -/
def hasNegative {ι : Type} (p : Field ι) : Prop := ∃ i x, p.val i = some x ∧ x < 0

/-- `to_mm_per_day`: /repo/model/utility/units_conveter_check_neg_precip.py:42-61. -/
noncomputable def toMmPerDay {ι : Type} (p : Field ι) : ι → Option ℝ :=
  if p.units = "kg m-2 s-1" then fun i => (p.val i).map (· * 86400) else p.val

/-- `to_kelvin`: /repo/model/utility/units_conveter_check_neg_precip.py:64-82. -/
noncomputable def toKelvin {ι : Type} (t : Field ι) : ι → Option ℝ :=
  if t.units = "K" ∨ t.units = "k" then t.val else fun i => (t.val i).map (· + 273.15)

open Classical in
/-- Reading precipitation and temperature of a day; `none` is the `ValueError` that ends the run.
/repo/model/verticalwaterbalance/waterbalance_vertical_init.py:205-221. -/
noncomputable def readForcing {ι : Type} (p t : Field ι) : Option ((ι → Option ℝ) × (ι → Option ℝ)) :=
  if hasNegative p then none else some (toMmPerDay p, toKelvin t)

/-- A run over the forcing of its days: the values the water balance of each day gets, up to the day whose check
fails; the second component says whether the run reached its end.  /repo/run_watergap.py:225-284. -/
noncomputable def readDays {ι : Type} : List (Field ι × Field ι) → List ((ι → Option ℝ) × (ι → Option ℝ)) × Bool
  | [] => ([], true)
  | (p, t) :: rest =>
    match readForcing p t with
    | none => ([], false)
    | some v => ((v :: (readDays rest).1), (readDays rest).2)

/-- The units a run accepts for any of the four forcing variables: those of `cf_conv.json:8` and `extra_units`,
/repo/controller/climateforcing_handler.py:153-154. -/
def acceptedUnits : List String :=
  ["kg m-2 s-1", "W m-2", "W m-2", "K"] ++ ["mm/day", " mm day-1", "°C", "C", "degree celcius", "celcius"]

/-- `check_unitandvarname`: /repo/controller/climateforcing_handler.py:155-163; the check of variable names only warns and
is left out. -/
def unitsAccepted (us : List String) : Bool := us.all fun u => acceptedUnits.contains u

/-- The climate forcing of a run: the units of the four variables and the values of precipitation and temperature day by
day.  /repo/controller/climateforcing_handler.py:59-117; the radiation values are left out (they are not converted). -/
structure ForcingSet (ι : Type) where
  pUnits : String
  lwUnits : String
  swUnits : String
  tUnits : String
  days : List ((ι → Option ℝ) × (ι → Option ℝ))

/-- A run over its forcing: `none` when the unit check ends the program before the first day; calibration runs do not
check.  /repo/controller/read_forcings_and_static.py:37-39, /repo/run_watergap.py:225-284. -/
noncomputable def runForcing {ι : Type} (calib : Bool) (f : ForcingSet ι) :
    Option (List ((ι → Option ℝ) × (ι → Option ℝ)) × Bool) :=
  if !calib && !unitsAccepted [f.pUnits, f.lwUnits, f.swUnits, f.tUnits] then none
  else some (readDays (f.days.map fun d => (⟨d.1, f.pUnits⟩, ⟨d.2, f.tUnits⟩)))

end WG
