import Verif.Model.Misc
import Verif.Model.ParamPath
import Verif.Model.ShippedSurface
import Verif.Model.StartMonthData

/-!
# First months of the operational year: the files

Model of the second half of `/repo/misc/get_reservoir_start_month.py` (the tool: which file it writes) and of the choice of the files of
reservoir data in `/repo/controller/staticdata_handler.py:87-111`, and the shipped inflows and start months. The search for
the month itself is `startMonth` in `Model/Misc.lean`.
-/

namespace WG

/-! ## Files -/

/-- The dataset recognised in the path of the monthly inflows, `get_reservoir_start_month.py:133-142`; `none`: ValueError. -/
def toolDataset (path : List Char) : Option (List Char) :=
  if "watergap_22e_era5".toList <:+: path.map Char.toLower then some "era5".toList
  else if "watergap_22e_w5e5".toList <:+: path.map Char.toLower then some "w5e5".toList
  else none

/-- `watergap_22e_{dataset_name}_startmonth.nc`, `get_reservoir_start_month.py:144`. -/
def toolFile (dataset : List Char) : List Char := "watergap_22e_".toList ++ dataset ++ "_startmonth.nc".toList

/-- A folder: for each file its name and the start months in it, if it has the variable `startmonth`. -/
abbrev ResFolder (α : Type) := List (List Char × Option α)

/-- `da.to_netcdf(output_file)`: a file of that name is replaced, `get_reservoir_start_month.py:144,170`. -/
def putFile {α : Type} (folder : ResFolder α) (name : List Char) (c : α) : ResFolder α :=
  folder.filter (fun f => f.1 ≠ name) ++ [(name, some c)]

/-- The tool with the monthly inflows of `path`, result `c`, `get_reservoir_start_month.py:122-174,210-216`. -/
def runTool {α : Type} (folder : ResFolder α) (path : List Char) (c : α) : Option (ResFolder α) :=
  (toolDataset path).map fun d => putFile folder (toolFile d) c

/-- The files a run reads: `glob("*.nc") + glob("*.nc4")` without those whose name contains
`watergap_22e_{forcing}_monthly_mean_inflow`, `staticdata_handler.py:104-110`. -/
def isRead (forcing name : List Char) : Prop :=
  (".nc".toList <:+ name ∨ ".nc4".toList <:+ name) ∧
  ¬ ("watergap_22e_".toList ++ forcing ++ "_monthly_mean_inflow".toList) <:+: name

instance (forcing name : List Char) : Decidable (isRead forcing name) := inferInstanceAs (Decidable (_ ∧ _))

/-- The values of `startmonth` in the files a run reads, `staticdata_handler.py:104-110,184-186`. All are to be combined into
one dataset, so there should be exactly one. -/
def startMonthsRead {α : Type} (forcing : List Char) (folder : ResFolder α) : List α :=
  (folder.filter fun f => isRead forcing f.1).filterMap Prod.snd

/-! ## Shipped data -/

/-- The two forcings for which reservoir data are shipped. -/
inductive ShippedForcing
  | era5 | w5e5

/-- The table of a forcing. -/
def ShippedForcing.data : ShippedForcing → DTree
  | .era5 => startDataEra5
  | .w5e5 => startDataW5e5

/-- A binary32 number that is not negative, from its bits. -/
noncomputable def f32 (b : ℕ) : ℝ :=
  if b < 2 ^ 23 then b * 2 ^ (-149 : ℤ) else ((2 ^ 23 + b % 2 ^ 23 : ℕ) : ℝ) * 2 ^ ((b / 2 ^ 23 : ℕ) - 150 : ℤ)

/-- The row of the routing order of reservoir `r`. -/
noncomputable def startRow (f : ShippedForcing) (r : ℕ) : ℕ := f.data.get r / 10 ^ 132

/-- `startmonth` of reservoir `r`, `reservoir_routing_era5/watergap_22e_era5_startmonth.nc` and
`reservoir_routing_w5e5/watergap_22e_startmonth_w5e5.nc`. -/
noncomputable def shippedStartMonth (f : ShippedForcing) (r : ℕ) : ℕ := f.data.get r / 10 ^ 130 % 100

/-- `mean_inflow` of reservoir `r` (km³/month), `watergap_22e_<forcing>_mean_inflow.nc4`. -/
noncomputable def shippedMeanInflow (f : ShippedForcing) (r : ℕ) : ℝ := f32 (f.data.get r / 10 ^ 120 % 10 ^ 10)

/-- `monthly_mean_inflow` of reservoir `r`, January to December, `watergap_22e_<forcing>_monthly_mean_inflow.nc4`. -/
noncomputable def shippedMonthlyInflow (f : ShippedForcing) (r : ℕ) : List ℝ :=
  [11, 10, 9, 8, 7, 6, 5, 4, 3, 2, 1, 0].map fun j => f32 (f.data.get r / 10 ^ (10 * j) % 10 ^ 10)

/-- The names in `/repo/input_data/static_input/reservoir_regulated_lake/reservoir_routing_era5`. -/
def shippedFilesEra5 : List (List Char) :=
  ["watergap_22e_era5_mean_inflow.nc4", "watergap_22e_era5_mean_nus.nc4", "watergap_22e_era5_monthly_mean_inflow.nc4",
   "watergap_22e_era5_startmonth.nc", "watergap_22e_outflowcell_assignment_glores.nc", "watergap_22e_res_stor_cap.nc4",
   "watergap_22e_reservoir_type.nc4", "watergap_22e_startyear.nc4"].map String.toList

/-- The names in `/repo/input_data/static_input/reservoir_regulated_lake/reservoir_routing_w5e5`. -/
def shippedFilesW5e5 : List (List Char) :=
  ["watergap_22e_outflowcell_assignment_glores.nc", "watergap_22e_res_stor_cap.nc4", "watergap_22e_reservoir_type.nc4",
   "watergap_22e_startmonth_w5e5.nc", "watergap_22e_startyear.nc4", "watergap_22e_w5e5_mean_inflow.nc4",
   "watergap_22e_w5e5_mean_nus.nc4", "watergap_22e_w5e5_monthly_mean_inflow.nc4"].map String.toList

/-- The shipped folder with the start months `c` in the file with that variable. -/
def shippedFolder {α : Type} (f : ShippedForcing) (c : α) : ResFolder α :=
  match f with
  | .era5 => shippedFilesEra5.map fun n => (n, if n = "watergap_22e_era5_startmonth.nc".toList then some c else none)
  | .w5e5 => shippedFilesW5e5.map fun n => (n, if n = "watergap_22e_startmonth_w5e5.nc".toList then some c else none)

end WG
