import Verif.Model.Calibration
import Verif.Model.CalibData
import Verif.Model.Output

/-!
# Hand-over to calibration and regionalisation

Model of `copy_actual_net_abstraction` (`/repo/calibration/calibration_setup.py:70-100`), of the descriptors of
`/repo/calibration/regionalization.py:24-167` and of `/repo/calibration/convert_data_csv.py:35-91`.
-/

namespace WG

/-! ## Abstractions of the standard run -/

open Classical in
/-- The abstraction of a month in m³ as written for calibration: daily values in mm/s (missing ones are skipped by `sum`)
times continental area times 86400, summed over the days of the month that the files have; times `contfrac / contfrac`, which
is NaN where the continental fraction is zero.  `calibration_setup.py:75-83`; `area` in km², `cf` in percent. -/
noncomputable def handover (area cf : ℝ) (axis : List Date) (saved : Date → Option ℝ) (y m : ℕ) : Option ℝ :=
  if cf = 0 then none
  else some (((axis.filter fun t => decide (t.y = y ∧ t.m = m)).map fun t =>
    (saved t).getD 0 * (area * 1e6 * (cf / 100) / 1e3) * 86400).sum)

/-! ## Units and their coefficients -/

variable {ι : Type}

/-- `np.nanmean`: NaN if no value is left. -/
noncomputable def nanmean (xs : List (Option ℝ)) : Option ℝ :=
  let ys := xs.filterMap id
  if ys = [] then none else some (ys.sum / ys.length)

open Classical in
/-- `np.nanmean(np.where(direct_upstreamcells > 0, gamma_values, nan))`; `regionalization.py:76-78`; `cells` are the
cells of the grid. -/
noncomputable def unitGamma (cells : List ι) (unit : ι → Option ℤ) (gamma : ι → Option ℝ) : Option ℝ :=
  nanmean (cells.map fun p => match unit p with
    | some v => if v > 0 then gamma p else none
    | none => none)

open Classical in
/-- The columns `basin_identifier` and `gamma` of a region: the assignments of the stations one after the other, to the
rows whose id is in the unit; `regionalization.py:61-85`.  `get_direct_upstreamcells` of the first `i + 1` arrays is the
`i`-th array of `reduceAll` (the arrays are loaded anew from the file for every station). -/
noncomputable def regionTable (cells : List ι) (file : List (String × (ι → Option ℤ))) (gamma : ι → Option ℝ) :
    ℤ → Option (String × Option ℝ) :=
  (List.range file.length).foldl (fun tab i =>
    match (reduceAll [] ((file.take (i + 1)).map (·.2))).getLast?, file[i]? with
    | some u, some e => fun v => if ∃ p, u p = some v then some (e.1, unitGamma cells u gamma) else tab v
    | _, _ => tab) fun _ => none

/-! ## Descriptors -/

/-- A row of the table of cells: its basin (`basin_identifier`), cell area and one descriptor (NaN is `none`). -/
structure RegCell where
  /-- `basin_identifier` -/
  group : Group
  /-- `cell_area` -/
  area : ℝ
  /-- the column of the descriptor -/
  desc : Option ℝ

open Classical in
/-- `combined_df.replace(-99, 0)`: `regionalization.py:48`. -/
noncomputable def replace99 : Option ℝ → Option ℝ
  | none => none
  | some x => if x = -99 then some 0 else some x

/-- `upstream_cell_area`: `regionalization.py:138-144`. -/
def groupArea (cells : List RegCell) (g : Group) : ℝ := ((cells.filter fun c => c.group = g).map RegCell.area).sum

/-- A descriptor of a basin: `groupby(...)[weight_columns].sum()` of `descriptor * cell_area / upstream_cell_area`, missing
values skipped; `regionalization.py:155-162`. -/
noncomputable def basinDescriptor (cells : List RegCell) (g : Group) : ℝ :=
  ((cells.filter fun c => c.group = g).map fun c =>
    (((replace99 c.desc).map fun d => d * c.area / groupArea cells g).getD 0)).sum

open Classical in
/-- `area_max_soil`: the cell area where the soil capacity is positive; `regionalization.py:42-43` (before the replacement of
−99, which is not positive either). -/
noncomputable def RegCell.soilArea (c : RegCell) : ℝ :=
  match c.desc with
  | some d => if d > 0 then c.area else 0
  | none => 0

/-- `upstream_cell_area_max_soil`: `regionalization.py:138-141`. -/
noncomputable def groupSoilArea (cells : List RegCell) (g : Group) : ℝ :=
  ((cells.filter fun c => c.group = g).map RegCell.soilArea).sum

open Classical in
/-- The soil capacity of a basin: `np.where(x > 0, x * cell_area / upstream_cell_area_max_soil, 0)`, summed;
`regionalization.py:150-154, 160-162`. -/
noncomputable def basinSoil (cells : List RegCell) (g : Group) : ℝ :=
  ((cells.filter fun c => c.group = g).map fun c => match replace99 c.desc with
    | some d => if d > 0 then d * c.area / groupSoilArea cells g else 0
    | none => 0).sum

/-! ## Temperature -/

open Classical in
/-- `astype(int)` of a number: towards zero. -/
noncomputable def truncInt (x : ℝ) : ℤ := if 0 ≤ x then ⌊x⌋ else ⌈x⌉

/-- The mean temperature of a cell in °C: `(tas.sel(1971..2000) - 273.15).mean('time')`, missing days skipped;
`convert_data_csv.py:39-44`. -/
noncomputable def meanTemperature (days : List (Option ℝ)) : Option ℝ := nanmean (days.map (Option.map (· - 273.15)))

/-- The column `GTEMP_1971_2000` of the csv file: hundredths of a degree as integers, one missing value stops the
conversion; `convert_data_csv.py:82-83`. -/
noncomputable def temperatureColumn (temps : List (Option ℝ)) : Except String (List ℤ) :=
  temps.mapM fun t => match t with
    | some x => .ok (truncInt (x * 100))
    | none => .error "IntCastingNaNError"

/-- The descriptor read back: `combined_df['GTEMP_1971_2000'] /= 100`; `regionalization.py:38`. -/
noncomputable def temperatureRead (k : ℤ) : ℝ := k / 100

end WG
