import Verif.Model.Lai

/-!
# Parameters of a cell from its land cover class

`/repo/model/verticalwaterbalance/waterbalance_vertical_init.py:48-77,119-126,152-161`,
`/repo/model/verticalwaterbalance/lai_init.py:64-94`.  Real numbers instead of 64-bit floats; NaN is `none`.
-/

namespace WG

/-- `array[land_cover == table.loc[i, 'Number']] = table.loc[i, column]` for every row `i`, in a cell of an array that is
filled with NaN before; e.g. `waterbalance_vertical_init.py:56-61`.  A comparison with NaN is false. -/
noncomputable def distribute (rows : List LandCoverRow) (col : LandCoverRow → ℝ) (cover : Option ℝ) : Option ℝ :=
  rows.foldl (fun v r => if cover = some (r.number : ℝ) then some (col r) else v) none

/-- The parameters of a cell that depend on its land cover. -/
structure CoverPar where
  albedo : Option ℝ
  snowAlbedo : Option ℝ
  emissivity : Option ℝ
  initialDays : Option ℝ
  maxLai : Option ℝ
  minLai : Option ℝ
  degreeday : Option ℝ
  rootingDepth : Option ℝ
  maxSoil : Option ℝ

/-- `np.where(total_avail_water_content > 0, total_avail_water_content * rooting_depth, np.nan)`,
`waterbalance_vertical_init.py:159-161`. -/
noncomputable def maxSoilWater (tawc depth : Option ℝ) : Option ℝ :=
  match tawc, depth with
  | some w, some d => if w > 0 then some (w * d) else none
  | _, _ => none

/-- All parameters of a cell with the land cover `cover` and the available water capacity `tawc` (mm per m of soil):
`waterbalance_vertical_init.py:56-77,119-126,152-161`, `lai_init.py:64-94`. -/
noncomputable def coverPar (rows : List LandCoverRow) (cover tawc : Option ℝ) : CoverPar where
  albedo := distribute rows (fun r => (r.albedo : ℝ)) cover
  snowAlbedo := distribute rows (fun r => (r.snowAlbedo : ℝ)) cover
  emissivity := distribute rows (fun r => (r.emissivity : ℝ)) cover
  initialDays := distribute rows (fun r => (r.initialDays : ℝ)) cover
  maxLai := distribute rows (fun r => (r.maxLai : ℝ)) cover
  minLai := distribute rows (fun r => minLeafAreaIndex r.maxLai r.fracDecid r.redEvergreen) cover
  degreeday := distribute rows (fun r => (r.degreeDay : ℝ)) cover
  rootingDepth := distribute rows (fun r => (r.rootingDepth : ℝ)) cover
  maxSoil := maxSoilWater tawc (distribute rows (fun r => (r.rootingDepth : ℝ)) cover)

end WG
