import Verif.Model.FractionData
import Verif.Model.ParamData
import Verif.Model.StartMonth
import Verif.Model.LandFrac
import Verif.Model.ShippedNetwork

/-!
# The shipped fractions of water bodies, soil data and parameters

What the shipped netCDF files say about the cells of the shipped routing order.  `tools/gen_params.py` reads the files and writes the
tables; the code reads them at `/repo/controller/staticdata_handler.py:57-79,117,151-190,244-267` and `/repo/model/parameters.py:54`.  The elevations of a cell are not shipped.
-/

namespace WG

/-- The 44 digits of row `k` of `fractionData`, `staticdata_handler.py:67-69,168-170`. -/
noncomputable def fractionRow (k : ℕ) : ℕ := fractionData.get (k / 16) / 10 ^ (44 * (15 - k % 16)) % 10 ^ 44

/-- The record of rarer water bodies of row `k`, `staticdata_handler.py:168-170,189-190`. -/
noncomputable def rareRow (k : ℕ) : ℕ := rareData.get (fractionRow k % 10 ^ 4)

/-- The fractions of row `k` in percent, `/repo/input_data/static_input/land_water_fractions/watergap_22e_{contfrac_global.nc,glolak.nc4,
reglak.nc4,glowet.nc4,locwet.nc4,loclak.nc4,locres.nc4}`, `land_surfacewater_fraction_init.py:41-69`. -/
noncomputable def shippedFrac (k : ℕ) : FracStatic where
  cont := f32 (fractionRow k / 10 ^ 34)
  glolake := f32 (rareRow k / 10 ^ 20 % 10 ^ 10)
  reglake := f32 (rareRow k / 10 ^ 10 % 10 ^ 10)
  glowet := f32 (fractionRow k / 10 ^ 24 % 10 ^ 10)
  locwet := f32 (fractionRow k / 10 ^ 14 % 10 ^ 10)
  loclake := f32 (fractionRow k / 10 ^ 4 % 10 ^ 10)
  locres := f32 (rareRow k % 10 ^ 10)

/-- The bits in the newest of `f` entries, 13 digits each, whose year is not later than `y`. -/
def resAt (n y : ℕ) : ℕ → ℕ
  | 0 => 0
  | f + 1 => if n % 10 ^ 13 / 10 ^ 10 ≤ y then n % 10 ^ 10 else resAt (n / 10 ^ 13) y f

/-- `gloresfrac` of row `k` in a year from 1901 to 2025 in percent, `/repo/input_data/static_input/watergap_22e_gloresfrac_1901_2025.nc`,
`land_surfacewater_fraction.py:89-91`, `land_surfacewater_fraction_init.py:193-197`.  At most four years change the fraction of a cell. -/
noncomputable def shippedGlores (k year : ℕ) : ℝ := f32 (resAt (rareRow k / 10 ^ 30) (year - 1900) 4)

/-- The 41 digits of row `k` of `paramData`, `staticdata_handler.py:151-182`. -/
noncomputable def paramRow (k : ℕ) : ℕ := paramData.get (k / 16) / 10 ^ (41 * (15 - k % 16)) % 10 ^ 41

/-- `gamma`, `/repo/model/WaterGAP_2.2e_global_parameters_gswp3_w5e5.nc`, `waterbalance_vertical_init.py:283`. -/
noncomputable def shippedGamma (k : ℕ) : ℝ := gammaData.get (paramRow k / 10 ^ 36) / 2 ^ 59

/-- `areal_corr_factor`, the areal correction factor, `WaterGAP_2.2e_global_parameters_gswp3_w5e5.nc`, `waterbalance_vertical_init.py:290`. -/
noncomputable def shippedCfa (k : ℕ) : ℝ := cfaData.get (paramRow k / 10 ^ 33 % 10 ^ 3) / 2 ^ 59

/-- `stat_corr_fact`, the station correction factor, `WaterGAP_2.2e_global_parameters_gswp3_w5e5.nc`, `waterbalance_lateral.py:732`. -/
noncomputable def shippedCfs (k : ℕ) : ℝ := cfsData.get (paramRow k / 10 ^ 30 % 10 ^ 3) / 2 ^ 59

/-- `tawc` (mm per m of soil), `soil_storage/watergap_22e_tawc.nc4`, `staticdata_handler.py:247-249`. -/
noncomputable def shippedTawc (k : ℕ) : ℝ := f32 (tawcData.get (paramRow k / 10 ^ 26 % 10 ^ 4))

/-- `builtup_area_frac`, `soil_storage/watergap_22e_builtup_area_frac.nc4`, `staticdata_handler.py:244-245`. -/
noncomputable def shippedBuiltup (k : ℕ) : ℝ := f32 (builtData.get (paramRow k / 10 ^ 22 % 10 ^ 4))

/-- `gw_factor_corr`, `soil_storage/watergap_22e_gw_factor_corr.nc4`, `staticdata_handler.py:262-264`. -/
noncomputable def shippedFactor (k : ℕ) : ℝ := f32 (factorData.get (paramRow k / 10 ^ 18 % 10 ^ 4))

/-- `max_recharge` divided by 100, `soil_storage/watergap_22e_max_recharge.nc4`, `staticdata_handler.py:255-257`. -/
noncomputable def shippedMaxRecharge (k : ℕ) : ℝ := (paramRow k / 10 ^ 15 % 10 ^ 3 : ℕ) / 100

/-- `texture`, `soil_storage/watergap_22e_texture.nc`, `staticdata_handler.py:259-260`. -/
noncomputable def shippedTexture (k : ℕ) : ℝ := (paramRow k / 10 ^ 13 % 100 : ℕ) - 2

/-- The land cover class, `watergap_22e_landcover.nc4`, `staticdata_handler.py:57-59,151`. -/
noncomputable def shippedCover (k : ℕ) : ℕ := paramRow k / 10 ^ 11 % 100

/-- `aridhumid`: 1 for arid, `watergap_22e_aridhumid.nc4`, `staticdata_handler.py:60-62,156`. -/
noncomputable def shippedArid (k : ℕ) : ℕ := paramRow k / 10 ^ 10 % 10

/-- `river_length` (km), `river_static_data/watergap_22e_river_length.nc4`, `waterbalance_lateral.py:138-139`. -/
noncomputable def shippedLength (k : ℕ) : ℝ := f32 (paramRow k % 10 ^ 10)

/-- `continentalarea` (km²), which is the area of the whole cell and depends on the latitude only, `watergap_22e_continentalarea.nc`,
`staticdata_handler.py:176-177`. -/
noncomputable def shippedArea (k : ℕ) : ℝ := f32 (areaData.get (shippedCell k).1)

end WG
