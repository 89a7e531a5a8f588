import Verif.Prelude

/-! Model of `/repo/model/verticalwaterbalance/radiation_evapotranspiration.py`. -/

namespace WG

/-- Arguments of `calculate_net_radiation` (`radiation_evapotranspiration.py:31-34`) that depend on the place
only. -/
structure RadPar where
  snowAlbedoThresh : ℝ
  openwaterAlbedo : ℝ
  snowAlbedo : ℝ
  albedo : ℝ
  emissivity : ℝ

/-- `calculate_net_radiation` (`radiation_evapotranspiration.py:31-122`): (land, open water) net radiation. -/
noncomputable def netRadiation (p : RadPar) (temperature swDown lwDown snow : ℝ) : ℝ × ℝ :=
  let alb := if snow > p.snowAlbedoThresh then p.snowAlbedo else p.albedo        -- 81-82
  let netSw := swDown * (1 - alb)                                                -- 86
  let upLw := p.emissivity * (5.67e-08 * temperature ^ 4)                        -- 97-102
  let netLw := lwDown - upLw                                                     -- 106
  (netSw + netLw, swDown * (1 - p.openwaterAlbedo) + netLw)                      -- 112-120

/-- Slope of the saturation vapour pressure curve (`radiation_evapotranspiration.py:162-171`). -/
noncomputable def slopeOfSat (temperature : ℝ) : ℝ :=
  let t := temperature - 273.15
  (4098 * (0.6108 * Real.exp ((17.27 * t) / (t + 237.3)))) / (t + 237.3) ^ 2

/-- Latent heat (`radiation_evapotranspiration.py:180-181`). -/
noncomputable def latentHeat (temperature : ℝ) : ℝ :=
  let t := temperature - 273.15
  if t > 0 then 2.501 - 0.002361 * t else 2.835

/-- Psychrometric constant (`radiation_evapotranspiration.py:177,184`). -/
noncomputable def psyConst (temperature : ℝ) : ℝ := (0.0016286 * 101.3) / latentHeat temperature

/-- Priestley-Taylor evapotranspiration of one net radiation (`radiation_evapotranspiration.py:198-205`; the
open-water lines 211-221 repeat the same formula). -/
noncomputable def ptOne (temperature alpha net : ℝ) : ℝ :=
  let rn := (net * 0.0864) / latentHeat temperature
  if rn ≤ 0 then 0
  else alpha * ((slopeOfSat temperature * rn) / (slopeOfSat temperature + psyConst temperature))

/-- `priestley_taylor_pet` (`radiation_evapotranspiration.py:126-222`): (PET, open-water PET). -/
noncomputable def priestleyTaylor (temperature alpha net openNet : ℝ) : ℝ × ℝ :=
  (ptOne temperature alpha net, ptOne temperature alpha openNet)

end WG
