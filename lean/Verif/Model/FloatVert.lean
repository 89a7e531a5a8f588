import Verif.Model.Float
import Verif.Model.Vertical

/-!
Radiation, potential evapotranspiration and leaf area index in rounded arithmetic, and with them the whole vertical water balance of a
cell, in the arithmetic `A` of the machine (`Model/Float.lean`).
-/

namespace WG

section
variable (A : Arith)

local notation:65 x:65 " ⊞ " y:66 => Arith.add A x y
local notation:65 x:65 " ⊟ " y:66 => Arith.sub A x y
local notation:70 x:70 " ⊠ " y:71 => Arith.mul A x y
local notation:70 x:70 " ⧄ " y:71 => Arith.div A x y

/-- `calculate_net_radiation` (`radiation_evapotranspiration.py:31-122`), see `netRadiation`. -/
noncomputable def netRadiationR (p : RadPar) (temperature swDown lwDown snow : ℝ) : ℝ × ℝ :=
  let alb := if snow > p.snowAlbedoThresh then p.snowAlbedo else p.albedo
  let netSw := swDown ⊠ (1 ⊟ alb)
  let upLw := p.emissivity ⊠ (A.rnd 5.67e-08 ⊠ A.pow temperature 4)
  let netLw := lwDown ⊟ upLw
  (netSw ⊞ netLw, swDown ⊠ (1 ⊟ p.openwaterAlbedo) ⊞ netLw)

/-- Degrees Celsius (`radiation_evapotranspiration.py:162-163`). -/
noncomputable def celsiusR (temperature : ℝ) : ℝ := temperature ⊟ A.rnd 273.15

/-- Slope of the saturation vapour pressure curve (`radiation_evapotranspiration.py:166-171`), see `slopeOfSat`. The square is
a product in the compiled code. -/
noncomputable def slopeOfSatR (temperature : ℝ) : ℝ :=
  let t := celsiusR A temperature
  let d := t ⊞ A.rnd 237.3
  (4098 ⊠ (A.rnd 0.6108 ⊠ A.exp ((A.rnd 17.27 ⊠ t) ⧄ d))) ⧄ (d ⊠ d)

/-- Latent heat (`radiation_evapotranspiration.py:180-181`), see `latentHeat`. -/
noncomputable def latentHeatR (temperature : ℝ) : ℝ :=
  let t := celsiusR A temperature
  if t > 0 then A.rnd 2.501 ⊟ A.rnd 0.002361 ⊠ t else A.rnd 2.835

/-- Psychrometric constant (`radiation_evapotranspiration.py:177,184`), see `psyConst`. -/
noncomputable def psyConstR (temperature : ℝ) : ℝ :=
  (A.rnd 0.0016286 ⊠ A.rnd 101.3) ⧄ latentHeatR A temperature

/-- Priestley-Taylor evapotranspiration (`radiation_evapotranspiration.py:198-205,211-221`), see `ptOne`. -/
noncomputable def ptOneR (temperature alpha net : ℝ) : ℝ :=
  let rn := (net ⊠ A.rnd 0.0864) ⧄ latentHeatR A temperature
  if rn ≤ 0 then 0
  else alpha ⊠ ((slopeOfSatR A temperature ⊠ rn) ⧄ (slopeOfSatR A temperature ⊞ psyConstR A temperature))

/-- Growing leaves (`lai.py:121-129,209-217`), see `laiGrow`. -/
noncomputable def laiGrowR (p : LaiPar) (days : ℤ) (cum : ℝ) : LaiState :=
  if days ≥ p.initialDays + 30 then { lai := p.maxLai, days := days, cumPrecip := cum, grown := true }
  else { lai := p.minLai ⊞ (p.maxLai ⊟ p.minLai) ⧄ 30 ⊠ ((days - p.initialDays : ℤ) : ℝ),
         days := days, cumPrecip := cum, grown := false }

/-- Falling leaves (`lai.py:168-171,238-241`). -/
noncomputable def laiFallR (p : LaiPar) (days : ℤ) : ℝ :=
  p.maxLai ⊟ (p.maxLai ⊟ p.minLai) ⧄ 30 ⊠ ((30 - days : ℤ) : ℝ)

/-- `get_leaf_area_index` (`lai.py:24-253`), one day, see `laiStep`. -/
noncomputable def laiStepR (p : LaiPar) (s : LaiState) (temperature precip : ℝ) : LaiState :=
  match p.landCover with
  | none => s
  | some lc =>
    if temperature > A.rnd 281.15 then
      if s.grown = false then
        if s.days ≥ p.initialDays then
          if s.cumPrecip ⊞ precip > 40 then laiGrowR A p (s.days + 1) (s.cumPrecip ⊞ precip)
          else { lai := p.minLai, days := p.initialDays, cumPrecip := s.cumPrecip ⊞ precip, grown := false }
        else
          { lai := p.minLai, days := s.days + 1, cumPrecip := s.cumPrecip ⊞ precip, grown := false }
      else
        if s.days ≤ 30 then
          let d1 := s.days - 1
          let g1 := if lc ≤ 2 then false else true
          let d2 := if d1 ≤ 0 then 0 else d1
          let g2 := if d1 ≤ 0 then false else g1
          let c2 := if d1 ≤ 0 then 0 else s.cumPrecip
          { lai := laiFallR A p d2, days := d2, cumPrecip := c2, grown := g2 }
        else
          { lai := p.maxLai,
            days := if p.humidArid = 1 ∧ precip < A.rnd 0.5 then s.days - 1 else p.initialDays + 30,
            cumPrecip := s.cumPrecip, grown := true }
    else
      if s.grown = false then
        if s.days > p.initialDays then
          if s.cumPrecip ⊞ precip > 40 then laiGrowR A p (s.days + 1) (s.cumPrecip ⊞ precip)
          else { lai := p.minLai, days := p.initialDays, cumPrecip := s.cumPrecip ⊞ precip, grown := false }
        else { lai := p.minLai, days := s.days, cumPrecip := s.cumPrecip ⊞ precip, grown := false }
      else
        if s.days ≤ 30 then
          let d1 := s.days - 1
          let d2 := if d1 ≤ 0 then 0 else d1
          let g2 := if d1 ≤ 0 then false else true
          let c2 := if d1 ≤ 0 then 0 else s.cumPrecip
          { lai := laiFallR A p d2, days := d2, cumPrecip := c2, grown := g2 }
        else
          { lai := p.maxLai, days := s.days - 1, cumPrecip := s.cumPrecip, grown := true }

/-- The land forcing of a day as the vertical balance computes it from the weather and the snow and leaves of the day before
(`waterbalance_vertical.py:99-142`). -/
noncomputable def vertForcingR (p : VertPar) (f : VertForcing) (s : VertState) : LandDayF :=
  { temperature := f.temperature, precip := f.precip
    pet := ptOneR A f.temperature p.alpha (netRadiationR A p.rad f.temperature f.swDown f.lwDown s.snow).1
    lai := (laiStepR A p.lai { s.lai with lai := 0 } f.temperature f.precip).lai
    frac := f.frac, ratio := f.ratio }

/-- The land storages of a state. -/
def VertState.land (s : VertState) : LandStore := { canopy := s.canopy, bands := s.bands, soil := s.soil }

/-- The body of the cell loop (`waterbalance_vertical.py:94-264`), see `vertCell`. -/
noncomputable def vertCellR (p : VertPar) (f : VertForcing) (s : VertState) : VertOut :=
  let rad := netRadiationR A p.rad f.temperature f.swDown f.lwDown s.snow
  let l := laiStepR A p.lai { s.lai with lai := 0 } f.temperature f.precip
  let d := vertForcingR A p f s
  let o := landDayR A p d s.land
  { next := { lai := l, canopy := o.next.canopy, snow := o.snow.storage, bands := o.next.bands, soil := o.next.soil }
    netRad := rad.1, pet := d.pet, openPet := ptOneR A f.temperature p.alpha rad.2, throughfall := o.canopy.throughfall,
    canopyEvap := o.canopy.evap, snowfall := o.snow.snowfall, sublimation := o.snow.sublimation, melt := o.snow.melt,
    coverFrac := o.snow.coverFrac, soilEvap := o.soil.soilEvap, recharge := o.soil.recharge,
    surfaceRunoff := o.soil.surfaceRunoff, landAet := o.soil.landAet, transfer := o.soil.transfer }

/-- The day loop of one cell (`waterbalance_vertical_init.py:302-325`): the results of the days in order. -/
noncomputable def vertRunR (p : VertPar) : VertState → List VertForcing → List VertOut
  | _, [] => []
  | s, f :: fs => vertCellR A p f s :: vertRunR p (vertCellR A p f s).next fs

end

end WG
