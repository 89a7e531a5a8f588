import Verif.Model.Radiation
import Verif.Model.Lai
import Verif.Model.Canopy
import Verif.Model.Snow
import Verif.Model.Soil

/-! Model of `/repo/model/verticalwaterbalance/waterbalance_vertical.py`. -/

namespace WG

/-- Static data and parameters of a cell: the arguments of `vert_water_balance`
(`waterbalance_vertical.py:23-39`) that do not change from day to day. -/
structure VertPar where
  rad : RadPar
  alpha : ℝ
  lai : LaiPar
  coef : ℝ
  minV : ℝ
  degreeday : ℝ
  meanElev : ℝ
  elevs : List ℝ
  lapse : ℝ
  freezeTemp : ℝ
  meltTemp : ℝ
  fracBuiltup : ℝ
  builtup : ℝ
  gamma : ℝ
  maxDailyPet : ℝ
  texture : ℝ
  drainage : ℝ
  maxRecharge : ℝ
  rechargeFactor : ℝ
  critPrecip : ℝ
  maxSoil : ℝ
  cfa : ℝ

/-- The forcing of a cell for one day. -/
structure VertForcing where
  temperature : ℝ
  swDown : ℝ
  lwDown : ℝ
  precip : ℝ
  frac : ℝ
  ratio : ℝ

/-- What is carried from day to day for one cell (`waterbalance_vertical_init.py:84-168`). -/
structure VertState where
  lai : LaiState
  canopy : ℝ
  /-- mean snow water storage, used for the albedo of the next day -/
  snow : ℝ
  bands : List ℝ
  soil : ℝ

/-- The results for one cell (`waterbalance_vertical.py:267-274`). -/
structure VertOut where
  next : VertState
  netRad : ℝ
  pet : ℝ
  openPet : ℝ
  throughfall : ℝ
  canopyEvap : ℝ
  snowfall : ℝ
  sublimation : ℝ
  melt : ℝ
  coverFrac : ℝ
  soilEvap : ℝ
  recharge : ℝ
  surfaceRunoff : ℝ
  landAet : ℝ
  transfer : ℝ

/-- The body of the cell loop (`waterbalance_vertical.py:94-264`).  The leaf area index passed in is that of
`basin.copy()` (line 55), i.e. 0 for a cell of the basin. -/
noncomputable def vertCell (p : VertPar) (f : VertForcing) (s : VertState) : VertOut :=
  let rad := netRadiation p.rad f.temperature f.swDown f.lwDown s.snow           -- 99-111
  let pet := priestleyTaylor f.temperature p.alpha rad.1 rad.2                   -- 113-120
  let l := laiStep p.lai { s.lai with lai := 0 } f.temperature f.precip          -- 125-142
  let c := canopyWaterBalance s.canopy l.lai pet.1 f.precip f.frac f.ratio p.coef p.minV   -- 147-168
  let sp : SnowPar :=
    { temperature := f.temperature, precip := f.precip, throughfall := c.throughfall,
      petToSoil := c.petToSoil, degreeday := p.degreeday, meanElev := p.meanElev, lapse := p.lapse,
      freezeTemp := p.freezeTemp, meltTemp := p.meltTemp }
  let sn := snowWaterBalance sp (p.elevs.zip s.bands) c.landStorageChange f.frac f.ratio c.transfer
    p.minV                                                                       -- 173-207
  let m := immediateRunoff sn.effPrecip p.fracBuiltup p.builtup                  -- 213-222
  let si : SoilIn :=
    { petToSoil := c.petToSoil, frac := f.frac, ratio := f.ratio, maxTempElev := sn.maxTempElev,
      canopyEvap := c.evap, effPrecip := m.1, precip := f.precip, immediate := m.2,
      landStorageChange := sn.landStorageChange, sublimation := sn.sublimation, transfer := sn.transfer,
      freezeTemp := p.freezeTemp, gamma := p.gamma, maxDailyPet := p.maxDailyPet,
      humidArid := p.lai.humidArid, texture := p.texture, drainage := p.drainage,
      maxRecharge := p.maxRecharge, rechargeFactor := p.rechargeFactor, critPrecip := p.critPrecip,
      maxSoil := p.maxSoil, cfa := p.cfa, minV := p.minV }
  let so := soilWaterBalance si s.soil                                           -- 225-264
  { next := { lai := l, canopy := c.storage, snow := sn.storage, bands := sn.bands, soil := so.soil }
    netRad := rad.1, pet := pet.1, openPet := pet.2, throughfall := c.throughfall, canopyEvap := c.evap,
    snowfall := sn.snowfall, sublimation := sn.sublimation, melt := sn.melt, coverFrac := sn.coverFrac,
    soilEvap := so.soilEvap, recharge := so.recharge, surfaceRunoff := so.surfaceRunoff,
    landAet := so.landAet, transfer := so.transfer }

/-- The day loop of one cell: the states are carried to the next day
(`waterbalance_vertical_init.py:302-325`). -/
noncomputable def vertRun (p : VertPar) (s : VertState) : List VertForcing → VertState
  | [] => s
  | f :: fs => vertRun p (vertCell p f s).next fs

/-- The grid during the cell loop: leaf-area counters are updated in place
(`waterbalance_vertical.py:139-142`), all other results go to new arrays which start from the basin mask
(`waterbalance_vertical.py:47-85`); `none` is the NaN of a cell outside of the basin, `some none` a basin cell
that the loop has not reached. -/
structure VertGrid (κ : Type) where
  state : κ → VertState
  out : κ → Option VertOut

/-- `vert_water_balance` (`waterbalance_vertical.py:90-264`) on a grid whose cells are indexed by `κ`.
`np.isnan(basin[x, y]) is False` (line 94) is modelled as "the cell belongs to the basin", which is what the
compiled code computes. Only the leaf-area state is visible to a second visit of the same cell. -/
noncomputable def vertLoop {κ : Type} [DecidableEq κ] (par : κ → VertPar) (frc : κ → VertForcing)
    (basin : κ → Bool) : List κ → VertGrid κ → VertGrid κ
  | [], g => g
  | c :: cs, g =>
    if basin c then
      let o := vertCell (par c) (frc c) (g.state c)
      vertLoop par frc basin cs
        { state := Function.update g.state c { g.state c with lai := o.next.lai }
          out := Function.update g.out c (some o) }
    else vertLoop par frc basin cs g

end WG
