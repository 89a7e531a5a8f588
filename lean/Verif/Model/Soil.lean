import Verif.Prelude

/-! Model of `/repo/model/verticalwaterbalance/soil.py`. -/

namespace WG

/-- `immediate_runoff` (`soil.py:50-100`): returns (reduced effective precipitation, immediate runoff). -/
noncomputable def immediateRunoff (effPrecip fracBuiltup builtup : ℝ) : ℝ × ℝ :=
  if builtup > 0 then
    let imm := fracBuiltup * effPrecip * builtup
    (effPrecip - imm, imm)
  else (effPrecip, 0)

/-- Arguments of `soil_water_balance` (`soil.py:104-112`) without the soil water content itself. -/
structure SoilIn where
  petToSoil : ℝ
  frac : ℝ
  ratio : ℝ
  maxTempElev : ℝ
  canopyEvap : ℝ
  effPrecip : ℝ
  precip : ℝ
  immediate : ℝ
  landStorageChange : ℝ
  sublimation : ℝ
  transfer : ℝ
  freezeTemp : ℝ
  gamma : ℝ
  maxDailyPet : ℝ
  humidArid : ℝ
  texture : ℝ
  drainage : ℝ
  maxRecharge : ℝ
  rechargeFactor : ℝ
  critPrecip : ℝ
  maxSoil : ℝ
  cfa : ℝ
  minV : ℝ

/-- The intermediate values at `soil.py:354`, i.e. after the (un)frozen branches. -/
structure SoilMid where
  soil : ℝ
  recharge : ℝ
  aet : ℝ
  saturation : ℝ
  dailyRunoff : ℝ
  overflow : ℝ
  immediate : ℝ
  total : ℝ

/-- `soil.py:226-344`: soil warm enough and able to store water.  `soil0` is the content after the first
overflow `over0` has been taken off. -/
noncomputable def soilActive (i : SoilIn) (soil0 over0 : ℝ) : SoilMid :=
  let sat := soil0 / i.maxSoil                                            -- 226
  let r := i.effPrecip * sat ^ i.gamma                                     -- 229-230
  let aet0 := min i.petToSoil ((i.maxDailyPet - i.canopyEvap) * sat)       -- 241-243
  let s1 := soil0 + (i.effPrecip - aet0 - r)                               -- 247-248
  let s2 := if |s1| ≤ i.minV then 0 else s1                                -- 252-253
  let aet := if s2 < 0 then aet0 + s2 else aet0                            -- 270-272
  let s3 := if s2 < 0 then 0 else s2
  let r3 := r * i.cfa                                                      -- 278
  let imm := i.immediate * i.cfa                                           -- 279
  let rg0 := min i.maxRecharge (i.rechargeFactor * r3)                     -- 296-298, 310-312
  -- 294-312; `potential_gw_recharge` is not assigned when an arid cell has enough precipitation: read as 0
  let dry : Prop := (i.humidArid = 1 ∧ i.texture < 21 ∧ i.drainage ≥ 0) ∧ i.precip ≤ i.critPrecip
  let rg := open Classical in if dry then 0 else rg0
  let pot := open Classical in if dry then rg0 else 0
  let r4 := r3 - pot                                                       -- 324
  let s4 := s3 + pot / i.cfa                                               -- 325-326
  let over1 := if s4 > i.maxSoil then over0 + (s4 - i.maxSoil) else over0  -- 332-335
  let s5 := if s4 > i.maxSoil then i.maxSoil else s4
  let over2 := over1 * i.cfa                                               -- 338
  { soil := s5, recharge := rg, aet := aet, saturation := sat, dailyRunoff := r4, overflow := over2,
    immediate := imm, total := r4 + imm + over2 }                           -- 343-344

/-- `soil.py:206-352`: a cell with land. Unassigned values are read as zero (Numba). -/
noncomputable def soilLand (i : SoilIn) (soil : ℝ) : SoilMid :=
  let s := soil * i.ratio                                                   -- 206
  let over0 := if s > i.maxSoil then s - i.maxSoil else 0                   -- 214-217
  let s0 := if s > i.maxSoil then i.maxSoil else s
  if i.maxTempElev > i.freezeTemp then
    if i.maxSoil > 0 then soilActive i s0 over0
    else
      -- 346-347
      { soil := s0, recharge := 0, aet := 0, saturation := 0, dailyRunoff := 0, overflow := over0,
        immediate := i.immediate, total := 0 }
  else
    -- 349-352
    { soil := s0, recharge := 0, aet := 0, saturation := 0, dailyRunoff := 0, overflow := over0 * i.cfa,
      immediate := i.immediate, total := over0 * i.cfa }

/-- The values returned by `soil_water_balance` (`soil.py:435-438`). -/
structure SoilOut where
  soil : ℝ
  recharge : ℝ
  soilEvap : ℝ
  saturation : ℝ
  surfaceRunoff : ℝ
  transfer : ℝ
  total : ℝ
  dailyRunoff : ℝ
  overflow : ℝ
  immediate : ℝ
  landAet : ℝ

/-- `corr_land_aet` before the cut at zero (`soil.py:380-383`). -/
noncomputable def corrAet (cfa lsc precip aet : ℝ) : ℝ :=
  lsc * (cfa - 1) - precip * (cfa - 1) + aet * cfa

/-- `soil.py:387-389`, `407-412`: the part of a negative corrected evapotranspiration that is taken from
the total runoff, and the cut of total runoff at zero. -/
noncomputable def soilTotal (total aet0 : ℝ) : ℝ :=
  let neg := if aet0 < 0 then aet0 else 0
  let t1 := if neg < 0 then total + neg else total
  if t1 < 0 then 0 else t1

/-- `soil.py:420-433`: the repair step when recharge exceeds total runoff; returns
(soil, recharge, surface runoff). -/
noncomputable def soilFinish (soil recharge total : ℝ) : ℝ × ℝ × ℝ :=
  if total - recharge < 0 then
    let s := soil + (total - recharge)
    (if s < 0 then 0 else s, total, total - total)
  else (soil, recharge, total - recharge)

/-- `soil_water_balance` (`soil.py:104-438`). -/
noncomputable def soilWaterBalance (i : SoilIn) (soil : ℝ) : SoilOut :=
  if i.frac > 0 then
    let m := soilLand i soil
    let lsc := i.landStorageChange + (m.soil - soil * i.ratio)              -- 355-358
    let aet0 := corrAet i.cfa lsc i.precip (m.aet + i.canopyEvap + i.sublimation)
    let landAet := if aet0 < 0 then 0 else aet0                             -- 387-389
    let t2 := soilTotal m.total aet0                                         -- 387-412
    let f := soilFinish m.soil m.recharge t2
    { soil := f.1, recharge := f.2.1, soilEvap := m.aet, saturation := m.saturation,
      surfaceRunoff := f.2.2, transfer := i.transfer, total := t2, dailyRunoff := m.dailyRunoff,
      overflow := m.overflow, immediate := m.immediate, landAet := landAet }
  else
    -- 396-401, then 407-433 with total = recharge = 0
    { soil := 0, recharge := 0, soilEvap := 0, saturation := 0, surfaceRunoff := 0,
      transfer := (i.transfer + soil) * i.cfa, total := 0, dailyRunoff := 0, overflow := 0,
      immediate := i.immediate, landAet := 0 }

end WG
