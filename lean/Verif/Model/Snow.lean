import Verif.Prelude

/-! Model of `/repo/model/verticalwaterbalance/snow.py`. -/

namespace WG

/-- The arguments of `snow_water_balance` (`snow.py:32-38`) that do not change from band to band.
`meanElev` is `elevation[0]` (line 122). -/
structure SnowPar where
  temperature : ℝ
  precip : ℝ
  throughfall : ℝ
  petToSoil : ℝ
  degreeday : ℝ
  meanElev : ℝ
  lapse : ℝ
  freezeTemp : ℝ
  meltTemp : ℝ

/-- What the code records for one elevation band (the `*_subgrid` arrays, `snow.py:133-138`). -/
structure BandOut where
  storage : ℝ
  temp : ℝ
  snowfall : ℝ
  sublimation : ℝ
  melt : ℝ
  /-- `throughfall_before_melt` -/
  rain : ℝ

/-- Temperature in a band from the lapse rate (`snow.py:142-143`, `178-180`). -/
def lapseTemp (p : SnowPar) (elev : ℝ) : ℝ := p.temperature - (elev - p.meanElev) * p.lapse

/-- The limiter against endless accumulation (`snow.py:174-180`): returns the temperature used for this band
and the new `thresh_elev`. -/
noncomputable def bandTemp (p : SnowPar) (thresh elev storage : ℝ) : ℝ × ℝ :=
  if storage > 1000 then
    if thresh = 0 then (lapseTemp p elev, elev)
    else if thresh > 0 then (lapseTemp p thresh, thresh)
    else (lapseTemp p elev, thresh)
  else (lapseTemp p elev, thresh)

/-- The body of the band loop after the temperature is known (`snow.py:182-213`). -/
noncomputable def bandStep (p : SnowPar) (temp storage : ℝ) : BandOut :=
  -- lines 182-202
  let freezing : Prop := temp ≤ p.freezeTemp
  let snowfall := open Classical in if freezing then p.precip else 0
  let rain := open Classical in if freezing then 0 else p.throughfall
  let s1 := open Classical in if freezing then storage + p.throughfall else storage
  let sublimation := open Classical in
    if freezing then (if s1 > p.petToSoil then p.petToSoil else s1) else 0
  let s2 := open Classical in
    if freezing then (if s1 > p.petToSoil then s1 - p.petToSoil else 0) else s1
  -- lines 205-213
  let melt0 := if temp > p.meltTemp then
      (if s2 > 0 then p.degreeday * (temp - p.meltTemp) else 0) else 0
  let melt := if temp > p.meltTemp then
      (if s2 > 0 then (if melt0 > s2 then s2 else melt0) else 0) else 0
  let s3 := if temp > p.meltTemp then
      (if s2 > 0 then (if melt0 > s2 then 0 else s2 - melt0) else s2) else s2
  { storage := s3, temp := temp, snowfall := snowfall, sublimation := sublimation, melt := melt,
    rain := rain }

/-- The loop over the bands (`snow.py:161-221`); the input pairs are `(elevation, storage)` after rescaling.
`thresh` is the loop-carried `thresh_elev`. -/
noncomputable def bandLoop (p : SnowPar) : ℝ → List (ℝ × ℝ) → List BandOut
  | _, [] => []
  | thresh, (elev, s) :: rest =>
    let t := bandTemp p thresh elev s
    bandStep p t.1 s :: bandLoop p t.2 rest

/-- `np.sum(a) / len(elevation_subgrid)`. -/
noncomputable def mean (l : List ℝ) : ℝ := l.sum / l.length

/-- Rescaling of one band to the current land area and flushing of residues (`snow.py:147-152`). -/
noncomputable def rescaleBand (ratio minV : ℝ) (b : ℝ × ℝ) : ℝ × ℝ := (b.1, flush minV (b.2 * ratio))

/-- The values returned by `snow_water_balance` (`snow.py:270-272`). -/
structure SnowOut where
  storage : ℝ
  bands : List ℝ
  snowfall : ℝ
  sublimation : ℝ
  melt : ℝ
  effPrecip : ℝ
  maxTempElev : ℝ
  landStorageChange : ℝ
  transfer : ℝ
  coverFrac : ℝ

/-- `snow_water_balance` (`snow.py:32-272`).  `bands` pairs the elevations `elevation[1:]` with
`snow_water_storage_subgrid` (in the code: two arrays of equal length 100).  Without land, the fluxes that
are never assigned are read as zero (Numba). -/
noncomputable def snowWaterBalance (p : SnowPar) (bands : List (ℝ × ℝ))
    (landStorageChange frac ratio transfer minV : ℝ) : SnowOut :=
  if frac > 0 then
    let init := bands.map (rescaleBand ratio minV)
    let outs := bandLoop p 0 init
    { storage := mean (outs.map (·.storage))
      bands := outs.map (·.storage)
      snowfall := mean (outs.map (·.snowfall))
      sublimation := mean (outs.map (·.sublimation))
      melt := mean (outs.map (·.melt))
      -- lines 234-235, 254-255
      effPrecip := mean (outs.map fun o => o.melt + o.rain)
      -- lines 220-221
      maxTempElev := (outs.head?.map (·.temp)).getD 0
      -- lines 238-247
      landStorageChange := landStorageChange +
        (List.zipWith (fun (o : BandOut) b => o.storage - b.2) outs init).sum / bands.length
      transfer := transfer
      -- lines 226, 257-258
      coverFrac := mean (outs.map fun o => if o.storage > 0 then 1 else 0) }
  else
    -- lines 265-268
    { storage := 0, bands := bands.map fun _ => 0, snowfall := 0, sublimation := 0, melt := 0,
      effPrecip := 0, maxTempElev := 0, landStorageChange := landStorageChange,
      transfer := transfer + mean (bands.map (·.2)), coverFrac := 0 }

end WG
