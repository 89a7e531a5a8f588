import Verif.Model.Vertical
import Verif.Model.LakeWetland
import Verif.Model.Reservoir
import Verif.Model.River
import Verif.Model.Groundwater

/-!
# The storage routines in rounded arithmetic

The other model files compute with exact reals; the program computes with 64-bit floating-point numbers.  Here
the storage routines are modelled once more, operation by operation in the order in which Python evaluates them,
with every result rounded.  The rounding is a parameter (`Arith`): the real-number model is the case in which
nothing is rounded, IEEE binary64 is `binary64` of `Verif/Model/Binary64.lean`.

Simplifications: no overflow and no NaN (the rounding takes a real to a real); `x**y` and `np.exp` are library
functions of which only sign and range are known.
-/

namespace WG

/-- Arithmetic of the machine: a rounding, applied to the exact result of each of `+ - * /`, and the library's power and exponential functions (`**`, `np.exp`). -/
structure Arith where
  rnd : ℝ → ℝ
  pow : ℝ → ℝ → ℝ
  exp : ℝ → ℝ

namespace Arith
variable (A : Arith)

/-- The machine numbers. -/
def F (x : ℝ) : Prop := A.rnd x = x
def add (x y : ℝ) : ℝ := A.rnd (x + y)
def sub (x y : ℝ) : ℝ := A.rnd (x - y)
def mul (x y : ℝ) : ℝ := A.rnd (x * y)
noncomputable def div (x y : ℝ) : ℝ := A.rnd (x / y)

/-- `np.sum` of a compiled array reduction: a loop that adds one element after the other
(used at `snow.py:247-258,266`). -/
def sum (l : List ℝ) : ℝ := l.foldl A.add 0

/-- What is assumed of an arithmetic: rounding is monotone, leaves machine numbers alone, is symmetric, small
integers are machine numbers, and different machine numbers have a difference other than zero; the library functions return machine numbers of the right sign and range. -/
structure Ok : Prop where
  mono : Monotone A.rnd
  idem : ∀ x, A.rnd (A.rnd x) = A.rnd x
  neg : ∀ x, A.rnd (-x) = -A.rnd x
  nat : ∀ n : ℕ, n ≤ 2 ^ 53 → A.rnd n = n
  /-- gradual underflow: different machine numbers have a difference other than zero -/
  under : ∀ x y, A.F x → A.F y → x < y → 0 < A.rnd (y - x)
  pow_F : ∀ x y, A.F (A.pow x y)
  pow_nonneg : ∀ x y, 0 ≤ x → 0 ≤ A.pow x y
  pow_le_one : ∀ x y, 0 ≤ x → x ≤ 1 → 0 ≤ y → A.pow x y ≤ 1
  exp_F : ∀ x, A.F (A.exp x)
  exp_nonneg : ∀ x, 0 ≤ A.exp x
  exp_le_one : ∀ x, x ≤ 0 → A.exp x ≤ 1

end Arith

/-- Nothing is rounded: the real-number model. -/
noncomputable def exact : Arith := { rnd := id, pow := fun x y => x ^ y, exp := Real.exp }

section
variable (A : Arith)

local notation:65 x:65 " ⊞ " y:66 => Arith.add A x y
local notation:65 x:65 " ⊟ " y:66 => Arith.sub A x y
local notation:70 x:70 " ⊠ " y:71 => Arith.mul A x y
local notation:70 x:70 " ⧄ " y:71 => Arith.div A x y

/-- `canopy_water_balance` (`canopy.py:25-151`), see `canopyWaterBalance`. -/
noncomputable def canopyR (storage lai pet precip frac ratio coef minV : ℝ) : CanopyOut :=
  if frac > 0 then
    -- lines 67-79
    let s0 := flush minV (storage ⊠ ratio)
    if lai > 0 then
      -- lines 85-100
      let smax := coef ⊠ lai
      let diff := smax ⊟ s0
      let throughfall := if precip < diff then 0 else precip ⊟ diff
      let s1 := if precip < diff then s0 ⊞ precip else smax
      -- lines 107-111
      let evap0 := if smax > 0 then pet ⊠ A.pow (s1 ⧄ smax) (2 ⧄ 3) else 0
      -- lines 113-122
      let evap := if evap0 > s1 then s1 else evap0
      let petToSoil := if evap0 > s1 then pet ⊟ s1 else pet ⊟ evap0
      let s2 := if evap0 > s1 then 0 else s1 ⊟ evap0
      { storage := s2, throughfall := throughfall, evap := evap,
        petToSoil := if petToSoil < 0 then 0 else petToSoil,
        landStorageChange := s2 ⊟ s0, transfer := 0 }
    else
      -- lines 124-127
      { storage := s0, throughfall := precip, evap := 0,
        petToSoil := if pet < 0 then 0 else pet,
        landStorageChange := s0 ⊟ s0, transfer := 0 }
  else
    -- lines 137-148
    { storage := 0, throughfall := 0, evap := 0, petToSoil := 0,
      landStorageChange := 0, transfer := storage }

/-- `snow.py:142-143`, `178-180`, see `lapseTemp`. -/
def lapseTempR (p : SnowPar) (elev : ℝ) : ℝ := p.temperature ⊟ ((elev ⊟ p.meanElev) ⊠ p.lapse)

/-- `snow.py:174-180`, see `bandTemp`. -/
noncomputable def bandTempR (p : SnowPar) (thresh elev storage : ℝ) : ℝ × ℝ :=
  if storage > 1000 then
    if thresh = 0 then (lapseTempR A p elev, elev)
    else if thresh > 0 then (lapseTempR A p thresh, thresh)
    else (lapseTempR A p elev, thresh)
  else (lapseTempR A p elev, thresh)

/-- `snow.py:182-213`, see `bandStep`. -/
noncomputable def bandStepR (p : SnowPar) (temp storage : ℝ) : BandOut :=
  -- lines 182-202
  let freezing : Prop := temp ≤ p.freezeTemp
  let snowfall := open Classical in if freezing then p.precip else 0
  let rain := open Classical in if freezing then 0 else p.throughfall
  let s1 := open Classical in if freezing then storage ⊞ p.throughfall else storage
  let sublimation := open Classical in
    if freezing then (if s1 > p.petToSoil then p.petToSoil else s1) else 0
  let s2 := open Classical in
    if freezing then (if s1 > p.petToSoil then s1 ⊟ p.petToSoil else 0) else s1
  -- lines 205-213
  let melt0 := if temp > p.meltTemp then
      (if s2 > 0 then p.degreeday ⊠ (temp ⊟ p.meltTemp) else 0) else 0
  let melt := if temp > p.meltTemp then
      (if s2 > 0 then (if melt0 > s2 then s2 else melt0) else 0) else 0
  let s3 := if temp > p.meltTemp then
      (if s2 > 0 then (if melt0 > s2 then 0 else s2 ⊟ melt0) else s2) else s2
  { storage := s3, temp := temp, snowfall := snowfall, sublimation := sublimation, melt := melt,
    rain := rain }

/-- `snow.py:161-221`, see `bandLoop`. -/
noncomputable def bandLoopR (p : SnowPar) : ℝ → List (ℝ × ℝ) → List BandOut
  | _, [] => []
  | thresh, (elev, s) :: rest =>
    let t := bandTempR A p thresh elev s
    bandStepR A p t.1 s :: bandLoopR p t.2 rest

/-- `np.sum(a) / len(elevation_subgrid)` (`snow.py:246-258`). -/
noncomputable def meanR (l : List ℝ) : ℝ := A.sum l ⧄ l.length

/-- `snow.py:147-152`, see `rescaleBand`. -/
noncomputable def rescaleBandR (ratio minV : ℝ) (b : ℝ × ℝ) : ℝ × ℝ := (b.1, flush minV (b.2 ⊠ ratio))

/-- `snow_water_balance` (`snow.py:32-272`), see `snowWaterBalance`. -/
noncomputable def snowR (p : SnowPar) (bands : List (ℝ × ℝ))
    (landStorageChange frac ratio transfer minV : ℝ) : SnowOut :=
  if frac > 0 then
    let init := bands.map (rescaleBandR A ratio minV)
    let outs := bandLoopR A p 0 init
    { storage := meanR A (outs.map (·.storage))
      bands := outs.map (·.storage)
      snowfall := meanR A (outs.map (·.snowfall))
      sublimation := meanR A (outs.map (·.sublimation))
      melt := meanR A (outs.map (·.melt))
      effPrecip := meanR A (outs.map fun o => o.melt ⊞ o.rain)
      maxTempElev := (outs.head?.map (·.temp)).getD 0
      landStorageChange := landStorageChange ⊞
        (A.sum (List.zipWith (fun (o : BandOut) b => o.storage ⊟ b.2) outs init) ⧄ bands.length)
      transfer := transfer
      coverFrac := meanR A (outs.map fun o => if o.storage > 0 then 1 else 0) }
  else
    { storage := 0, bands := bands.map fun _ => 0, snowfall := 0, sublimation := 0, melt := 0,
      effPrecip := 0, maxTempElev := 0, landStorageChange := landStorageChange,
      transfer := transfer ⊞ meanR A (bands.map (·.2)), coverFrac := 0 }

/-- `immediate_runoff` (`soil.py:50-100`), see `immediateRunoff`. -/
noncomputable def immediateR (effPrecip fracBuiltup builtup : ℝ) : ℝ × ℝ :=
  if builtup > 0 then
    let imm := fracBuiltup ⊠ effPrecip ⊠ builtup
    (effPrecip ⊟ imm, imm)
  else (effPrecip, 0)

/-- `soil.py:226-344`, see `soilActive`. -/
noncomputable def soilActiveR (i : SoilIn) (soil0 over0 : ℝ) : SoilMid :=
  let sat := soil0 ⧄ i.maxSoil                                              -- 226
  let r := i.effPrecip ⊠ A.pow sat i.gamma                                  -- 229-230
  let aet0 := min i.petToSoil ((i.maxDailyPet ⊟ i.canopyEvap) ⊠ sat)        -- 241-243
  let s1 := soil0 ⊞ (i.effPrecip ⊟ aet0 ⊟ r)                                -- 247-248
  let s2 := if |s1| ≤ i.minV then 0 else s1                                 -- 252-253
  let aet := if s2 < 0 then aet0 ⊞ s2 else aet0                             -- 270-272
  let s3 := if s2 < 0 then 0 else s2
  let r3 := r ⊠ i.cfa                                                       -- 278
  let imm := i.immediate ⊠ i.cfa                                            -- 279
  let rg0 := min i.maxRecharge (i.rechargeFactor ⊠ r3)                      -- 296-298, 310-312
  let dry : Prop := (i.humidArid = 1 ∧ i.texture < 21 ∧ i.drainage ≥ 0) ∧ i.precip ≤ i.critPrecip
  let rg := open Classical in if dry then 0 else rg0
  let pot := open Classical in if dry then rg0 else 0
  let r4 := r3 ⊟ pot                                                        -- 324
  let s4 := s3 ⊞ (pot ⧄ i.cfa)                                              -- 325-326
  let over1 := if s4 > i.maxSoil then over0 ⊞ (s4 ⊟ i.maxSoil) else over0   -- 332-335
  let s5 := if s4 > i.maxSoil then i.maxSoil else s4
  let over2 := over1 ⊠ i.cfa                                                -- 338
  { soil := s5, recharge := rg, aet := aet, saturation := sat, dailyRunoff := r4, overflow := over2,
    immediate := imm, total := r4 ⊞ imm ⊞ over2 }                            -- 343-344

/-- `soil.py:206-352`, see `soilLand`. -/
noncomputable def soilLandR (i : SoilIn) (soil : ℝ) : SoilMid :=
  let s := soil ⊠ i.ratio                                                    -- 206
  let over0 := if s > i.maxSoil then s ⊟ i.maxSoil else 0                    -- 214-217
  let s0 := if s > i.maxSoil then i.maxSoil else s
  if i.maxTempElev > i.freezeTemp then
    if i.maxSoil > 0 then soilActiveR A i s0 over0
    else
      { soil := s0, recharge := 0, aet := 0, saturation := 0, dailyRunoff := 0, overflow := over0,
        immediate := i.immediate, total := 0 }
  else
    { soil := s0, recharge := 0, aet := 0, saturation := 0, dailyRunoff := 0, overflow := over0 ⊠ i.cfa,
      immediate := i.immediate, total := over0 ⊠ i.cfa }

/-- `soil.py:380-383`, see `corrAet`. -/
def corrAetR (cfa lsc precip aet : ℝ) : ℝ :=
  lsc ⊠ (cfa ⊟ 1) ⊟ precip ⊠ (cfa ⊟ 1) ⊞ aet ⊠ cfa

/-- `soil.py:387-389`, `407-412`, see `soilTotal`. -/
noncomputable def soilTotalR (total aet0 : ℝ) : ℝ :=
  let neg := if aet0 < 0 then aet0 else 0
  let t1 := if neg < 0 then total ⊞ neg else total
  if t1 < 0 then 0 else t1

/-- `soil.py:420-433`, see `soilFinish`. -/
noncomputable def soilFinishR (soil recharge total : ℝ) : ℝ × ℝ × ℝ :=
  if total ⊟ recharge < 0 then
    let s := soil ⊞ (total ⊟ recharge)
    (if s < 0 then 0 else s, total, total ⊟ total)
  else (soil, recharge, total ⊟ recharge)

/-- `soil_water_balance` (`soil.py:104-438`), see `soilWaterBalance`. -/
noncomputable def soilR (i : SoilIn) (soil : ℝ) : SoilOut :=
  if i.frac > 0 then
    let m := soilLandR A i soil
    let lsc := i.landStorageChange ⊞ (m.soil ⊟ soil ⊠ i.ratio)              -- 355-358
    let aet0 := corrAetR A i.cfa lsc i.precip (m.aet ⊞ i.canopyEvap ⊞ i.sublimation)
    let landAet := if aet0 < 0 then 0 else aet0                              -- 387-389
    let t2 := soilTotalR A m.total aet0                                       -- 387-412
    let f := soilFinishR A m.soil m.recharge t2
    { soil := f.1, recharge := f.2.1, soilEvap := m.aet, saturation := m.saturation,
      surfaceRunoff := f.2.2, transfer := i.transfer, total := t2, dailyRunoff := m.dailyRunoff,
      overflow := m.overflow, immediate := m.immediate, landAet := landAet }
  else
    { soil := 0, recharge := 0, soilEvap := 0, saturation := 0, surfaceRunoff := 0,
      transfer := (i.transfer ⊞ soil) ⊠ i.cfa, total := 0, dailyRunoff := 0, overflow := 0,
      immediate := i.immediate, landAet := 0 }

/-! ### The land part of a day -/

/-- What the land routines of a cell read on one day besides the storages: the forcing, the leaf area index and
the potential evapotranspiration of the day (results of the radiation and leaf-area routines: any non-negative machine
numbers here, computed in `Model/FloatVert.lean`). -/
structure LandDayF where
  temperature : ℝ
  precip : ℝ
  pet : ℝ
  lai : ℝ
  frac : ℝ
  ratio : ℝ

/-- The land storages of a cell: canopy, snow bands, soil (`waterbalance_vertical_init.py:84-168`). -/
structure LandStore where
  canopy : ℝ
  bands : List ℝ
  soil : ℝ

/-- The land results of a day (`waterbalance_vertical.py:267-274`). -/
structure LandOut where
  canopy : CanopyOut
  snow : SnowOut
  soil : SoilOut
  next : LandStore

/-- `waterbalance_vertical.py:147-264`, the part of `vertCell` after radiation and leaf area. -/
noncomputable def landDayR (p : VertPar) (f : LandDayF) (s : LandStore) : LandOut :=
  let c := canopyR A s.canopy f.lai f.pet f.precip f.frac f.ratio p.coef p.minV
  let sp : SnowPar :=
    { temperature := f.temperature, precip := f.precip, throughfall := c.throughfall,
      petToSoil := c.petToSoil, degreeday := p.degreeday, meanElev := p.meanElev, lapse := p.lapse,
      freezeTemp := p.freezeTemp, meltTemp := p.meltTemp }
  let sn := snowR A sp (p.elevs.zip s.bands) c.landStorageChange f.frac f.ratio c.transfer p.minV
  let m := immediateR A sn.effPrecip p.fracBuiltup p.builtup
  let si : SoilIn :=
    { petToSoil := c.petToSoil, frac := f.frac, ratio := f.ratio, maxTempElev := sn.maxTempElev,
      canopyEvap := c.evap, effPrecip := m.1, precip := f.precip, immediate := m.2,
      landStorageChange := sn.landStorageChange, sublimation := sn.sublimation, transfer := sn.transfer,
      freezeTemp := p.freezeTemp, gamma := p.gamma, maxDailyPet := p.maxDailyPet,
      humidArid := p.lai.humidArid, texture := p.texture, drainage := p.drainage,
      maxRecharge := p.maxRecharge, rechargeFactor := p.rechargeFactor, critPrecip := p.critPrecip,
      maxSoil := p.maxSoil, cfa := p.cfa, minV := p.minV }
  let so := soilR A si s.soil
  { canopy := c, snow := sn, soil := so,
    next := { canopy := c.storage, bands := sn.bands, soil := so.soil } }

/-- The day loop (`waterbalance_vertical_init.py:302-325`): the results of the days in order. -/
noncomputable def landRunR (p : VertPar) : LandStore → List LandDayF → List LandOut
  | _, [] => []
  | s, f :: fs => landDayR A p f s :: landRunR p (landDayR A p f s).next fs

/-! ### Surface water bodies, river, groundwater -/

/-- `swb_redfactor` (`storage_reduction_factor.py:24-73`), see `swbRedfactor`. -/
noncomputable def redfactorR (storage maxStorage exponent : ℝ) (kind : Swb) : ℝ :=
  let d := |storage ⊟ maxStorage| ⧄ (nFactor kind ⊠ maxStorage)
  let r := 1 ⊟ A.pow d exponent
  if r < 0 then 0 else if r > 1 then 1 else r

section
variable (kind : LakeKind) (i : LakeIn) (s : ℝ)

/-- See `lakeRed` (`lakes_wetlands.py:145-147`). -/
noncomputable def lakeRedR : ℝ := redfactorR A s i.maxStorage i.redExp kind.swb

/-- See `lakeArea` (`lakes_wetlands.py:153-159`). -/
noncomputable def lakeAreaR : ℝ :=
  if kind = .globalLake then i.maxArea else lakeRedR A kind i s ⊠ i.maxArea

/-- See `lakeEvap` (`lakes_wetlands.py:195-205`). -/
noncomputable def lakeEvapR : ℝ :=
  let pet := if kind = .globalLake then i.openPet ⊠ lakeRedR A kind i s else i.openPet
  let e := (1 ⊟ i.cfa) ⊠ i.precip ⊞ i.cfa ⊠ pet
  if e < 0 then 0 else e

/-- See `lakeGwr` (`lakes_wetlands.py:214-225`). -/
noncomputable def lakeGwrR : ℝ :=
  if kind = .globalLake then
    (if i.arid && i.drainageOk then i.gwConst ⊠ A.rnd 0.001 ⊠ lakeAreaR A kind i s ⊠ lakeRedR A kind i s else 0)
  else (if i.arid && i.drainageOk then i.gwConst ⊠ A.rnd 0.001 ⊠ lakeAreaR A kind i s else 0)

/-- See `lakeTotalIn` (`lakes_wetlands.py:230`). -/
noncomputable def lakeTotalInR : ℝ := i.inflow ⊞ i.precip ⊠ lakeAreaR A kind i s

/-- See `lakeDemand` (`lakes_wetlands.py:239-251`). -/
noncomputable def lakeDemandR : ℝ :=
  if kind = .globalLake then (if i.reservoirArea > 0 then i.demand ⊠ A.rnd 0.5 else i.demand) else 0

/-- See `lakePet` (`lakes_wetlands.py:256-257`). -/
noncomputable def lakePetR : ℝ :=
  lakeEvapR A kind i s ⊠ lakeAreaR A kind i s ⊞ lakeGwrR A kind i s ⊞ lakeDemandR A kind i

/-- See `lakePetMax` (`lakes_wetlands.py:264-267`). -/
noncomputable def lakePetMaxR : ℝ :=
  match kind with
  | .localLake => s ⊞ i.maxStorage ⊞ lakeTotalInR A kind i s
  | .globalLake => s ⊞ i.maxStorage ⊞ lakeTotalInR A kind i s
  | _ => s ⊞ lakeTotalInR A kind i s

/-- See `lakeNetIn` (`lakes_wetlands.py:280`). -/
noncomputable def lakeNetInR : ℝ := lakeTotalInR A kind i s ⊟ lakePetR A kind i s

/-- See `lakeAnalytic` (`lakes_wetlands.py:282-284`). -/
noncomputable def lakeAnalyticR : ℝ :=
  s ⊠ A.exp (-1 ⊠ i.k) ⊞ (lakeNetInR A kind i s ⧄ i.k) ⊠ (1 ⊟ A.exp (-1 ⊠ i.k))

/-- See `globalLakeSO` (`lakes_wetlands.py:305-334`). -/
noncomputable def globalLakeSOR : ℝ × ℝ :=
  if lakePetR A kind i s > lakePetMaxR A kind i s then (lakeLimit kind i, 0)
  else
    let st0 := lakeAnalyticR A kind i s
    let out0 := lakeNetInR A kind i s ⊞ s ⊟ st0
    let out1 := if st0 > i.maxStorage then out0 ⊞ (st0 ⊟ i.maxStorage) else out0
    let st1 := if st0 > i.maxStorage then i.maxStorage else st0
    if out1 < 0 then (lakeNetInR A kind i s ⊞ s, 0) else (st1, out1)

/-- See `globalWetlandSO` (`lakes_wetlands.py:338-349`). -/
noncomputable def globalWetlandSOR : ℝ × ℝ :=
  let short : Prop := lakePetR A kind i s > lakePetMaxR A kind i s
  let st0 := open Classical in if short then lakeLimit kind i else lakeAnalyticR A kind i s
  let out0 := open Classical in if short then 0 else lakeNetInR A kind i s ⊞ s ⊟ lakeAnalyticR A kind i s
  if st0 > i.maxStorage then (i.maxStorage, out0 ⊞ (st0 ⊟ i.maxStorage)) else (st0, out0)

/-- See `localSO` (`lakes_wetlands.py:288,351-389`). -/
noncomputable def localSOR : ℝ × ℝ :=
  let st0 := if lakePetR A kind i s > lakePetMaxR A kind i s then lakeLimit kind i
             else s ⊞ lakeTotalInR A kind i s ⊟ lakePetR A kind i s
  let which := if kind = .localLake then s else st0
  let ex := if kind = .localLake then i.lakeExp else i.wetlandExp
  let out0 := if which > 0 then
      (let o := i.k ⊠ which ⊠ A.pow (which ⧄ i.maxStorage) ex
       if st0 ≤ 0 then 0 else if o > st0 then st0 else o)
    else 0
  let st1 := st0 ⊟ out0
  if st1 > i.maxStorage then (i.maxStorage, out0 ⊞ (st1 ⊟ i.maxStorage)) else (st1, out0)

/-- See `lakeSO`: storage and outflow at the end of `lake_wetland_water_balance`
(`lakes_wetlands.py:26-412`). -/
noncomputable def lakeSOR : ℝ × ℝ :=
  match kind with
  | .globalLake => globalLakeSOR A kind i s
  | .globalWetland => globalWetlandSOR A kind i s
  | _ => localSOR A kind i s

/-- The land-cover fraction of the water body for the next day (`lakes_wetlands.py:391-401`). -/
noncomputable def lakeNewFracR : ℝ :=
  if kind = .globalLake then 0 else lakeRedR A kind i (lakeSOR A kind i s).1 ⊠ i.frac
end

section
variable (i : ResIn) (s : ℝ)

/-- See `resRed` (`reservoir_regulated_lakes.py:172-176`). -/
noncomputable def resRedR : ℝ := if i.firstDay then 0 else redfactorR A s i.han.cap i.redExp .reservoir

/-- See `resEvap` (`reservoir_regulated_lakes.py:214-221`). -/
noncomputable def resEvapR : ℝ :=
  let e := (1 ⊟ i.cfa) ⊠ i.precip ⊞ i.cfa ⊠ (i.openPet ⊠ resRedR A i s)
  if e < 0 then 0 else e

/-- See `resGwr` (`reservoir_regulated_lakes.py:230-232`). -/
noncomputable def resGwrR : ℝ :=
  if i.arid && i.drainageOk then i.gwConst ⊠ A.rnd 0.001 ⊠ i.area ⊠ resRedR A i s else 0

/-- See `resTotalIn` (`reservoir_regulated_lakes.py:238`). -/
def resTotalInR : ℝ := i.han.inflow ⊞ i.precip ⊠ i.area

/-- See `resDemand` (`reservoir_regulated_lakes.py:246-252`). -/
noncomputable def resDemandR : ℝ :=
  if i.glolakeArea > 0 then i.demandSw ⊠ A.rnd 0.5 ⊞ i.unsatGlolake else i.demandSw

/-- See `resPet` (`reservoir_regulated_lakes.py:266`). -/
noncomputable def resPetR : ℝ := resEvapR A i s ⊠ i.area ⊞ resGwrR A i s

/-- See `resStorage1` (`reservoir_regulated_lakes.py:271-284`). -/
noncomputable def resStorage1R : ℝ :=
  if resPetR A i s > 0 ∧ resPetR A i s > s ⊞ resTotalInR A i then 0 else s ⊞ resTotalInR A i ⊟ resPetR A i s

/-- See `resAbstract` (`reservoir_regulated_lakes.py:287-301`). -/
noncomputable def resAbstractR (d st cap : ℝ) : ℝ × ℝ :=
  if d < 0 then (st ⊟ d, 0)
  else if st > A.rnd 0.1 ⊠ cap then
    if d < st ⊟ A.rnd 0.1 ⊠ cap then (st ⊟ d, 0) else (A.rnd 0.1 ⊠ cap, d ⊟ (st ⊟ A.rnd 0.1 ⊠ cap))
  else (st, d)

/-- See `resBeforeRelease` (`reservoir_regulated_lakes.py:303-304`). -/
noncomputable def resBeforeReleaseR : ℝ :=
  flush i.minV (resAbstractR A (resDemandR A i) (resStorage1R A i s) i.han.cap).1

/-- See `resRelease` (`reservoir_regulated_lakes.py:317-341`). -/
noncomputable def resReleaseR (st release cap : ℝ) : ℝ × ℝ :=
  let o := if st ≥ cap ⊠ A.rnd 0.1 then release ⊠ (86400 ⧄ 1e9) else A.rnd 0.1 ⊠ release ⊠ (86400 ⧄ 1e9)
  let o1 := if o < 0 then 0 else o
  let st1 := st ⊟ o1
  let o2 := if st1 > cap then o1 ⊞ (st1 ⊟ cap) else o1
  let st2 := if st1 > cap then cap else st1
  if st2 < 0 then (0, o2 ⊞ st2) else (st2, o2)

/-- Storage and outflow at the end of `reservoir_regulated_lake_water_balance`
(`reservoir_regulated_lakes.py:26-351`); `release` is what the release rule answers to the storage, any function:
the rule itself (`reservoir_release_hanasaki.py`) is not modelled in rounded arithmetic. -/
noncomputable def resSOR (release : ℝ → ℝ) : ℝ × ℝ :=
  resReleaseR A (resBeforeReleaseR A i s) (release (resBeforeReleaseR A i s)) i.han.cap
end

/-- `river_water_balance` (`river.py:106-223`), see `riverBalance`: storage, streamflow, unsatisfied demand. -/
noncomputable def riverR (minV corr k s q d : ℝ) : ℝ × ℝ × ℝ :=
  let e := A.exp (-1 ⊠ k)
  let mx := q ⊞ (k ⊠ s ⊠ e) ⧄ (1 ⊟ e)
  let r : ℝ × ℝ × ℝ :=
    if d > mx then
      let f := q ⊞ s ⊟ mx
      (0, (if f < 0 then 0 else f), (if d > 0 then d ⊟ d ⊠ (mx ⧄ d) else 0))
    else
      let st := flush minV (s ⊠ e ⊞ ((q ⊟ d) ⧄ k) ⊠ (1 ⊟ e))
      let f := q ⊞ s ⊟ st ⊟ d
      (st, (if f < 0 then 0 else f), 0)
  (r.1, r.2.1 ⊠ corr, r.2.2)

/-- `groundwater.py:124-137`, see `gwStorage`: storage and discharge for a net inflow. -/
noncomputable def gwStorageR (prev netIn k : ℝ) : ℝ × ℝ :=
  let e := A.exp (-1 ⊠ k)
  let cur := prev ⊠ e ⊞ (netIn ⧄ k) ⊠ (1 ⊟ e)
  let q := prev ⊟ cur ⊞ netIn
  (if q ≤ 0 then prev ⊞ netIn else cur, if q ≤ 0 then 0 else q)

end

end WG
