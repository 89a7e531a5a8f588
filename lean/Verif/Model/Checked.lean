import Verif.Model.Routing
import Verif.Model.Vertical
import Verif.Model.GlobalBalance

/-!
# The daily code with divisions and powers that can fail

The other model files use the real division and the real power, which give a value everywhere (`x / 0 = 0`).  The
compiled code does not: a division by zero of two numbers raises `ZeroDivisionError` (Numba, `error_model='python'`, the
default that no `@nb.njit` of the code changes), a negative number to a broken power and the square root of a negative
number are NaN, and zero to a negative power is infinite.  This file transcribes the daily code again, statement by
statement, with operations that have no result in these cases.  Overflow is not modelled.
-/

namespace WG

open Classical in
/-- `a / b`: no result when the divisor is zero. -/
noncomputable def cdiv (a b : ℝ) : Option ℝ := if b = 0 then none else some (a / b)

open Classical in
/-- `a ** e` for a broken exponent: no result for a negative base, and none for zero to a negative power. -/
noncomputable def cpow (a e : ℝ) : Option ℝ := if a < 0 ∨ (a = 0 ∧ e < 0) then none else some (a ^ e)

open Classical in
/-- `np.sqrt(a)`: no result for a negative number. -/
noncomputable def csqrt (a : ℝ) : Option ℝ := if a < 0 then none else some (Real.sqrt a)

/-! ### Surface water bodies and groundwater -/

/-- `swb_redfactor`, `/repo/model/lateralwaterbalance/storage_reduction_factor.py:56-73`. -/
noncomputable def swbRedfactorC (storage maxStorage exponent : ℝ) (kind : Swb) : Option ℝ := do
  let d ← cdiv |storage - maxStorage| (nFactor kind * maxStorage)                -- 62-63
  let p ← cpow d exponent                                                        -- 65
  let r := 1 - p
  some (if r < 0 then 0 else if r > 1 then 1 else r)

/-- `update_netabs_gw`, `/repo/model/lateralwaterbalance/groundwater_adapt_net_abstraction.py:110-190`. -/
noncomputable def updateNetabsGwC (potNag withdrawal consumptive unsat fracReturn : ℝ) : Option ℝ :=
  if unsat > 0 then
    if withdrawal > 0 then do
      let eff ← cdiv consumptive withdrawal                                      -- 117-118
      let factor := 1 - ((1 - fracReturn) * (1 - eff))                           -- 120
      let inv ← cdiv 1 factor                                                    -- 122-124
      let actual := inv * (withdrawal * factor - unsat)
      let actual := if actual ≤ 0 then 0 else actual
      some (potNag - fracReturn * (1 - eff) * (actual - withdrawal))
    else some potNag
  else if unsat < 0 then
    if withdrawal > 0 then do
      let eff ← cdiv consumptive withdrawal                                      -- 167-168
      let factor := 1 - (1 - fracReturn) * (1 - eff)                             -- 170
      let inv ← cdiv 1 factor                                                    -- 172-174
      let actual := inv * (withdrawal * factor - unsat)
      some (potNag - fracReturn * (1 - eff) * (actual - withdrawal))
    else some potNag
  else some potNag

/-- `groundwater_balance`, `/repo/model/lateralwaterbalance/groundwater.py:95-139`. -/
noncomputable def groundwaterBalanceC (kind : GwKind)
    (storage diffuse potNag unsat k withdrawal consumptive fracReturn point : ℝ) : Option GwOut := do
  let point := if kind = .arid then point else 0                                 -- 95-97
  let nag ← if unsat ≠ 0 then updateNetabsGwC potNag withdrawal consumptive unsat fracReturn
            else some potNag                                                     -- 103-112
  let netIn := diffuse + point - nag                                             -- 99, 115
  let g ← cdiv netIn k                                                           -- 123-125
  let cur := storage * Real.exp (-1 * k) + g * (1 - Real.exp (-1 * k))
  let q := storage - cur + netIn                                                 -- 127
  some { storage := if q ≤ 0 then storage + netIn else cur
         discharge := if q ≤ 0 then 0 else q, nag := nag }                       -- 131-139

/-- `lake_wetland_water_balance`, `/repo/model/lateralwaterbalance/lakes_wetlands.py:125-412`. -/
noncomputable def lakeBalanceC (kind : LakeKind) (i : LakeIn) (s : ℝ) : Option LakeOut := do
  let red ← swbRedfactorC s i.maxStorage i.redExp kind.swb                       -- 145-147
  let area := if kind = .globalLake then i.maxArea else red * i.maxArea          -- 153-159
  let pet0 := if kind = .globalLake then i.openPet * red else i.openPet          -- 195-198
  let e := (1 - i.cfa) * i.precip + i.cfa * pet0                                 -- 200-201
  let evap := if e < 0 then 0 else e                                             -- 203-205
  let gwr := if kind = .globalLake then
      (if i.arid && i.drainageOk then i.gwConst * 0.001 * area * red else 0)
    else (if i.arid && i.drainageOk then i.gwConst * 0.001 * area else 0)        -- 214-225
  let tin := i.inflow + i.precip * area                                          -- 230
  let dem := if kind = .globalLake then (if i.reservoirArea > 0 then i.demand * 0.5 else i.demand) else 0  -- 239-251
  let pet := evap * area + gwr + dem                                             -- 256-257
  let mx := if kind = .localLake ∨ kind = .globalLake then s + i.maxStorage + tin else s + tin  -- 264-267
  let netIn := tin - pet                                                         -- 280
  let st0 ← if kind = .globalLake ∨ kind = .globalWetland then
      (cdiv netIn i.k).map fun g => s * Real.exp (-1 * i.k) + g * (1 - Real.exp (-1 * i.k))     -- 282-284
    else some (s + tin - pet)                                                    -- 288
  let limit := if kind = .localLake ∨ kind = .globalLake then -1 * i.maxStorage else 0         -- 300-303
  let ratio ← if pet > mx then cdiv mx pet else some 1                           -- 310-312, 342-343, 355-356
  let unsat ← if kind = .globalLake ∧ pet > mx ∧ dem > 0 then (cdiv mx pet).map fun r => dem - dem * r
              else some 0                                                        -- 316-336
  let so ← if kind = .globalLake then
      (if pet > mx then some (limit, 0)                                          -- 305-308
       else
         let out0 := netIn + s - st0                                             -- 324
         let out1 := if st0 > i.maxStorage then out0 + (st0 - i.maxStorage) else out0
         let st1 := if st0 > i.maxStorage then i.maxStorage else st0             -- 326-328
         some (if out1 < 0 then (netIn + s, 0) else (st1, out1)))                -- 333-335
    else if kind = .globalWetland then
      let st1 := if pet > mx then limit else st0                                 -- 338-345
      let out1 := if pet > mx then 0 else netIn + s - st0
      some (if st1 > i.maxStorage then (i.maxStorage, out1 + (st1 - i.maxStorage)) else (st1, out1))  -- 347-349
    else
      let st1 := if pet > mx then limit else st0                                 -- 353-356
      let which := if kind = .localLake then s else st1                          -- 360-363
      let ex := if kind = .localLake then i.lakeExp else i.wetlandExp            -- 125-128
      (if which > 0 then do
         let x ← cdiv which i.maxStorage                                         -- 370-372
         let p ← cpow x ex
         let o := i.k * which * p
         some (if st1 ≤ 0 then 0 else if o > st1 then st1 else o)                -- 374-378
       else some 0).map fun out1 =>
        let st2 := st1 - out1                                                    -- 383
        if st2 > i.maxStorage then (i.maxStorage, out1 + (st2 - i.maxStorage)) else (st2, out1)  -- 386-389
  let red2 ← swbRedfactorC so.1 i.maxStorage i.redExp kind.swb                   -- 391-393
  some { storage := so.1, outflow := so.2, gwr := gwr * ratio
         newFrac := if kind = .globalLake then 0 else red2 * i.frac              -- 398-401
         unsat := unsat, use := dem - unsat, evapKm3 := evap * ratio * area }    -- 404-412

/-! ### Reservoirs -/

/-- `prov_rel`, `/repo/model/lateralwaterbalance/reservoir_release_hanasaki.py:148-165`. -/
noncomputable def provReleaseC (h : HanIn) : Option ℝ :=
  match h.rtype with
  | .irrigation => do
    let f ← cdiv (1e9 * 1) (86400 * h.daysInMonth)                               -- 148
    let m := h.monthlyDemand * f                                                 -- 149
    let a := h.annualDemand / 31536000                                           -- 151-153
    if a ≥ 0.5 * h.meanInflow then (cdiv m a).map fun r => h.meanInflow / 2 * (1 + r)  -- 155-159
    else some (h.meanInflow + m - a)                                             -- 161
  | .nonIrrigation => some h.meanInflow                                          -- 163
  | .unknown => some 0                                                           -- 165

/-- `hanasaki_res_reslease`, `/repo/model/lateralwaterbalance/reservoir_release_hanasaki.py:92-195`. -/
noncomputable def hanasakiC (h : HanIn) (storage : ℝ) : Option (ℝ × ℝ) := do
  let k ← (if h.month = h.startMonth ∧ h.day = 1 then
      (if storage < h.cap * 0.1 then some 0.1 else cdiv storage (h.cap * 0.85))
    else some h.kRelease)                                                        -- 92-97
  let prov ← provReleaseC h                                                      -- 148-165
  let c ← (if h.meanInflow ≠ 0 then (cdiv h.cap (h.meanInflow * (31536000 / 1e9))).map some else some none)  -- 181-184
  some (match c with
    | none => (k * prov, k)
    | some c => ((if c < 0.5 then (4 * c ^ 2) * k * prov + (1 - 4 * c ^ 2) * (h.inflow * (1e9 / 86400))
                  else k * prov), k))                                            -- 186-195

/-- `reservoir_regulated_lake_water_balance`, `/repo/model/lateralwaterbalance/reservoir_regulated_lakes.py:172-351`. -/
noncomputable def resBalanceC (i : ResIn) (s : ℝ) : Option ResOut := do
  let red ← (if i.firstDay then some 0 else swbRedfactorC s i.han.cap i.redExp .reservoir)     -- 172-176
  let e := (1 - i.cfa) * i.precip + i.cfa * (i.openPet * red)                    -- 214-218
  let evap := if e < 0 then 0 else e                                             -- 220-221
  let gwr := if i.arid && i.drainageOk then i.gwConst * 0.001 * i.area * red else 0            -- 230-232
  let tin := i.han.inflow + i.precip * i.area                                    -- 238
  let dem := if i.glolakeArea > 0 then i.demandSw * 0.5 + i.unsatGlolake else i.demandSw        -- 246-252
  let pet := evap * i.area + gwr                                                 -- 266
  let mx := s + tin                                                              -- 271
  let cut ← (if pet > 0 ∧ pet > mx then cdiv mx pet else some 1)                 -- 275-280
  let st1 := if pet > 0 ∧ pet > mx then 0 else s + tin - pet                     -- 275-284
  let ab := resAbstract dem st1 i.han.cap                                        -- 287-301
  let st := flush i.minV ab.1                                                    -- 303-304
  let hk ← hanasakiC i.han st                                                    -- 306-315
  let r := resRelease st hk.1 i.han.cap                                          -- 317-341
  some { storage := r.1, outflow := r.2, gwr := gwr * cut, kRelease := hk.2, unsat := ab.2,
         use := dem - ab.2, evapKm3 := evap * cut * i.area }                     -- 344-351

/-! ### River -/

/-- `river_velocity` up to the outflow constant, `/repo/model/lateralwaterbalance/river.py:68-101`. -/
noncomputable def outflowConstantC (storage len width rough mult slope : ℝ) : Option ℝ := do
  let x ← cdiv storage len                                                       -- 69
  let area := x * 1e6
  let w := width * 1000                                                          -- 73-74
  let r ← csqrt (w ^ 2 / 16 + 0.5 * area)                                        -- 76-77
  let depth := (-1 / 4) * w + r
  let per := w + 2 * depth * Real.sqrt 5                                         -- 82
  let rad ← cdiv area per                                                        -- 83
  let inv ← cdiv 1 (mult * rough)                                                -- 87
  let p ← cpow rad (2 / 3)
  let sl ← csqrt slope                                                           -- 88
  let v := inv * p * sl * 86.4                                                   -- 90
  let v := if v < 0.00001 then 0.00001 else v                                    -- 93-95
  cdiv v len                                                                     -- 101

/-- `river_water_balance`, `/repo/model/lateralwaterbalance/river.py:172-224`. -/
noncomputable def riverBalanceC (minV corr k s q d : ℝ) : Option RiverOut := do
  let y ← cdiv (k * s * Real.exp (-1 * k)) (1 - Real.exp (-1 * k))               -- 172-174
  let mx := q + y
  let r ← if d > mx then do
      let f := q + s - mx                                                        -- 180-183
      let u ← if d > 0 then (cdiv mx d).map fun z => d - d * z else some 0       -- 185-190
      some ((0 : ℝ), (if f < 0 then 0 else f), u)
    else do
      let g ← cdiv (q - d) k                                                     -- 196-198
      let st := flush minV (s * Real.exp (-1 * k) + g * (1 - Real.exp (-1 * k)))
      let f := q + s - st - d                                                    -- 206
      some (st, (if f < 0 then 0 else f), (0 : ℝ))
  some { storage := r.1, streamflow := r.2.1 * corr, unsat := r.2.2, use := d - r.2.2 }  -- 211-224

/-! ### One cell in the lateral water balance -/

/-- `abstract_from_local_lake`, `/repo/model/lateralwaterbalance/local_lake_net_abstraction.py:51-79`. -/
noncomputable def localLakeAbstractC (s m frac redExp d : ℝ) : Option (ℝ × ℝ × ℝ × ℝ) := do
  let st := if d < s + m then s - d else -1 * m                                  -- 58-65
  let un := if d < s + m then 0 else d - (s + m)
  let red ← swbRedfactorC st m redExp .localLake                                 -- 69-71
  some (st, un, red * frac, d - un)                                              -- 73-79

open Classical in
/-- A water body that does not exist passes its inflow on (`routing.py:378-380,419-421,466-468,610-612`). -/
noncomputable def bodyDayC (kind : LakeKind) (i : LakeIn) (s size : ℝ) : Option LakeOut :=
  if size > 0 then lakeBalanceC kind i s
  else some { storage := s, outflow := i.inflow, gwr := 0, newFrac := 0, unsat := 0, use := 0, evapKm3 := 0 }

/-- The body of the loop over the cells, `/repo/model/lateralwaterbalance/routing.py:281-862`, for one cell of the basin;
`keep` as in `cellDay`: every division of `/repo/model/lateralwaterbalance/distribute_net_abstraction.py` (lines 154, 166,
177) is inside a branch that tests the divisor with `> 0`.  The result is `river_inflow[x, y]` and what the cell did. -/
noncomputable def cellDayC (c : CellIn) (st : CellState) (up demand : ℝ) (keep : ℝ → ℝ) : Option (ℝ × CellOut) := do
  let gwOf := fun point => groundwaterBalanceC c.gwKind st.gw c.recharge c.potNag c.unsatNas c.gwK c.withdrawal
    c.consumptive c.fracReturn point
  let early ← (if c.gwKind = .arid then some 0 else (gwOf 0).map (·.discharge))  -- 281-321
  let split := fracRouting c.runoff early c.locLake.frac c.locWet.frac c.gloWet.frac c.factor c.sink  -- 333-342
  let ll ← bodyDayC .localLake (c.lakeIn c.locLake split.1 0 0) st.locLake c.locLake.frac     -- 352-381
  let lw ← bodyDayC .localWetland (c.lakeIn c.locWet ll.outflow 0 0) st.locWet c.locWet.frac  -- 391-422
  let gl ← bodyDayC .globalLake
    (c.lakeIn ⟨0, c.glolakeArea, c.maxGlolake⟩ (lw.outflow + up) c.resArea demand) st.gloLake c.glolakeArea  -- 433-469
  let rs ← (if c.resArea > 0 then
      resBalanceC
        { precip := c.precip, openPet := c.openPet, arid := c.arid, drainageOk := !c.sink, gwConst := c.gwConst,
          area := c.resArea, redExp := c.resRedExp, cfa := c.cfa, firstDay := c.resFirstDay,
          glolakeArea := c.glolakeArea, demandSw := demand, unsatGlolake := gl.unsat, minV := c.minV,
          han := { c.han with inflow := gl.outflow, kRelease := st.k } } st.res
    else some { storage := st.res, outflow := gl.outflow, gwr := 0, kRelease := st.k, unsat := 0, use := 0,
                evapKm3 := 0 })                                                  -- 479-524
  let unsat1 := if c.resArea > 0 then rs.unsat else if c.glolakeArea > 0 then gl.unsat else demand  -- 529-534
  let unsat2 := if c.useOpt = true ∧ (c.resArea > 0 ∨ c.glolakeArea > 0) then keep unsat1 else unsat1  -- 540-572
  let gwt ← bodyDayC .globalWetland (c.lakeIn c.gloWet rs.outflow 0 0) st.gloWet c.gloWet.frac  -- 582-613
  let gw ← gwOf (ll.gwr + lw.gwr + gl.gwr + gwt.gwr + rs.gwr)                    -- 624-646, 281-321
  let toRiver := split.2 + if c.gwKind = .arid then gw.discharge else 0          -- 649
  let rin := if c.sink then gwt.outflow else gwt.outflow + toRiver               -- 660-663
  let k ← outflowConstantC st.river c.len c.width c.rough c.mult c.slope         -- 670-677
  let rv ← riverBalanceC c.minV c.corr k st.river rin unsat2                     -- 682-697
  let tp ← (open Classical in
    if c.useOpt = true ∧ c.locLake.frac > 0 ∧ rv.unsat > 0 ∧ ll.storage > -1 * c.locLake.maxStorage then
      localLakeAbstractC ll.storage c.locLake.maxStorage c.locLake.frac c.redExp rv.unsat
    else some (ll.storage, rv.unsat, ll.newFrac, 0))                             -- 727-757
  let areaLl ← (if c.locLake.frac > 0 then
      (swbRedfactorC st.locLake c.locLake.maxStorage c.redExp .localLake).map (· * c.locLake.maxArea) else some 0)
  let areaLw ← (if c.locWet.frac > 0 then
      (swbRedfactorC st.locWet c.locWet.maxStorage c.redExp .localWetland).map (· * c.locWet.maxArea) else some 0)
  let areaGw ← (if c.gloWet.frac > 0 then
      (swbRedfactorC st.gloWet c.gloWet.maxStorage c.redExp .globalWetland).map (· * c.gloWet.maxArea) else some 0)
  let evap := ll.evapKm3 + lw.evapKm3 + gl.evapKm3 + rs.evapKm3 + gwt.evapKm3
    + (if c.sink then rv.streamflow else 0)                                      -- 843-848
  let nas := (if c.glolakeArea > 0 then gl.use else 0) + (if c.resArea > 0 then rs.use else 0) + rv.use + tp.2.2.2
  some (rin,
    { state := { gw := gw.storage, locLake := tp.1, locWet := lw.storage, gloLake := gl.storage, res := rs.storage,
                 k := rs.kRelease, gloWet := gwt.storage, river := rv.storage }
      streamflow := rv.streamflow
      evap := evap
      nag := gw.nag
      nas := nas
      unsat := tp.2.1
      handed := unsat1 - unsat2
      lakeUnsat := unsat1
      precipSwb := c.precip * (areaLl + areaLw + areaGw + (if c.glolakeArea > 0 then c.glolakeArea else 0)
        + (if c.resArea > 0 then c.resArea else 0))
      locLakeFrac := tp.2.2.1
      locWetFrac := lw.newFrac
      gloWetFrac := gwt.newFrac
      cellRunoff := if c.sink then -1 * up else rv.streamflow - up
      evapTotal := gw.nag + nas + evap })

/-! ### One cell in the vertical water balance -/

/-- `priestley_taylor_pet`, `/repo/model/verticalwaterbalance/radiation_evapotranspiration.py:162-222`; unlike `ptOne`,
the code divides before it looks at the sign of the radiation. -/
noncomputable def priestleyTaylorC (temperature alpha net openNet : ℝ) : Option (ℝ × ℝ) := do
  let t := temperature - 273.15
  let x ← cdiv (17.27 * t) (t + 237.3)                                           -- 166-167
  let slope ← cdiv (4098 * (0.6108 * Real.exp x)) ((t + 237.3) ^ 2)              -- 169-171
  let lat := if t > 0 then 2.501 - 0.002361 * t else 2.835                       -- 180-181
  let psy ← cdiv (0.0016286 * 101.3) lat                                         -- 184
  let rn ← cdiv (net * 0.0864) lat                                               -- 198
  let y ← cdiv (slope * rn) (slope + psy)                                        -- 201-202
  let pet := if rn ≤ 0 then 0 else alpha * y                                     -- 205
  let ro ← cdiv (openNet * 0.0864) lat                                           -- 211-212
  let z ← cdiv (slope * ro) (slope + psy)                                        -- 215-217
  some (pet, if ro ≤ 0 then 0 else alpha * z)                                    -- 220-222

/-- `canopy_water_balance`, `/repo/model/verticalwaterbalance/canopy.py:67-151`. -/
noncomputable def canopyWaterBalanceC
    (storage lai pet precip frac ratio coef minV : ℝ) : Option CanopyOut :=
  if frac > 0 then
    let s0 := if |storage * ratio| ≤ minV then 0 else storage * ratio            -- 67-79
    if lai > 0 then do
      let smax := coef * lai                                                     -- 85
      let diff := smax - s0                                                      -- 88
      let throughfall := if precip < diff then 0 else precip - diff              -- 91-100
      let s1 := if precip < diff then s0 + precip else smax
      let evap0 ← (if smax > 0 then do
          let x ← cdiv s1 smax                                                   -- 107-109
          let p ← cpow x (2 / 3)
          some (pet * p)
        else some 0)                                                             -- 111
      let evap := if evap0 > s1 then s1 else evap0                               -- 113-122
      let petToSoil := if evap0 > s1 then pet - s1 else pet - evap0
      let s2 := if evap0 > s1 then 0 else s1 - evap0
      some { storage := s2, throughfall := throughfall, evap := evap,
             petToSoil := if petToSoil < 0 then 0 else petToSoil,
             landStorageChange := s2 - s0, transfer := 0 }
    else
      some { storage := s0, throughfall := precip, evap := 0, petToSoil := if pet < 0 then 0 else pet,
             landStorageChange := s0 - s0, transfer := 0 }                       -- 124-135
  else some { storage := 0, throughfall := 0, evap := 0, petToSoil := 0, landStorageChange := 0,
              transfer := storage }                                              -- 137-148

/-- `snow_water_balance`, `/repo/model/verticalwaterbalance/snow.py:142-272`; the loop over the bands (lines 161-221) has
no division. -/
noncomputable def snowWaterBalanceC (p : SnowPar) (bands : List (ℝ × ℝ))
    (landStorageChange frac ratio transfer minV : ℝ) : Option SnowOut :=
  if frac > 0 then do
    let init := bands.map (rescaleBand ratio minV)
    let outs := bandLoop p 0 init
    let n : ℝ := bands.length
    let change ← cdiv (List.zipWith (fun (o : BandOut) b => o.storage - b.2) outs init).sum n   -- 246-247
    let storage ← cdiv (outs.map (·.storage)).sum n                              -- 249-250
    let snowfall ← cdiv (outs.map (·.snowfall)).sum n                            -- 251
    let sublimation ← cdiv (outs.map (·.sublimation)).sum n                      -- 252
    let melt ← cdiv (outs.map (·.melt)).sum n                                    -- 253
    let eff ← cdiv (outs.map fun o => o.melt + o.rain).sum n                     -- 254-255
    let cover ← cdiv (outs.map fun o => if o.storage > 0 then (1 : ℝ) else 0).sum n  -- 257-258
    some { storage := storage, bands := outs.map (·.storage), snowfall := snowfall, sublimation := sublimation,
           melt := melt, effPrecip := eff, maxTempElev := (outs.head?.map (·.temp)).getD 0,
           landStorageChange := landStorageChange + change, transfer := transfer, coverFrac := cover }
  else do
    let m ← cdiv (bands.map (·.2)).sum (bands.length : ℝ)                        -- 265-266
    some { storage := 0, bands := bands.map fun _ => 0, snowfall := 0, sublimation := 0, melt := 0,
           effPrecip := 0, maxTempElev := 0, landStorageChange := landStorageChange,
           transfer := transfer + m, coverFrac := 0 }

/-- `/repo/model/verticalwaterbalance/soil.py:226-344`. -/
noncomputable def soilActiveC (i : SoilIn) (soil0 over0 : ℝ) : Option SoilMid := do
  let sat ← cdiv soil0 i.maxSoil                                                 -- 226
  let pw ← cpow sat i.gamma                                                      -- 229-230
  let r := i.effPrecip * pw
  let aet0 := min i.petToSoil ((i.maxDailyPet - i.canopyEvap) * sat)             -- 241-243
  let s1 := soil0 + (i.effPrecip - aet0 - r)                                     -- 247-248
  let s2 := if |s1| ≤ i.minV then 0 else s1                                      -- 252-253
  let aet := if s2 < 0 then aet0 + s2 else aet0                                  -- 270-272
  let s3 := if s2 < 0 then 0 else s2
  let r3 := r * i.cfa                                                            -- 278
  let imm := i.immediate * i.cfa                                                 -- 279
  let rg0 := min i.maxRecharge (i.rechargeFactor * r3)                           -- 296-298, 310-312
  let dry : Prop := (i.humidArid = 1 ∧ i.texture < 21 ∧ i.drainage ≥ 0) ∧ i.precip ≤ i.critPrecip
  let rg := open Classical in if dry then 0 else rg0
  let pot := open Classical in if dry then rg0 else 0
  let r4 := r3 - pot                                                             -- 324
  let back ← cdiv pot i.cfa                                                      -- 325-326
  let s4 := s3 + back
  let over1 := if s4 > i.maxSoil then over0 + (s4 - i.maxSoil) else over0        -- 332-335
  let s5 := if s4 > i.maxSoil then i.maxSoil else s4
  let over2 := over1 * i.cfa                                                     -- 338
  some { soil := s5, recharge := rg, aet := aet, saturation := sat, dailyRunoff := r4, overflow := over2,
         immediate := imm, total := r4 + imm + over2 }                           -- 343-344

/-- `/repo/model/verticalwaterbalance/soil.py:206-352`. -/
noncomputable def soilLandC (i : SoilIn) (soil : ℝ) : Option SoilMid :=
  let s := soil * i.ratio                                                        -- 206
  let over0 := if s > i.maxSoil then s - i.maxSoil else 0                        -- 214-217
  let s0 := if s > i.maxSoil then i.maxSoil else s
  if i.maxTempElev > i.freezeTemp then
    if i.maxSoil > 0 then soilActiveC i s0 over0
    else some { soil := s0, recharge := 0, aet := 0, saturation := 0, dailyRunoff := 0, overflow := over0,
                immediate := i.immediate, total := 0 }                           -- 346-347
  else some { soil := s0, recharge := 0, aet := 0, saturation := 0, dailyRunoff := 0, overflow := over0 * i.cfa,
              immediate := i.immediate, total := over0 * i.cfa }                 -- 349-352

/-- `soil_water_balance`, `/repo/model/verticalwaterbalance/soil.py:206-438`. -/
noncomputable def soilWaterBalanceC (i : SoilIn) (soil : ℝ) : Option SoilOut :=
  if i.frac > 0 then do
    let m ← soilLandC i soil
    let lsc := i.landStorageChange + (m.soil - soil * i.ratio)                   -- 355-358
    let aet0 := corrAet i.cfa lsc i.precip (m.aet + i.canopyEvap + i.sublimation)
    let landAet := if aet0 < 0 then 0 else aet0                                  -- 387-389
    let t2 := soilTotal m.total aet0                                             -- 387-412
    let f := soilFinish m.soil m.recharge t2
    some { soil := f.1, recharge := f.2.1, soilEvap := m.aet, saturation := m.saturation,
           surfaceRunoff := f.2.2, transfer := i.transfer, total := t2, dailyRunoff := m.dailyRunoff,
           overflow := m.overflow, immediate := m.immediate, landAet := landAet }
  else some { soil := 0, recharge := 0, soilEvap := 0, saturation := 0, surfaceRunoff := 0,
              transfer := (i.transfer + soil) * i.cfa, total := 0, dailyRunoff := 0, overflow := 0,
              immediate := i.immediate, landAet := 0 }                           -- 396-433

/-- The body of the cell loop, `/repo/model/verticalwaterbalance/waterbalance_vertical.py:94-264`; the leaf area index
divides by the constant 30 only (`lai.py:128,170,216,240`). -/
noncomputable def vertCellC (p : VertPar) (f : VertForcing) (s : VertState) : Option VertOut := do
  let rad := netRadiation p.rad f.temperature f.swDown f.lwDown s.snow           -- 99-111
  let pet ← priestleyTaylorC f.temperature p.alpha rad.1 rad.2                   -- 113-120
  let l := laiStep p.lai { s.lai with lai := 0 } f.temperature f.precip          -- 125-142
  let c ← canopyWaterBalanceC s.canopy l.lai pet.1 f.precip f.frac f.ratio p.coef p.minV      -- 147-168
  let sp : SnowPar :=
    { temperature := f.temperature, precip := f.precip, throughfall := c.throughfall,
      petToSoil := c.petToSoil, degreeday := p.degreeday, meanElev := p.meanElev, lapse := p.lapse,
      freezeTemp := p.freezeTemp, meltTemp := p.meltTemp }
  let sn ← snowWaterBalanceC sp (p.elevs.zip s.bands) c.landStorageChange f.frac f.ratio c.transfer
    p.minV                                                                       -- 173-207
  let m := immediateRunoff sn.effPrecip p.fracBuiltup p.builtup                  -- 213-222
  let si : SoilIn :=
    { petToSoil := c.petToSoil, frac := f.frac, ratio := f.ratio, maxTempElev := sn.maxTempElev,
      canopyEvap := c.evap, effPrecip := m.1, precip := f.precip, immediate := m.2,
      landStorageChange := sn.landStorageChange, sublimation := sn.sublimation, transfer := sn.transfer,
      freezeTemp := p.freezeTemp, gamma := p.gamma, maxDailyPet := p.maxDailyPet,
      humidArid := p.lai.humidArid, texture := p.texture, drainage := p.drainage,
      maxRecharge := p.maxRecharge, rechargeFactor := p.rechargeFactor, critPrecip := p.critPrecip,
      maxSoil := p.maxSoil, cfa := p.cfa, minV := p.minV }
  let so ← soilWaterBalanceC si s.soil                                           -- 225-264
  some { next := { lai := l, canopy := c.storage, snow := sn.storage, bands := sn.bands, soil := so.soil }
         netRad := rad.1, pet := pet.1, openPet := pet.2, throughfall := c.throughfall, canopyEvap := c.evap,
         snowfall := sn.snowfall, sublimation := sn.sublimation, melt := sn.melt, coverFrac := sn.coverFrac,
         soilEvap := so.soilEvap, recharge := so.recharge, surfaceRunoff := so.surfaceRunoff,
         landAet := so.landAet, transfer := so.transfer }

/-! ### The simulation -/

section
variable {δ : Type}

/-- The loop over the routing order (`route`), `/repo/model/lateralwaterbalance/routing.py:210-862`, with a body that may
have no result. -/
noncomputable def routeC {σ : Type} (node : σ → Cell → ℝ → Option (σ × ℝ × ℝ)) (order : List (Cell × Cell)) (l : σ) :
    Option (NetState σ) :=
  order.foldlM (fun s e => do
      let up := s.inflow e.1                                                     -- 433
      let r ← node s.ledger e.1 up
      let inflow := Function.update s.inflow e.1 r.2.1                           -- 660-663
      some { ledger := r.1
             inflow := if drains e.2 then Function.update inflow e.2 (inflow e.2 + r.2.2) else inflow  -- 704-705
             up := Function.update s.up e.1 up
             flow := Function.update s.flow e.1 r.2.2 })
    (routeStart l)

/-- The body of the loop (`basinNode`), `routing.py:230-862`; `cin` has no result for a cell whose vertical water balance
has none. -/
noncomputable def basinNodeC (cin : Cell → Option CellIn) (get : δ → Cell → ℝ × (ℝ → ℝ)) (upd : δ → Cell → CellOut → δ)
    (b : Basin δ) (x : Cell) (up : ℝ) : Option (Basin δ × ℝ × ℝ) := do
  let c ← cin x
  let g := get b.demand x
  let r ← cellDayC c (b.state x) up g.1 g.2
  some ({ demand := upd b.demand x r.2
          state := Function.update b.state x r.2.state
          out := Function.update b.out x (some r.2) }, r.1, r.2.streamflow)

/-- The loop over the cells in the vertical water balance, `/repo/model/verticalwaterbalance/waterbalance_vertical.py:90-264`. -/
noncomputable def vertDayC (par : Cell → FullPar) (cells : List Cell) (weather : Cell → Weather) (state : Cell → FullState) :
    Option (Cell → Option VertOut) :=
  cells.foldlM (fun vs x => do
      let v ← vertCellC (par x).vert (fullForcing (weather x) (state x).land) (state x).vert
      some (Function.update vs x (some v))) fun _ => none

/-- The inputs of the lateral water balance (`fullIn`), `waterbalance_lateral.py:553-579`. -/
noncomputable def latInC (p : FullPar) (c : CellIn) (w : Weather) (l : LandState) (v : VertOut) : CellIn :=
  { c with
    precip := w.precip * 1e-6
    openPet := v.openPet * 1e-6
    recharge := v.recharge * p.area * 1e-6 * l.cur
    runoff := if l.cur = 0 then v.transfer * p.area * 1e-6 * l.prev else v.surfaceRunoff * p.area * 1e-6 * l.cur }

/-- One day of the simulation (`simDay`), `/repo/run_watergap.py:256-284`; the division in the update of the land fraction
(`land_surfacewater_fraction_init.py:399-402`) is `np.divide` restricted to a non-zero divisor.  The records written to
file are not part of the result: their divisions by the continental fraction are array operations. -/
noncomputable def simDayC (par : Cell → FullPar) (order : List (Cell × Cell)) (d : SimDay δ) (s : Sim δ) :
    Option (Sim δ) := do
  let vs ← vertDayC par (order.map Prod.fst) d.weather s.state
  let n ← routeC (basinNodeC (fun x => (vs x).map fun v =>
      latInC (par x) (d.lateral s.demand x) (d.weather x) (s.state x).land v) d.get d.upd) order
    ⟨d.start s.demand, fun x => (s.state x).lat, fun _ => none⟩
  some { demand := d.close n.ledger.demand
         state := fun x => match n.ledger.out x, vs x with
           | some o, some v => { vert := v.next
                                 land := landUpdate (o.locLakeFrac + o.locWetFrac + o.gloWetFrac) (s.state x).land
                                 lat := o.state }
           | _, _ => s.state x }

/-- Consecutive days: no result as soon as a day has none. -/
noncomputable def simRunC (par : Cell → FullPar) (order : List (Cell × Cell)) (s : Sim δ) (days : List (SimDay δ)) :
    Option (Sim δ) :=
  days.foldlM (fun s d => simDayC par order d s) s

end

end WG
