import Verif.Model.Float
import Verif.Model.Routing

/-!
# A day of a cell in rounded arithmetic

`cellDay` (`Model/Routing.lean`) with every arithmetic operation of the code carried out in the arithmetic `A` of the
machine, in the order in which the code writes it.  Two things are any functions here: what the release rule of
reservoirs answers to a storage (`reservoir_release_hanasaki.py`) and the outflow constant of the river for a storage
(`river.py:24-103`).
-/

namespace WG

section
variable (A : Arith)

local infixl:65 " ⊞ " => Arith.add A
local infixl:65 " ⊟ " => Arith.sub A
local infixl:70 " ⊠ " => Arith.mul A
local infixl:70 " ⧄ " => Arith.div A

/-! ### Lakes and wetlands -/

section
variable (kind : LakeKind) (i : LakeIn) (s : ℝ)

/-- What the losses are multiplied with on a day on which the water does not suffice
(`lakes_wetlands.py:310,312,319,342,343,355,356`). -/
noncomputable def lakeRatioR : ℝ := lakePetMaxR A kind i s ⧄ lakePetR A kind i s

/-- See `lakeUnsat` (`lakes_wetlands.py:316-336`). -/
noncomputable def lakeUnsatR : ℝ :=
  if kind = .globalLake then
    (if lakePetR A kind i s > lakePetMaxR A kind i s then
      (if lakeDemandR A kind i > 0 then
        lakeDemandR A kind i ⊟ lakeDemandR A kind i ⊠ lakeRatioR A kind i s
       else 0)
     else 0)
  else 0

/-- `lake_wetland_water_balance` (`lakes_wetlands.py:26-412`), see `lakeBalance`. -/
noncomputable def lakeBalanceR : LakeOut :=
  { storage := (lakeSOR A kind i s).1
    outflow := (lakeSOR A kind i s).2
    gwr := if lakePetR A kind i s > lakePetMaxR A kind i s then lakeGwrR A kind i s ⊠ lakeRatioR A kind i s
           else lakeGwrR A kind i s
    newFrac := lakeNewFracR A kind i s
    unsat := lakeUnsatR A kind i s
    use := lakeDemandR A kind i ⊟ lakeUnsatR A kind i s
    evapKm3 := (if lakePetR A kind i s > lakePetMaxR A kind i s then lakeEvapR A kind i s ⊠ lakeRatioR A kind i s
                else lakeEvapR A kind i s) ⊠ lakeAreaR A kind i s }
end

/-! ### Reservoirs -/

section
variable (i : ResIn) (s : ℝ) (rule : ℝ → ℝ × ℝ)

/-- Whether the losses exceed the water (`reservoir_regulated_lakes.py:271-275`). -/
noncomputable def resShortR : Prop := resPetR A i s > 0 ∧ resPetR A i s > s ⊞ resTotalInR A i

open Classical in
/-- `reservoir_regulated_lake_water_balance` (`reservoir_regulated_lakes.py:26-351`), see `resBalance`; `rule` answers a
storage with the release in m³/s and the release coefficient. -/
noncomputable def resBalanceR : ResOut :=
  { storage := (resSOR A i s fun x => (rule x).1).1
    outflow := (resSOR A i s fun x => (rule x).1).2
    gwr := if resShortR A i s then resGwrR A i s ⊠ ((s ⊞ resTotalInR A i) ⧄ resPetR A i s) else resGwrR A i s
    kRelease := (rule (resBeforeReleaseR A i s)).2
    unsat := (resAbstractR A (resDemandR A i) (resStorage1R A i s) i.han.cap).2
    use := resDemandR A i ⊟ (resAbstractR A (resDemandR A i) (resStorage1R A i s) i.han.cap).2
    evapKm3 := (if resShortR A i s then resEvapR A i s ⊠ ((s ⊞ resTotalInR A i) ⧄ resPetR A i s)
                else resEvapR A i s) ⊠ i.area }
end

/-! ### Groundwater -/

/-- See `updateNetabsGw` (`groundwater_adapt_net_abstraction.py:72-204`). -/
noncomputable def updateNetabsGwR (potNag withdrawal consumptive unsat fracReturn : ℝ) : ℝ :=
  let eff := consumptive ⧄ withdrawal
  let factor := 1 ⊟ (1 ⊟ fracReturn) ⊠ (1 ⊟ eff)
  let actual := (1 ⧄ factor) ⊠ (withdrawal ⊠ factor ⊟ unsat)
  let actual := if unsat > 0 ∧ actual ≤ 0 then 0 else actual
  if unsat ≠ 0 ∧ withdrawal > 0 then potNag ⊟ fracReturn ⊠ (1 ⊟ eff) ⊠ (actual ⊟ withdrawal) else potNag

/-- `groundwater_balance` (`groundwater.py:31-139`), see `groundwaterBalance`. -/
noncomputable def groundwaterBalanceR (kind : GwKind)
    (storage diffuse potNag unsat k withdrawal consumptive fracReturn point : ℝ) : GwOut :=
  let point := match kind with
    | .humid => 0
    | .inlandSink => 0
    | .arid => point
  let nag := if unsat ≠ 0 then updateNetabsGwR A potNag withdrawal consumptive unsat fracReturn else potNag
  let netIn := diffuse ⊞ point ⊟ nag
  { storage := (gwStorageR A storage netIn k).1, discharge := (gwStorageR A storage netIn k).2, nag := nag }

/-! ### Routing to water bodies, abstraction from the local lake -/

/-- See `swbShare` (`routing_to_surface_water_bodies.py:74-79`). -/
noncomputable def swbShareR (loclake locwet glowet factor : ℝ) : ℝ :=
  let f := (loclake ⊞ locwet ⊞ glowet) ⊠ factor
  if f > 1 then 1 else f

/-- See `fracRouting` (`routing_to_surface_water_bodies.py:23-124`). -/
noncomputable def fracRoutingR (runoff discharge loclake locwet glowet factor : ℝ) (sink : Bool) : ℝ × ℝ :=
  let f := swbShareR A loclake locwet glowet factor
  let runoffSwb := if sink then runoff else f ⊠ runoff
  let runoffRiver := if sink then 0 else (1 ⊟ f) ⊠ runoff
  let gwSwb := if sink then discharge else f ⊠ discharge
  let gwRiver := if sink then 0 else (1 ⊟ f) ⊠ discharge
  (runoffSwb ⊞ gwSwb, runoffRiver ⊞ gwRiver)

/-- See `localLakeAbstract` (`local_lake_net_abstraction.py:13-80`). -/
noncomputable def localLakeAbstractR (s m frac redExp d : ℝ) : ℝ × ℝ × ℝ × ℝ :=
  let r : ℝ × ℝ := if d < s ⊞ m then (s ⊟ d, 0) else (-1 * m, d ⊟ (s ⊞ m))
  (r.1, r.2, redfactorR A r.1 m redExp .localLake ⊠ frac, d ⊟ r.2)

/-! ### The cell -/

section
variable (c : CellIn) (st : CellState) (up demand : ℝ) (keep : ℝ → ℝ) (rule : ℝ → ℝ × ℝ) (kRiver : ℝ → ℝ)

/-- See `cellGw` (`routing.py:281-321,627-646`). -/
noncomputable def cellGwR (point : ℝ) : GwOut :=
  groundwaterBalanceR A c.gwKind st.gw c.recharge c.potNag c.unsatNas c.gwK c.withdrawal c.consumptive c.fracReturn point

/-- See `cellEarlyDischarge`. -/
noncomputable def cellEarlyDischargeR : ℝ := if c.gwKind = .arid then 0 else (cellGwR A c st 0).discharge

/-- See `cellSplit` (`routing.py:333-342`). -/
noncomputable def cellSplitR : ℝ × ℝ :=
  fracRoutingR A c.runoff (cellEarlyDischargeR A c st) c.locLake.frac c.locWet.frac c.gloWet.frac c.factor c.sink

/-- See `bodyDay`: a body that does not exist passes its inflow on. -/
noncomputable def bodyDayR (kind : LakeKind) (i : LakeIn) (s : ℝ) (present : Prop) [Decidable present] : LakeOut :=
  if present then lakeBalanceR A kind i s
  else { storage := s, outflow := i.inflow, gwr := 0, newFrac := 0, unsat := 0, use := 0, evapKm3 := 0 }

/-- The arguments of the balance of the local lake, `routing.py:352-369`. -/
noncomputable def locLakeInR : LakeIn := c.lakeIn c.locLake (cellSplitR A c st).1 0 0

open Classical in
/-- Local lake, `routing.py:352-381`. -/
noncomputable def cellLocLakeR : LakeOut := bodyDayR A .localLake (locLakeInR A c st) st.locLake (c.locLake.frac > 0)

/-- The arguments of the balance of the local wetland, `routing.py:391-410`. -/
noncomputable def locWetInR : LakeIn := c.lakeIn c.locWet (cellLocLakeR A c st).outflow 0 0

open Classical in
/-- Local wetland, `routing.py:391-422`. -/
noncomputable def cellLocWetR : LakeOut := bodyDayR A .localWetland (locWetInR A c st) st.locWet (c.locWet.frac > 0)

/-- The arguments of the balance of the global lake, with the inflow from upstream, `routing.py:433-455`. -/
noncomputable def gloLakeInR : LakeIn :=
  c.lakeIn ⟨0, c.glolakeArea, c.maxGlolake⟩ ((cellLocWetR A c st).outflow ⊞ up) c.resArea demand

open Classical in
/-- Global lake, `routing.py:433-469`. -/
noncomputable def cellGloLakeR : LakeOut :=
  bodyDayR A .globalLake (gloLakeInR A c st up demand) st.gloLake (c.glolakeArea > 0)

/-- The arguments of the reservoir balance, `routing.py:481-509`. -/
noncomputable def cellResInR : ResIn :=
  { precip := c.precip, openPet := c.openPet, arid := c.arid, drainageOk := !c.sink, gwConst := c.gwConst,
    area := c.resArea, redExp := c.resRedExp, cfa := c.cfa, firstDay := c.resFirstDay, glolakeArea := c.glolakeArea,
    demandSw := demand, unsatGlolake := (cellGloLakeR A c st up demand).unsat, minV := c.minV,
    han := { c.han with inflow := (cellGloLakeR A c st up demand).outflow, kRelease := st.k } }

open Classical in
/-- Reservoir or regulated lake, `routing.py:479-524`. -/
noncomputable def cellResR : ResOut :=
  if c.resArea > 0 then resBalanceR A (cellResInR A c st up demand) st.res rule
  else { storage := st.res, outflow := (cellGloLakeR A c st up demand).outflow, gwr := 0, kRelease := st.k, unsat := 0,
         use := 0, evapKm3 := 0 }

/-- See `cellUnsat1` (`routing.py:529-534`). -/
noncomputable def cellUnsat1R : ℝ :=
  if c.resArea > 0 then (cellResR A c st up demand rule).unsat
  else if c.glolakeArea > 0 then (cellGloLakeR A c st up demand).unsat
  else demand

/-- See `cellUnsat2` (`routing.py:540-572`): `keep` is what the cell keeps of its demand after the redistribution. -/
noncomputable def cellUnsat2R : ℝ :=
  if c.useOpt = true ∧ (c.resArea > 0 ∨ c.glolakeArea > 0) then keep (cellUnsat1R A c st up demand rule)
  else cellUnsat1R A c st up demand rule

/-- The arguments of the balance of the global wetland, `routing.py:582-601`. -/
noncomputable def gloWetInR : LakeIn := c.lakeIn c.gloWet (cellResR A c st up demand rule).outflow 0 0

open Classical in
/-- Global wetland, `routing.py:582-613`. -/
noncomputable def cellGloWetR : LakeOut :=
  bodyDayR A .globalWetland (gloWetInR A c st up demand rule) st.gloWet (c.gloWet.frac > 0)

/-- See `cellPoint` (`routing.py:624-625`). -/
noncomputable def cellPointR : ℝ :=
  (cellLocLakeR A c st).gwr ⊞ (cellLocWetR A c st).gwr ⊞ (cellGloLakeR A c st up demand).gwr
    ⊞ (cellGloWetR A c st up demand rule).gwr ⊞ (cellResR A c st up demand rule).gwr

/-- See `cellGwFinal`. -/
noncomputable def cellGwFinalR : GwOut := cellGwR A c st (cellPointR A c st up demand rule)

/-- See `cellRiverIn` (`routing.py:333-342,649,660-663`). -/
noncomputable def cellRiverInR : ℝ :=
  let toRiver := if c.gwKind = .arid then (cellSplitR A c st).2 ⊞ (cellGwFinalR A c st up demand rule).discharge
                 else (cellSplitR A c st).2
  if c.sink then (cellGloWetR A c st up demand rule).outflow else (cellGloWetR A c st up demand rule).outflow ⊞ toRiver

/-- River balance, `routing.py:670-697`: storage, streamflow, unsatisfied demand. -/
noncomputable def cellRiverR : ℝ × ℝ × ℝ :=
  riverR A c.minV c.corr (kRiver st.river) st.river (cellRiverInR A c st up demand rule)
    (cellUnsat2R A c st up demand keep rule)

/-- `actual_use` of the river, `river.py:217-219`. -/
noncomputable def riverUseR : ℝ := cellUnsat2R A c st up demand keep rule ⊟ (cellRiverR A c st up demand keep rule kRiver).2.2

/-- See `cellTap` (`routing.py:727-742`). -/
noncomputable def cellTapR : Prop :=
  c.useOpt = true ∧ c.locLake.frac > 0 ∧ (cellRiverR A c st up demand keep rule kRiver).2.2 > 0 ∧
    (cellLocLakeR A c st).storage > -1 * c.locLake.maxStorage

open Classical in
/-- See `cellTapped` (`routing.py:739-757`). -/
noncomputable def cellTappedR : ℝ × ℝ × ℝ × ℝ :=
  if cellTapR A c st up demand keep rule kRiver then
    localLakeAbstractR A (cellLocLakeR A c st).storage c.locLake.maxStorage c.locLake.frac c.redExp
      (cellRiverR A c st up demand keep rule kRiver).2.2
  else ((cellLocLakeR A c st).storage, (cellRiverR A c st up demand keep rule kRiver).2.2, (cellLocLakeR A c st).newFrac, 0)

/-- `total_open_water_aet`, `routing.py:843-848`. -/
noncomputable def cellEvapR : ℝ :=
  let e := (cellLocLakeR A c st).evapKm3 ⊞ (cellLocWetR A c st).evapKm3 ⊞ (cellGloLakeR A c st up demand).evapKm3
    ⊞ (cellResR A c st up demand rule).evapKm3 ⊞ (cellGloWetR A c st up demand rule).evapKm3
  if c.sink then e ⊞ (cellRiverR A c st up demand keep rule kRiver).2.1 else e

open Classical in
/-- `actual_daily_netabstraction_sw`, zero at the start of the day, set by the global lake and added to by reservoir, river and local
lake, `routing.py:181,464,519,697,755`. -/
noncomputable def cellNasR : ℝ :=
  let n := if c.glolakeArea > 0 then (cellGloLakeR A c st up demand).use else 0
  let n := if c.resArea > 0 then n ⊞ (cellResR A c st up demand rule).use else n
  let n := n ⊞ riverUseR A c st up demand keep rule kRiver
  if cellTapR A c st up demand keep rule kRiver then n ⊞ (cellTappedR A c st up demand keep rule kRiver).2.2.2 else n

/-- One day of one cell, see `cellDay`: storages and the outputs that make up its water balance, `routing.py:210-862`. -/
noncomputable def cellStateR : CellState :=
  { gw := (cellGwFinalR A c st up demand rule).storage, locLake := (cellTappedR A c st up demand keep rule kRiver).1,
    locWet := (cellLocWetR A c st).storage, gloLake := (cellGloLakeR A c st up demand).storage,
    res := (cellResR A c st up demand rule).storage, k := (cellResR A c st up demand rule).kRelease,
    gloWet := (cellGloWetR A c st up demand rule).storage, river := (cellRiverR A c st up demand keep rule kRiver).1 }

/-- `cellrunoff`, `routing.py:714-721`. -/
noncomputable def cellRunoffR : ℝ :=
  if c.sink then -1 * up else (cellRiverR A c st up demand keep rule kRiver).2.1 ⊟ up

/-- `cell_aet_consuse` without the evaporation from land, `routing.py:850-855`: the code adds that to the open water
evaporation before the sum. -/
noncomputable def cellEvapTotalR : ℝ :=
  (cellGwFinalR A c st up demand rule).nag ⊞ cellNasR A c st up demand keep rule kRiver
    ⊞ cellEvapR A c st up demand keep rule kRiver
end

end

end WG
