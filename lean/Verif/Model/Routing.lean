import Verif.Model.LakeWetland
import Verif.Model.Abstraction
import Verif.Model.River

/-!
# One day of one cell in the lateral water balance

Model of the body of the loop of `river_routing`, `/repo/model/lateralwaterbalance/routing.py:210-862`, for one
cell inside the basin.  The demand exchanged with neighbouring cells is an input (`demand`) of the cell; the
redistribution to riparian cells enters as the function `keep` from the unsatisfied demand after global lake and
reservoir to the part the cell keeps (`distribute_net_abstraction.py`).
-/

namespace WG

/-- A local lake, local wetland or global wetland: area fraction, largest area and largest storage. -/
structure Body where
  frac : ℝ
  maxArea : ℝ
  maxStorage : ℝ

/-- The inputs of one cell for one day (arguments of `river_routing`, `routing.py:40-69`). `sink` is
`drainage_direction < 0`, `arid` is `aridhumid == 1` (otherwise the value is 0). Precipitation and potential
evaporation in km/day, fluxes in km³/day. -/
structure CellIn where
  arid : Bool
  sink : Bool
  useOpt : Bool
  precip : ℝ
  openPet : ℝ
  runoff : ℝ
  recharge : ℝ
  cfa : ℝ
  corr : ℝ
  minV : ℝ
  gwK : ℝ
  potNag : ℝ
  unsatNas : ℝ
  withdrawal : ℝ
  consumptive : ℝ
  fracReturn : ℝ
  factor : ℝ
  swbK : ℝ
  gwConst : ℝ
  redExp : ℝ
  resRedExp : ℝ
  lakeExp : ℝ
  wetExp : ℝ
  locLake : Body
  locWet : Body
  gloWet : Body
  glolakeArea : ℝ
  maxGlolake : ℝ
  resArea : ℝ
  resFirstDay : Bool
  han : HanIn
  len : ℝ
  width : ℝ
  rough : ℝ
  mult : ℝ
  slope : ℝ

/-- The storages of a cell in km³ and the release coefficient of its reservoir. -/
structure CellState where
  gw : ℝ
  locLake : ℝ
  locWet : ℝ
  gloLake : ℝ
  res : ℝ
  k : ℝ
  gloWet : ℝ
  river : ℝ

/-- `total_water_storage` without the canopy, snow and soil part, `routing.py:858-862`. -/
noncomputable def CellState.total (s : CellState) : ℝ :=
  s.gw + s.locLake + s.locWet + s.gloLake + s.res + s.gloWet + s.river

/-- What a cell does in a day. -/
structure CellOut where
  state : CellState
  streamflow : ℝ
  evap : ℝ
  nag : ℝ
  nas : ℝ
  unsat : ℝ
  handed : ℝ
  lakeUnsat : ℝ
  precipSwb : ℝ
  locLakeFrac : ℝ
  locWetFrac : ℝ
  gloWetFrac : ℝ
  cellRunoff : ℝ
  evapTotal : ℝ

section
variable (c : CellIn) (st : CellState) (up demand : ℝ) (keep : ℝ → ℝ)

/-- The kind of groundwater balance, `routing.py:281,303,627`. -/
def CellIn.gwKind : GwKind := if c.sink then .inlandSink else if c.arid then .arid else .humid

/-- `gw.groundwater_balance(...)` with the given point recharge, `routing.py:281-321,627-646`. -/
noncomputable def cellGw (point : ℝ) : GwOut :=
  groundwaterBalance c.gwKind st.gw c.recharge c.potNag c.unsatNas c.gwK c.withdrawal c.consumptive c.fracReturn point

/-- `groundwater_discharge` when the runoff is split: zero in arid cells, whose balance is computed later. -/
noncomputable def cellEarlyDischarge : ℝ := if c.gwKind = .arid then 0 else (cellGw c st 0).discharge

/-- `routed_flow`, `routing.py:333-342`. -/
noncomputable def cellSplit : ℝ × ℝ :=
  fracRouting c.runoff (cellEarlyDischarge c st) c.locLake.frac c.locWet.frac c.gloWet.frac c.factor c.sink

/-- The arguments of `lake_wetland_water_balance` for a body of the cell, `routing.py:354-369,395-410,438-455,586-601`. -/
def CellIn.lakeIn (b : Body) (inflow reservoirArea demand : ℝ) : LakeIn :=
  { precip := c.precip, openPet := c.openPet, arid := c.arid, drainageOk := !c.sink, inflow := inflow, k := c.swbK,
    gwConst := c.gwConst, redExp := c.redExp, cfa := c.cfa, maxStorage := b.maxStorage, maxArea := b.maxArea,
    frac := b.frac, lakeExp := c.lakeExp, wetlandExp := c.wetExp, reservoirArea := reservoirArea, demand := demand }

/-- A body that does not exist passes its inflow on. -/
noncomputable def bodyDay (kind : LakeKind) (i : LakeIn) (s : ℝ) (present : Prop) [Decidable present] : LakeOut :=
  if present then lakeBalance kind i s
  else { storage := s, outflow := i.inflow, gwr := 0, newFrac := 0, unsat := 0, use := 0, evapKm3 := 0 }

open Classical in
/-- Local lake, `routing.py:352-381`. -/
noncomputable def cellLocLake : LakeOut :=
  bodyDay .localLake (c.lakeIn c.locLake (cellSplit c st).1 0 0) st.locLake (c.locLake.frac > 0)

open Classical in
/-- Local wetland, `routing.py:391-422`. -/
noncomputable def cellLocWet : LakeOut :=
  bodyDay .localWetland (c.lakeIn c.locWet (cellLocLake c st).outflow 0 0) st.locWet (c.locWet.frac > 0)

open Classical in
/-- Global lake, with the inflow from upstream, `routing.py:433-469`. -/
noncomputable def cellGloLake : LakeOut :=
  bodyDay .globalLake
    (c.lakeIn ⟨0, c.glolakeArea, c.maxGlolake⟩ ((cellLocWet c st).outflow + up) c.resArea demand)
    st.gloLake (c.glolakeArea > 0)

/-- The arguments of the reservoir balance, `routing.py:481-509`. -/
noncomputable def cellResIn : ResIn :=
  { precip := c.precip, openPet := c.openPet, arid := c.arid, drainageOk := !c.sink, gwConst := c.gwConst,
    area := c.resArea, redExp := c.resRedExp, cfa := c.cfa, firstDay := c.resFirstDay, glolakeArea := c.glolakeArea,
    demandSw := demand, unsatGlolake := (cellGloLake c st up demand).unsat, minV := c.minV,
    han := { c.han with inflow := (cellGloLake c st up demand).outflow, kRelease := st.k } }

open Classical in
/-- Reservoir or regulated lake, `routing.py:479-524`. -/
noncomputable def cellRes : ResOut :=
  if c.resArea > 0 then resBalance (cellResIn c st up demand) st.res
  else { storage := st.res, outflow := (cellGloLake c st up demand).outflow, gwr := 0, kRelease := st.k, unsat := 0,
         use := 0, evapKm3 := 0 }

/-- `accumulated_unsatisfied_potential_netabs_sw` after global lake and reservoir, `routing.py:529-534`. -/
noncomputable def cellUnsat1 : ℝ :=
  if c.resArea > 0 then (cellRes c st up demand).unsat
  else if c.glolakeArea > 0 then (cellGloLake c st up demand).unsat
  else demand

/-- The demand the cell keeps after the redistribution to riparian cells, `routing.py:540-572`. -/
noncomputable def cellUnsat2 : ℝ :=
  if c.useOpt = true ∧ (c.resArea > 0 ∨ c.glolakeArea > 0) then keep (cellUnsat1 c st up demand)
  else cellUnsat1 c st up demand

open Classical in
/-- Global wetland, `routing.py:582-613`. -/
noncomputable def cellGloWet : LakeOut :=
  bodyDay .globalWetland (c.lakeIn c.gloWet (cellRes c st up demand).outflow 0 0) st.gloWet (c.gloWet.frac > 0)

/-- `point_source_recharge`, `routing.py:624-625`. -/
noncomputable def cellPoint : ℝ :=
  (cellLocLake c st).gwr + (cellLocWet c st).gwr + (cellGloLake c st up demand).gwr
    + (cellGloWet c st up demand).gwr + (cellRes c st up demand).gwr

/-- The groundwater balance that counts for the day. -/
noncomputable def cellGwFinal : GwOut := cellGw c st (cellPoint c st up demand)

/-- `river_inflow[x, y]`, `routing.py:333-342,649,660-663`: the outflow of the last water body; unless the cell is an
inland sink, the rest of the runoff and in arid cells the groundwater discharge. -/
noncomputable def cellRiverIn : ℝ :=
  let toRiver := (cellSplit c st).2 + if c.gwKind = .arid then (cellGwFinal c st up demand).discharge else 0
  if c.sink then (cellGloWet c st up demand).outflow else (cellGloWet c st up demand).outflow + toRiver

/-- River balance, `routing.py:670-697`. -/
noncomputable def cellRiver : RiverOut :=
  riverBalance c.minV c.corr (outflowConstant st.river c.len c.width c.rough c.mult c.slope) st.river
    (cellRiverIn c st up demand) (cellUnsat2 c st up demand keep)

/-- Whether the local lake is tapped after the river, `routing.py:727-742`. -/
noncomputable def cellTap : Prop :=
  c.useOpt = true ∧ c.locLake.frac > 0 ∧ (cellRiver c st up demand keep).unsat > 0 ∧
    (cellLocLake c st).storage > -1 * c.locLake.maxStorage

open Classical in
/-- Storage of the local lake, unsatisfied demand, fraction and use after the abstraction, `routing.py:739-757`. -/
noncomputable def cellTapped : ℝ × ℝ × ℝ × ℝ :=
  if cellTap c st up demand keep then
    localLakeAbstract (cellLocLake c st).storage c.locLake.maxStorage c.locLake.frac c.redExp
      (cellRiver c st up demand keep).unsat
  else ((cellLocLake c st).storage, (cellRiver c st up demand keep).unsat, (cellLocLake c st).newFrac, 0)

open Classical in
/-- One day of one cell. `precipSwb` is the precipitation on the open water of the bodies of the cell; `evap` is
`total_open_water_aet` (`routing.py:843-848`), which in an inland sink includes the streamflow; `cellRunoff` is
`routing.py:714-721`; `evapTotal` is `cell_aet_consuse` without the evaporation from land (`routing.py:850-855`). -/
noncomputable def cellDay : CellOut :=
  let ll := cellLocLake c st
  let lw := cellLocWet c st
  let gl := cellGloLake c st up demand
  let rs := cellRes c st up demand
  let gwt := cellGloWet c st up demand
  let gw := cellGwFinal c st up demand
  let rv := cellRiver c st up demand keep
  let tp := cellTapped c st up demand keep
  let evap := ll.evapKm3 + lw.evapKm3 + gl.evapKm3 + rs.evapKm3 + gwt.evapKm3
    + (if c.sink then rv.streamflow else 0)
  let nas := (if c.glolakeArea > 0 then gl.use else 0) + (if c.resArea > 0 then rs.use else 0) + rv.use + tp.2.2.2
  { state := { gw := gw.storage, locLake := tp.1, locWet := lw.storage, gloLake := gl.storage, res := rs.storage,
               k := rs.kRelease, gloWet := gwt.storage, river := rv.storage }
    streamflow := rv.streamflow
    evap := evap
    nag := gw.nag
    nas := nas
    unsat := tp.2.1
    handed := cellUnsat1 c st up demand - cellUnsat2 c st up demand keep
    lakeUnsat := cellUnsat1 c st up demand
    precipSwb := c.precip *
      ((if c.locLake.frac > 0 then lakeArea .localLake (c.lakeIn c.locLake 0 0 0) st.locLake else 0)
       + (if c.locWet.frac > 0 then lakeArea .localWetland (c.lakeIn c.locWet 0 0 0) st.locWet else 0)
       + (if c.gloWet.frac > 0 then lakeArea .globalWetland (c.lakeIn c.gloWet 0 0 0) st.gloWet else 0)
       + (if c.glolakeArea > 0 then c.glolakeArea else 0) + (if c.resArea > 0 then c.resArea else 0))
    locLakeFrac := tp.2.2.1
    locWetFrac := lw.newFrac
    gloWetFrac := gwt.newFrac
    cellRunoff := if c.sink then -1 * up else rv.streamflow - up
    evapTotal := gw.nag + nas + evap }

end

end WG
