import Verif.Model.Vertical
import Verif.Model.LandFrac
import Verif.Model.Network

/-!
# The whole cell, the whole simulation, and the global water balance tool

The glue between land area, vertical and lateral water balance of a day (`/repo/run_watergap.py:256-284`,
`/repo/model/lateralwaterbalance/waterbalance_lateral.py:553-579`), the four outputs the global water balance uses
(`/repo/model/lateralwaterbalance/routing.py:837-862`) and
`/repo/misc/global_water_balance/waterbalance_global.py`.  Days on which the area of reservoirs changes
(`landYear`, `landAdapt`) are not part of `simDay`.
-/

namespace WG

/-- The forcing of a cell for one day, `waterbalance_vertical_init.py:205-251`. -/
structure Weather where
  temperature : ℝ
  swDown : ℝ
  lwDown : ℝ
  precip : ℝ

/-- Static data of a cell: parameters of the column, area in km² and the fraction of the cell that is neither global
lake nor reservoir (`landwaterfrac_excl_glolake_res`, `land_surfacewater_fraction_init.py:103-104,197-199`). -/
structure FullPar where
  vert : VertPar
  area : ℝ
  landWater : ℝ

/-- The state of a cell: column, land fraction, lateral storages. -/
structure FullState where
  vert : VertState
  land : LandState
  lat : CellState

/-- The forcing handed to `vert_water_balance`, `run_watergap.py:256-261`. -/
def fullForcing (w : Weather) (l : LandState) : VertForcing :=
  { temperature := w.temperature, swDown := w.swDown, lwDown := w.lwDown, precip := w.precip, frac := l.cur,
    ratio := l.ratio }

/-- The vertical water balance of the day. -/
noncomputable def fullVert (p : FullPar) (w : Weather) (s : FullState) : VertOut :=
  vertCell p.vert (fullForcing w s.land) s.vert

/-- The inputs of the lateral water balance of the day: `c` has everything that does not come from the column; the
unit conversions and the storage of a cell without land, `waterbalance_lateral.py:553-579`. -/
noncomputable def fullIn (p : FullPar) (c : CellIn) (w : Weather) (s : FullState) : CellIn :=
  let v := fullVert p w s
  { c with
    precip := w.precip * 1e-6
    openPet := v.openPet * 1e-6
    recharge := v.recharge * p.area * 1e-6 * s.land.cur
    runoff := if s.land.cur = 0 then v.transfer * p.area * 1e-6 * s.land.prev
              else v.surfaceRunoff * p.area * 1e-6 * s.land.cur }

/-- What the outputs of a day say about a cell (km³/day, km³): `consistent_precip`, `cell_aet_consuse`, `dis` (NaN in
an inland sink, `waterbalance_lateral.py:781`), `dis-from-upstream`, `tws`. -/
structure DayRec where
  precip : ℝ
  aet : ℝ
  dis : Option ℝ
  up : ℝ
  tws : ℝ

/-- The record of a cell, `routing.py:433,837-862`, `waterbalance_lateral.py:560-561,578-579,781`. -/
noncomputable def fullRec (p : FullPar) (c : CellIn) (w : Weather) (s : FullState) (up : ℝ) (o : CellOut) : DayRec :=
  let v := fullVert p w s
  let ci := fullIn p c w s
  { precip := p.landWater * ci.precip * p.area + (if ci.glolakeArea > 0 then ci.precip * ci.glolakeArea else 0)
      + (if ci.resArea > 0 then ci.precip * ci.resArea else 0)
    aet := o.evapTotal + v.landAet * 1e-6 * s.land.cur * p.area
    dis := if ci.sink then none else some o.streamflow
    up := up
    tws := o.state.total + (v.next.canopy + v.next.snow + v.next.soil) * (1e-6 * s.land.cur * p.area) }

/-- The state of the cell on the next day, `waterbalance_vertical_init.py:302-325`, `waterbalance_lateral.py:762-774`,
`land_surfacewater_fraction_init.py:360-402`. -/
noncomputable def fullNext (p : FullPar) (w : Weather) (s : FullState) (o : CellOut) : FullState :=
  { vert := (fullVert p w s).next
    land := landUpdate (o.locLakeFrac + o.locWetFrac + o.gloWetFrac) s.land
    lat := o.state }

/-- The simulation: the cells and the ledger of unsatisfied demand. -/
structure Sim (δ : Type) where
  demand : δ
  state : Cell → FullState

/-- What is given for a day: weather, the lateral inputs that do not come from the column (among them the demand of
the day, and the unsatisfied demand of the day before, which is in the ledger), what happens to the ledger at the start
of the day (`waterbalance_lateral.py:681-690`), how a cell reads and changes it, and what happens to it at the end of the
day (`waterbalance_lateral.py:838-887`). -/
structure SimDay (δ : Type) where
  weather : Cell → Weather
  lateral : δ → Cell → CellIn
  start : δ → δ
  get : δ → Cell → ℝ × (ℝ → ℝ)
  upd : δ → Cell → CellOut → δ
  close : δ → δ

section
variable {δ : Type} (par : Cell → FullPar) (order : List (Cell × Cell))

/-- The inputs of the lateral water balance of the day. -/
noncomputable def simIn (d : SimDay δ) (s : Sim δ) (x : Cell) : CellIn :=
  fullIn (par x) (d.lateral s.demand x) (d.weather x) (s.state x)

/-- The lateral water balance of the day. -/
noncomputable def simNet (d : SimDay δ) (s : Sim δ) : NetState (Basin δ) :=
  basinDay (simIn par d s) d.get d.upd order (d.start s.demand) fun x => (s.state x).lat

/-- One day of the simulation, `run_watergap.py:256-284`: the next state, and the record of every simulated cell. -/
noncomputable def simDay (d : SimDay δ) (s : Sim δ) : Sim δ × (Cell → Option DayRec) :=
  let n := simNet par order d s
  ({ demand := d.close n.ledger.demand
     state := fun x => match n.ledger.out x with
       | none => s.state x
       | some o => fullNext (par x) (d.weather x) (s.state x) o },
   fun x => (n.ledger.out x).map fun o => fullRec (par x) (d.lateral s.demand x) (d.weather x) (s.state x) (n.up x) o)

/-- Consecutive days: the final state and the records. -/
noncomputable def simRun : Sim δ → List (SimDay δ) → Sim δ × List (Cell → Option DayRec)
  | s, [] => (s, [])
  | s, d :: ds =>
    let r := simDay par order d s
    let q := simRun r.1 ds
    (q.1, r.2 :: q.2)

end

/-! ### The tool -/

/-- `resample(time='1Y').sum()` of one cell followed by `mean(dim='time')`, `waterbalance_global.py:154-188`: missing
values count as 0. -/
noncomputable def annualMean (q : DayRec → Option ℝ) (years : List (List DayRec)) : ℝ :=
  (years.map fun y => (y.map fun d => (q d).getD 0).sum).sum / years.length

/-- `tws[-1]`, `waterbalance_global.py:176`: the last day (the value before the period if there is none). -/
def lastTws (prev : ℝ) (years : List (List DayRec)) : ℝ := (years.flatten.getLast?.map (·.tws)).getD prev

/-- `sum_wb_rg`, `waterbalance_global.py:154-202`.  `cells` are the cells that are not masked out (the others are NaN
and skipped by `nansum`); `recs x` are the values of cell `x` by year, `prev x` its total water storage on the last
day before the period, `cfs x` its station correction factor and `n` is `diff_in_years`. -/
noncomputable def balanceError (cells : List Cell) (cfs : Cell → ℝ) (prev : Cell → ℝ) (n : ℝ)
    (recs : Cell → List (List DayRec)) : ℝ :=
  let precip := (cells.map fun x => annualMean (fun d => some d.precip) (recs x)).sum
  let dis := fun x => annualMean (·.dis) (recs x)
  let aet := (cells.map fun x => annualMean (fun d => some d.aet) (recs x)).sum
    + (cells.map fun x => dis x / cfs x - dis x).sum
  let q := (cells.map fun x => dis x - annualMean (fun d => some d.up) (recs x)).sum
  let dtws := (cells.map fun x => (lastTws (prev x) (recs x) - prev x) / n).sum
  precip - q - aet - dtws

/-- The unit conversions of the tool for saved fluxes, discharge and storages, `waterbalance_global.py:130-149`. -/
noncomputable def toolFlux (area cf x : ℝ) : ℝ := x * ((area * (cf / 100)) / 1e6) * 86400

/-- See `toolFlux`. -/
noncomputable def toolDis (x : ℝ) : ℝ := x * 1e-9 * 86400

/-- See `toolFlux`. -/
noncomputable def toolStorage (area cf x : ℝ) : ℝ := x * ((area * (cf / 100)) / 1e6)

end WG
