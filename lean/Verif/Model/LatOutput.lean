import Verif.Model.Routing

/-!
# The saved results of the lateral water balance

Model of the dictionaries `storages` and `fluxes` filled at the end of a day in
`/repo/model/lateralwaterbalance/waterbalance_lateral.py:762-813,906-951` from what `routing.py:864-877` returns.
-/

namespace WG

/-- The saved volumes of one cell on one day, in km³, by the names under which they are saved. -/
structure LatSaved where
  groundwstor : ℝ
  locallakestor : ℝ
  localwetlandstor : ℝ
  globallakestor : ℝ
  globalwetlandstor : ℝ
  riverstor : ℝ
  reservoirstor : ℝ
  qg : ℝ
  qtot : ℝ
  qrf : ℝ
  qr : ℝ
  locallakeOutflow : ℝ
  localwetlandOutflow : ℝ
  globallakeOutflow : ℝ
  globalwetlandOutflow : ℝ
  /-- missing where the drainage direction is negative (inland sinks) -/
  dis : Option ℝ
  disFromUpstream : ℝ
  atotusegw : ℝ
  atotusesw : ℝ
  atotuse : ℝ
  ncrun : ℝ
  potCellRunoff : ℝ

/-- `waterbalance_lateral.py:762-813,906-951` for one cell.  `c` holds the inputs of the cell, `st` its storages before the
day, `o` is the result of `routing.py` for it.  The areas of the bodies are the maximum areas (lines 808-812); a body
that does not exist has area 0. -/
noncomputable def latSaved (c : CellIn) (st : CellState) (up demand : ℝ) (keep : ℝ → ℝ) : LatSaved :=
  let o := cellDay c st up demand keep
  let qg := (cellGwFinal c st up demand).discharge                                   -- out[8]
  let qrf := cellPoint c st up demand                                                -- out[33]
  let total := qg + c.runoff                                                         -- 801
  let swb := (c.precip - c.openPet) * c.cfa                                          -- 805-806
  let area := c.resArea + c.glolakeArea + c.locLake.maxArea + c.locWet.maxArea + c.gloWet.maxArea   -- 808-810
  { groundwstor := o.state.gw, locallakestor := o.state.locLake, localwetlandstor := o.state.locWet,
    globallakestor := o.state.gloLake, globalwetlandstor := o.state.gloWet, riverstor := o.state.river,
    reservoirstor := o.state.res, qg := qg, qtot := total, qrf := qrf, qr := qrf + c.recharge,          -- 800
    -- a body that does not exist keeps the zero of `basin.copy()` (`routing.py:101,113,125,155`)
    locallakeOutflow := if c.locLake.frac > 0 then (cellLocLake c st).outflow else 0,
    localwetlandOutflow := if c.locWet.frac > 0 then (cellLocWet c st).outflow else 0,
    globallakeOutflow := if c.glolakeArea > 0 then (cellGloLake c st up demand).outflow else 0,
    globalwetlandOutflow := if c.gloWet.frac > 0 then (cellGloWet c st up demand).outflow else 0,
    dis := if c.sink then none else some o.streamflow,                               -- 785
    disFromUpstream := up, atotusegw := o.nag, atotusesw := o.nas, atotuse := o.nag + o.nas,           -- 802
    ncrun := o.cellRunoff, potCellRunoff := total + swb * area }                     -- 812

/-- What a cell is given on a day by the rest of the model. -/
structure LatDay where
  cell : CellIn
  up : ℝ
  demand : ℝ
  keep : ℝ → ℝ

/-- The saved results of one cell over consecutive days: the storages are handed on
(`waterbalance_lateral.py:762-769`). -/
noncomputable def latSeries : CellState → List LatDay → List LatSaved
  | _, [] => []
  | st, d :: ds =>
    latSaved d.cell st d.up d.demand d.keep :: latSeries (cellDay d.cell st d.up d.demand d.keep).state ds

end WG
