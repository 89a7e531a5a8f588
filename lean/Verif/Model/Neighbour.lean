import Verif.Model.Demand

/-!
# A basin whose cells ask their neighbours for water

Models the routing loop with the options for subtracting water use and for water supply from neighbouring cells
switched on: `/repo/model/lateralwaterbalance/routing.py:78,200-268,540-572,727-829` and the update at the end of the
day, `/repo/model/lateralwaterbalance/waterbalance_lateral.py:838-887`.  NaN in the arrays of returned demand and of
the day's unsatisfied demand is `none`.
-/

namespace WG

/-- What the cells of the basin share about demand during a day: `accumulated_unsatisfied_potential_netabs_sw`,
`unsatisfied_potential_netabs_riparian`, `unsat_potnetabs_sw_from_demandcell`, `unsat_potnetabs_sw_to_supplycell`,
`returned_demand_from_supplycell`, `returned_demand_from_supplycell_nextday`, `daily_unsatisfied_pot_nas`,
`neighbouring_cells_map`, `cell_calculated` (`routing.py:40-78,200-205`). -/
structure NbLedger where
  /-- demand of a cell -/
  acc : Cell → ℝ
  /-- demand handed to a riparian cell -/
  rip : Cell → ℝ
  /-- demand a cell passed on to its neighbour -/
  sent : Cell → ℝ
  /-- demand waiting at a supply cell -/
  toSupply : Cell → ℝ
  /-- demand a supply cell gave back -/
  ret : Cell → Option ℝ
  /-- demand given back and taken up at the cell's turn -/
  retNext : Cell → Option ℝ
  /-- unsatisfied demand of the day -/
  daily : Cell → Option ℝ
  /-- the neighbour a cell asked -/
  nbMap : Cell → Cell
  /-- 1 when the cell has had its turn -/
  turned : Cell → ℕ

/-- What the loop needs besides the ledger: the demand data, the options, the date and for each cell its neighbours
with their outflow cells. -/
structure NbDay extends DemandDay where
  /-- delayed use -/
  delayed : Bool
  /-- reservoirs are simulated -/
  resOpt : Bool
  /-- month -/
  month : ℕ
  /-- day of the month -/
  day : ℕ
  /-- neighbours with their outflow cells -/
  nbs : Cell → List (Cell × Cell)

/-- The demand given back that a cell takes up at its turn: `returned_demand_from_supplycell[x, y] >= 0`,
`routing.py:237`. -/
noncomputable def NbLedger.takenUp (l : NbLedger) (x : Cell) : Option ℝ :=
  match l.ret x with
  | some r => if 0 ≤ r then some r else none
  | none => none

section
variable (cin : Cell → CellIn) (q : NbDay) (l : NbLedger) (x : Cell)

open Classical in
/-- `total_demand_sw_noallocation[x, y]`, `routing.py:230-232,244-246,262-263`. -/
noncomputable def nbOwn : ℝ :=
  l.acc x + (if q.unit x > 0 ∧ (cin x).useOpt = true then l.rip x else 0)
    + (if q.delayed then (l.takenUp x).getD 0 else 0)

/-- The demand the cell starts its turn with, `routing.py:267-268`. -/
noncomputable def nbDemand : ℝ := nbOwn cin q l x + l.toSupply x

/-- `daily_unsatisfied_pot_nas[x, y]` when the groundwater balance of the cell uses it, `routing.py:248-250`. -/
noncomputable def nbDaily : Option ℝ :=
  match l.takenUp x with
  | some r => some (r - q.prev x)
  | none => l.daily x

/-- `returned_demand_from_supplycell_nextday[x, y]` after `routing.py:252-253`. -/
noncomputable def nbRetNext : Option ℝ :=
  match l.takenUp x with
  | some r => some r
  | none => l.retNext x

/-- The inputs of the cell with the unsatisfied demand its groundwater balance uses. (It is never NaN there, which
is proved; the model would use zero.) `routing.py:286,308,632`. -/
noncomputable def nbIn : CellIn := { cin x with unsatNas := (nbDaily q l x).getD 0 }

/-- The call of `redistritute_to_riparian`, `routing.py:551-562`. -/
noncomputable def nbRedist (u : ℝ) : RedistIn Cell :=
  { prev := q.prev x, toSupply := l.toSupply x, acc := u, unagg := q.unagg, pot := q.pot x, unit := q.unit,
    order := q.order, prevReturned := nbRetNext l x, x := x }

/-- What the cell keeps of the demand its lake or reservoir left unsatisfied, `routing.py:563-564`. -/
noncomputable def nbKeep (u : ℝ) : ℝ := (redistribute (nbRedist q l x u) l.rip).1

/-- The turn of a cell with storages `st` and inflow `up`. -/
noncomputable def nbTurn (st : CellState) (up : ℝ) : CellOut :=
  cellDay (nbIn cin q l x) st up (nbDemand cin q l x) (nbKeep q l x)

/-- The call of `allocate_unsat_demand_to_demandcell` after the turn `o` of the cell, `routing.py:762-784`.
`total_unsatisfied_demand_ripariancell` is what the cell handed to riparian cells, `routing.py:567-569`. -/
noncomputable def nbAlloc (o : CellOut) : AllocIn :=
  { x := x, nbMap := l.nbMap, acc := o.unsat, fromDemand := l.sent, toSupply := l.toSupply x,
    totalNoAlloc := nbOwn cin q l x, actualUse := o.nas, riparian := o.handed, order := q.order }

/-- The water in a cell as its neighbours see it; the storages of cells outside the basin are NaN and never
the largest (`routing.py:84-165`, `neighbouring_cell.py:224-238`). -/
noncomputable def nbAvail (state : Cell → CellState) (c : Cell) : ℝ :=
  if c ∈ q.order then
    cellStorage (fun c => (state c).river) (fun c => (state c).locLake) (fun c => (state c).gloLake)
      (fun c => (cin c).locLake.maxStorage) (fun c => (cin c).maxGlolake) (fun c => (state c).res) q.resOpt c
  else 0

/-- `np.all(neighbouring_cells_map[x, y]) > 0`, `routing.py:810`: neither index is zero. -/
def realCell (c : Cell) : Prop := c.1 > 0 ∧ c.2 > 0

instance (c : Cell) : Decidable (realCell c) := inferInstanceAs (Decidable (_ ∧ _))

open Classical in
/-- The ledger after the turn `o` of the cell; `state` are the storages after the turn.
`routing.py:235-268,563-572,727-829`. -/
noncomputable def nbUpd (o : CellOut) (state : Cell → CellState) : NbLedger :=
  let ret0 := if (l.takenUp x).isSome then Function.update l.ret x none else l.ret;
  let a := allocate (nbAlloc cin q l x o) ret0;
  let to0 := if l.toSupply x > 0 then Function.update l.toSupply x 0 else l.toSupply;
  let nb := getNeighbour (nbAvail cin q state) (q.nbs x) a.1 x q.month q.day l.turned;
  let daily0 := Function.update l.daily x (nbDaily q l x);
  { acc := Function.update l.acc x (if realCell nb then 0 else a.1)
    rip := if (cin x).useOpt = true ∧ (cin x).hasLake then (redistribute (nbRedist q l x o.lakeUnsat) l.rip).2 else l.rip
    sent := Function.update l.sent x (if realCell nb then a.1 else 0)
    toSupply := if realCell nb then Function.update to0 nb (to0 nb + a.1) else to0
    ret := a.2.1
    retNext := Function.update l.retNext x (nbRetNext l x)
    daily := if realCell nb ∧ l.turned nb > l.turned x then Function.update daily0 x none else daily0
    nbMap := Function.update l.nbMap x nb
    turned := Function.update l.turned x 1 }

end

/-- A cell of the basin in the loop, with its ledger. `routing.py:210-829`. -/
noncomputable def nbNode (cin : Cell → CellIn) (q : NbDay) (b : Basin NbLedger) (x : Cell) (up : ℝ) :
    Basin NbLedger × ℝ × ℝ :=
  let o := nbTurn cin q b.demand x (b.state x) up;
  let state := Function.update b.state x o.state;
  ({ demand := nbUpd cin q b.demand x o state
     state := state
     out := Function.update b.out x (some o) },
   cellRiverIn (nbIn cin q b.demand x) (b.state x) up (nbDemand cin q b.demand x), o.streamflow)

/-- One day of the basin, `routing.py:210-876`. -/
noncomputable def nbDayRun (cin : Cell → CellIn) (q : NbDay) (order : List (Cell × Cell)) (l : NbLedger)
    (state : Cell → CellState) : NetState (Basin NbLedger) :=
  route (nbNode cin q) order ⟨l, state, fun _ => none⟩

/-! ## Day after day -/

/-- What the model remembers from day to day. -/
structure NbCarry where
  /-- accumulated unsatisfied demand, its value the day before and the day's -/
  unsat : Cell → Unsat
  /-- demand handed to riparian cells -/
  rip : Cell → ℝ
  /-- demand a cell passed on to its neighbour -/
  sent : Cell → ℝ
  /-- demand waiting at a supply cell -/
  toSupply : Cell → ℝ
  /-- the neighbour a cell asked -/
  nbMap : Cell → Cell
  /-- storages -/
  state : Cell → CellState

/-- The options and the geography of a run. -/
structure NbRun where
  /-- delayed use -/
  delayed : Bool
  /-- reservoirs are simulated -/
  resOpt : Bool
  /-- units of lakes and reservoirs -/
  unit : Cell → ℕ
  /-- neighbours with their outflow cells -/
  nbs : Cell → List (Cell × Cell)
  /-- routing order with outflow cells -/
  order : List (Cell × Cell)

/-- What a day brings. -/
structure NbDayIn where
  /-- inputs of the cells -/
  cin : Cell → CellIn
  /-- demand after aggregation -/
  pot : Cell → ℝ
  /-- demand before aggregation -/
  unagg : Cell → ℝ
  /-- month -/
  month : ℕ
  /-- day of the month -/
  day : ℕ

/-- The demand data of the day. -/
def NbDayIn.nbDay (r : NbRun) (c : NbCarry) (d : NbDayIn) : NbDay :=
  { pot := d.pot, unagg := d.unagg, unit := r.unit, prev := fun x => (c.unsat x).prev,
    order := r.order.map Prod.fst, delayed := r.delayed, resOpt := r.resOpt, month := d.month, day := d.day,
    nbs := r.nbs }

/-- The ledger at the start of the day: `waterbalance_lateral.py:681-690`, `routing.py:78,203-205`. -/
noncomputable def NbDayIn.ledger (r : NbRun) (c : NbCarry) (d : NbDayIn) : NbLedger :=
  { acc := fun x => dayDemand (d.cin x).useOpt r.delayed (d.pot x) (c.unsat x).acc
    rip := c.rip, sent := c.sent, toSupply := c.toSupply, ret := fun _ => none, retNext := fun _ => none
    daily := fun x => some (c.unsat x).daily, nbMap := c.nbMap, turned := fun _ => 0 }

/-- The basin at the end of the routing of the day. -/
noncomputable def NbDayIn.routed (r : NbRun) (c : NbCarry) (d : NbDayIn) : NetState (Basin NbLedger) :=
  nbDayRun d.cin (d.nbDay r c) r.order (d.ledger r c) c.state

/-- A day of the basin, `waterbalance_lateral.py:584-887`. -/
noncomputable def NbDayIn.next (r : NbRun) (c : NbCarry) (d : NbDayIn) : NbCarry :=
  let l := (d.routed r c).ledger.demand;
  { unsat := fun x => endOfDay (d.cin x).useOpt r.delayed (decide (d.month = 12 ∧ d.day = 31)) (l.acc x) (l.ret x)
      (l.retNext x) (l.daily x) (c.unsat x)
    rip := l.rip, sent := l.sent, toSupply := l.toSupply, nbMap := l.nbMap
    state := (d.routed r c).ledger.state }

end WG
