import Verif.Model.Network
import Verif.Model.Abstraction
import Verif.Model.Calendar

/-!
# Water demand: from monthly data to what a cell asks for on a day

Models the demand handling of `/repo/model/lateralwaterbalance/waterbalance_lateral.py:584-690,838-887`
and the demand bookkeeping of the routing loop, `/repo/model/lateralwaterbalance/routing.py:230-268,
540-572`.  The basin-wide ledger is for runs without the neighbouring-cell option.
-/

namespace WG

/-! ## Monthly data -/

/-- `days_in_month`: the table used to spread monthly demand.
`waterbalance_lateral.py:593-594`. -/
def demandDays (m : ℕ) : ℕ :=
  if m = 2 then 28 else if m = 4 ∨ m = 6 ∨ m = 9 ∨ m = 11 then 30 else 31

/-- `first_day_of_month`: for each month of the run's time axis its first available day,
`/repo/run_watergap.py:162-171` (`groupby(['year', 'month']).min()`). -/
def firstDays (grid : List Date) : List Date :=
  grid.filter fun t => grid.all fun u => decide (¬ (u.y = t.y ∧ u.m = t.m ∧ u.ord < t.ord))

/-- `self.potential_net_abstraction_*` on a day, in km³/day: on the first available day of a month the month's
value (m³) is read and divided, otherwise the value is kept.  `waterbalance_lateral.py:597-661`; the same
for surface water, groundwater, withdrawals and consumptive use. -/
noncomputable def demandRate (grid : List Date) (monthly : ℕ → ℕ → ℝ) (rate : ℝ) (t : Date) : ℝ :=
  if t ∈ firstDays grid then monthly t.y t.m / (demandDays t.m * 1e9) else rate

/-- The demand of the days simulated one after the other. -/
noncomputable def demandRates (grid : List Date) (monthly : ℕ → ℕ → ℝ) (rate : ℝ) : List Date → List (Date × ℝ)
  | [] => []
  | t :: ts =>
    let r := demandRate grid monthly rate t;
    (t, r) :: demandRates grid monthly r ts

/-! ## Unsatisfied demand at the end of the day -/

/-- `accumulated_unsatisfied_potential_netabs_sw` handed to the routing: `waterbalance_lateral.py:681-690`. -/
noncomputable def dayDemand (useOpt delayed : Bool) (pot acc : ℝ) : ℝ :=
  if useOpt then (if delayed then pot + acc else pot) else 0

/-- What a cell remembers about its unsatisfied demand: `accumulated_…`, `prev_accumulated_…` and
`daily_unsatisfied_pot_nas`. -/
structure Unsat where
  /-- accumulated unsatisfied demand -/
  acc : ℝ
  /-- its value the day before -/
  prev : ℝ
  /-- unsatisfied demand of the day -/
  daily : ℝ

/-- The update at the end of the day, `waterbalance_lateral.py:838-887`.  `accOut` is what routing leaves,
`returned`, `returnedNext` and `check` are the NaN-marked arrays of the neighbouring-cell option (`none` is
NaN). -/
noncomputable def endOfDay (useOpt delayed dec31 : Bool) (accOut : ℝ) (returned returnedNext check : Option ℝ)
    (u : Unsat) : Unsat :=
  let acc1 := returned.getD accOut;
  if useOpt then
    if delayed then
      let prev1 := returnedNext.getD u.prev;
      let acc2 := if dec31 then 0 else acc1;
      { acc := acc2
        daily := if dec31 then 0 else if check.isSome then acc2 - prev1 else 0
        prev := if check.isSome then acc2 else prev1 }
    else { acc := acc1, prev := u.prev, daily := acc1 }
  else { u with acc := acc1 }

/-! ## The ledger of a basin -/

/-- The demand of the cells and the demand handed to riparian cells during the routing of a day:
`accumulated_unsatisfied_potential_netabs_sw` and `unsatisfied_potential_netabs_riparian`. -/
structure Ledger where
  /-- demand of a cell -/
  acc : Cell → ℝ
  /-- demand handed to a riparian cell -/
  rip : Cell → ℝ

/-- What redistribution needs besides the ledger (`routing.py:551-562`): the day's aggregated and own demands,
the lake and reservoir units, the accumulated demand of the day before and the routing order. -/
structure DemandDay where
  /-- `potential_net_abstraction_sw` (aggregated) -/
  pot : Cell → ℝ
  /-- `unagregrgated_potential_netabs_sw` -/
  unagg : Cell → ℝ
  /-- `glwdunits` -/
  unit : Cell → ℕ
  /-- `prev_accumulated_unsatisfied_potential_netabs_sw` -/
  prev : Cell → ℝ
  /-- `rout_order` -/
  order : List Cell

/-- The call of `redistritute_to_riparian` for the outflow cell `x` with unsatisfied demand `u`,
`routing.py:551-562`, without the neighbouring-cell option. -/
def DemandDay.redist (q : DemandDay) (x : Cell) (u : ℝ) : RedistIn Cell :=
  { prev := q.prev x, toSupply := 0, acc := u, unagg := q.unagg, pot := q.pot x, unit := q.unit,
    order := q.order, prevReturned := none, x := x }

/-- A cell holding (the outflow of) a global lake or reservoir, `routing.py:541`. -/
def CellIn.hasLake (c : CellIn) : Prop := c.resArea > 0 ∨ c.glolakeArea > 0

open Classical in
/-- The demand a cell starts its day with, and what it keeps of an unsatisfied demand after redistribution:
`routing.py:230-232, 540-564`. -/
noncomputable def ledgerGet (cin : Cell → CellIn) (q : DemandDay) (l : Ledger) (x : Cell) : ℝ × (ℝ → ℝ) :=
  (l.acc x + (if q.unit x > 0 ∧ (cin x).useOpt = true then l.rip x else 0),
   fun u => (redistribute (q.redist x u) l.rip).1)

open Classical in
/-- The ledger after the day of a cell: `routing.py:563-572, 752-757`. -/
noncomputable def ledgerUpd (cin : Cell → CellIn) (q : DemandDay) (l : Ledger) (x : Cell) (o : CellOut) : Ledger :=
  { acc := Function.update l.acc x o.unsat
    rip := if (cin x).useOpt = true ∧ (cin x).hasLake then (redistribute (q.redist x o.lakeUnsat) l.rip).2
      else l.rip }

/-- One day of the basin with its demand ledger: `routing.py:210-876`. -/
noncomputable def demandDayRun (cin : Cell → CellIn) (q : DemandDay) (order : List (Cell × Cell)) (l : Ledger)
    (state : Cell → CellState) : NetState (Basin Ledger) :=
  basinDay cin (ledgerGet cin q) (ledgerUpd cin q) order l state

/-! ## Day after day -/

/-- What the model remembers from day to day: `accumulated_…`, `prev_accumulated_…`, the demand handed to riparian
cells and the storages. -/
structure Carry where
  /-- accumulated unsatisfied demand -/
  acc : Cell → ℝ
  /-- its value the day before -/
  prev : Cell → ℝ
  /-- demand handed to riparian cells -/
  rip : Cell → ℝ
  /-- storages -/
  state : Cell → CellState

/-- What a day brings. -/
structure DayIn where
  /-- inputs of the cells -/
  cin : Cell → CellIn
  /-- demand after aggregation -/
  pot : Cell → ℝ
  /-- demand before aggregation -/
  unagg : Cell → ℝ
  /-- the day is a 31 December -/
  dec31 : Bool

/-- The demand data of the day with what is carried over. -/
def DayIn.demandDay (unit : Cell → ℕ) (order : List (Cell × Cell)) (c : Carry) (d : DayIn) : DemandDay :=
  { pot := d.pot, unagg := d.unagg, unit := unit, prev := c.prev, order := order.map Prod.fst }

/-- The ledger at the start of the day, `waterbalance_lateral.py:681-690`. -/
noncomputable def DayIn.ledger (delayed : Bool) (c : Carry) (d : DayIn) : Ledger :=
  { acc := fun x => dayDemand (d.cin x).useOpt delayed (d.pot x) (c.acc x), rip := c.rip }

/-- The basin at the end of the routing of the day. -/
noncomputable def DayIn.routed (delayed : Bool) (unit : Cell → ℕ) (order : List (Cell × Cell)) (c : Carry) (d : DayIn) :
    NetState (Basin Ledger) :=
  demandDayRun d.cin (d.demandDay unit order c) order (d.ledger delayed c) c.state

/-- A day of the basin: `waterbalance_lateral.py:584-887`, without the neighbouring-cell option (the NaN-marked
arrays have no entries, `check_daily_unsatisfied_pot_nas` has one everywhere). -/
noncomputable def DayIn.next (delayed : Bool) (unit : Cell → ℕ) (order : List (Cell × Cell)) (c : Carry) (d : DayIn) :
    Carry :=
  let s := d.routed delayed unit order c;
  let u := fun x => endOfDay (d.cin x).useOpt delayed d.dec31 (s.ledger.demand.acc x) none none (some 0)
    ⟨c.acc x, c.prev x, 0⟩;
  { acc := fun x => (u x).acc, prev := fun x => (u x).prev, rip := s.ledger.demand.rip, state := s.ledger.state }

end WG
