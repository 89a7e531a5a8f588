import Verif.Model.GlobalBalance
import Verif.Model.Demand

/-!
# The whole simulation with its demand, of the world or of a basin

The day of `/repo/run_watergap.py:256-284` with land area, vertical and lateral water balance (`GlobalBalance.lean`) and
the demand ledger (`Demand.lean`, without the neighbouring-cell option): the unsatisfied demand of a day adapts the
groundwater abstraction of the next.  A simulation of a basin visits the same routing order and skips the cells outside
(`/repo/model/lateralwaterbalance/routing.py:210-214`,
`/repo/model/verticalwaterbalance/waterbalance_vertical.py:90-94`); the demand data, units and the routing order used for
sharing demand among shore cells are those of the world.
-/

namespace WG

/-- What is remembered about demand, `waterbalance_lateral.py:838-887`: accumulated unsatisfied demand, its value the day
before, the unsatisfied demand of the day and the demand handed to riparian cells. -/
structure DemandState where
  /-- accumulated unsatisfied demand -/
  acc : Cell → ℝ
  /-- its value the day before -/
  prev : Cell → ℝ
  /-- unsatisfied demand of the day -/
  daily : Cell → ℝ
  /-- demand handed to riparian cells -/
  rip : Cell → ℝ

/-- What a day brings. -/
structure WgDay where
  /-- the weather -/
  weather : Cell → Weather
  /-- the lateral inputs that come neither from the column nor from the ledger -/
  lateral : Cell → CellIn
  /-- demand after aggregation -/
  pot : Cell → ℝ
  /-- demand before aggregation -/
  unagg : Cell → ℝ
  /-- the day is a 31 December -/
  dec31 : Bool

/-- The lateral inputs with the unsatisfied demand of the day before, `routing.py:288,310,634`. -/
def WgDay.inputs (d : WgDay) (l : DemandState) (x : Cell) : CellIn := { d.lateral x with unsatNas := l.daily x }

/-- The demand data of the day, `routing.py:551-562`; `world` is the complete routing order. -/
def WgDay.demand (unit : Cell → ℕ) (world : List (Cell × Cell)) (d : WgDay) (l : DemandState) : DemandDay :=
  { pot := d.pot, unagg := d.unagg, unit := unit, prev := l.prev, order := world.map Prod.fst }

/-- The day as the simulation sees it: start of the day `waterbalance_lateral.py:681-690`, cells as in `ledgerGet` and
`ledgerUpd`, end of the day `waterbalance_lateral.py:838-887`. -/
noncomputable def WgDay.sim (delayed : Bool) (unit : Cell → ℕ) (world : List (Cell × Cell)) (d : WgDay) :
    SimDay DemandState :=
  { weather := d.weather
    lateral := d.inputs
    start := fun l => { l with acc := fun x => dayDemand (d.lateral x).useOpt delayed (d.pot x) (l.acc x) }
    get := fun l x => ledgerGet d.lateral (d.demand unit world l) ⟨l.acc, l.rip⟩ x
    upd := fun l x o =>
      let r := ledgerUpd d.lateral (d.demand unit world l) ⟨l.acc, l.rip⟩ x o;
      { l with acc := r.acc, rip := r.rip }
    close := fun l =>
      let u := fun x => endOfDay (d.lateral x).useOpt delayed d.dec31 (l.acc x) none none (some 0)
        ⟨l.acc x, l.prev x, l.daily x⟩;
      { acc := fun x => (u x).acc, prev := fun x => (u x).prev, daily := fun x => (u x).daily, rip := l.rip } }

/-- The cells of the routing order that are simulated, `routing.py:210-214`. -/
def masked (world : List (Cell × Cell)) (basin : Cell → Bool) : List (Cell × Cell) := world.filter fun e => basin e.1

/-- A simulation over consecutive days; outside the basin nothing is recorded.  The global simulation has
`basin := fun _ => true`. -/
noncomputable def wgRun (par : Cell → FullPar) (delayed : Bool) (unit : Cell → ℕ) (world : List (Cell × Cell))
    (basin : Cell → Bool) (s : Sim DemandState) (days : List WgDay) : Sim DemandState × List (Cell → Option DayRec) :=
  simRun par (masked world basin) s (days.map fun d => d.sim delayed unit world)

end WG
