import Verif.Model.GlobalBalance
import Verif.Model.Neighbour

/-!
# The whole simulation with water supply from neighbouring cells

The day of `/repo/run_watergap.py:256-284` — land area, vertical and lateral water balance — with the routing loop in
which cells ask their neighbours for water (`Neighbour.lean`,
`/repo/model/lateralwaterbalance/waterbalance_lateral.py:553-887`).
-/

namespace WG

/-- The simulation: what the lateral water balance remembers (storages and demand), the columns and the land fractions. -/
structure NbSim where
  /-- demand and lateral storages -/
  carry : NbCarry
  /-- storages of the columns -/
  vert : Cell → VertState
  /-- land fractions -/
  land : Cell → LandState

/-- The state of a cell. -/
def NbSim.full (s : NbSim) (x : Cell) : FullState := ⟨s.vert x, s.land x, s.carry.state x⟩

/-- What a day brings. -/
structure NbWgDay where
  /-- the weather -/
  weather : Cell → Weather
  /-- the lateral inputs that come neither from the column nor from the ledger -/
  lateral : Cell → CellIn
  /-- demand after aggregation -/
  pot : Cell → ℝ
  /-- demand before aggregation -/
  unagg : Cell → ℝ
  /-- month -/
  month : ℕ
  /-- day of the month -/
  day : ℕ

section
variable (par : Cell → FullPar) (r : NbRun)

/-- What the lateral water balance gets on the day, `run_watergap.py:263-279`, `waterbalance_lateral.py:553-579`. -/
noncomputable def NbWgDay.lat (d : NbWgDay) (s : NbSim) : NbDayIn :=
  { cin := fun x => fullIn (par x) (d.lateral x) (d.weather x) (s.full x)
    pot := d.pot, unagg := d.unagg, month := d.month, day := d.day }

/-- The state after the day, `run_watergap.py:256-284`. -/
noncomputable def NbWgDay.next (d : NbWgDay) (s : NbSim) : NbSim :=
  let n := (d.lat par s).routed r s.carry;
  { carry := (d.lat par s).next r s.carry
    vert := fun x => match n.ledger.out x with
      | none => s.vert x
      | some o => (fullNext (par x) (d.weather x) (s.full x) o).vert
    land := fun x => match n.ledger.out x with
      | none => s.land x
      | some o => (fullNext (par x) (d.weather x) (s.full x) o).land }

/-- The records of the day, `routing.py:433,837-862`. -/
noncomputable def NbWgDay.recs (d : NbWgDay) (s : NbSim) (x : Cell) : Option DayRec :=
  let n := (d.lat par s).routed r s.carry;
  (n.ledger.out x).map fun o => fullRec (par x) (d.lateral x) (d.weather x) (s.full x) (n.up x) o

/-- Consecutive days: the final state and the records. -/
noncomputable def nbSimRun : NbSim → List NbWgDay → NbSim × List (Cell → Option DayRec)
  | s, [] => (s, [])
  | s, d :: ds =>
    let q := nbSimRun (d.next par r s) ds;
    (q.1, d.recs par r s :: q.2)

end

end WG
