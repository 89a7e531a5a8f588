import Verif.Model.Checked
import Verif.Model.NbWhole

/-!
# Division by zero when demand is distributed

The divisions of `/repo/model/lateralwaterbalance/distribute_net_abstraction.py` and `neighbouring_cell.py`, which
`Checked.lean` leaves out, and the day of a simulation with water supply from neighbouring cells (`NbWhole.lean`) with all
divisions, powers and roots that may have no result.
-/

namespace WG

section
variable {α : Type} [DecidableEq α]

/-- The body of the loop of `redistritute_to_riparian`,
`/repo/model/lateralwaterbalance/distribute_net_abstraction.py:123-188`. -/
noncomputable def redistStepC (i : RedistIn α) (st : ℝ × (α → ℝ)) (r : α) : Option (ℝ × (α → ℝ)) :=
  if i.unit i.x = i.unit r ∧ i.x ≠ r then
    if i.acc - i.carried > 0 then
      if i.unagg i.x ≤ 0 then do
        let share ← (if i.unagg r ≤ 0 then some 0
          else if i.pot - i.unagg i.x > 0 then
            (cdiv (i.unagg r) (i.pot - i.unagg i.x)).map (· * (i.acc - i.carried))       -- 151-156
          else some 0)
        some (i.carried, Function.update st.2 r share)
      else do
        let own ← (if i.pot > 0 then
            (cdiv (i.unagg i.x) i.pot).map (· * (i.acc - i.carried) + i.carried)         -- 164-168
          else some i.carried)
        let share ← (if i.unagg r ≤ 0 then some 0
          else if i.pot > 0 then (cdiv (i.unagg r) i.pot).map (· * (i.acc - i.carried))  -- 175-180
          else some 0)
        some (own, Function.update st.2 r share)
    else some (i.acc, Function.update (Function.update st.2 r 0) i.x 0)
  else some st

/-- `redistritute_to_riparian`, `distribute_net_abstraction.py:24-191`. -/
noncomputable def redistributeC (i : RedistIn α) (rip : α → ℝ) : Option (ℝ × (α → ℝ)) :=
  i.order.foldlM (redistStepC i) (i.acc, rip)

end

/-- `allocate_unsat_demand_to_demandcell`, `/repo/model/lateralwaterbalance/neighbouring_cell.py:35-150`. -/
noncomputable def allocateC (i : AllocIn) (returned : Cell → Option ℝ) : Option (ℝ × (Cell → Option ℝ) × ℝ) := do
  let p := allocSplit i
  let ret ← (if i.toSupply > 0 then
      i.order.foldlM (fun r c => if (i.nbMap c).1 = i.x.1 ∧ (i.nbMap c).2 = i.x.2 then
        (cdiv 1 i.toSupply).map fun y => Function.update r c (some (p.2 * i.fromDemand c * y))   -- 144-147
        else some r) returned
    else some returned)
  some (p.1, ret, p.2)

open Classical in
/-- The body of the routing loop (`nbNode`), `/repo/model/lateralwaterbalance/routing.py:230-862`.  `cin` has no result for a
cell whose vertical water balance has none; `lat` has the inputs that do not come from the column.  The function that
shares the demand of a lake is handed to the cell as a total one: it has a result for every argument
(`C78_redistribute`). -/
noncomputable def nbNodeC (cin : Cell → Option CellIn) (lat : Cell → CellIn) (q : NbDay) (b : Basin NbLedger) (x : Cell)
    (up : ℝ) : Option (Basin NbLedger × ℝ × ℝ) := do
  let c ← cin x
  let l := b.demand
  let r ← cellDayC { c with unsatNas := (nbDaily q l x).getD 0 } (b.state x) up (nbDemand lat q l x) (nbKeep q l x)
  let o := r.2
  let state := Function.update b.state x o.state
  let rip ← (if (lat x).useOpt = true ∧ (lat x).hasLake then
      (redistributeC (nbRedist q l x o.lakeUnsat) l.rip).map (·.2)               -- 551-572
    else some l.rip)
  let a ← allocateC (nbAlloc lat q l x o)
    (if (l.takenUp x).isSome then Function.update l.ret x none else l.ret)       -- 762-784
  let to0 := if l.toSupply x > 0 then Function.update l.toSupply x 0 else l.toSupply
  let nb := getNeighbour (nbAvail lat q state) (q.nbs x) a.1 x q.month q.day l.turned
  let daily0 := Function.update l.daily x (nbDaily q l x)
  some ({ demand :=
            { acc := Function.update l.acc x (if realCell nb then 0 else a.1)
              rip := rip
              sent := Function.update l.sent x (if realCell nb then a.1 else 0)
              toSupply := if realCell nb then Function.update to0 nb (to0 nb + a.1) else to0
              ret := a.2.1
              retNext := Function.update l.retNext x (nbRetNext l x)
              daily := if realCell nb ∧ l.turned nb > l.turned x then Function.update daily0 x none else daily0
              nbMap := Function.update l.nbMap x nb
              turned := Function.update l.turned x 1 }
          state := state
          out := Function.update b.out x (some o) }, r.1, o.streamflow)

section
variable (par : Cell → FullPar) (r : NbRun)

/-- One day (`NbWgDay.next`), `/repo/run_watergap.py:256-284`. -/
noncomputable def NbWgDay.nextC (d : NbWgDay) (s : NbSim) : Option NbSim := do
  let e : NbDayIn := { cin := d.lateral, pot := d.pot, unagg := d.unagg, month := d.month, day := d.day }
  let vs ← vertDayC par (r.order.map Prod.fst) d.weather s.full
  let n ← routeC (nbNodeC (fun x => (vs x).map fun v => latInC (par x) (d.lateral x) (d.weather x) (s.land x) v) d.lateral
      (e.nbDay r s.carry)) r.order ⟨e.ledger r s.carry, s.carry.state, fun _ => none⟩
  let l := n.ledger.demand
  some { carry :=
           { unsat := fun x => endOfDay (d.lateral x).useOpt r.delayed (decide (d.month = 12 ∧ d.day = 31)) (l.acc x)
               (l.ret x) (l.retNext x) (l.daily x) (s.carry.unsat x)
             rip := l.rip, sent := l.sent, toSupply := l.toSupply, nbMap := l.nbMap, state := n.ledger.state }
         vert := fun x => match n.ledger.out x, vs x with
           | some _, some v => v.next
           | _, _ => s.vert x
         land := fun x => match n.ledger.out x, vs x with
           | some o, some _ => landUpdate (o.locLakeFrac + o.locWetFrac + o.gloWetFrac) (s.land x)
           | _, _ => s.land x }

/-- Consecutive days: no result as soon as a day has none. -/
noncomputable def nbSimRunC (s : NbSim) (days : List NbWgDay) : Option NbSim :=
  days.foldlM (fun s d => d.nextC par r s) s

end

end WG
