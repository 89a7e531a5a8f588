import Verif.Model.Float
import Verif.Model.Network

/-!
# The river network in rounded arithmetic

The loop of `Model/Network.lean` with the one operation between cells, the addition of a cell's streamflow to the inflow
of its outflow cell, carried out in the arithmetic `A` of the machine.
-/

namespace WG

variable {σ : Type}

/-- As `routeStep`, with `river_inflow[m, n] += river_streamflow[x, y]` rounded,
`/repo/model/lateralwaterbalance/routing.py:433,660-663,682-705`. -/
noncomputable def routeStepR (A : Arith) (node : σ → Cell → ℝ → σ × ℝ × ℝ) (s : NetState σ) (e : Cell × Cell) : NetState σ :=
  let up := s.inflow e.1
  let r := node s.ledger e.1 up
  let inflow := Function.update s.inflow e.1 r.2.1
  { ledger := r.1
    inflow := if drains e.2 then Function.update inflow e.2 (A.add (inflow e.2) r.2.2) else inflow
    up := Function.update s.up e.1 up
    flow := Function.update s.flow e.1 r.2.2 }

/-- One day of routing, `/repo/model/lateralwaterbalance/routing.py:167-173,210-862`. -/
noncomputable def routeR (A : Arith) (node : σ → Cell → ℝ → σ × ℝ × ℝ) (order : List (Cell × Cell)) (l : σ) : NetState σ :=
  order.foldl (routeStepR A node) (routeStart l)

end WG
