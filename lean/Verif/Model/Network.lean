import Verif.Model.Routing

/-!
# The river network

Model of the loop of `river_routing` over the cells in routing order, `/repo/model/lateralwaterbalance/routing.py:210-862`,
as far as the exchange of water between cells is concerned.  What a cell does with the water it receives is the
parameter `node`; whatever else cells share during the day (unsatisfied demand of riparian and neighbouring cells) is
the `ledger`, which `node` may read and change as it likes.
-/

namespace WG

/-- The arrays the loop fills: `river_inflow`, `inflow_from_upstream`, `river_streamflow`. -/
structure NetState (σ : Type) where
  ledger : σ
  inflow : Cell → ℝ
  up : Cell → ℝ
  flow : Cell → ℝ

/-- `if m > 0 and n > 0`, `routing.py:704`. -/
def drains (down : Cell) : Prop := down.1 > 0 ∧ down.2 > 0

instance (d : Cell) : Decidable (drains d) := inferInstanceAs (Decidable (_ ∧ _))

section
variable {σ : Type}

/-- The body of the loop for the entry `(cell, outflow cell)` of the routing order: `routing.py:433` (inflow from
upstream), `660-663` (the inflow of the cell is overwritten with the inflow of its river), `682-699` (streamflow),
`704-705` (the streamflow is added to the inflow of the outflow cell). `node` gives the new ledger, the inflow of the
river and the streamflow. Cells outside the basin are not in the list (`routing.py:214`). -/
def routeStep (node : σ → Cell → ℝ → σ × ℝ × ℝ) (s : NetState σ) (e : Cell × Cell) : NetState σ :=
  let up := s.inflow e.1
  let r := node s.ledger e.1 up
  let inflow := Function.update s.inflow e.1 r.2.1
  { ledger := r.1
    inflow := if drains e.2 then Function.update inflow e.2 (inflow e.2 + r.2.2) else inflow
    up := Function.update s.up e.1 up
    flow := Function.update s.flow e.1 r.2.2 }

/-- The start of the day: `routing.py:167-173` (all zero inside the basin). -/
def routeStart (l : σ) : NetState σ := ⟨l, fun _ => 0, fun _ => 0, fun _ => 0⟩

/-- One day of routing. -/
def route (node : σ → Cell → ℝ → σ × ℝ × ℝ) (order : List (Cell × Cell)) (l : σ) : NetState σ :=
  order.foldl (routeStep node) (routeStart l)

end

/-! ### The real cells -/

/-- What the cells of the basin share during the day: their storages, what they did, and the demand ledger. -/
structure Basin (δ : Type) where
  demand : δ
  state : Cell → CellState
  out : Cell → Option CellOut

section
variable {δ : Type}

/-- A cell of the basin in the loop: `get` reads demand and redistribution from the ledger, `upd` writes what is left
(`routing.py:230-268,540-572,727-826`). -/
noncomputable def basinNode (cin : Cell → CellIn) (get : δ → Cell → ℝ × (ℝ → ℝ)) (upd : δ → Cell → CellOut → δ)
    (b : Basin δ) (x : Cell) (up : ℝ) : Basin δ × ℝ × ℝ :=
  let g := get b.demand x
  let st := b.state x
  let o := cellDay (cin x) st up g.1 g.2
  ({ demand := upd b.demand x o
     state := Function.update b.state x o.state
     out := Function.update b.out x (some o) },
   cellRiverIn (cin x) st up g.1, o.streamflow)

/-- One day of the basin. -/
noncomputable def basinDay (cin : Cell → CellIn) (get : δ → Cell → ℝ × (ℝ → ℝ)) (upd : δ → Cell → CellOut → δ)
    (order : List (Cell × Cell)) (d : δ) (state : Cell → CellState) : NetState (Basin δ) :=
  route (basinNode cin get upd) order ⟨d, state, fun _ => none⟩

end

end WG
