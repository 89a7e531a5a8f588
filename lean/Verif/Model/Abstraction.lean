import Verif.Model.Reservoir

/-!
# Fractional routing and the handling of water demand

Models of `/repo/model/lateralwaterbalance/routing_to_surface_water_bodies.py`,
`aggregate_net_abstraction.py`, `distribute_net_abstraction.py`, `local_lake_net_abstraction.py` and
`neighbouring_cell.py` (same directory).  Two-dimensional arrays are functions from cells; the cells of the grid are a
list in row-major order.
-/

namespace WG

/-! ### Fractional routing -/

/-- `fswb_catchment`, `routing_to_surface_water_bodies.py:77-80`. -/
noncomputable def swbShare (loclake locwet glowet factor : ℝ) : ℝ :=
  let f := (loclake + locwet + glowet) * factor
  if f > 1 then 1 else f

/-- `frac_routing`, `routing_to_surface_water_bodies.py:23-124`: inflow to the surface water bodies and to the river.
`sink` is `drainage_direction < 0`; the arguments the code ignores are left out. -/
noncomputable def fracRouting (runoff discharge loclake locwet glowet factor : ℝ) (sink : Bool) : ℝ × ℝ :=
  let f := swbShare loclake locwet glowet factor
  let runoffSwb := if sink then runoff else f * runoff
  let runoffRiver := if sink then 0 else (1 - f) * runoff
  let gwSwb := if sink then discharge else f * discharge
  let gwRiver := if sink then 0 else (1 - f) * discharge
  (runoffSwb + gwSwb, runoffRiver + gwRiver)

/-! ### Aggregation of riparian demand -/

section
variable {α : Type} [DecidableEq α]

open Classical in
/-- The last cell (in row-major order) of unit `u` with a global lake or a reservoir,
`aggregate_net_abstraction.py:54-63`. -/
noncomputable def lastOutflow (cells : List α) (unit : α → ℕ) (lake res : α → ℝ) (u : ℕ) : Option α :=
  (cells.filter (fun c => decide ((unit c = u ∧ lake c > 0) ∨ (unit c = u ∧ res c > 0)))).getLast?

/-- One pass of the loop over units, `aggregate_net_abstraction.py:52-79`. -/
noncomputable def aggStep (cells : List α) (unit : α → ℕ) (lake res netabs agg : α → ℝ) (u : ℕ) : α → ℝ :=
  match lastOutflow cells unit lake res u with
  | none => agg
  | some o =>
    let a := fun c => if unit c = u ∧ netabs c > 0 then 0 else agg c
    Function.update a o (a o + (cells.map fun c => if unit c = u ∧ netabs c > 0 then netabs c else 0).sum)

/-- `aggregate_potnetabs`, `aggregate_net_abstraction.py:22-81`. -/
noncomputable def aggregate (cells : List α) (unit : α → ℕ) (lake res netabs : α → ℝ) (units : List ℕ) : α → ℝ :=
  units.foldl (aggStep cells unit lake res netabs) netabs

/-! ### Redistribution to riparian cells -/

/-- Arguments of `redistritute_to_riparian`, `distribute_net_abstraction.py:24-31`; a NaN in
`prev_returned_demand_from_supply_cell` is `none`. -/
structure RedistIn (α : Type) where
  prev : ℝ
  toSupply : ℝ
  acc : ℝ
  unagg : α → ℝ
  pot : ℝ
  unit : α → ℕ
  order : List α
  prevReturned : Option ℝ
  x : α

/-- `prev_accu_supplycell_demad`, `distribute_net_abstraction.py:96-106`. -/
noncomputable def RedistIn.carried (i : RedistIn α) : ℝ :=
  if i.prevReturned.getD 0 = 0 then i.toSupply + i.prev else i.toSupply + i.prevReturned.getD 0

/-- The body of the loop over `rout_order`, `distribute_net_abstraction.py:123-188`. -/
noncomputable def redistStep (i : RedistIn α) (st : ℝ × (α → ℝ)) (r : α) : ℝ × (α → ℝ) :=
  if i.unit i.x = i.unit r ∧ i.x ≠ r then
    if i.acc - i.carried > 0 then
      if i.unagg i.x ≤ 0 then
        (i.carried, Function.update st.2 r
          (if i.unagg r ≤ 0 then 0
           else if i.pot - i.unagg i.x > 0 then
             (i.unagg r / (i.pot - i.unagg i.x)) * (i.acc - i.carried)
           else 0))
      else
        ((if i.pot > 0 then (i.unagg i.x / i.pot) * (i.acc - i.carried) + i.carried else i.carried),
         Function.update st.2 r
          (if i.unagg r ≤ 0 then 0
           else if i.pot > 0 then (i.unagg r / i.pot) * (i.acc - i.carried) else 0))
    else (i.acc, Function.update (Function.update st.2 r 0) i.x 0)
  else st

/-- `redistritute_to_riparian`, `distribute_net_abstraction.py:24-191`. -/
noncomputable def redistribute (i : RedistIn α) (rip : α → ℝ) : ℝ × (α → ℝ) :=
  i.order.foldl (redistStep i) (i.acc, rip)

end

/-! ### Local lakes -/

/-- `abstract_from_local_lake`, `local_lake_net_abstraction.py:13-80`: storage, unsatisfied demand, new fraction,
actual use. -/
noncomputable def localLakeAbstract (s m frac redExp d : ℝ) : ℝ × ℝ × ℝ × ℝ :=
  let r : ℝ × ℝ := if d < s + m then (s - d, 0) else (-1 * m, d - (s + m))
  (r.1, r.2, swbRedfactor r.1 m redExp .localLake * frac, d - r.2)

/-! ### Neighbouring cells -/

/-- `cell_storage`, `neighbouring_cell.py:224-235`. -/
noncomputable def cellStorage (river loc glo maxLoc maxGlo res : Cell → ℝ) (resOpt : Bool) (c : Cell) : ℝ :=
  let s := river c + loc c + glo c + maxLoc c + maxGlo c
  let s := if resOpt then s + res c else s
  if s < 1e-12 then 0 else s

/-- The body of the loop over the neighbours, `neighbouring_cell.py:213-252`: best cell so far and its storage; a
neighbour comes with its own outflow cell. -/
noncomputable def neighbourStep (avail : Cell → ℝ) (x : Cell) (best : Cell × ℝ) (nb : Cell × Cell) : Cell × ℝ :=
  if nb.1 = (0, 0) then best
  else if avail nb.1 > best.2 then (if nb.2 = x then best else (nb.1, avail nb.1))
  else best

/-- `get_neighbouringcell`, `neighbouring_cell.py:157-258`. -/
noncomputable def getNeighbour (avail : Cell → ℝ) (nbs : List (Cell × Cell)) (d : ℝ) (x : Cell)
    (month day : ℕ) (calculated : Cell → ℕ) : Cell :=
  if d > 0 then
    let b := (nbs.foldl (neighbourStep avail x) ((0, 0), 0)).1
    if month = 12 ∧ day = 31 then (if calculated b > calculated x then (0, 0) else b) else b
  else (0, 0)

/-- Arguments of `allocate_unsat_demand_to_demandcell`, `neighbouring_cell.py:35-46`. -/
structure AllocIn where
  x : Cell
  nbMap : Cell → Cell
  acc : ℝ
  fromDemand : Cell → ℝ
  toSupply : ℝ
  totalNoAlloc : ℝ
  actualUse : ℝ
  riparian : ℝ
  order : List Cell

/-- `accumulated_unsatisfied_potnetabs_no_alloc` and `unsat_potnetabs_sw_supplycell_to_demandcell`,
`neighbouring_cell.py:92-135`. -/
noncomputable def allocSplit (i : AllocIn) : ℝ × ℝ :=
  if i.toSupply > 0 then
    if i.acc > 0 then
      if i.totalNoAlloc > 0 then
        let own := i.totalNoAlloc - i.actualUse - i.riparian
        let own := if own < 0 then 0 else own
        (own, i.acc - own)
      else (0, i.acc)
    else (0, 0)
  else (i.acc, 0)

/-- `allocate_unsat_demand_to_demandcell`, `neighbouring_cell.py:35-150`: own unsatisfied demand, demand returned
to the cells (`none` is NaN), total returned. -/
noncomputable def allocate (i : AllocIn) (returned : Cell → Option ℝ) : ℝ × (Cell → Option ℝ) × ℝ :=
  let p := allocSplit i
  let ret := if i.toSupply > 0 then
      i.order.foldl (fun r c => if (i.nbMap c).1 = i.x.1 ∧ (i.nbMap c).2 = i.x.2 then
        Function.update r c (some (p.2 * i.fromDemand c * (1 / i.toSupply))) else r) returned
    else returned
  (p.1, ret, p.2)

end WG
