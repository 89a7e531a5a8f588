import Verif.Model.FloatWhole
import Verif.Model.Whole

/-!
# The demand ledger in rounded arithmetic, and the whole simulation with its demand

`RedistIn`, `ledgerGet`, `ledgerUpd`, `dayDemand`, `endOfDay` and `WgDay.sim` with the operations of the machine, in the
order in which Python evaluates them.  As in `Model/Whole.lean`, without the neighbouring-cell option; demand data and the
parameters of the cells are the numbers that were read.
-/

namespace WG

section
variable (A : Arith)

local notation:65 x:65 " ⊞ " y:66 => Arith.add A x y
local notation:65 x:65 " ⊟ " y:66 => Arith.sub A x y
local notation:70 x:70 " ⊠ " y:71 => Arith.mul A x y
local notation:70 x:70 " ⧄ " y:71 => Arith.div A x y

/-- `prev_accu_supplycell_demad`, see `RedistIn.carried`, `/repo/model/lateralwaterbalance/distribute_net_abstraction.py:96-106`. -/
noncomputable def carriedR {α : Type} (i : RedistIn α) : ℝ :=
  if i.prevReturned.getD 0 = 0 then i.toSupply ⊞ i.prev else i.toSupply ⊞ i.prevReturned.getD 0

/-- The body of the loop over `rout_order`, see `redistStep`, `distribute_net_abstraction.py:123-188`. -/
noncomputable def redistStepR {α : Type} [DecidableEq α] (i : RedistIn α) (st : ℝ × (α → ℝ)) (r : α) : ℝ × (α → ℝ) :=
  if i.unit i.x = i.unit r ∧ i.x ≠ r then
    if i.acc ⊟ carriedR A i > 0 then
      if i.unagg i.x ≤ 0 then
        (carriedR A i, Function.update st.2 r
          (if i.unagg r ≤ 0 then 0
           else if i.pot ⊟ i.unagg i.x > 0 then
             (i.unagg r ⧄ (i.pot ⊟ i.unagg i.x)) ⊠ (i.acc ⊟ carriedR A i)
           else 0))
      else
        ((if i.pot > 0 then (i.unagg i.x ⧄ i.pot) ⊠ (i.acc ⊟ carriedR A i) ⊞ carriedR A i else carriedR A i),
         Function.update st.2 r
          (if i.unagg r ≤ 0 then 0
           else if i.pot > 0 then (i.unagg r ⧄ i.pot) ⊠ (i.acc ⊟ carriedR A i) else 0))
    else (i.acc, Function.update (Function.update st.2 r 0) i.x 0)
  else st

/-- `redistritute_to_riparian`, see `redistribute`, `distribute_net_abstraction.py:24-191`. -/
noncomputable def redistributeR {α : Type} [DecidableEq α] (i : RedistIn α) (rip : α → ℝ) : ℝ × (α → ℝ) :=
  i.order.foldl (redistStepR A i) (i.acc, rip)

open Classical in
/-- See `ledgerGet`, `routing.py:230-232,540-564`; where the code adds nothing to the demand, zero is added here, which
leaves a machine number as it is. -/
noncomputable def ledgerGetR (cin : Cell → CellIn) (q : DemandDay) (l : Ledger) (x : Cell) : ℝ × (ℝ → ℝ) :=
  (l.acc x ⊞ (if q.unit x > 0 ∧ (cin x).useOpt = true then l.rip x else 0),
   fun u => (redistributeR A (q.redist x u) l.rip).1)

open Classical in
/-- See `ledgerUpd`, `routing.py:563-572,752-757`. -/
noncomputable def ledgerUpdR (cin : Cell → CellIn) (q : DemandDay) (l : Ledger) (x : Cell) (o : CellOut) : Ledger :=
  { acc := Function.update l.acc x o.unsat
    rip := if (cin x).useOpt = true ∧ (cin x).hasLake then (redistributeR A (q.redist x o.lakeUnsat) l.rip).2
      else l.rip }

/-- See `dayDemand`, `waterbalance_lateral.py:681-690`. -/
noncomputable def dayDemandR (useOpt delayed : Bool) (pot acc : ℝ) : ℝ :=
  if useOpt then (if delayed then pot ⊞ acc else pot) else 0

/-- See `endOfDay`, `waterbalance_lateral.py:838-887`, without the neighbouring-cell option: its NaN-marked arrays have no
entries, and `check_daily_unsatisfied_pot_nas` has one everywhere. -/
noncomputable def endOfDayR (useOpt delayed dec31 : Bool) (accOut : ℝ) (u : Unsat) : Unsat :=
  if useOpt then
    if delayed then
      let acc2 := if dec31 then 0 else accOut
      { acc := acc2, daily := if dec31 then 0 else acc2 ⊟ u.prev, prev := acc2 }
    else { acc := accOut, prev := u.prev, daily := accOut }
  else { u with acc := accOut }

/-- The day as the simulation sees it, see `WgDay.sim`, `waterbalance_lateral.py:681-690,838-887`, `routing.py:230-268,540-572`. -/
noncomputable def WgDay.simR (delayed : Bool) (unit : Cell → ℕ) (world : List (Cell × Cell)) (d : WgDay) :
    SimDay DemandState :=
  { weather := d.weather
    lateral := d.inputs
    start := fun l => { l with acc := fun x => dayDemandR A (d.lateral x).useOpt delayed (d.pot x) (l.acc x) }
    get := fun l x => ledgerGetR A d.lateral (d.demand unit world l) ⟨l.acc, l.rip⟩ x
    upd := fun l x o =>
      let r := ledgerUpdR A d.lateral (d.demand unit world l) ⟨l.acc, l.rip⟩ x o;
      { l with acc := r.acc, rip := r.rip }
    close := fun l =>
      let u := fun x => endOfDayR A (d.lateral x).useOpt delayed d.dec31 (l.acc x) ⟨l.acc x, l.prev x, l.daily x⟩;
      { acc := fun x => (u x).acc, prev := fun x => (u x).prev, daily := fun x => (u x).daily, rip := l.rip } }

/-- A simulation over consecutive days, of the world or of a basin, see `wgRun`, `/repo/run_watergap.py:225-333`: what every
day started with, what it brought, what routing did and the state it left. -/
noncomputable def wgRunR (rule : HanIn → ℝ → ℝ × ℝ) (kRiver : CellIn → ℝ → ℝ) (par : Cell → FullPar) (delayed : Bool)
    (unit : Cell → ℕ) (world : List (Cell × Cell)) (basin : Cell → Bool) (s : Sim DemandState) (days : List WgDay) :
    List (Sim DemandState × SimDay DemandState × NetState (Basin DemandState) × Sim DemandState) :=
  simRunR A rule kRiver par (masked world basin) s (days.map fun d => d.simR A delayed unit world)

end

end WG
