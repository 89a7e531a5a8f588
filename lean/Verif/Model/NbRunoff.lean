import Verif.Model.NbWhole
import Verif.Model.Runoff

/-!
# Net cell runoff and discharge as they are written, with water supply from neighbouring cells

`/repo/model/lateralwaterbalance/routing.py:707-721`, `waterbalance_lateral.py:781-783,926,942` and
`/repo/view/createandwrite.py:254-292` for the simulation of `NbWhole.lean`.
-/

namespace WG

section
variable (par : Cell → FullPar) (r : NbRun) (cf : Cell → ℝ)

/-- The two outputs of the day, for every simulated cell, `waterbalance_lateral.py:781-783,926,942`. -/
noncomputable def NbWgDay.runoff (d : NbWgDay) (s : NbSim) (x : Cell) : Option RunoffRec :=
  (((d.lat par s).routed r s.carry).ledger.out x).map (runoffRec (par x).area (cf x) (d.lateral x).sink)

/-- The two outputs of consecutive days, `run_watergap.py:256-284`. -/
noncomputable def nbRunoffRun : NbSim → List NbWgDay → List (Cell → Option RunoffRec)
  | _, [] => []
  | s, d :: ds => d.runoff par r cf s :: nbRunoffRun (d.next par r s) ds

end

end WG
