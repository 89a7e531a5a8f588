import Verif.Model.GlobalBalance
import Verif.Model.Output

/-!
# Net cell runoff and discharge as they are written

`/repo/model/lateralwaterbalance/routing.py:707-721`, `waterbalance_lateral.py:781-783,926,942` and
`/repo/view/createandwrite.py:254-292`: what the files `ncrun` and `dis` hold of a day.
-/

namespace WG

/-- What the outputs of a day hold about a cell: `ncrun` (kg m⁻² s⁻¹ over the continental area) and `dis` (m³/s, missing
in an inland sink). -/
structure RunoffRec where
  ncrun : ℝ
  dis : Option ℝ

section
variable {δ : Type} (par : Cell → FullPar) (order : List (Cell × Cell)) (cf : Cell → ℝ)

/-- The two outputs of a cell: `net_cell_runoff`, `streamflow` (`np.where(drainage_direction < 0, nan, …)`),
`waterbalance_lateral.py:781-783,926,942`, converted by `base_units`, `createandwrite.py:254-292`; `cf` is the continental
fraction in percent. -/
noncomputable def runoffRec (area cf : ℝ) (sink : Bool) (o : CellOut) : RunoffRec :=
  { ncrun := baseUnits .lbFlux "ncrun" area cf o.cellRunoff
    dis := (if sink then none else some o.streamflow).map (baseUnits .lbFlux "dis" area cf) }

/-- The two outputs of the day, for every simulated cell. -/
noncomputable def runoffDay (d : SimDay δ) (s : Sim δ) (x : Cell) : Option RunoffRec :=
  ((simNet par order d s).ledger.out x).map (runoffRec (par x).area (cf x) (d.lateral s.demand x).sink)

/-- The two outputs of consecutive days, `run_watergap.py:256-284`. -/
noncomputable def runoffRun : Sim δ → List (SimDay δ) → List (Cell → Option RunoffRec)
  | _, [] => []
  | s, d :: ds => runoffDay par order cf d s :: runoffRun (simDay par order d s).1 ds

end

end WG
