import Verif.Model.FloatBasin
import Verif.Model.FloatVert
import Verif.Model.GlobalBalance

/-!
# The whole simulation in rounded arithmetic

`simDay` and `simRun` of `Model/GlobalBalance.lean` with the operations of the machine: the column of `Model/FloatVert.lean`, the unit
conversions between column and routing, the river basin of `Model/FloatBasin.lean`, and the land area of the next day.  The
demand ledger is any function, as there; days on which reservoirs start to operate are not part of it, as there.
-/

namespace WG

section
variable (A : Arith)

local notation:65 x:65 " ⊞ " y:66 => Arith.add A x y
local notation:65 x:65 " ⊟ " y:66 => Arith.sub A x y
local notation:70 x:70 " ⊠ " y:71 => Arith.mul A x y
local notation:70 x:70 " ⧄ " y:71 => Arith.div A x y

/-- `update_landareafrac` with the new fractions of local lakes, local wetlands and global wetlands, see `landUpdate`,
`/repo/model/land_surfacewater_fraction_init.py:376-402`. -/
noncomputable def landUpdateR (loclake locwet glowet : ℝ) (s : LandState) : LandState :=
  let swb := loclake ⊞ locwet ⊞ glowet
  let cur := clampNeg (s.cur ⊟ (swb ⊟ s.swb))
  { s with swb := swb, prev := s.cur, cur := cur, ratio := if cur ≠ 0 then s.cur ⧄ cur else 0 }

/-- The vertical water balance of the day, see `fullVert`, `/repo/run_watergap.py:256-261`. -/
noncomputable def fullVertR (p : FullPar) (w : Weather) (s : FullState) : VertOut :=
  vertCellR A p.vert (fullForcing w s.land) s.vert

/-- The inputs of the lateral water balance of the day, see `fullIn`, `waterbalance_lateral.py:553-579`. -/
noncomputable def fullInR (p : FullPar) (c : CellIn) (w : Weather) (s : FullState) : CellIn :=
  let v := fullVertR A p w s
  { c with
    precip := w.precip ⊠ A.rnd 1e-6
    openPet := v.openPet ⊠ A.rnd 1e-6
    recharge := v.recharge ⊠ p.area ⊠ A.rnd 1e-6 ⊠ s.land.cur
    runoff := if s.land.cur = 0 then v.transfer ⊠ p.area ⊠ A.rnd 1e-6 ⊠ s.land.prev
              else v.surfaceRunoff ⊠ p.area ⊠ A.rnd 1e-6 ⊠ s.land.cur }

/-- The state of the cell on the next day, see `fullNext`, `waterbalance_vertical_init.py:302-325`,
`waterbalance_lateral.py:762-774`, `land_surfacewater_fraction_init.py:360-402`. -/
noncomputable def fullNextR (p : FullPar) (w : Weather) (s : FullState) (o : CellOut) : FullState :=
  { vert := (fullVertR A p w s).next
    land := landUpdateR A o.locLakeFrac o.locWetFrac o.gloWetFrac s.land
    lat := o.state }

variable {δ : Type} (rule : HanIn → ℝ → ℝ × ℝ) (kRiver : CellIn → ℝ → ℝ) (par : Cell → FullPar) (order : List (Cell × Cell))

/-- The lateral water balance of the day, see `simNet` (`/repo/run_watergap.py:262-277`). -/
noncomputable def simNetR (d : SimDay δ) (s : Sim δ) : NetState (Basin δ) :=
  basinDayR A rule kRiver (fun x => fullInR A (par x) (d.lateral s.demand x) (d.weather x) (s.state x)) d.get d.upd order
    (d.start s.demand) fun x => (s.state x).lat

/-- The state after a day of the simulation, see `simDay`, `/repo/run_watergap.py:256-284`. -/
noncomputable def simDayR (d : SimDay δ) (s : Sim δ) : Sim δ :=
  let n := simNetR A rule kRiver par order d s
  { demand := d.close n.ledger.demand
    state := fun x => match n.ledger.out x with
      | none => s.state x
      | some o => fullNextR A (par x) (d.weather x) (s.state x) o }

/-- Consecutive days, `/repo/run_watergap.py:225-333`: what every day started with, what it brought, what routing did and
the state it left. -/
noncomputable def simRunR : Sim δ → List (SimDay δ) → List (Sim δ × SimDay δ × NetState (Basin δ) × Sim δ)
  | _, [] => []
  | s, d :: ds =>
    (s, d, simNetR A rule kRiver par order d s, simDayR A rule kRiver par order d s) ::
      simRunR (simDayR A rule kRiver par order d s) ds

end

end WG
