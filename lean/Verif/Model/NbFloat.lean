import Verif.Model.FloatDemand
import Verif.Model.FloatYears
import Verif.Model.NbYears

/-!
# Water supply from neighbouring cells in rounded arithmetic

`Model/Neighbour.lean` and `Model/NbWhole.lean` with the operations of the machine, in the order in which Python evaluates
them.  Demand data and the parameters of the cells are the numbers that were read.
-/

namespace WG

section
variable (A : Arith)

local notation:65 x:65 " ⊞ " y:66 => Arith.add A x y
local notation:65 x:65 " ⊟ " y:66 => Arith.sub A x y
local notation:70 x:70 " ⊠ " y:71 => Arith.mul A x y
local notation:70 x:70 " ⧄ " y:71 => Arith.div A x y

/-- `cell_storage`, see `cellStorage`, `/repo/model/lateralwaterbalance/neighbouring_cell.py:224-235`. -/
noncomputable def cellStorageR (river loc glo maxLoc maxGlo res : Cell → ℝ) (resOpt : Bool) (c : Cell) : ℝ :=
  let s := river c ⊞ loc c ⊞ glo c ⊞ maxLoc c ⊞ maxGlo c
  let s := if resOpt then s ⊞ res c else s
  if s < A.rnd 1e-12 then 0 else s

/-- See `allocSplit`, `neighbouring_cell.py:92-135`. -/
noncomputable def allocSplitR (i : AllocIn) : ℝ × ℝ :=
  if i.toSupply > 0 then
    if i.acc > 0 then
      if i.totalNoAlloc > 0 then
        let own := i.totalNoAlloc ⊟ i.actualUse ⊟ i.riparian
        let own := if own < 0 then 0 else own
        (own, i.acc ⊟ own)
      else (0, i.acc)
    else (0, 0)
  else (i.acc, 0)

/-- See `allocate`, `neighbouring_cell.py:35-150`. -/
noncomputable def allocateR (i : AllocIn) (returned : Cell → Option ℝ) : ℝ × (Cell → Option ℝ) × ℝ :=
  let p := allocSplitR A i
  let ret := if i.toSupply > 0 then
      i.order.foldl (fun r c => if (i.nbMap c).1 = i.x.1 ∧ (i.nbMap c).2 = i.x.2 then
        Function.update r c (some (p.2 ⊠ i.fromDemand c ⊠ (1 ⧄ i.toSupply))) else r) returned
    else returned
  (p.1, ret, p.2)

section
variable (rule : HanIn → ℝ → ℝ × ℝ) (kRiver : CellIn → ℝ → ℝ) (cin : Cell → CellIn) (q : NbDay) (l : NbLedger) (x : Cell)

open Classical in
/-- See `nbOwn`, `/repo/model/lateralwaterbalance/routing.py:230-232,244-246,262-263`. -/
noncomputable def nbOwnR : ℝ :=
  let a := if q.unit x > 0 ∧ (cin x).useOpt = true then l.acc x ⊞ l.rip x else l.acc x
  match l.takenUp x with
  | some r => if q.delayed then a ⊞ r else a
  | none => a

/-- See `nbDemand`, `routing.py:267-268`. -/
noncomputable def nbDemandR : ℝ := nbOwnR A cin q l x ⊞ l.toSupply x

/-- See `nbDaily`, `routing.py:248-250`. -/
noncomputable def nbDailyR : Option ℝ :=
  match l.takenUp x with
  | some r => some (r ⊟ q.prev x)
  | none => l.daily x

/-- See `nbIn`, `routing.py:286,308,632`. -/
noncomputable def nbInR : CellIn := { cin x with unsatNas := (nbDailyR A q l x).getD 0 }

/-- See `nbKeep`, `routing.py:551-564`. -/
noncomputable def nbKeepR (u : ℝ) : ℝ := (redistributeR A (nbRedist q l x u) l.rip).1

/-- See `nbTurn`, `routing.py:271-770`. -/
noncomputable def nbTurnR (st : CellState) (up : ℝ) : CellOut :=
  cellDayR A rule kRiver (nbInR A cin q l x) st up (nbDemandR A cin q l x) (nbKeepR A q l x)

/-- See `nbAlloc`, `routing.py:762-784`. -/
noncomputable def nbAllocR (o : CellOut) : AllocIn :=
  { x := x, nbMap := l.nbMap, acc := o.unsat, fromDemand := l.sent, toSupply := l.toSupply x,
    totalNoAlloc := nbOwnR A cin q l x, actualUse := o.nas, riparian := o.handed, order := q.order }

/-- See `nbAvail`, `routing.py:84-165`, `neighbouring_cell.py:224-238`. -/
noncomputable def nbAvailR (state : Cell → CellState) (c : Cell) : ℝ :=
  if c ∈ q.order then
    cellStorageR A (fun c => (state c).river) (fun c => (state c).locLake) (fun c => (state c).gloLake)
      (fun c => (cin c).locLake.maxStorage) (fun c => (cin c).maxGlolake) (fun c => (state c).res) q.resOpt c
  else 0

open Classical in
/-- See `nbUpd`, `routing.py:235-268,563-572,727-829`. -/
noncomputable def nbUpdR (o : CellOut) (state : Cell → CellState) : NbLedger :=
  let ret0 := if (l.takenUp x).isSome then Function.update l.ret x none else l.ret;
  let a := allocateR A (nbAllocR A cin q l x o) ret0;
  let to0 := if l.toSupply x > 0 then Function.update l.toSupply x 0 else l.toSupply;
  let nb := getNeighbour (nbAvailR A cin q state) (q.nbs x) a.1 x q.month q.day l.turned;
  let daily0 := Function.update l.daily x (nbDailyR A q l x);
  { acc := Function.update l.acc x (if realCell nb then 0 else a.1)
    rip := if (cin x).useOpt = true ∧ (cin x).hasLake then (redistributeR A (nbRedist q l x o.lakeUnsat) l.rip).2
      else l.rip
    sent := Function.update l.sent x (if realCell nb then a.1 else 0)
    toSupply := if realCell nb then Function.update to0 nb (to0 nb ⊞ a.1) else to0
    ret := a.2.1
    retNext := Function.update l.retNext x (nbRetNext l x)
    daily := if realCell nb ∧ l.turned nb > l.turned x then Function.update daily0 x none else daily0
    nbMap := Function.update l.nbMap x nb
    turned := Function.update l.turned x 1 }

end

variable (rule : HanIn → ℝ → ℝ × ℝ) (kRiver : CellIn → ℝ → ℝ)

/-- See `nbNode`, `routing.py:210-829`. -/
noncomputable def nbNodeR (cin : Cell → CellIn) (q : NbDay) (b : Basin NbLedger) (x : Cell) (up : ℝ) :
    Basin NbLedger × ℝ × ℝ :=
  let o := nbTurnR A rule kRiver cin q b.demand x (b.state x) up;
  let state := Function.update b.state x o.state;
  let c := nbInR A cin q b.demand x;
  let d := nbDemandR A cin q b.demand x;
  ({ demand := nbUpdR A cin q b.demand x o state
     state := state
     out := Function.update b.out x (some o) },
   cellRiverInR A c (b.state x) up d (rule (cellResInR A c (b.state x) up d).han), o.streamflow)

/-- See `nbDayRun`, `routing.py:210-876`. -/
noncomputable def nbDayRunR (cin : Cell → CellIn) (q : NbDay) (order : List (Cell × Cell)) (l : NbLedger)
    (state : Cell → CellState) : NetState (Basin NbLedger) :=
  routeR A (nbNodeR A rule kRiver cin q) order ⟨l, state, fun _ => none⟩

/-- See `endOfDay`, `/repo/model/lateralwaterbalance/waterbalance_lateral.py:838-887`, with the NaN-marked arrays. -/
noncomputable def nbEndOfDayR (useOpt delayed dec31 : Bool) (accOut : ℝ) (returned returnedNext check : Option ℝ)
    (u : Unsat) : Unsat :=
  let acc1 := returned.getD accOut;
  if useOpt then
    if delayed then
      let prev1 := returnedNext.getD u.prev;
      let acc2 := if dec31 then 0 else acc1;
      { acc := acc2
        daily := if dec31 then 0 else if check.isSome then acc2 ⊟ prev1 else 0
        prev := if check.isSome then acc2 else prev1 }
    else { acc := acc1, prev := u.prev, daily := acc1 }
  else { u with acc := acc1 }

/-- See `NbDayIn.ledger`, `waterbalance_lateral.py:681-690`, `routing.py:78,203-205`. -/
noncomputable def NbDayIn.ledgerR (r : NbRun) (c : NbCarry) (d : NbDayIn) : NbLedger :=
  { acc := fun x => dayDemandR A (d.cin x).useOpt r.delayed (d.pot x) (c.unsat x).acc
    rip := c.rip, sent := c.sent, toSupply := c.toSupply, ret := fun _ => none, retNext := fun _ => none
    daily := fun x => some (c.unsat x).daily, nbMap := c.nbMap, turned := fun _ => 0 }

/-- See `NbDayIn.routed`, `routing.py:210-876`. -/
noncomputable def NbDayIn.routedR (r : NbRun) (c : NbCarry) (d : NbDayIn) : NetState (Basin NbLedger) :=
  nbDayRunR A rule kRiver d.cin (d.nbDay r c) r.order (d.ledgerR A r c) c.state

/-- See `NbDayIn.next`, `waterbalance_lateral.py:584-887`. -/
noncomputable def NbDayIn.nextR (r : NbRun) (c : NbCarry) (d : NbDayIn) : NbCarry :=
  let l := (d.routedR A rule kRiver r c).ledger.demand;
  { unsat := fun x => nbEndOfDayR A (d.cin x).useOpt r.delayed (decide (d.month = 12 ∧ d.day = 31)) (l.acc x) (l.ret x)
      (l.retNext x) (l.daily x) (c.unsat x)
    rip := l.rip, sent := l.sent, toSupply := l.toSupply, nbMap := l.nbMap
    state := (d.routedR A rule kRiver r c).ledger.state }

variable (par : Cell → FullPar) (r : NbRun)

/-- See `NbWgDay.lat`, `/repo/run_watergap.py:263-279`, `waterbalance_lateral.py:553-579`. -/
noncomputable def NbWgDay.latR (d : NbWgDay) (s : NbSim) : NbDayIn :=
  { cin := fun x => fullInR A (par x) (d.lateral x) (d.weather x) (s.full x)
    pot := d.pot, unagg := d.unagg, month := d.month, day := d.day }

/-- The routing of a day of the whole simulation, `/repo/run_watergap.py:262-277`. -/
noncomputable def NbWgDay.netR (d : NbWgDay) (s : NbSim) : NetState (Basin NbLedger) :=
  (d.latR A par s).routedR A rule kRiver r s.carry

/-- See `NbWgDay.next`, `/repo/run_watergap.py:256-284`. -/
noncomputable def NbWgDay.nextR (d : NbWgDay) (s : NbSim) : NbSim :=
  let n := d.netR A rule kRiver par r s;
  { carry := (d.latR A par s).nextR A rule kRiver r s.carry
    vert := fun x => match n.ledger.out x with
      | none => s.vert x
      | some o => (fullNextR A (par x) (d.weather x) (s.full x) o).vert
    land := fun x => match n.ledger.out x with
      | none => s.land x
      | some o => (fullNextR A (par x) (d.weather x) (s.full x) o).land }

/-- Consecutive days, see `nbSimRun`, `/repo/run_watergap.py:225-333`: what every day started with, what it brought, what
routing did and the state it left. -/
noncomputable def nbRunR : NbSim → List NbWgDay → List (NbSim × NbWgDay × NetState (Basin NbLedger) × NbSim)
  | _, [] => []
  | s, d :: ds =>
    (s, d, d.netR A rule kRiver par r s, d.nextR A rule kRiver par r s) :: nbRunR (d.nextR A rule kRiver par r s) ds

/-! ## Years in which reservoirs start to operate -/

variable (tot : List ℝ → ℝ) (G : Grid)

/-- 1 January: the land fractions change, and the reservoir storages receive the water of the land that is lost; what is
waiting at neighbours and shores stays as it is. See `yearStartR`, `/repo/run_watergap.py:233-251`,
`/repo/model/land_surfacewater_fraction_init.py:150-310`. -/
noncomputable def nbYearStartR (y : NbYear) (s : NbSim) : NbSim :=
  { s with
    land := fun x => (yearLandR A (G.frac x) (y.glores x) (s.land x)).1
    carry := { s.carry with
      state := fun x => { s.carry.state x with
        res := handLostR A tot G.cells G.assign y.resArea (fun z => yearLostR A (G.area z) (G.frac z) (y.glores z) (s.full z))
          (fun z => (s.carry.state z).res) x } } }

/-- The days of the running year and of the following years, with the reservoir fractions of the year of each day, see
`simSpanR`, `/repo/run_watergap.py:225-284`. -/
noncomputable def nbSpanR : (Cell → ℝ) → List NbWgDay → NbSim → List NbYear →
    List ((Cell → ℝ) × NbSim × NbWgDay × NetState (Basin NbLedger) × NbSim)
  | glores, days, s, [] => (nbRunR A rule kRiver (G.parR A glores) r s days).map fun t => (glores, t)
  | glores, days, s, y :: ys =>
    let p := nbRunR A rule kRiver (G.parR A glores) r s days
    (p.map fun t => (glores, t)) ++
      nbSpanR y.glores y.days (nbYearStartR A tot G y ((p.getLast?.map fun t => t.2.2.2).getD s)) ys

end

end WG
