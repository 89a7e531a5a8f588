import Verif.Model.Activation
import Verif.Model.RestartTables
import Verif.Model.RunLoop

/-!
# Saving states and restarting

Two models.

* The plumbing of `savestate` and the update functions, attribute by attribute
  (/repo/model/utility/restart_watergap.py and the three `update_*_for_restart` functions).
* A whole run over its days (/repo/run_watergap.py:151-403) with the part of the state that is *not* saved made
  explicit: reservoir activation, the demand of the month, the flags.  The water balances of a day are an arbitrary
  function of the date, the unsaved part and the saved part — this is all of the state the daily computation reads.
-/

namespace WG

/-! ## Plumbing -/

/-- The dictionaries `savestate` writes for attribute values `v`: each key holds the argument at the position of its
parameter, /repo/run_watergap.py:346-392, /repo/model/utility/restart_watergap.py:47-226. -/
def savedState {α : Type} (v : String → α) (group key : String) : Option α :=
  match saveDict.find? (fun e => e.1 == group && e.2.1 == key) with
  | none => none
  | some e => (saveArgs[saveParams.idxOf e.2.2]?).map v

/-- The attributes after the update functions, for dictionaries `d` and attributes `v0` of the freshly built objects;
`none` would be a `KeyError`.  /repo/run_watergap.py:205-210. -/
def loadedState {α : Type} (d : String → String → Option α) (v0 : String → α) (attr : String) : Option α :=
  match loadTable.find? (fun e => e.1 == attr) with
  | none => some (v0 attr)
  | some e => d e.2.1 e.2.2

/-! ## A whole run -/

/-- The saved part of the state: /repo/model/utility/restart_watergap.py:170-226.  `rest` stands for the entries that
the activation of reservoirs does not touch. -/
structure SavedPart (ι R : Type) where
  /-- `set_res_storage_flag` -/
  setFlag : Bool
  /-- `glores_storage` -/
  glores : ι → ℝ
  /-- `glolake_storage` -/
  glolake : ι → ℝ
  /-- the other saved entries -/
  rest : R

/-- The part of the state that persists from day to day but is not saved:
/repo/model/lateralwaterbalance/waterbalance_lateral.py:94-98, 178-182, 215-250, 272-322. -/
structure UnsavedPart (ι M : Type) where
  /-- reservoir and global lake areas, capacities, first-day flag of every cell -/
  cells : ι → ResCell
  /-- `check_res_area_flag` -/
  check : Bool
  /-- demand of the month: `potential_net_abstraction_*`, withdrawals, `num_days_in_month` -/
  month : M

/-- What a run is given.  `demand` is the reading of the month's water use by year and month, which is aggregated over
the areas of global lakes and reservoirs (/repo/model/lateralwaterbalance/waterbalance_lateral.py:593-668); `balance` is the rest
of the day (/repo/run_watergap.py:233-307): land fractions, vertical and lateral balance and the values written. -/
structure Env (ι M R O : Type) where
  static : ι → ResStatic
  /-- `cm.ant and cm.RESERVOIR_OPT` -/
  on : Bool
  /-- `reservoir_start_year` -/
  rs : ℕ
  /-- `reservoir_end_year` -/
  re : ℕ
  demand : ℕ → ℕ → (ι → ℝ) → (ι → ℝ) → M
  balance : Date → (ι → ResCell) → M → (ι → ℝ) → (ι → ℝ) → R → (ι → ℝ) × (ι → ℝ) × R × O
  /-- storages of the freshly built model -/
  glores0 : ι → ℝ
  rest0 : R
  month0 : M

variable {ι M R O : Type}

/-- The state between two days. -/
structure SimState (ι M R : Type) where
  u : UnsavedPart ι M
  s : SavedPart ι R

/-- The activation on all cells with the update of the flags:
/repo/model/lateralwaterbalance/waterbalance_lateral.py:388-505. -/
noncomputable def Env.activateAll (E : Env ι M R O) (simStart : ℕ) (t : Date) (x : SimState ι M R) : SimState ι M R :=
  let opt := inOptYears E.rs E.re t
  let f := fun i => activate (E.static i) E.on opt x.s.setFlag x.u.check t.y simStart
    { cell := x.u.cells i, glores := x.s.glores i, glolake := x.s.glolake i }
  { u := { x.u with
           cells := fun i => (f i).cell
           check := if E.on && (opt || x.s.setFlag || x.u.check) then false else x.u.check }
    s := { x.s with
           glores := fun i => (f i).glores
           glolake := fun i => (f i).glolake
           setFlag := if E.on then false else x.s.setFlag } }

/-- The first available day of its month on the time axis of the run: /repo/run_watergap.py:162-171. -/
def firstOfMonth (axis : List Date) (t : Date) : Bool :=
  decide (t ∈ axis) && axis.all fun t' => !(t'.y == t.y && t'.m == t.m) || decide (t.ord ≤ t'.ord)

/-- One day: /repo/run_watergap.py:233-307.  At the end `reg_lake_redfactor_firstday` is set to zero
(/repo/model/lateralwaterbalance/waterbalance_lateral.py:900-901). -/
noncomputable def Env.day (E : Env ι M R O) (simStart : ℕ) (first : Date → Bool) (t : Date) (x : SimState ι M R) :
    SimState ι M R × O :=
  let a := E.activateAll simStart t x
  let month := if first t then E.demand t.y t.m (fun i => (a.u.cells i).lake) (fun i => (a.u.cells i).area)
    else a.u.month
  let b := E.balance t a.u.cells month a.s.glores a.s.glolake a.s.rest
  ({ u := { a.u with cells := fun i => { a.u.cells i with firstDay := 0 }, month := month }
     s := { a.s with glores := b.1, glolake := b.2.1, rest := b.2.2.1 } }, b.2.2.2)

/-- Consecutive days: final state and the values of each day, /repo/run_watergap.py:225-396. -/
noncomputable def Env.days (E : Env ι M R O) (simStart : ℕ) (first : Date → Bool) :
    List Date → SimState ι M R → SimState ι M R × List O
  | [], x => (x, [])
  | t :: ts, x =>
    let r := E.day simStart first t x
    let q := E.days simStart first ts r.1
    (q.1, r.2 :: q.2)

/-- The model objects after their constructors; `check_res_area_flag` is `cm.restart`:
/repo/model/lateralwaterbalance/waterbalance_lateral.py:91-364. -/
noncomputable def Env.fresh (E : Env ι M R O) (restart : Bool) : SimState ι M R :=
  { u := { cells := fun i => .fresh (E.static i), check := restart, month := E.month0 }
    s := { setFlag := true, glores := E.glores0, glolake := fun i => (ResCell.fresh (E.static i)).maxLake,
           rest := E.rest0 } }

/-- Why a run ends without simulating. -/
inductive RunError
  /-- set-up of the period -/
  | setup (e : SetupError)
  /-- `sys.exit()` of /repo/model/utility/restart_watergap.py:250-258 -/
  | noRestartFile
deriving DecidableEq, Repr

/-- A directory with restart files: the date in the name and the content.  A glob that matches several files is not
modelled: the first one is taken. -/
abbrev RestartDir (ι R : Type) := List (Date × SavedPart ι R)

/-- `load_restart_info` for the day before `start`: /repo/model/utility/restart_watergap.py:234-261,
/repo/run_watergap.py:197-203. -/
def loadRestart (dir : RestartDir ι R) (start : Date) : Option (SavedPart ι R) :=
  (dir.find? fun f => decide (f.1.next = start)).map (·.2)

/-- A run: the values written day by day in the simulation period and the state saved at its end.  The spin-up
simulates days without writing; the saved file gets the date of the end of the period (C31).
/repo/run_watergap.py:151-403. -/
noncomputable def Env.run (E : Env ι M R O) (c : RunCfg) (restart : Bool) (dir : RestartDir ι R) :
    Except RunError (List O × SavedPart ι R) :=
  match setup c with
  | .error e => .error (.setup e)
  | .ok st =>
    match (if restart then (loadRestart dir c.start).map fun s => { E.fresh true with s := s }
           else some (E.fresh false)) with
    | none => .error .noRestartFile
    | some x0 =>
      let first := firstOfMonth st.dateMain
      let warm := (E.days c.start.y first (List.replicate c.spin.toNat (phaseDays st 1)).flatten x0).1
      let main := E.days c.start.y first (phaseDays st 0) warm
      .ok (main.2, main.1.s)

end WG
