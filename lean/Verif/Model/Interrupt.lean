import Verif.Model.OutSelect
import Verif.Model.Restart

/-!
# The files of a run that may be interrupted

Model of everything a run writes to the disk, `/repo/run_watergap.py:195-210,308-396`: once a year (and on the last day) the files of all
output variables, written by several processes at the same time (`/repo/view/createandwrite.py:294-337`), and on the last day the states for a
restart (`/repo/model/utility/restart_watergap.py:228-232`), which a later run reads (`:234-261`).  A run may be interrupted after any
step of any of its writers.  Not modelled: calibration runs, which write no such file; log files.
-/

namespace WG

/-- What is in a file: values of an output variable or states for a restart. -/
inductive FileData (S : Type)
  | out (d : OutData)
  | state (s : S)

/-- The disk: for every name no file (`none`), a file that is not completely written (`some none`) or a complete one. -/
abbrev Disk (S : Type) := List Char → Option (Option (FileData S))

/-- A step of a writer: the file is opened (an older one of that name is lost), or it is completely written and closed;
`to_netcdf` and `pickle.dump`, `/repo/view/createandwrite.py:36`, `/repo/model/utility/restart_watergap.py:231-232`. -/
inductive FileOp (S : Type)
  | start (n : List Char)
  | finish (n : List Char) (x : FileData S)

/-- The file of a step. -/
def FileOp.name {S : Type} : FileOp S → List Char
  | .start n => n
  | .finish n _ => n

/-- The disk after a step. -/
def FileOp.apply {S : Type} : FileOp S → Disk S → Disk S
  | .start n, d => Function.update d n (some none)
  | .finish n x, d => Function.update d n (some (some x))

/-- The disk after several steps. -/
def applyOps {S : Type} (l : List (FileOp S)) (d : Disk S) : Disk S := l.foldl (fun d o => o.apply d) d

/-- Files that are written at the same time. -/
abbrev Batch (S : Type) := List (List Char × FileData S)

/-- The steps of one writer. -/
def writerOps {S : Type} (w : List Char × FileData S) : List (FileOp S) := [.start w.1, .finish w.1 w.2]

/-- An order in which the steps of the writers of a batch can happen: all steps of all writers, those of each writer in their order;
`/repo/view/createandwrite.py:332-337` (the `with` statement waits for all of them). -/
def Interleaved {S : Type} (b : Batch S) (l : List (FileOp S)) : Prop :=
  l.Perm (b.flatMap writerOps) ∧ ∀ w ∈ b, (writerOps w).Sublist l

/-- An order in which the steps of a run can happen: one batch after the other. -/
def Scheduled {S : Type} : List (Batch S) → List (FileOp S) → Prop
  | [], l => l = []
  | b :: bs, l => ∃ l₁ l₂, Interleaved b l₁ ∧ Scheduled bs l₂ ∧ l = l₁ ++ l₂

/-- The day before, `start_date - np.timedelta64(1, 'D')`, `/repo/run_watergap.py:198`. -/
def Date.prev (t : Date) : Date :=
  if 1 < t.d then ⟨t.y, t.m, t.d - 1⟩
  else if 1 < t.m then ⟨t.y, t.m - 1, daysInMonth t.y (t.m - 1)⟩
  else ⟨t.y - 1, 12, 31⟩

/-- The name of the file of states, `/repo/model/utility/restart_watergap.py:228-229`; `path` ends with a slash. -/
def stateName (path : String) (t : Date) : List Char :=
  path.toList ++ ("restartwatergap_".toList ++ (isoDate t ++ ".pickle".toList))

/-- What a run writes to files while it processes the events of the main loop, starting with the output variables `vs`; `s`: the states
at its end.  An exception (`writeAll` without result) ends the run.  `/repo/run_watergap.py:286-392`. -/
noncomputable def runBatches {S : Type} (grid : List Date) (path statesPath : String) (area cf : ℝ) (r : DayResults) (s : S) :
    List Created → List Event → List (Batch S)
  | _, [] => []
  | vs, .write t :: es =>
    match writeAll grid r t vs with
    | some vs' => runBatches grid path statesPath area cf r s vs' es
    | none => []
  | vs, .flush t :: es =>
    (convertAll area cf vs).map (fun c => (outName path c.key t, .out c.data)) ::
      runBatches grid path statesPath area cf r s (convertAll area cf vs) es
  | vs, .save t :: es => [(stateName statesPath t, .state s)] :: runBatches grid path statesPath area cf r s vs es
  | vs, .sim _ :: es => runBatches grid path statesPath area cf r s vs es

/-- How a day's results give the arrays that are written out, for one cell. -/
structure DayView (O : Type) where
  arr : O → String → Option ℝ
  landFrac : O → ℝ
  contFrac : ℝ

/-- The results of the days of a period from the list of the results. -/
noncomputable def DayView.results {O : Type} (v : DayView O) (start : Date) (outs : List O) : DayResults where
  arr name t := (outs[t.ord - start.ord]?).bind fun o => v.arr o name
  landFrac t := ((outs[t.ord - start.ord]?).map v.landFrac).getD 0
  contFrac := v.contFrac

/-- The program with its data and the part of its configuration that stays the same. -/
structure Installation (ι M R O : Type) where
  env : Env ι M R O
  view : DayView O
  cfg : ConfigFile
  /-- output directory -/
  path : String
  /-- directory of the states -/
  statesPath : String
  area : ℝ
  cf : ℝ

/-- The states found for a run that starts on `start`, `load_restart_info`, `/repo/model/utility/restart_watergap.py:234-261`: a file that
is missing or not complete ends the program.  Simplified: the directory has no other file whose name ends with the date. -/
def Installation.stateDir {ι M R O : Type} (K : Installation ι M R O) (d : Disk (SavedPart ι R)) (start : Date) : RestartDir ι R :=
  match d (stateName K.statesPath start.prev) with
  | some (some (.state s)) => [(start.prev, s)]
  | _ => []

/-- Everything a run writes, batch by batch, given the disk at its start; `none`: it ends before it writes anything.
`/repo/run_watergap.py:92-403`. -/
noncomputable def Installation.plan {ι M R O : Type} (K : Installation ι M R O) (c : RunCfg) (restart : Bool)
    (d : Disk (SavedPart ι R)) : Option (List (Batch (SavedPart ι R))) :=
  match setup c, K.env.run c restart (K.stateDir d c.start), createVars K.cfg with
  | .ok st, .ok (outs, s), some ks =>
    some (runBatches (gridTime c) K.path K.statesPath K.area K.cf (K.view.results c.start outs) s
      (ks.map fun k => ⟨k.1, k.2, OutData.init (gridTime c) k.2⟩) (runLoop c st (c.spin.toNat + 1)).trace)
  | _, _, _ => none

/-- A run that is not interrupted leads from disk `d` to disk `e`. -/
def Installation.completes {ι M R O : Type} (K : Installation ι M R O) (c : RunCfg) (restart : Bool) (d e : Disk (SavedPart ι R)) : Prop :=
  ∃ bs l, K.plan c restart d = some bs ∧ Scheduled bs l ∧ e = applyOps l d

/-- A run that may be interrupted after any step leads from disk `d` to disk `e`. -/
def Installation.attempt {ι M R O : Type} (K : Installation ι M R O) (c : RunCfg) (restart : Bool) (d e : Disk (SavedPart ι R)) : Prop :=
  (K.plan c restart d = none ∧ e = d) ∨
    ∃ bs l l', K.plan c restart d = some bs ∧ Scheduled bs l ∧ l' <+: l ∧ e = applyOps l' d

/-- A run in which the files `F` of output variables cannot be opened (no space, no permission, opened elsewhere): the exceptions of the
writers stay in the unread result of `executor.map`, so the run goes on; `/repo/view/createandwrite.py:332-334`. -/
def Installation.completesWithout {ι M R O : Type} (K : Installation ι M R O) (F : List (List Char)) (c : RunCfg) (restart : Bool)
    (d e : Disk (SavedPart ι R)) : Prop :=
  ∃ bs l, K.plan c restart d = some bs ∧ Scheduled (bs.map fun b => b.filter fun w => !F.contains w.1) l ∧ e = applyOps l d

end WG
