import Verif.Prelude

/-!
# Who is calibrated when

Model of the order of stations (/repo/calibration/calibration_setup.py:126-189), of the parallel calibration of basins
(/repo/run_calibration.py:113-159) and of what the final merge reads (/repo/run_calibration.py:227-270).  The
calibration of one station is an arbitrary function of the files of its basin: the parameter file and the file of
earlier stations in `calib_out/<basin>/` (/repo/calibration/find_gamma_cfa_cfs.py:135-154,487-503); everything else it
reads is not written by step B.
-/

namespace WG

/-- `reorder_calib_stations`, calibration_setup.py:143-178: the stations and their basins in routing order; `station`
says which cell (arc id) has a station and the basin of the station. -/
def orderedStations {S : Type} (order : List ℤ) (station : ℤ → Option (S × ℕ)) : List (S × ℕ) :=
  order.filterMap station

/-- `groupby('basin_id')`, calibration_setup.py:180-185: the stations of a basin, in the same order. -/
def basinGroup {S : Type} (order : List ℤ) (station : ℤ → Option (S × ℕ)) (b : ℕ) : List S :=
  ((orderedStations order station).filter fun e => e.2 == b).map (·.1)

/-- The file `stations_basin_<b>.csv` after the set-up, calibration_setup.py:184-189: rewritten for the basins that
have stations, left as it was for the others. -/
def stationsCsv {S : Type} (old : ℕ → Option (List S)) (order : List ℤ) (station : ℤ → Option (S × ℕ)) (b : ℕ) :
    Option (List S) :=
  if (basinGroup order station b).isEmpty then old b else some (basinGroup order station b)

/-- The stations `process_basin` goes through, run_calibration.py:127-135; without a file it raises an exception nobody
looks at (the results of `executor.map` are not read, run_calibration.py:158-159). -/
def stationsToDo {S : Type} (csv : ℕ → Option (List S)) (b : ℕ) : List S := (csv b).getD []

/-- `list(range(1, n+1))` with `n` the number of directories, run_calibration.py:190-192,246-248; directories are the ids
of basins. -/
def basinIds (dirs : Finset ℕ) : List ℕ := (List.range dirs.card).map (· + 1)

/-- A worker: its basin, the station it is calibrating, the stations still to do. -/
structure Worker (S : Type) where
  basin : ℕ
  cur : Option S
  rest : List S

/-- What happened, in order of time. -/
inductive CalEv (S : Type) where
  | start (b : ℕ) (s : S)
  | done (b : ℕ) (s : S)

/-- The thread pool (run_calibration.py:158-159): waiting basins, workers, files of each basin, and what happened. -/
structure Pool (S σ : Type) where
  queue : List ℕ
  running : List (Worker S)
  files : ℕ → σ
  log : List (CalEv S)

/-- What the scheduler may do next: start the next waiting basin, or let the `i`-th worker make its next step. -/
inductive Act where
  | take
  | work (i : ℕ)

/-- One step of the pool with `k` workers, run_calibration.py:127-140,158-159.  A worker starts its next station, ends the
station it calibrates (which writes the files of its basin), or, with nothing left, becomes free; a station that
fails is followed by the next one all the same (`subprocess.run` without `check`). -/
def poolStep {S σ : Type} (k : ℕ) (todo : ℕ → List S) (calib : ℕ → S → σ → σ) (p : Pool S σ) : Act → Pool S σ
  | .take => match p.queue with
    | [] => p
    | b :: q => if p.running.length < k then { p with queue := q, running := p.running ++ [⟨b, none, todo b⟩] } else p
  | .work i => match p.running[i]? with
    | none => p
    | some ⟨b, some s, rest⟩ =>
      { p with running := p.running.set i ⟨b, none, rest⟩
               files := Function.update p.files b (calib b s (p.files b))
               log := p.log ++ [.done b s] }
    | some ⟨b, none, s :: rest⟩ =>
      { p with running := p.running.set i ⟨b, some s, rest⟩, log := p.log ++ [.start b s] }
    | some ⟨_, none, []⟩ => { p with running := p.running.eraseIdx i }

/-- The pool after a schedule. -/
def poolRun {S σ : Type} (k : ℕ) (todo : ℕ → List S) (calib : ℕ → S → σ → σ) (p : Pool S σ) (acts : List Act) :
    Pool S σ := acts.foldl (poolStep k todo calib) p

/-- The pool at the start of step B, run_calibration.py:158-159. -/
def poolStart {S σ : Type} (ids : List ℕ) (files : ℕ → σ) : Pool S σ := ⟨ids, [], files, []⟩

/-- The pool has nothing left to do: the `with` block ends, run_calibration.py:158-159. -/
def Pool.idle {S σ : Type} (p : Pool S σ) : Bool := p.queue.isEmpty && p.running.isEmpty

/-- `mode`, run_calibration.py:206. -/
inductive CalMode where
  | localPool
  | cluster

/-- The files step C (regionalisation and merge) reads if it comes after the schedule `acts`, run_calibration.py:252-270:
in mode `local` it waits for the pool; in mode `cluster` the jobs have only been submitted, so it comes after any number
of their steps, also none.  `none`: step C has not begun. -/
def mergedFiles {S σ : Type} (mode : CalMode) (k : ℕ) (ids : List ℕ) (todo : ℕ → List S) (calib : ℕ → S → σ → σ)
    (files : ℕ → σ) (acts : List Act) : Option (ℕ → σ) :=
  let p := poolRun k todo calib (poolStart ids files) acts
  match mode with
  | .localPool => if p.idle then some p.files else none
  | .cluster => some p.files

end WG
