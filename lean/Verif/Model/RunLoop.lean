import Verif.Model.Calendar

/-!
# The main loop of a run

Models the time handling of `/repo/run_watergap.py:151-403`: which days are simulated, which are
written, when files are flushed and when the state is saved.  The water balance computed on a day is
not part of this module.
-/

namespace WG

/-- The part of the configuration the loop depends on (/repo/controller/configuration_module.py:
`start`, `end`, `spinup_years`, `save_states`) and the first and last day of the forcing data. -/
structure RunCfg where
  /-- `cm.start` -/
  start : Date
  /-- `cm.end` -/
  fin : Date
  /-- `cm.spinup_years` -/
  spin : ℤ
  /-- `cm.save_states` -/
  saveStates : Bool
  /-- first day of the climate forcing -/
  dataStart : Date
  /-- last day of the climate forcing -/
  dataEnd : Date

/-- Why a run stops before its first day. -/
inductive SetupError
  /-- `ValueError` of /repo/controller/read_forcings_and_static.py:72-74 -/
  | periodNotInData
  /-- `.item()` of an empty array, /repo/run_watergap.py:183-184 -/
  | dateNotOnAxis
deriving DecidableEq, Repr

/-- What the loop knows after its set-up (/repo/run_watergap.py:151-187). -/
structure Setup where
  /-- `date_main` -/
  dateMain : List Date
  /-- `timerange_main` -/
  rangeMain : ℤ
  /-- `time_range` of the spin-up -/
  rangeSpin : ℤ
  /-- `simulation_date` of the spin-up -/
  dateSpin : List Date

/-- The days of the forcing's daily axis from `s` to `e`: `sel(time=slice(s, e))` on an axis that
reaches from `dataStart` to `dataEnd` without gaps
(/repo/controller/read_forcings_and_static.py:62-70). -/
def axisSlice (c : RunCfg) (s e : Date) : List Date :=
  (daysBetween c.dataStart c.dataEnd).filter fun t => decide (s.ord ≤ t.ord) && decide (t.ord ≤ e.ord)

/-- `grid_coords['time']`: /repo/controller/read_forcings_and_static.py:59-70. -/
def gridTime (c : RunCfg) : List Date :=
  if c.start.y = c.fin.y then axisSlice c c.start (yearEnd c.fin.y) else axisSlice c c.start c.fin

/-- The set-up of the loop: period check (/repo/controller/read_forcings_and_static.py:50-74), time
ranges and spin-up dates (/repo/run_watergap.py:151-187).  `date_main[spin_start:spin_end]` is the
stretch of the axis from the start date to 31 December. -/
def setup (c : RunCfg) : Except SetupError Setup :=
  if (c.dataStart.ord ≤ c.start.ord ∧ c.start.ord ≤ c.dataEnd.ord) ∧
      (c.dataStart.ord ≤ c.fin.ord ∧ c.fin.ord ≤ c.dataEnd.ord) then
    if c.start ∈ gridTime c ∧ yearEnd c.start.y ∈ gridTime c then
      .ok { dateMain := gridTime c
            rangeMain := (c.fin.ord : ℤ) - c.start.ord + 1
            rangeSpin := ((yearEnd c.start.y).ord : ℤ) - c.start.ord + 1
            dateSpin := (gridTime c).take ((gridTime c).idxOf (yearEnd c.start.y) + 1) |>.drop
              ((gridTime c).idxOf c.start) }
    else .error .dateNotOnAxis
  else .error .periodNotInData

/-- What an outside observer sees of the loop. -/
inductive Event
  /-- the water balances of this day are computed (/repo/run_watergap.py:233-284) -/
  | sim (t : Date)
  /-- the day's values go to the output variables (/repo/run_watergap.py:294-307) -/
  | write (t : Date)
  /-- the output variables are converted and saved to files labelled with this day
  (/repo/run_watergap.py:319-339) -/
  | flush (t : Date)
  /-- the model states are saved for a restart (/repo/run_watergap.py:346-392) -/
  | save (t : Date)
deriving DecidableEq, Repr

/-- One pass through the body of the `for` loop: /repo/run_watergap.py:226-396. -/
def dayEvents (c : RunCfg) (spin : ℤ) (t : Date) : List Event :=
  [.sim t] ++
    (if spin = 0 then
      [.write t] ++ (if (t.m = 12 ∧ t.d = 31) ∨ c.fin = t then [.flush t] else []) ++
        (if c.fin = t ∧ c.saveStates then [.save t] else [])
    else [])

/-- The `for` loop with its `break` at the end date: /repo/run_watergap.py:225-396.  Returns the
events and whether `end_main_loop` was set. -/
def forDays (c : RunCfg) (spin : ℤ) : List Date → List Event × Bool
  | [] => ([], false)
  | t :: ts =>
    if spin = 0 ∧ c.fin = t then (dayEvents c spin t, true)
    else
      let r := forDays c spin ts
      (dayEvents c spin t ++ r.1, r.2)

/-- State of the `while True` loop: /repo/run_watergap.py:215-403. -/
structure LoopState where
  /-- `spin_up` -/
  spin : ℤ
  /-- events so far -/
  trace : List Event
  /-- the loop was left -/
  done : Bool

/-- The days one pass of the `while` loop hands to the `for` loop:
`zip(range(time_range), simulation_date)`, /repo/run_watergap.py:220-226.  A negative range is empty. -/
def phaseDays (s : Setup) (spin : ℤ) : List Date :=
  if spin = 0 then s.dateMain.take s.rangeMain.toNat else s.dateSpin.take s.rangeSpin.toNat

/-- One pass of the `while` loop: /repo/run_watergap.py:218-403. -/
def whileStep (c : RunCfg) (s : Setup) (l : LoopState) : LoopState :=
  if l.done then l
  else
    let r := forDays c l.spin (phaseDays s l.spin)
    { spin := if l.spin ≠ 0 then l.spin - 1 else l.spin
      trace := l.trace ++ r.1
      done := r.2 }

/-- The run after `n` passes of the `while` loop: /repo/run_watergap.py:179, 218-403. -/
def runLoop (c : RunCfg) (s : Setup) (n : ℕ) : LoopState :=
  (whileStep c s)^[n] { spin := c.spin, trace := [], done := false }

end WG
