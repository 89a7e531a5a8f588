import Verif.Prelude
import Mathlib.Data.List.Infix

/-!
# Configuration

* Resolution of the run options: /repo/controller/configuration_module.py:82-151.
* Rewriting of the configuration for calibration step A: /repo/run_calibration.py:33-99.
-/

namespace WG

/-! ## Options of a run -/

/-- The switches as they stand in the configuration file:
/repo/controller/configuration_module.py:82-97, 120-131, 144. -/
structure RawOpts where
  ant : Bool
  subtractUse : Bool
  resOpt : Bool
  delayed : Bool
  neighbour : Bool
  daily : Bool
  /-- `reservoir_start_year` -/
  rs : ℕ
  /-- `reservoir_end_year` -/
  re : ℕ

/-- The switches the program works with.  `years` are the years whose 1 January is in `RESERVOIR_OPT_YEARS`. -/
structure Opts where
  ant : Bool
  subtractUse : Bool
  resOpt : Bool
  delayed : Bool
  neighbour : Bool
  years : List ℕ
deriving DecidableEq

/-- The two `sys.exit()` calls: /repo/controller/configuration_module.py:110-115, 149-151. -/
inductive ConfigExit
  | noVariant
  | notDaily
deriving DecidableEq

/-- /repo/controller/configuration_module.py:82-151: overriding for naturalised runs, the check that some variant is
chosen, the reservoir years (`pd.date_range(rs-01-01, re-01-01, freq="YS")`) and the time step. -/
def resolveOpts (r : RawOpts) : Except ConfigExit Opts :=
  let subtractUse := if r.ant = false then false else r.subtractUse
  let resOpt := if r.ant = false then false else r.resOpt
  let delayed := if r.ant = false then false else r.delayed
  let neighbour := if r.ant = false then false else r.neighbour
  if r.ant && (resOpt == false) && (subtractUse == false) then .error .noVariant
  else if r.daily then
    .ok { ant := r.ant, subtractUse := subtractUse, resOpt := resOpt, delayed := delayed, neighbour := neighbour
          years := if resOpt then (List.range (r.re + 1)).filter (fun y => decide (r.rs ≤ y)) else [] }
  else .error .notDaily

/-! ## Calibration step A -/

mutual
/-- A value of the configuration file (`json.load`). -/
inductive Json
  | bool (b : Bool)
  | str (s : String)
  | num (n : ℤ)
  | list (l : List String)
  | obj (e : Entries)
/-- The items of a dictionary, in order. -/
inductive Entries
  | nil
  | cons (key : String) (value : Json) (rest : Entries)
end

/-- Python's `sub in key`. -/
def hasSub (sub key : String) : Bool := decide (sub.toList <:+: key.toList)

/-- The value of a non-dictionary entry after `update_config_values`: /repo/run_calibration.py:52-70. -/
def rewriteLeaf (key : String) (v : Json) : Json :=
  if hasSub "save_and_read_states_dir" key || hasSub "start" key || hasSub "end" key ||
      hasSub "reservoir_start_year" key || hasSub "reservoir_end_year" key || hasSub "spinup_years" key ||
      hasSub "daily" key || hasSub "run_basin" key || hasSub "path_to_stations_file" key ||
      hasSub "path_to_observed_discharge" key || hasSub "calib_forcing" key then v
  else if hasSub "ant" key || hasSub "subtract_use" key || hasSub "res_opt" key || hasSub "delayed_use" key ||
      hasSub "actual_net_abstr_" key || hasSub "maximum_soil_moisture" key then .bool true
  else if hasSub "get_neighbouring_cells_map" key then .bool false
  else if hasSub "neighbouring_cell" key then .bool true
  else .bool false

/-- `update_config_values`: dictionaries are entered, all the other values rewritten; /repo/run_calibration.py:33-70. -/
def updateConfig : Entries → Entries
  | .nil => .nil
  | .cons key (.obj e) rest => .cons key (.obj (updateConfig e)) (updateConfig rest)
  | .cons key v rest => .cons key (rewriteLeaf key v) (updateConfig rest)

/-- Lookup of a key: `config["a"]`. -/
def Entries.find : Entries → String → Option Json
  | .nil, _ => none
  | .cons key v rest, k => if key = k then some v else rest.find k

/-- Lookup by a path of keys: `config["a"]["b"]`. -/
def Entries.get (e : Entries) : List String → Option Json
  | [] => none
  | [k] => e.find k
  | k :: k' :: ks =>
    match e.find k with
    | some (.obj o) => o.get (k' :: ks)
    | _ => none

end WG
