import Verif.Model.Config

/-!
# The configuration files of a calibration

* `/repo/run_calibration.py:72-99`: the file of the user is rewritten for step A.
* `/repo/calibration/calibration_setup.py:228-259`: from it the file of every station is made.
* `/repo/controller/configuration_module.py:73-187`: what a run reads from its file.

Simplified: of the file only its three sections `FilePath`, `RuntimeOptions` and `OutputVariable` are modelled (the others
are copied and never read).
-/

namespace WG

/-- The sections of the file (`/repo/Config_ReWaterGAP.json`). -/
structure ConfigFile where
  /-- `FilePath` -/
  filePath : Entries
  /-- `RuntimeOptions`, a list of dictionaries -/
  runtime : List Entries
  /-- `OutputVariable`, a list of dictionaries -/
  output : List Entries

/-- A place in the file: `config_file['FilePath'][..]`, `config_file['RuntimeOptions'][i][..]`,
`config_file['OutputVariable'][i][..]`. -/
inductive Place
  | file (p : List String)
  | runtime (i : ℕ) (p : List String)
  | output (i : ℕ) (p : List String)

/-- Reading a place; `none` is an exception (`KeyError`, `IndexError`), as in
`/repo/controller/configuration_module.py:73-187`. -/
def ConfigFile.get (c : ConfigFile) : Place → Option Json
  | .file p => c.filePath.get p
  | .runtime i p => match c.runtime[i]? with
    | some e => e.get p
    | none => none
  | .output i p => match c.output[i]? with
    | some e => e.get p
    | none => none

/-- `d[key] = value` on a dictionary: the value of the key is replaced, a new key is added at the end. -/
def Entries.put : Entries → String → Json → Entries
  | .nil, k, v => .cons k v .nil
  | .cons key w rest, k, v => if key = k then .cons key v rest else .cons key w (rest.put k v)

/-- `d[k1]..[kn] = value`: an exception if one of the outer keys is missing or its value is no dictionary. -/
def Entries.setAt (e : Entries) : List String → Json → Option Entries
  | [], _ => none
  | [k], v => some (e.put k v)
  | k :: k' :: ks, v =>
    match e.find k with
    | some (.obj o) => (o.setAt (k' :: ks) v).map fun o' => e.put k (.obj o')
    | _ => none

/-- An assignment to a place of the file, as in `/repo/calibration/calibration_setup.py:231-252`. -/
def ConfigFile.set (c : ConfigFile) : Place → Json → Option ConfigFile
  | .file p, v => (c.filePath.setAt p v).map fun e => { c with filePath := e }
  | .runtime i p, v => match c.runtime[i]? with
    | some e => (e.setAt p v).map fun e' => { c with runtime := c.runtime.set i e' }
    | none => none
  | .output i p, v => match c.output[i]? with
    | some e => (e.setAt p v).map fun e' => { c with output := c.output.set i e' }
    | none => none

/-- A sequence of assignments. -/
def ConfigFile.setAll (c : ConfigFile) : List (Place × Json) → Option ConfigFile
  | [] => some c
  | (p, v) :: l => match c.set p v with
    | some c' => c'.setAll l
    | none => none

/-- `modify_config_file`: the file of step A, `/repo/run_calibration.py:81-99`. -/
def stepAConfig (params : String) (c : ConfigFile) : Option ConfigFile :=
  ConfigFile.set { c with output := c.output.map updateConfig, runtime := c.runtime.map updateConfig }
    (.file ["inputDir", "parameter_path"]) (.str params)

/-- The file of a station, `/repo/calibration/calibration_setup.py:228-252`: `start` and `fin` are the texts of lines
227-228, `params` is the path of lines 252-253. -/
def stationConfig (start fin params : String) (c : ConfigFile) : Option ConfigFile :=
  c.setAll
    [(.runtime 2 ["SimulationPeriod", "start"], .str start),
     (.runtime 2 ["SimulationPeriod", "end"], .str fin),
     (.runtime 4 ["SimulationExtent", "run_basin"], .bool true),
     (.runtime 5 ["CalibrateWaterGAP", "run_calib"], .bool true),
     (.output 2 ["LateralWaterBalanceFluxes", "streamflow"], .bool true),
     (.output 2 ["LateralWaterBalanceFluxes", "pot_cell_runoff"], .bool true),
     (.output 2 ["LateralWaterBalanceFluxes", "actual_net_abstr_groundwater"], .bool false),
     (.output 2 ["LateralWaterBalanceFluxes", "actual_net_abstr_surfacewater"], .bool false),
     (.runtime 0 ["SimulationOption", "Demand_satisfaction_opts", "neighbouring_cell"], .bool false),
     (.output 1 ["VerticalWaterBalanceStorages", "maximum_soil_moisture"], .bool false),
     (.file ["inputDir", "parameter_path"], .str params)]

/-- Both files of a calibration: that of step A replaces the file of the user and is the template of the files of the
stations; `/repo/run_calibration.py:227-238`, `/repo/calibration/calibration_setup.py:228-229`. -/
def calibConfig (paramsA start fin params : String) (user : ConfigFile) : Option ConfigFile :=
  match stepAConfig paramsA user with
  | some a => stationConfig start fin params a
  | none => none

/-- What a run reads from its file before it resolves its options,
`/repo/controller/configuration_module.py:82-97,120-124,144`: `none` is an exception or a value of another type. -/
def ConfigFile.rawOpts (c : ConfigFile) : Option RawOpts :=
  match c.get (.runtime 0 ["SimulationOption", "AntNat_opts", "ant"]),
      c.get (.runtime 0 ["SimulationOption", "AntNat_opts", "subtract_use"]),
      c.get (.runtime 0 ["SimulationOption", "AntNat_opts", "res_opt"]),
      c.get (.runtime 0 ["SimulationOption", "Demand_satisfaction_opts", "delayed_use"]),
      c.get (.runtime 0 ["SimulationOption", "Demand_satisfaction_opts", "neighbouring_cell"]),
      c.get (.runtime 3 ["TimeStep", "daily"]),
      c.get (.runtime 2 ["SimulationPeriod", "reservoir_start_year"]),
      c.get (.runtime 2 ["SimulationPeriod", "reservoir_end_year"]) with
  | some (.bool a), some (.bool s), some (.bool r), some (.bool d), some (.bool n), some (.bool t), some (.num rs),
      some (.num re) =>
    some { ant := a, subtractUse := s, resOpt := r, delayed := d, neighbour := n, daily := t, rs := rs.toNat, re := re.toNat }
  | _, _, _, _, _, _, _, _ => none

end WG
