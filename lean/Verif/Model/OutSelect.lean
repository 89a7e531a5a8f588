import Verif.Model.ConfigFile
import Verif.Model.Output

/-!
# Which output variables a run creates, what it writes to them, and where it saves them

Models `/repo/view/createandwrite.py` (class `CreateandWritetoVariables`) as a whole: creation from the configuration file,
the daily writing from the dictionaries of the two water balances, the conversion of units and the saved files, for one grid
cell.  Together with `Verif.Model.Output` (one variable).  Not modelled: calibration runs, which save no file
(`Verif.Model.CalibYears`), the second component of `get_neighbouring_cells_map` and its initial zeros, failing writes.
-/

namespace WG

/-- Truth of a value in an `if`. -/
def Json.truthy : Json → Bool
  | .bool b => b
  | .str s => !(s.toList.isEmpty)
  | .num n => n != 0
  | .list l => !l.isEmpty
  | .obj .nil => false
  | .obj (.cons _ _ _) => true

/-- `vb_output_vars`: name of the output and name in the configuration file, `/repo/view/createandwrite.py:63-79`. -/
def vbOutputVars : List (String × String) := [
  ("potevap", "pot_evap"), ("netrad", "net_rad"), ("lai-total", "leaf_area_index"), ("canopystor", "canopy_storage"),
  ("canopy-evap", "canopy_evap"), ("throughfall", "throughfall"), ("swe", "snow_water_equiv"), ("snowfall", "snow_fall"),
  ("snm", "snow_melt"), ("snow-evap", "snow_evap"), ("snowcover-frac", "snowcover_frac"), ("soilmoist", "soil_moisture"),
  ("smax", "maximum_soil_moisture"), ("qrd", "groundwater_recharge_diffuse"), ("qs", "surface_runoff")]

/-- `lb_output_vars`, `/repo/view/createandwrite.py:102-144`. -/
def lbOutputVars : List (String × String) := [
  ("consistent-precipitation", "consistent_precipitation"), ("groundwstor", "groundwater_storage"),
  ("qg", "groundwater_discharge"), ("qtot", "total_runoff"), ("qrf", "groundwater_recharge_swb"),
  ("qr", "total_groundwater_recharge"), ("locallakestor", "local_lake_storage"), ("locallake-outflow", "local_lake_outflow"),
  ("localwetlandstor", "local_wetland_storage"), ("localwetland-outflow", "local_wetland_outflow"),
  ("globallakestor", "global_lake_storage"), ("globallake-outflow", "global_lake_outflow"),
  ("globalwetlandstor", "global_wetland_storage"), ("globalwetland-outflow", "global_wetland_outflow"),
  ("riverstor", "river_storage"), ("reservoirstor", "global_reservoir_storage"), ("tws", "total_water_storage"),
  ("dis", "streamflow"), ("dis-from-upstream", "streamflow_from_upstream"),
  ("atotusegw", "actual_net_abstr_groundwater"), ("atotusesw", "actual_net_abstr_surfacewater"),
  ("atotuse", "actual_water_consumption"), ("evap-total", "cell_aet_consuse"),
  ("unsat_potnetabs_sw_from_demandcell", "unsat_potnetabs_sw_from_demandcell"),
  ("returned_demand_from_supplycell", "returned_demand_from_supplycell"),
  ("returned_demand_from_supplycell_nextday", "returned_demand_from_supplycell_nextday"),
  ("demand_left_excl_returned_nextday", "demand_left_excl_returned_nextday"), ("potnetabs_sw", "potnetabs_sw"),
  ("get_neighbouring_cells_map", "get_neighbouring_cells_map"), ("ncrun", "net_cell_runoff"),
  ("river-velocity", "river_velocity"), ("land-area-fraction", "land_area_fraction"), ("pot_cell_runoff", "pot_cell_runoff")]

/-- The set of names that are storages of the vertical water balance, `/repo/view/createandwrite.py:83`. -/
def vbStorageNames : List String := ["canopystor", "swe", "soilmoist", "smax"]

/-- The same for the lateral water balance, `/repo/view/createandwrite.py:148-150`. -/
def lbStorageNames : List String := ["groundwstor", "locallakestor", "localwetlandstor", "globallakestor", "globalwetlandstor",
  "riverstor", "reservoirstor", "tws"]

/-- `cm.vb_fluxes`, `cm.vb_storages`, `cm.lb_fluxes`, `cm.lb_storages`, `/repo/controller/configuration_module.py:165-170`. -/
def outSection (c : ConfigFile) : OutGroup → Option Json
  | .vbFlux => c.get (.output 0 ["VerticalWaterBalanceFluxes"])
  | .vbStorage => c.get (.output 1 ["VerticalWaterBalanceStorages"])
  | .lbFlux => c.get (.output 2 ["LateralWaterBalanceFluxes"])
  | .lbStorage => c.get (.output 3 ["LateralWaterBalanceStorages"])

/-- `cm.….get(option)` in a condition: a missing option is `None`. -/
def Entries.chosen (e : Entries) (opt : String) : Bool :=
  match e.find opt with
  | some v => v.truthy
  | none => false

/-- One of the two loops of `__init__`: every variable that is chosen is created and put in its dictionary.
`/repo/view/createandwrite.py:82-92,147-159`. -/
def createLoop (storageNames : List String) (gs gf : OutGroup) (storages fluxes : Entries) (vars : List (String × String)) :
    List (OutGroup × String) :=
  vars.filterMap fun v =>
    if v.1 ∈ storageNames then (if storages.chosen v.2 then some (gs, v.1) else none)
    else (if fluxes.chosen v.2 then some (gf, v.1) else none)

/-- The created variables; `none` is the exception of a missing section or one that is no dictionary.
`/repo/view/createandwrite.py:46-159`. -/
def createVars (c : ConfigFile) : Option (List (OutGroup × String)) :=
  match outSection c .vbFlux, outSection c .vbStorage, outSection c .lbFlux, outSection c .lbStorage with
  | some (.obj vf), some (.obj vs), some (.obj lf), some (.obj ls) =>
    some (createLoop vbStorageNames .vbStorage .vbFlux vs vf vbOutputVars ++
      createLoop lbStorageNames .lbStorage .lbFlux ls lf lbOutputVars)
  | _, _, _, _ => none

/-- An array of the daily results: the Python variable and whether it is multiplied with `per_contfrac`. -/
structure DayArray where
  name : String
  perCont : Bool
deriving DecidableEq, Repr

/-- The dictionaries of the daily results: key and array.  Keys that are never written out (`groundwater_recharge`, ..) are
left out.  `/repo/model/verticalwaterbalance/waterbalance_vertical_init.py:332-371`,
`/repo/model/lateralwaterbalance/waterbalance_lateral.py:907-943`. -/
def dayDict : OutGroup → List (String × DayArray)
  | .vbStorage => [("canopystor", ⟨"canopy_storage", true⟩), ("swe", ⟨"snow_water_storage", true⟩),
      ("soilmoist", ⟨"soil_water_content", true⟩), ("smax", ⟨"max_soil_water_content", false⟩)]
  | .vbFlux => [("netrad", ⟨"net_radiation", false⟩), ("potevap", ⟨"total_potential_evap", false⟩),
      ("lai-total", ⟨"leaf_area_index", false⟩), ("canopy-evap", ⟨"canopy_evap", true⟩), ("throughfall", ⟨"throughfall", true⟩),
      ("snowfall", ⟨"snow_fall", true⟩), ("snm", ⟨"snow_melt", true⟩), ("snow-evap", ⟨"sublimation", true⟩),
      ("snowcover-frac", ⟨"snowcover_frac", true⟩), ("qrd", ⟨"groundwater_recharge_from_soil_mm", true⟩),
      ("qs", ⟨"surface_runoff", true⟩)]
  | .lbStorage => [("groundwstor", ⟨"groundwater_storage", false⟩), ("locallakestor", ⟨"loclake_storage", false⟩),
      ("localwetlandstor", ⟨"locwet_storage", false⟩), ("globallakestor", ⟨"glolake_storage", false⟩),
      ("globalwetlandstor", ⟨"glowet_storage", false⟩), ("riverstor", ⟨"river_storage", false⟩),
      ("reservoirstor", ⟨"glores_storage", false⟩), ("tws", ⟨"total_water_storage", false⟩)]
  | .lbFlux => [("consistent-precipitation", ⟨"consistent_precip", false⟩), ("qg", ⟨"groundwater_discharge", false⟩),
      ("qtot", ⟨"total_runoff", false⟩), ("qrf", ⟨"groundwater_recharge_swb", false⟩),
      ("qr", ⟨"total_groundwater_recharge", false⟩), ("locallake-outflow", ⟨"loclake_outflow", false⟩),
      ("localwetland-outflow", ⟨"locwet_outflow", false⟩), ("globallake-outflow", ⟨"glolake_outflow", false⟩),
      ("globalwetland-outflow", ⟨"glowet_outflow", false⟩), ("dis", ⟨"streamflow", false⟩),
      ("dis-from-upstream", ⟨"streamflow_from_upstream", false⟩), ("atotusegw", ⟨"actual_net_abstraction_gw", false⟩),
      ("atotusesw", ⟨"actual_net_abstraction_sw", false⟩), ("atotuse", ⟨"actual_water_consumption", false⟩),
      ("evap-total", ⟨"cell_aet_consuse", false⟩),
      ("unsat_potnetabs_sw_from_demandcell", ⟨"unsat_potnetabs_sw_from_demandcell_out", false⟩),
      ("returned_demand_from_supplycell", ⟨"returned_demand_from_supplycell", false⟩),
      ("returned_demand_from_supplycell_nextday", ⟨"returned_demand_from_supplycell_nextday", false⟩),
      ("demand_left_excl_returned_nextday", ⟨"demand_left_excl_returned_nextday", false⟩),
      ("potnetabs_sw", ⟨"potential_net_abstraction_sw", false⟩),
      ("get_neighbouring_cells_map", ⟨"get_neighbouring_cells_map_out", false⟩), ("ncrun", ⟨"net_cell_runoff", false⟩),
      ("river-velocity", ⟨"river_velocity", false⟩), ("land-area-fraction", ⟨"current_landarea_frac", false⟩),
      ("pot_cell_runoff", ⟨"pot_cell_runoff", false⟩)]

/-- The results of the days for one cell: the arrays (NaN is `none`), the land area fraction and the continental fraction.
`/repo/model/verticalwaterbalance/waterbalance_vertical_init.py:332`. -/
structure DayResults where
  arr : String → Date → Option ℝ
  landFrac : Date → ℝ
  contFrac : ℝ

/-- `storage_var[var_name]`, `fluxes_var[var_name]`: `none` is a `KeyError`. `/repo/view/createandwrite.py:188-197,224-233`. -/
noncomputable def DayResults.value (r : DayResults) (g : OutGroup) (key : String) (t : Date) : Option (Option ℝ) :=
  match (dayDict g).lookup key with
  | some a => some ((r.arr a.name t).map fun x => if a.perCont then perContFrac (r.landFrac t) r.contFrac x else x)
  | none => none

/-- The dataset of a variable: with a time axis, or `smax` without. `/repo/view/data_output_handler.py:66-92`. -/
inductive OutData
  | axis (v : OutVar)
  | const (x : Option ℝ)

/-- `OutputVariable.__init__`, `/repo/view/data_output_handler.py:41-92`: `smax` is filled with zeros. -/
def OutData.init (grid : List Date) (key : String) : OutData :=
  if key = "smax" then .const (some 0) else .axis (OutVar.init grid)

/-- `write_daily_output`, `/repo/view/data_output_handler.py:142-161`: `smax` is written on 1 January only. -/
def OutData.write (grid : List Date) (t : Date) (x : Option ℝ) : OutData → Option OutData
  | .const y => some (.const (if t.m = 1 ∧ t.d = 1 then x else y))
  | .axis v => (v.write grid t x).map .axis

/-- One iteration of `base_units`, `/repo/view/createandwrite.py:254-292`. -/
def OutData.convert (conv : ℝ → ℝ) : OutData → OutData
  | .const y => .const (y.map conv)
  | .axis v => .axis (v.convert conv)

/-- A created variable and its data. -/
structure Created where
  group : OutGroup
  key : String
  data : OutData

/-- A digit. -/
def digit (n : ℕ) : Char := Char.ofNat (48 + n % 10)

/-- `str(save_year)` for a `datetime64[D]`: ISO format; `/repo/run_watergap.py:317,339`.  Years have four digits
(`pd.to_datetime` accepts 1678 to 2262). -/
def isoDate (t : Date) : List Char :=
  [digit (t.y / 1000), digit (t.y / 100), digit (t.y / 10), digit t.y, '-', digit (t.m / 10), digit t.m, '-',
    digit (t.d / 10), digit t.d]

/-- The name of the file a variable is saved in, `/repo/view/createandwrite.py:311,319`. -/
def outName (path key : String) (t : Date) : List Char :=
  if key = "smax" then path.toList ++ (key.toList ++ ".nc".toList)
  else path.toList ++ (key.toList ++ ('_' :: (isoDate t ++ ".nc".toList)))

/-- The saved files, by their names. -/
abbrev Files := List Char → Option OutData

/-- Everything of the output: created variables and saved files. -/
structure OutAll where
  vars : List Created
  files : Files

/-- The daily writing, `verticalbalance_write_daily_var` and `lateralbalance_write_daily_var`; `none` is an exception.
`/repo/view/createandwrite.py:161-233`. -/
noncomputable def writeAll (grid : List Date) (r : DayResults) (t : Date) : List Created → Option (List Created)
  | [] => some []
  | c :: cs =>
    match r.value c.group c.key t with
    | none => none
    | some x =>
      match c.data.write grid t x, writeAll grid r t cs with
      | some d, some ds => some ({ c with data := d } :: ds)
      | _, _ => none

/-- `base_units`, `/repo/view/createandwrite.py:235-292`. -/
noncomputable def convertAll (area cf : ℝ) (vs : List Created) : List Created :=
  vs.map fun c => { c with data := c.data.convert (baseUnits c.group c.key area cf) }

/-- `save_netcdf_parallel`: every variable is written to its file, an existing file is replaced.
`/repo/view/createandwrite.py:294-337`. -/
def saveAll (path : String) (t : Date) (vs : List Created) (fs : Files) : Files :=
  vs.foldl (fun f c => fun n => if n = outName path c.key t then some c.data else f n) fs

/-- The output reacts to the events of the main loop, `/repo/run_watergap.py:286-339`. -/
noncomputable def outAllStep (grid : List Date) (path : String) (area cf : ℝ) (r : DayResults) (s : Option OutAll) (e : Event) :
    Option OutAll :=
  match e, s with
  | .write t, some o => (writeAll grid r t o.vars).map fun vs => { o with vars := vs }
  | .flush t, some o =>
    some { vars := convertAll area cf o.vars, files := saveAll path t (convertAll area cf o.vars) o.files }
  | _, s => s

/-- A whole run: the variables chosen in the configuration file are created, then the events of the main loop are processed.
`/repo/run_watergap.py:112-121,286-339`. -/
noncomputable def outAllRun (grid : List Date) (c : ConfigFile) (path : String) (area cf : ℝ) (r : DayResults) (files : Files)
    (tr : List Event) : Option OutAll :=
  match createVars c with
  | none => none
  | some ks => tr.foldl (outAllStep grid path area cf r)
      (some { vars := ks.map fun k => ⟨k.1, k.2, OutData.init grid k.2⟩, files := files })

end WG
