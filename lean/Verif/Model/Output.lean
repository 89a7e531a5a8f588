import Verif.Model.RunLoop
import Verif.Prelude

/-!
# Output variables, their files and their units

Models `/repo/view/data_output_handler.py` (class `OutputVariable`) and
`/repo/view/createandwrite.py` (`write_daily_var`, `base_units`, `save_netcdf_parallel`) for one grid
cell: all operations act on whole grids cell by cell.  Not modelled: the rounding to 32-bit floats,
compression and the file system (a failed write is ignored by the code,
/repo/view/createandwrite.py:34-40).
-/

namespace WG

/-! ## Storing the daily values -/

/-- An output variable for one cell: its time axis and the value at each date, `none` for missing (NaN).
/repo/view/data_output_handler.py:41-92. -/
structure OutVar where
  /-- `self.data['time']` -/
  axis : List Date
  /-- `self.data[name].loc[time=t]` -/
  val : Date → Option ℝ

/-- `OutputVariable.__init__`: the axis holds the first 365 days of the run's time axis and every value
is missing.  /repo/view/data_output_handler.py:41-92. -/
def OutVar.init (grid : List Date) : OutVar := { axis := grid.take 365, val := fun _ => none }

/-- `self.data.reindex(time=grid.sel(time=year))`: the new axis, keeping the values of dates on both.
/repo/view/data_output_handler.py:144-154. -/
def OutVar.reindex (grid : List Date) (v : OutVar) (y : ℕ) : OutVar :=
  let ax := grid.filter fun t => decide (t.y = y)
  { axis := ax, val := fun t => if t ∈ ax ∧ t ∈ v.axis then v.val t else none }

/-- `write_daily_output`: re-index on 1 January, then assign the value `x` of the date (which may be NaN, `none`).
The result `none` stands for the `KeyError` of a date that is not on the axis.  /repo/view/data_output_handler.py:142-161. -/
def OutVar.write (grid : List Date) (v : OutVar) (t : Date) (x : Option ℝ) : Option OutVar :=
  let v1 := if t.m = 1 ∧ t.d = 1 then v.reindex grid t.y else v;
  if t ∈ v1.axis then some { v1 with val := fun u => if u = t then x else v1.val u } else none

/-- `base_units` for one variable: the whole content is overwritten by its converted values.
/repo/view/createandwrite.py:292. -/
def OutVar.convert (conv : ℝ → ℝ) (v : OutVar) : OutVar := { v with val := fun t => (v.val t).map conv }

/-- A saved file: label date and content.  /repo/view/createandwrite.py:294-337. -/
structure OutFile where
  /-- the date in the file name -/
  label : Date
  /-- content -/
  data : OutVar

/-- The output of one variable reacts to the events of the main loop: `write` stores the value of the
day, `flush` converts everything stored and saves a file.  /repo/run_watergap.py:294-339. -/
def outStep (grid : List Date) (conv : ℝ → ℝ) (x : Date → Option ℝ) (s : Option (OutVar × List OutFile))
    (e : Event) : Option (OutVar × List OutFile) :=
  match e, s with
  | .write t, some (v, fs) => (v.write grid t (x t)).map fun v' => (v', fs)
  | .flush t, some (v, fs) => some (v.convert conv, fs ++ [⟨t, v.convert conv⟩])
  | _, s => s

/-- A variable over a whole trace of events.  /repo/run_watergap.py:121, 294-339. -/
def outRun (grid : List Date) (conv : ℝ → ℝ) (x : Date → Option ℝ) (tr : List Event) :
    Option (OutVar × List OutFile) :=
  tr.foldl (outStep grid conv x) (some (OutVar.init grid, []))

/-- The variable `smax` has no time axis: it is created as zero and overwritten on 1 January only.
/repo/view/data_output_handler.py:66-73, 151-158. -/
def smaxRun (x : Date → ℝ) (tr : List Event) : ℝ :=
  tr.foldl (fun a e => match e with
    | .write t => if t.m = 1 ∧ t.d = 1 then x t else a
    | _ => a) 0

/-! ## Units -/

/-- The four dictionaries of variables.  /repo/view/createandwrite.py:58-59, 97-98. -/
inductive OutGroup
  | vbStorage | vbFlux | lbStorage | lbFlux
deriving DecidableEq, Repr

/-- Units.  The first seven are those of the model's arrays (docstrings of the water balance modules), the
others those of /repo/view/output_var_info.py.  `mm` is kg on a square metre of continental area. -/
inductive WUnit
  | mm | mmDay | km3 | km3Day | kmDay | wattM2 | one | kgM2 | kgM2S | m3S | mS
deriving DecidableEq, Repr

/-- One selectable output variable. -/
structure OutSpec where
  /-- name in the output -/
  key : String
  /-- dictionary it is put in -/
  group : OutGroup
  /-- unit of the array handed over -/
  internal : WUnit
  /-- unit the metadata declares -/
  declared : WUnit

/-- All selectable variables: names and groups from /repo/view/createandwrite.py:63-92, 102-159, unit
of the arrays from /repo/model/verticalwaterbalance/waterbalance_vertical_init.py:332-371 and
/repo/model/lateralwaterbalance/waterbalance_lateral.py:907-943, declared units from
/repo/view/output_var_info.py:15-101. -/
def outSpecs : List OutSpec := [
  ⟨"potevap", .vbFlux, .mmDay, .kgM2S⟩,
  ⟨"netrad", .vbFlux, .wattM2, .kgM2S⟩,
  ⟨"lai-total", .vbFlux, .one, .one⟩,
  ⟨"canopystor", .vbStorage, .mm, .kgM2⟩,
  ⟨"canopy-evap", .vbFlux, .mmDay, .kgM2S⟩,
  ⟨"throughfall", .vbFlux, .mmDay, .kgM2S⟩,
  ⟨"swe", .vbStorage, .mm, .kgM2⟩,
  ⟨"snowfall", .vbFlux, .mmDay, .kgM2S⟩,
  ⟨"snm", .vbFlux, .mmDay, .kgM2S⟩,
  ⟨"snow-evap", .vbFlux, .mmDay, .kgM2S⟩,
  ⟨"snowcover-frac", .vbFlux, .one, .one⟩,
  ⟨"soilmoist", .vbStorage, .mm, .kgM2⟩,
  ⟨"smax", .vbStorage, .mm, .kgM2⟩,
  ⟨"qrd", .vbFlux, .mmDay, .kgM2S⟩,
  ⟨"qs", .vbFlux, .mmDay, .kgM2S⟩,
  ⟨"consistent-precipitation", .lbFlux, .km3Day, .kgM2S⟩,
  ⟨"groundwstor", .lbStorage, .km3, .kgM2⟩,
  ⟨"qg", .lbFlux, .km3Day, .kgM2S⟩,
  ⟨"qtot", .lbFlux, .km3Day, .kgM2S⟩,
  ⟨"qrf", .lbFlux, .km3Day, .kgM2S⟩,
  ⟨"qr", .lbFlux, .km3Day, .kgM2S⟩,
  ⟨"locallakestor", .lbStorage, .km3, .kgM2⟩,
  ⟨"locallake-outflow", .lbFlux, .km3Day, .kgM2S⟩,
  ⟨"localwetlandstor", .lbStorage, .km3, .kgM2⟩,
  ⟨"localwetland-outflow", .lbFlux, .km3Day, .kgM2S⟩,
  ⟨"globallakestor", .lbStorage, .km3, .kgM2⟩,
  ⟨"globallake-outflow", .lbFlux, .km3Day, .kgM2S⟩,
  ⟨"globalwetlandstor", .lbStorage, .km3, .kgM2⟩,
  ⟨"globalwetland-outflow", .lbFlux, .km3Day, .kgM2S⟩,
  ⟨"riverstor", .lbStorage, .km3, .kgM2⟩,
  ⟨"reservoirstor", .lbStorage, .km3, .kgM2⟩,
  ⟨"tws", .lbStorage, .km3, .kgM2⟩,
  ⟨"dis", .lbFlux, .km3Day, .m3S⟩,
  ⟨"dis-from-upstream", .lbFlux, .km3Day, .m3S⟩,
  ⟨"atotusegw", .lbFlux, .km3Day, .kgM2S⟩,
  ⟨"atotusesw", .lbFlux, .km3Day, .kgM2S⟩,
  ⟨"atotuse", .lbFlux, .km3Day, .kgM2S⟩,
  ⟨"evap-total", .lbFlux, .km3Day, .kgM2S⟩,
  ⟨"unsat_potnetabs_sw_from_demandcell", .lbFlux, .km3Day, .kgM2S⟩,
  ⟨"returned_demand_from_supplycell", .lbFlux, .km3Day, .kgM2S⟩,
  ⟨"returned_demand_from_supplycell_nextday", .lbFlux, .km3Day, .kgM2S⟩,
  ⟨"demand_left_excl_returned_nextday", .lbFlux, .km3Day, .kgM2S⟩,
  ⟨"potnetabs_sw", .lbFlux, .km3Day, .kgM2S⟩,
  ⟨"get_neighbouring_cells_map", .lbFlux, .one, .one⟩,
  ⟨"ncrun", .lbFlux, .km3Day, .kgM2S⟩,
  ⟨"river-velocity", .lbFlux, .kmDay, .mS⟩,
  ⟨"land-area-fraction", .lbFlux, .one, .one⟩,
  ⟨"pot_cell_runoff", .lbFlux, .km3Day, .kgM2S⟩]

/-- `base_units`: the conversion applied to a variable.  `area` is the cell area in km², `cf` the
continental fraction in percent.  /repo/view/createandwrite.py:254-292. -/
noncomputable def baseUnits (g : OutGroup) (key : String) (area cf x : ℝ) : ℝ :=
  let km3ToMm := 1e6 / (area * (cf / 100));
  match g with
  | .vbStorage => x
  | .vbFlux => if key = "lai-total" ∨ key = "snowcover-frac" then x else x / 86400
  | .lbStorage => x * km3ToMm
  | .lbFlux =>
    if key = "get_neighbouring_cells_map" ∨ key = "land-area-fraction" then x
    else if key = "dis" ∨ key = "dis-from-upstream" then x * 1e9 / 86400
    else if key = "river_velocity" then x * 1e3 / 86400
    else x * km3ToMm / 86400

/-- `write out data per continental fraction`: the vertical storages and fluxes, in mm over the land
area, are handed over in mm over the continental area.
/repo/model/verticalwaterbalance/waterbalance_vertical_init.py:332-358. -/
noncomputable def perContFrac (landFrac contFrac x : ℝ) : ℝ := x * (landFrac / contFrac)

end WG
