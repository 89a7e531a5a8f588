/-!
# Tables of the restart code

Extracted from /repo by `tools/gen_restart_tables.py` (syntax trees of the Python files): which attribute
is passed to which parameter of `savestate`, under which key it is stored and which attribute is loaded from
which key.  Attributes carry the object they belong to: `land`, `vert` or `lat`.
-/

namespace WG

/-- The arguments of the call of `savestate` after the date, in order: /repo/run_watergap.py:346-392. -/
def saveArgs : List String :=
  ["land.current_landareafrac", "land.previous_landareafrac", "land.landareafrac_ratio",
   "land.previous_swb_frac", "land.glores_frac_prevyear", "land.gloresfrac_change",
   "land.init_landfrac_res_flag", "land.landwaterfrac_excl_glolake_res", "land.land_and_water_freq_flag",
   "land.water_freq", "land.land_freq", "land.updated_loclake_frac", "vert.lai_days",
   "vert.cum_precipitation", "vert.growth_status", "vert.canopy_storage", "vert.snow_water_storage",
   "vert.snow_water_storage_subgrid", "vert.soil_water_content", "vert.daily_storage_transfer",
   "lat.groundwater_storage", "lat.loclake_storage", "lat.locwet_storage", "lat.glolake_storage",
   "lat.glowet_storage", "lat.river_storage", "lat.glores_storage", "lat.k_release",
   "lat.unsatisfied_potential_netabs_riparian", "lat.unsat_potnetabs_sw_from_demandcell",
   "lat.unsat_potnetabs_sw_to_supplycell", "lat.get_neighbouring_cells_map",
   "lat.accumulated_unsatisfied_potential_netabs_sw", "lat.daily_unsatisfied_pot_nas",
   "lat.prev_accumulated_unsatisfied_potential_netabs_sw", "lat.prev_potential_water_withdrawal_sw_irri",
   "lat.prev_potential_consumptive_use_sw_irri", "lat.set_res_storage_flag"]

/-- The parameters of `savestate` after the date, in order: /repo/model/utility/restart_watergap.py:47-68. -/
def saveParams : List String :=
  ["current_landarea_frac", "previous_landarea_frac", "landareafrac_ratio", "previous_swb_frac",
   "glores_frac_prevyear", "gloresfrac_change", "init_landfrac_res_flag", "landwaterfrac_excl_glolake_res",
   "land_and_water_freq_flag", "water_freq", "land_freq", "updated_loclake_frac", "lai_days_since_start",
   "lai_cum_precipitation", "lai_growth_status", "canopy_storage", "snow_storage", "snow_storage_subgrid",
   "soil_water_content", "daily_storage_transfer", "groundwater_storage", "loclake_storage",
   "locwet_storage", "glolake_storage", "glowet_storage", "river_storage", "glores_storage", "k_release",
   "unsatisfied_potential_netabs_riparian", "unsat_potnetabs_sw_from_demandcell",
   "unsat_potnetabs_sw_to_supplycell", "neighbouring_cells_map",
   "accumulated_unsatisfied_potential_netabs_sw", "daily_unsatisfied_pot_nas",
   "prev_accumulated_unsatisfied_potential_netabs_sw", "prev_potential_water_withdrawal_sw_irri",
   "prev_potential_consumptive_use_sw_irri", "set_res_storage_flag"]

/-- The entries (dictionary, key, parameter) of the saved state:
/repo/model/utility/restart_watergap.py:170-226. -/
def saveDict : List (String × String × String) :=
  [("landfrac_state", "current_landareafrac", "current_landarea_frac"),
   ("landfrac_state", "previous_landareafrac", "previous_landarea_frac"),
   ("landfrac_state", "landareafrac_ratio", "landareafrac_ratio"),
   ("landfrac_state", "previous_swb_frac", "previous_swb_frac"),
   ("landfrac_state", "glores_frac_prevyear", "glores_frac_prevyear"),
   ("landfrac_state", "gloresfrac_change", "gloresfrac_change"),
   ("landfrac_state", "init_landfrac_res_flag", "init_landfrac_res_flag"),
   ("landfrac_state", "landwaterfrac_excl_glolake_res", "landwaterfrac_excl_glolake_res"),
   ("landfrac_state", "land_and_water_freq_flag", "land_and_water_freq_flag"),
   ("landfrac_state", "water_freq", "water_freq"), ("landfrac_state", "land_freq", "land_freq"),
   ("landfrac_state", "updated_loclake_frac", "updated_loclake_frac"),
   ("vert_bal_states", "lai_days_since_start", "lai_days_since_start"),
   ("vert_bal_states", "cum_precipitation", "lai_cum_precipitation"),
   ("vert_bal_states", "growth_status", "lai_growth_status"),
   ("vert_bal_states", "canopy_storage", "canopy_storage"),
   ("vert_bal_states", "snow_water_stor", "snow_storage"),
   ("vert_bal_states", "snow_water_storsubgrid", "snow_storage_subgrid"),
   ("vert_bal_states", "soil_water_content", "soil_water_content"),
   ("vert_bal_states", "daily_storage_transfer", "daily_storage_transfer"),
   ("lat_bal_states", "groundwater_storage", "groundwater_storage"),
   ("lat_bal_states", "loclake_storage", "loclake_storage"),
   ("lat_bal_states", "locwet_storage", "locwet_storage"),
   ("lat_bal_states", "glolake_storage", "glolake_storage"),
   ("lat_bal_states", "glowet_storage", "glowet_storage"),
   ("lat_bal_states", "river_storage", "river_storage"),
   ("lat_bal_states", "glores_storage", "glores_storage"), ("lat_bal_states", "k_release", "k_release"),
   ("lat_bal_states", "unsatisfied_potential_netabs_riparian", "unsatisfied_potential_netabs_riparian"),
   ("lat_bal_states", "unsat_potnetabs_sw_from_demandcell", "unsat_potnetabs_sw_from_demandcell"),
   ("lat_bal_states", "unsat_potnetabs_sw_to_supplycell", "unsat_potnetabs_sw_to_supplycell"),
   ("lat_bal_states", "neighbouring_cells_map", "neighbouring_cells_map"),
   ("lat_bal_states", "accumulated_unsatisfied_potential_netabs_sw", "accumulated_unsatisfied_potential_netabs_sw"),
   ("lat_bal_states", "daily_unsatisfied_pot_nas", "daily_unsatisfied_pot_nas"),
   ("lat_bal_states", "prev_accumulated_unsatisfied_potential_netabs_sw", "prev_accumulated_unsatisfied_potential_netabs_sw"),
   ("lat_bal_states", "prev_potential_water_withdrawal_sw_irri", "prev_potential_water_withdrawal_sw_irri"),
   ("lat_bal_states", "prev_potential_consumptive_use_sw_irri", "prev_potential_consumptive_use_sw_irri"),
   ("lat_bal_states", "set_res_storage_flag", "set_res_storage_flag")]

/-- The assignments (attribute, dictionary, key) of the three update functions:
/repo/model/land_surfacewater_fraction_init.py:418-429,
/repo/model/verticalwaterbalance/waterbalance_vertical_init.py:402-413,
/repo/model/lateralwaterbalance/waterbalance_lateral.py:992-1019, /repo/run_watergap.py:205-210. -/
def loadTable : List (String × String × String) :=
  [("land.current_landareafrac", "landfrac_state", "current_landareafrac"),
   ("land.previous_landareafrac", "landfrac_state", "previous_landareafrac"),
   ("land.landareafrac_ratio", "landfrac_state", "landareafrac_ratio"),
   ("land.previous_swb_frac", "landfrac_state", "previous_swb_frac"),
   ("land.glores_frac_prevyear", "landfrac_state", "glores_frac_prevyear"),
   ("land.gloresfrac_change", "landfrac_state", "gloresfrac_change"),
   ("land.init_landfrac_res_flag", "landfrac_state", "init_landfrac_res_flag"),
   ("land.landwaterfrac_excl_glolake_res", "landfrac_state", "landwaterfrac_excl_glolake_res"),
   ("land.land_and_water_freq_flag", "landfrac_state", "land_and_water_freq_flag"),
   ("land.water_freq", "landfrac_state", "water_freq"), ("land.land_freq", "landfrac_state", "land_freq"),
   ("land.updated_loclake_frac", "landfrac_state", "updated_loclake_frac"),
   ("vert.lai_days", "vert_bal_states", "lai_days_since_start"),
   ("vert.cum_precipitation", "vert_bal_states", "cum_precipitation"),
   ("vert.growth_status", "vert_bal_states", "growth_status"),
   ("vert.canopy_storage", "vert_bal_states", "canopy_storage"),
   ("vert.snow_water_storage", "vert_bal_states", "snow_water_stor"),
   ("vert.snow_water_storage_subgrid", "vert_bal_states", "snow_water_storsubgrid"),
   ("vert.soil_water_content", "vert_bal_states", "soil_water_content"),
   ("vert.daily_storage_transfer", "vert_bal_states", "daily_storage_transfer"),
   ("lat.groundwater_storage", "lat_bal_states", "groundwater_storage"),
   ("lat.loclake_storage", "lat_bal_states", "loclake_storage"),
   ("lat.locwet_storage", "lat_bal_states", "locwet_storage"),
   ("lat.glolake_storage", "lat_bal_states", "glolake_storage"),
   ("lat.glowet_storage", "lat_bal_states", "glowet_storage"),
   ("lat.river_storage", "lat_bal_states", "river_storage"),
   ("lat.glores_storage", "lat_bal_states", "glores_storage"),
   ("lat.k_release", "lat_bal_states", "k_release"),
   ("lat.unsatisfied_potential_netabs_riparian", "lat_bal_states", "unsatisfied_potential_netabs_riparian"),
   ("lat.unsat_potnetabs_sw_from_demandcell", "lat_bal_states", "unsat_potnetabs_sw_from_demandcell"),
   ("lat.unsat_potnetabs_sw_to_supplycell", "lat_bal_states", "unsat_potnetabs_sw_to_supplycell"),
   ("lat.get_neighbouring_cells_map", "lat_bal_states", "neighbouring_cells_map"),
   ("lat.accumulated_unsatisfied_potential_netabs_sw", "lat_bal_states", "accumulated_unsatisfied_potential_netabs_sw"),
   ("lat.daily_unsatisfied_pot_nas", "lat_bal_states", "daily_unsatisfied_pot_nas"),
   ("lat.prev_accumulated_unsatisfied_potential_netabs_sw", "lat_bal_states", "prev_accumulated_unsatisfied_potential_netabs_sw"),
   ("lat.prev_potential_water_withdrawal_sw_irri", "lat_bal_states", "prev_potential_water_withdrawal_sw_irri"),
   ("lat.prev_potential_consumptive_use_sw_irri", "lat_bal_states", "prev_potential_consumptive_use_sw_irri"),
   ("lat.set_res_storage_flag", "lat_bal_states", "set_res_storage_flag")]

end WG
