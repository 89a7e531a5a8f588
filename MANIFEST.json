{
 "claims": [
  {
   "property": "C01",
   "status": "proved",
   "theorems": [
    "WG.C01_canopy_balance",
    "WG.C01_canopy_no_land",
    "WG.C01_canopy_partition"
   ],
   "note": ""
  },
  {
   "property": "C02",
   "status": "proved",
   "theorems": [
    "WG.C02_canopy_bounds",
    "WG.C02_canopy_history"
   ],
   "note": ""
  },
  {
   "property": "C03",
   "status": "proved",
   "theorems": [
    "WG.C03_band_balance",
    "WG.C03_bandLoop_balance",
    "WG.C03_snow_balance",
    "WG.C03_snow_no_land"
   ],
   "note": ""
  },
  {
   "property": "C04",
   "status": "proved",
   "theorems": [
    "WG.C04_band_physical",
    "WG.C04_bandLoop_physical",
    "WG.C04_snow_bounds",
    "WG.C04_snow_cover",
    "WG.C04_snow_history"
   ],
   "note": ""
  },
  {
   "property": "C05",
   "status": "proved",
   "theorems": [
    "WG.C05_soil_bounds",
    "WG.C05_soil_history"
   ],
   "note": ""
  },
  {
   "property": "C06",
   "status": "proved",
   "theorems": [
    "WG.C06_runoff_split",
    "WG.C06_soil_equations",
    "WG.C06_immediate_runoff"
   ],
   "note": ""
  },
  {
   "property": "C07",
   "status": "proved",
   "theorems": [
    "WG.C07_soil_closure",
    "WG.C07_violated_cfa_above_one",
    "WG.C07_violated_no_soil_capacity",
    "WG.C07_column_balance",
    "WG.C07_longterm_balance"
   ],
   "note": ""
  },
  {
   "property": "C08",
   "status": "proved",
   "theorems": [
    "WG.C08_lai_step",
    "WG.C08_lai_history",
    "WG.C08_no_land_cover",
    "WG.C08_lai_smooth",
    "WG.C08_lai_smooth_history",
    "WG.C08_min_le_max",
    "WG.C08_shipped_table"
   ],
   "note": ""
  },
  {
   "property": "C09",
   "status": "proved",
   "theorems": [
    "WG.C09_pet_sign",
    "WG.C09_slope_is_derivative",
    "WG.C09_priestley_taylor",
    "WG.C09_pet_monotone",
    "WG.C09_net_radiation",
    "WG.C09_snow_cools",
    "WG.C09_range_needed",
    "WG.C09_cell_pet"
   ],
   "note": ""
  },
  {
   "property": "C10",
   "status": "proved",
   "theorems": [
    "WG.C10_groundwater_balance",
    "WG.C10_discharge_sign",
    "WG.C10_linear_reservoir",
    "WG.C10_history",
    "WG.C10_storage_can_be_negative"
   ],
   "note": ""
  },
  {
   "property": "C11",
   "status": "proved",
   "theorems": [
    "WG.C11_adaptation",
    "WG.C11_direction",
    "WG.C11_division_by_zero"
   ],
   "note": ""
  },
  {
   "property": "C12",
   "status": "proved",
   "theorems": [
    "WG.C12_fraction",
    "WG.C12_formula",
    "WG.C12_monotone"
   ],
   "note": ""
  },
  {
   "property": "C13",
   "status": "proved",
   "theorems": [
    "WG.C13_area",
    "WG.C13_lake_balance",
    "WG.C13_lake_fluxes",
    "WG.C13_losses",
    "WG.C13_local_outflow",
    "WG.C13_global_analytic",
    "WG.C13_evap_correction",
    "WG.C13_violated_negative_demand"
   ],
   "note": ""
  },
  {
   "property": "C14",
   "status": "proved",
   "theorems": [
    "WG.C14_lake_bounds",
    "WG.C14_local_wetland_bounds",
    "WG.C14_global_wetland_bounds",
    "WG.C14_global_wetland_exact",
    "WG.C14_global_wetland_recovers",
    "WG.C14_global_wetland_every_history",
    "WG.C14_no_division_by_zero",
    "WG.C14_division_by_zero_iff",
    "WG.C14_global_wetland_deep",
    "WG.C14_history",
    "WG.C14_global_wetland_history",
    "WG.C14_violated_global_wetland_negative",
    "WG.C14_violated_division_by_zero",
    "WG.C14_violated_negative_outflow"
   ],
   "note": ""
  },
  {
   "property": "C15",
   "status": "proved",
   "theorems": [
    "WG.C15_abstraction",
    "WG.C15_river_balance",
    "WG.C15_station_correction",
    "WG.C15_correction_breaks_balance",
    "WG.C15_history",
    "WG.C15_recession",
    "WG.C15_linear_reservoir"
   ],
   "note": ""
  },
  {
   "property": "C16",
   "status": "proved",
   "theorems": [
    "WG.C16_depth",
    "WG.C16_depth_monotone",
    "WG.C16_velocity_floor",
    "WG.C16_velocity_monotone",
    "WG.C16_geometry_positive",
    "WG.C16_bankfull_depth",
    "WG.C16_manning",
    "WG.C16_hydraulic_geometry"
   ],
   "note": ""
  },
  {
   "property": "C17",
   "status": "proved",
   "theorems": [
    "WG.C17_balance",
    "WG.C17_bounds",
    "WG.C17_abstraction",
    "WG.C17_evaporation_potential",
    "WG.C17_environmental_flow",
    "WG.C17_history"
   ],
   "note": ""
  },
  {
   "property": "C18",
   "status": "proved",
   "theorems": [
    "WG.C18_coefficient",
    "WG.C18_coefficient_history",
    "WG.C18_provisional",
    "WG.C18_yearly_mean",
    "WG.C18_release",
    "WG.C18_release_nonneg",
    "WG.C18_downstream_demand",
    "WG.C18_violated_coefficient_of_overfull_reservoir"
   ],
   "note": ""
  },
  {
   "property": "C19",
   "status": "proved",
   "theorems": [
    "WG.C19_frac_routing",
    "WG.C19_no_loss"
   ],
   "note": ""
  },
  {
   "property": "C20",
   "status": "proved",
   "theorems": [
    "WG.C20_aggregate",
    "WG.C20_total_demand",
    "WG.C20_every_unit",
    "WG.C20_violated_largest_unit"
   ],
   "note": ""
  },
  {
   "property": "C21",
   "status": "proved",
   "theorems": [
    "WG.C21_redistribute",
    "WG.C21_nothing_to_share",
    "WG.C21_own_first",
    "WG.C21_violated_answered_in_full",
    "WG.C21_violated_two_outflow_cells"
   ],
   "note": ""
  },
  {
   "property": "C22",
   "status": "proved",
   "theorems": [
    "WG.C22_local_lake",
    "WG.C22_fraction"
   ],
   "note": ""
  },
  {
   "property": "C23",
   "status": "proved",
   "theorems": [
    "WG.C23_best_neighbour",
    "WG.C23_last_day",
    "WG.C23_available"
   ],
   "note": ""
  },
  {
   "property": "C24",
   "status": "proved",
   "theorems": [
    "WG.C24_returned",
    "WG.C24_own_demand_first",
    "WG.C24_not_asked"
   ],
   "note": ""
  },
  {
   "property": "C25",
   "status": "proved",
   "theorems": [
    "WG.C25_cell_balance",
    "WG.C25_cell_balance_corrected",
    "WG.C25_demand",
    "WG.C25_unsat_nonneg",
    "WG.C25_exhausted",
    "WG.C25_coefficient",
    "WG.C25_state",
    "WG.C25_fluxes",
    "WG.C25_history",
    "WG.C25_longterm_balance"
   ],
   "note": ""
  },
  {
   "property": "C26",
   "status": "proved",
   "theorems": [
    "WG.C26_upstream",
    "WG.C26_upstream_cells",
    "WG.C26_no_loss",
    "WG.C26_basin_equals_global",
    "WG.C26_order_irrelevant",
    "WG.C26_violated_wrong_order",
    "WG.C26_violated_first_row",
    "WG.C26_basin_balance",
    "WG.C26_basin_state"
   ],
   "note": ""
  },
  {
   "property": "C27",
   "status": "proved",
   "theorems": [
    "WG.C27_vertical_grid",
    "WG.C27_vertical_counters",
    "WG.C27_vertical_order_irrelevant",
    "WG.C27_vertical_local"
   ],
   "note": ""
  },
  {
   "property": "C28",
   "status": "proved",
   "theorems": [
    "WG.C28_nonneg",
    "WG.C28_plain_history",
    "WG.C28_plain_sum",
    "WG.C28_reservoir_year",
    "WG.C28_reservoir_history",
    "WG.C28_violated_mid_year_start",
    "WG.C28_violated_shrinking_wetland",
    "WG.C28_start"
   ],
   "note": ""
  },
  {
   "property": "C29",
   "status": "proved",
   "theorems": [
    "WG.C29_rescale",
    "WG.C29_land_lost",
    "WG.C29_reservoir_year_volume",
    "WG.C29_reservoir_year_exact_iff",
    "WG.C29_violated_reservoir_year",
    "WG.C29_soil_no_land",
    "WG.C29_flush_exact",
    "WG.C29_vertical_no_land"
   ],
   "note": ""
  },
  {
   "property": "C30",
   "status": "proved",
   "theorems": [
    "WG.C30_calendar",
    "WG.C30_days_simulated",
    "WG.C30_year_length",
    "WG.C30_period_checked",
    "WG.C30_violated_negative_spinup",
    "WG.C30_violated_reversed_period"
   ],
   "note": ""
  },
  {
   "property": "C31",
   "status": "proved",
   "theorems": [
    "WG.C31_outputs",
    "WG.C31_nothing_in_spinup"
   ],
   "note": ""
  },
  {
   "property": "C32",
   "status": "proved",
   "theorems": [
    "WG.C32_daily_demand",
    "WG.C32_month_total",
    "WG.C32_violated_leap_february"
   ],
   "note": ""
  },
  {
   "property": "C33",
   "status": "proved",
   "theorems": [
    "WG.C33_basin_day",
    "WG.C33_history",
    "WG.C33_year_end",
    "WG.C33_daily_telescopes",
    "WG.C33_not_delayed",
    "WG.C33_violated_year_end",
    "WG.C33_violated_carry_without_delay",
    "WG.C33_with_demand",
    "WG.C33_daily_with_demand"
   ],
   "note": ""
  },
  {
   "property": "C34",
   "status": "proved",
   "theorems": [
    "WG.C34_roundtrip"
   ],
   "note": ""
  },
  {
   "property": "C35",
   "status": "proved",
   "theorems": [
    "WG.C35_split",
    "WG.C35_missing_file",
    "WG.C35_violated_reservoir_years",
    "WG.C35_violated_spinup"
   ],
   "note": ""
  },
  {
   "property": "C36",
   "status": "proved",
   "theorems": [
    "WG.C36_stops",
    "WG.C36_consistent",
    "WG.C36_reservoir_years",
    "WG.C36_violated_demand_switches"
   ],
   "note": ""
  },
  {
   "property": "C37",
   "status": "proved",
   "theorems": [
    "WG.C37_regulated_lake",
    "WG.C37_active",
    "WG.C37_not_before",
    "WG.C37_regulated_always",
    "WG.C37_area_conserved",
    "WG.C37_outside_range",
    "WG.C37_off",
    "WG.C37_first_day",
    "WG.C37_violated_no_inflow",
    "WG.C37_stranded"
   ],
   "note": ""
  },
  {
   "property": "C38",
   "status": "proved",
   "theorems": [
    "WG.C38_files",
    "WG.C38_each_date_once",
    "WG.C38_only_that_date",
    "WG.C38_violated_surplus_dates",
    "WG.C38_smax",
    "WG.C38_violated_smax",
    "WG.C38_names_distinct"
   ],
   "note": ""
  },
  {
   "property": "C39",
   "status": "proved",
   "theorems": [
    "WG.C39_units",
    "WG.C39_violated_river_velocity",
    "WG.C39_violated_netrad",
    "WG.C39_injective",
    "WG.C39_per_continental_area"
   ],
   "note": ""
  },
  {
   "property": "C40",
   "status": "proved",
   "theorems": [
    "WG.C40_closure",
    "WG.C40_mask",
    "WG.C40_global",
    "WG.C40_terminates",
    "WG.C40_violated_cycle",
    "WG.C40_unknown_station",
    "WG.C26_basin_equals_global"
   ],
   "note": ""
  },
  {
   "property": "C41",
   "status": "proved",
   "theorems": [
    "WG.C41_limits",
    "WG.C41_exact_before_limits",
    "WG.C41_direction",
    "WG.C41_violated_no_runoff"
   ],
   "note": ""
  },
  {
   "property": "C42",
   "status": "proved",
   "theorems": [
    "WG.C42_gamma_range",
    "WG.C42_bound",
    "WG.C42_ten_percent",
    "WG.C42_aim_between",
    "WG.C42_station_factor",
    "WG.C42_one_percent",
    "WG.C42_violated_status_one",
    "WG.C42_violated_not_best"
   ],
   "note": ""
  },
  {
   "property": "C43",
   "status": "proved",
   "theorems": [
    "WG.C43_years",
    "WG.C43_valid",
    "WG.C43_absent",
    "WG.C43_violated_preferred_period"
   ],
   "note": ""
  },
  {
   "property": "C44",
   "status": "proved",
   "theorems": [
    "WG.C44_start_of_dry_period",
    "WG.C44_longest",
    "WG.C44_exact_extent",
    "WG.C44_violated_three_periods",
    "WG.C44_violated_no_dry_month"
   ],
   "note": ""
  },
  {
   "property": "C45",
   "status": "proved",
   "theorems": [
    "WG.C45_units",
    "WG.C45_partition",
    "WG.C45_new_station",
    "WG.C45_violated_second_time"
   ],
   "note": ""
  },
  {
   "property": "C46",
   "status": "proved",
   "theorems": [
    "WG.C46_factor",
    "WG.C46_violated_nan",
    "WG.C46_order_independent",
    "WG.C46_gamma"
   ],
   "note": ""
  },
  {
   "property": "C47",
   "status": "proved",
   "theorems": [
    "WG.C47_kept",
    "WG.C47_on",
    "WG.C47_off",
    "WG.C47_shape",
    "WG.C47_substring_rule",
    "WG.C47_violated_restart"
   ],
   "note": ""
  },
  {
   "property": "C48",
   "status": "proved",
   "theorems": [
    "WG.C48_negative_rejected",
    "WG.C48_units",
    "WG.C48_run_units",
    "WG.C48_unknown_units_refused",
    "WG.C48_violated_unit_spelling",
    "WG.C48_violated_other_quantity"
   ],
   "note": ""
  },
  {
   "property": "C49",
   "status": "proved",
   "theorems": [
    "WG.C49_k_range",
    "WG.C49_output",
    "WG.C49_constant_flow",
    "WG.C49_arithmetic",
    "WG.C49_logarithmic",
    "WG.C49_violated_unit_mean",
    "WG.C49_nodes"
   ],
   "note": ""
  },
  {
   "property": "C50",
   "status": "proved",
   "theorems": [
    "WG.C50_cell_day",
    "WG.C50_cell_no_gain",
    "WG.C50_violated_vanishing_land",
    "WG.C50_cell_state",
    "WG.C50_tool",
    "WG.C50_tool_no_gain",
    "WG.C50_violated_incomplete_period",
    "WG.C50_units",
    "WG.C50_simulation",
    "WG.C50_simulation_no_gain",
    "WG.C50_ocean",
    "WG.C50_violated_inland_sink",
    "WG.C50_neighbours",
    "WG.C50_neighbours_no_gain",
    "WG.C50_with_demand",
    "WG.C50_with_demand_no_gain"
   ],
   "note": ""
  },
  {
   "property": "C51",
   "status": "proved",
   "theorems": [
    "WG.C51_limiter",
    "WG.C51_limiter_violated_below_sea_level",
    "WG.C51_limiter_violated_at_sea_level"
   ],
   "note": ""
  },
  {
   "property": "C52",
   "status": "proved",
   "theorems": [
    "WG.C52_frozen_cell_passes_no_water"
   ],
   "note": ""
  },
  {
   "property": "C53",
   "status": "proved",
   "theorems": [
    "WG.C53_no_water_from_nothing"
   ],
   "note": ""
  },
  {
   "property": "C54",
   "status": "proved",
   "theorems": [
    "WG.C54_simulation_states",
    "WG.C54_neighbours",
    "WG.C54_vertical_step",
    "WG.C54_vertical_history",
    "WG.C54_with_demand"
   ],
   "note": ""
  },
  {
   "property": "C55",
   "status": "proved",
   "theorems": [
    "WG.C55_evaporation_bound",
    "WG.C55_violated_evaporation_exceeds_potential"
   ],
   "note": ""
  },
  {
   "property": "C56",
   "status": "proved",
   "theorems": [
    "WG.C56_calibrated",
    "WG.C56_estimated",
    "WG.C56_range"
   ],
   "note": ""
  },
  {
   "property": "C57",
   "status": "proved",
   "theorems": [
    "WG.C57_cover"
   ],
   "note": ""
  },
  {
   "property": "C58",
   "status": "proved",
   "theorems": [
    "WG.C58_years",
    "WG.C58_simulation",
    "WG.C58_history",
    "WG.C58_year_end",
    "WG.C58_water_balance",
    "WG.C58_violated_no_delay_shore",
    "WG.C58_turn",
    "WG.C58_violated_first_column"
   ],
   "note": ""
  },
  {
   "property": "C59",
   "status": "proved",
   "theorems": [
    "WG.C59_simulation",
    "WG.C59_told",
    "WG.C59_told_once",
    "WG.C59_known",
    "WG.C59_no_delay"
   ],
   "note": ""
  },
  {
   "property": "C60",
   "status": "proved",
   "theorems": [
    "WG.C60_shares",
    "WG.C60_first_year",
    "WG.C60_later_years",
    "WG.C60_cases",
    "WG.C60_fits",
    "WG.C60_between",
    "WG.C60_output",
    "WG.C60_own_year",
    "WG.C60_violated_overfull"
   ],
   "note": ""
  },
  {
   "property": "C61",
   "status": "proved",
   "theorems": [
    "WG.C61_selected",
    "WG.C61_right_month",
    "WG.C61_daily",
    "WG.C61_violated_offset",
    "WG.C61_violated_mid_month"
   ],
   "note": ""
  },
  {
   "property": "C62",
   "status": "proved",
   "theorems": [
    "WG.C62_order",
    "WG.C62_result",
    "WG.C62_capacity",
    "WG.C62_progress",
    "WG.C62_upstream_first",
    "WG.C62_upstream_calibrated",
    "WG.C62_units",
    "WG.C62_violated_cluster",
    "WG.C62_basins",
    "WG.C62_violated_gap",
    "WG.C62_violated_stale_stations"
   ],
   "note": ""
  },
  {
   "property": "C63",
   "status": "proved",
   "theorems": [
    "WG.C63_simulation",
    "WG.C63_calibration",
    "WG.C63_violated_calibrated_file",
    "WG.C63_calibrated_name"
   ],
   "note": ""
  },
  {
   "property": "C64",
   "status": "proved",
   "theorems": [
    "WG.C64_years",
    "WG.C64_neighbour_years",
    "WG.C64_violated_neighbours",
    "WG.C64_neighbours",
    "WG.C64_basin_run",
    "WG.C64_station_basin",
    "WG.C64_violated_shore"
   ],
   "note": ""
  },
  {
   "property": "C65",
   "status": "proved",
   "theorems": [
    "WG.C65_canopy",
    "WG.C65_snow",
    "WG.C65_immediate",
    "WG.C65_soil",
    "WG.C65_land_run",
    "WG.C65_redfactor",
    "WG.C65_lake",
    "WG.C65_violated_lake_floor",
    "WG.C65_global_wetland",
    "WG.C65_new_fraction",
    "WG.C65_reservoir",
    "WG.C65_river",
    "WG.C65_groundwater",
    "WG.C65_exact_canopy",
    "WG.C65_exact_snow",
    "WG.C65_exact_soil",
    "WG.C65_exact_land",
    "WG.C65_exact_lake",
    "WG.C65_exact_reservoir",
    "WG.C65_exact_river",
    "WG.C65_exact_groundwater",
    "WG.C65_exact_ledger",
    "WG.C65_exact_with_demand",
    "WG.C65_whole_run_with_demand",
    "WG.C65_cell_day",
    "WG.C65_basin_day",
    "WG.C65_basin_run",
    "WG.C65_exact_simulation",
    "WG.C65_whole_run",
    "WG.C65_exact_year_start",
    "WG.C65_exact_years",
    "WG.C65_years",
    "WG.C65_exact_neighbours",
    "WG.C65_exact_neighbour_run",
    "WG.C65_neighbour_demand",
    "WG.C65_neighbour_day",
    "WG.C65_whole_run_with_neighbours",
    "WG.C65_exact_neighbour_years",
    "WG.C65_neighbour_years",
    "WG.C65_exact_vertical",
    "WG.C65_pet",
    "WG.C65_lai",
    "WG.C65_vertical_run"
   ],
   "note": ""
  },
  {
   "property": "C66",
   "status": "proved",
   "theorems": [
    "WG.C66_recharge_arid",
    "WG.C66_groundwater",
    "WG.C66_fluxes",
    "WG.C66_surface",
    "WG.C66_groundwater_series",
    "WG.C66_potential_runoff",
    "WG.C66_missing_body"
   ],
   "note": ""
  },
  {
   "property": "C67",
   "status": "proved",
   "theorems": [
    "WG.C67_canopy",
    "WG.C67_snow_band",
    "WG.C67_immediate",
    "WG.C67_groundwater",
    "WG.C67_groundwater_run",
    "WG.C67_local_lake",
    "WG.C67_local_lake_floor",
    "WG.C67_global_lake",
    "WG.C67_reservoir",
    "WG.C67_river",
    "WG.C67_soil",
    "WG.C67_basin_exact",
    "WG.C67_basin_day",
    "WG.C67_basin_run",
    "WG.C67_basin_sizes",
    "WG.C67_cell_exact",
    "WG.C67_lake_day",
    "WG.C67_reservoir_day",
    "WG.C67_cell_day",
    "WG.C67_cell_sizes",
    "WG.C67_cell_binary64",
    "WG.C67_frozen_cell",
    "WG.C67_snow",
    "WG.C67_land_day",
    "WG.C67_land_run",
    "WG.C67_land_year",
    "WG.C67_land_century",
    "WG.C67_network_exact",
    "WG.C67_network_inflow",
    "WG.C67_network_no_loss",
    "WG.C67_network_balance",
    "WG.C67_network_run",
    "WG.C67_network_violated_exact",
    "WG.C67_vertical_run"
   ],
   "note": "In the rounded cell and basin the answers of the release rule, the outflow constant of the river and the redistribution of demand are arbitrary functions; the sizes of all volumes are hypotheses (CellSize, BasinSize), proved to be met by every physical cell (C67_cell_sizes, C67_basin_sizes). Global wetlands with negative rounded outflow are excluded there. The land column is for an areal correction factor of one and, over several days, an unchanged land area; potential evapotranspiration and leaf area index are arbitrary machine numbers in C67_land_*, and those the code computes in C67_vertical_run, where the computed potential evapotranspiration is assumed to stay below its daily maximum."
  },
  {
   "property": "C68",
   "status": "proved",
   "theorems": [
    "WG.C68_month_volume",
    "WG.C68_missing_days",
    "WG.C68_calibration_use",
    "WG.C68_violated_leap_february",
    "WG.C68_no_land"
   ],
   "note": ""
  },
  {
   "property": "C69",
   "status": "proved",
   "theorems": [
    "WG.C69_unit_gamma",
    "WG.C69_region",
    "WG.C69_descriptor",
    "WG.C69_soil_descriptor",
    "WG.C69_violated_missing",
    "WG.C69_temperature",
    "WG.C69_temperature_column",
    "WG.C69_mean_temperature"
   ],
   "note": ""
  },
  {
   "property": "C70",
   "status": "proved",
   "theorems": [
    "WG.C70_unit_volume",
    "WG.C70_volume",
    "WG.C70_exact_iff",
    "WG.C70_cell",
    "WG.C70_target",
    "WG.C70_mono",
    "WG.C70_violated_last_unit"
   ],
   "note": ""
  },
  {
   "property": "C71",
   "status": "proved",
   "theorems": [
    "WG.C71_neighbours_new_year",
    "WG.C71_neighbours_cell",
    "WG.C71_neighbours_no_gain",
    "WG.C71_neighbours",
    "WG.C71_neighbours_year_total",
    "WG.C71_neighbours_exact",
    "WG.C71_neighbours_closes",
    "WG.C71_cell",
    "WG.C71_cell_no_gain",
    "WG.C71_simulation",
    "WG.C71_year_total",
    "WG.C71_exact",
    "WG.C71_closes",
    "WG.C71_violated_all_land",
    "WG.C71_first_day"
   ],
   "note": ""
  },
  {
   "property": "C72",
   "status": "proved",
   "theorems": [
    "WG.C72_compared",
    "WG.C72_perfect",
    "WG.C72_runoff",
    "WG.C72_runoff_complete",
    "WG.C72_violated_leap_years",
    "WG.C72_violated_inland_sink",
    "WG.C72_violated_gap_years"
   ],
   "note": ""
  },
  {
   "property": "C73",
   "status": "proved",
   "theorems": [
    "WG.C73_read",
    "WG.C73_step_A",
    "WG.C73_station",
    "WG.C73_made",
    "WG.C73_options",
    "WG.C73_outputs",
    "WG.C73_kept",
    "WG.C73_violated_restart"
   ],
   "note": ""
  },
  {
   "property": "C74",
   "status": "proved",
   "theorems": [
    "WG.C74_selected",
    "WG.C74_options",
    "WG.C74_saved",
    "WG.C74_continued",
    "WG.C74_violated_smax"
   ],
   "note": ""
  },
  {
   "property": "C75",
   "status": "proved",
   "theorems": [
    "WG.C75_routing",
    "WG.C75_no_loss",
    "WG.C75_upstream_table",
    "WG.C75_basin",
    "WG.C75_basin_run",
    "WG.C75_stations"
   ],
   "note": ""
  },
  {
   "property": "C76",
   "status": "proved",
   "theorems": [
    "WG.C76_own_class",
    "WG.C76_unknown_class",
    "WG.C76_shipped"
   ],
   "note": ""
  },
  {
   "property": "C77",
   "status": "proved",
   "theorems": [
    "WG.C77_unit",
    "WG.C77_order",
    "WG.C77_short",
    "WG.C77_reached",
    "WG.C77_violated_ephemeral",
    "WG.C77_violated_unit"
   ],
   "note": ""
  },
  {
   "property": "C78",
   "status": "proved",
   "theorems": [
    "WG.C78_simulation",
    "WG.C78_irrigation_iff",
    "WG.C78_irrigation_data",
    "WG.C78_release_iff",
    "WG.C78_activated",
    "WG.C78_violated_regulated_lake",
    "WG.C78_violated_irrigation",
    "WG.C78_redistribute",
    "WG.C78_allocate",
    "WG.C78_neighbours",
    "WG.C78_years",
    "WG.C78_neighbour_years",
    "WG.C78_rounded_lake",
    "WG.C78_violated_rounded_lake",
    "WG.C78_violated_rounded_lake_day"
   ],
   "note": ""
  },
  {
   "property": "C79",
   "status": "proved",
   "theorems": [
    "WG.C79_no_abstraction",
    "WG.C79_independent",
    "WG.C79_no_demand",
    "WG.C79_violated_restart"
   ],
   "note": "Model Natural (on top of Whole, without the neighbouring-cell option): the option subtract_use, the reading of water-use data and the withdrawals remembered from the day before. C79_violated_restart is the finding."
  },
  {
   "property": "C80",
   "status": "proved",
   "theorems": [
    "WG.C80_neighbours",
    "WG.C80_neighbours_records",
    "WG.C80_day",
    "WG.C80_runoff_is_discharge",
    "WG.C80_records",
    "WG.C80_station",
    "WG.C80_years",
    "WG.C80_records_years",
    "WG.C80_neighbour_years",
    "WG.C80_neighbour_records_years",
    "WG.C80_shipped"
   ],
   "note": "Stated in the units of the files. The only assumption about the network besides Sound is that inland sinks have no outflow cell; C80_shipped discharges both for the shipped data. C80_neighbours is the same with water supply from neighbouring cells."
  },
  {
   "property": "C81",
   "status": "proved",
   "theorems": [
    "WG.C81_directions",
    "WG.C81_units",
    "WG.C81_violated_several_outflow_cells",
    "WG.C81_violated_unit_assumption",
    "WG.C81_unit_assumption",
    "WG.C81_reservoirs"
   ],
   "note": "Literals read from the netCDF files by tools/gen_surface.py. C81_violated_several_outflow_cells and C81_violated_unit_assumption are the findings: the assumption UnitsOk of C33 and others fails for the shipped map at four units. Also seen with the tool but not formalised: in 34 cells the fractions of lakes, wetlands and land exceed the continental fraction by up to 3.2e-5 percentage points, in 67 they fill it exactly."
  },
  {
   "property": "C82",
   "status": "proved",
   "theorems": [
    "WG.C82_years_upstream_only",
    "WG.C82_neighbour_years_upstream_only",
    "WG.C82_with_neighbours",
    "WG.C82_neighbours_upstream_only",
    "WG.C82_violated_neighbour_order",
    "WG.C82_order_irrelevant",
    "WG.C82_without_use",
    "WG.C82_upstream_only",
    "WG.C82_violated_shore_order",
    "WG.C82_years",
    "WG.C82_neighbour_years"
   ],
   "note": "Exact equality in real arithmetic (the sums of inflows are commutative there; in floating point equal up to rounding, C67). Proved by commuting independent steps of the routing loop (Mazurkiewicz traces). C82_violated_shore_order and C82_violated_neighbour_order are the findings. C82_with_neighbours is the case with the neighbouring-cell option: the tables must also agree on the order of any two cells of which one may ask the other."
  },
  {
   "property": "C83",
   "status": "proved",
   "theorems": [
    "WG.C83_nobody_asks",
    "WG.C83_everybody_served",
    "WG.C83_no_demand",
    "WG.C83_no_neighbours",
    "WG.C83_years",
    "WG.C83_years_no_neighbours"
   ],
   "note": "States compared: storages of columns and of the lateral balance, land fractions, accumulated, previous and daily unsatisfied demand, demand handed to shore cells (NbSim.Off); the records of every day are equal. 'Asks' is read off the map of neighbours at the end of the day (NobodyAsks)."
  },
  {
   "property": "C84",
   "status": "proved",
   "theorems": [
    "WG.C84_lake_wetland",
    "WG.C84_reservoir",
    "WG.C84_river",
    "WG.C84_cell",
    "WG.C84_network",
    "WG.C84_violated_guard",
    "WG.C84_violated_next_day"
   ],
   "note": "Hypotheses beside physical inputs (CellIn.Regular, HanIn.Forward): station and river corrections, wetland exponents and mean reservoir inflow are not negative, and on the first day of an operational year the provisional release is not negative. The storages are the same in both versions of the day. In C84_network the small-volume guard must not matter in the drier version (RiverGuardIrrelevant: water left in the river, or nothing flows out, or demand left); C84_river and C84_cell give the bound corr*minV without that hypothesis."
  },
  {
   "property": "C85",
   "status": "proved",
   "theorems": [
    "WG.C85_land",
    "WG.C85_violated_critical_precipitation",
    "WG.C85_violated_growing_season",
    "WG.C85_violated_correction_above_one"
   ],
   "note": "Hypotheses beside physical inputs: the cell has land and soil, correction factor at most 1, the extra rain does not start the growing season; each of the last two, and the critical precipitation for the surface runoff alone, shown necessary by a violated theorem."
  },
  {
   "property": "C86",
   "status": "proved",
   "theorems": [
    "WG.C86_more_rain_more_discharge",
    "WG.C86_violated_critical_precipitation"
   ],
   "note": "For the simulation over the whole network (C64 carries it to basins), without the neighbouring-cell option. GoodCell, FullOk and WeatherOk are the sensible cells, states and weather of C50/C54; the states of every later day of a simulation meet them (C54_with_demand)."
  },
  {
   "property": "C87",
   "status": "proved",
   "theorems": [
    "WG.C87_files",
    "WG.C87_handover",
    "WG.C87_violated_folder"
   ],
   "note": "Folders are compared by name, as if written the same way in the configuration. The contents of the files are those of C61 and C68."
  },
  {
   "property": "C88",
   "status": "proved",
   "theorems": [
    "WG.C88_mean",
    "WG.C88_determined",
    "WG.C88_recovered",
    "WG.C88_exists",
    "WG.C88_violated_span",
    "WG.C88_units"
   ],
   "note": "The regression is a library routine, modelled by its specification: any minimiser of the sum of squares. The descriptors of C69 are arbitrary here."
  },
  {
   "property": "C89",
   "status": "proved",
   "theorems": [
    "WG.C89_difference",
    "WG.C89_forgetting",
    "WG.C89_forgetting_recharge",
    "WG.C89_equilibrium",
    "WG.C89_violated_depletion"
   ],
   "note": "For the groundwater of one cell with given net inflow; in a simulation the inflow itself may depend on the state through water use and the area of water bodies."
  },
  {
   "property": "C90",
   "status": "proved",
   "theorems": [
    "WG.C90_every_reservoir",
    "WG.C90_shipped",
    "WG.C90_longest",
    "WG.C90_violated_shipped",
    "WG.C90_recomputed",
    "WG.C90_era5",
    "WG.C90_violated_w5e5"
   ],
   "note": "The shipped numbers are read by tools/gen_startmonth.py (and compared after writing); xarray's combination of files is not modelled beyond the number of files with the variable."
  },
  {
   "property": "C91",
   "status": "proved",
   "theorems": [
    "WG.C91_fractions",
    "WG.C91_violated_tight",
    "WG.C91_parameters",
    "WG.C91_column",
    "WG.C91_cell",
    "WG.C91_land_stays",
    "WG.C91_violated_flooded",
    "WG.C91_exists",
    "WG.C91_simulation",
    "WG.C91_simulation_met"
   ],
   "note": "The shipped numbers are read by tools/gen_params.py (and compared after writing). Elevations and the amounts of reservoir capacities are not shipped or not used; the constants of the whole globe in the parameter file are only asked to be sensible (signs). In the simulation theorem weather within the daily limit, global wetlands that do not run dry within a day and no lake or reservoir in the four units of C81 with several outflow cells remain hypotheses."
  },
  {
   "property": "C92",
   "status": "proved",
   "theorems": [
    "WG.C92_annual",
    "WG.C92_monthly",
    "WG.C92_supplied",
    "WG.C92_violated_before_operation",
    "WG.C92_violated_exists"
   ],
   "note": "The shipped numbers are read by tools/gen_alloc.py and gen_surface.py (and compared after writing). Reservoirs with mean annual inflow zero (global lakes for the code) are any of the five rows idleRows, which the tool finds in the two shipped inflow files."
  },
  {
   "property": "C93",
   "status": "proved",
   "theorems": [
    "WG.C93_after_interruptions",
    "WG.C93_never_lost",
    "WG.C93_same_file",
    "WG.C93_merge",
    "WG.C93_start",
    "WG.C93_pattern",
    "WG.C93_start_keeps",
    "WG.C93_replace",
    "WG.C93_violated_no_source",
    "WG.C93_violated_interrupted",
    "WG.C93_violated_window",
    "WG.C93_violated_stale_temp",
    "WG.C93_violated_name",
    "WG.C93_violated_shipped_name",
    "WG.C93_violated_other_version"
   ],
   "note": "A folder is a list of names with their content (none: the file exists but is not complete); each operation of the file system is one step and a crash may come after any of them. The order of listing is the order of the list; what a change does to the parameters is an arbitrary function."
  },
  {
   "property": "C94",
   "status": "proved",
   "theorems": [
    "WG.C94_order_of_writers",
    "WG.C94_repeated",
    "WG.C94_can_be_repeated",
    "WG.C94_at_every_moment",
    "WG.C94_earlier_years",
    "WG.C94_complete",
    "WG.C94_in_pieces",
    "WG.C94_pieces_possible",
    "WG.C94_violated_states_lost",
    "WG.C94_violated_mixed",
    "WG.C94_violated_write_error"
   ],
   "note": "A step of a writer is opening a file (its old content is lost) or finishing it; smax.nc, which is written every year, is excluded where stated. As in C35 the pieces need reservoir years that cover their starts, and forcing data that reach the end of the last year. The outputs are those of one grid cell, as in C74."
  },
  {
   "property": "C95",
   "status": "proved",
   "theorems": [
    "WG.C95_outflows",
    "WG.C95_pairs",
    "WG.C95_not_upstream",
    "WG.C95_best",
    "WG.C95_geography",
    "WG.C95_violated_date_line",
    "WG.C95_column_order"
   ],
   "note": "The literals are those of the file (tools/gen_neighbours.py reads them back). The table of the neighbours themselves, neigbouringcells_latlon.csv, is not in the repository; the theorems assume that it lists the routed neighbours in the order of the shipped table, which C95_column_order shows to be the only possible one."
  },
  {
   "property": "C96",
   "status": "proved",
   "theorems": [
    "WG.C96_same_table",
    "WG.C96_basin_run",
    "WG.C96_upstream_only",
    "WG.C96_continued",
    "WG.C96_violated_tributaries",
    "WG.C96_neighbour_basin_run",
    "WG.C96_neighbour_upstream_only",
    "WG.C96_neighbour_continued",
    "WG.C96_neighbour_years_basin_run",
    "WG.C96_years_same_table",
    "WG.C96_years_basin_run",
    "WG.C96_exact_years"
   ],
   "note": "The arithmetic is a parameter without any assumption. The bits are those of the operations in the order of the source (no fused multiply-add); the release rule and the outflow constant of rivers are any functions. With the neighbouring-cell option the independence of a basin and the continuation of a run are proved (C96_neighbour_*), not the agreement of two tables. The tot of the year theorems, which adds up the water lost in a unit, is any function. C96_violated_tributaries is about the routing loop with given streamflows."
  }
 ]
}