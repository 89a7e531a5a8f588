#!/usr/bin/env python3
"""Generates /verif/properties.jsonl (kept as a script so that the list stays editable)."""
import json, os
P = []
def p(title, statement, quantifier, why, *anchors):
    P.append(dict(id="C%02d" % (len(P)+1), title=title, statement=statement,
                  quantifier=quantifier, why_tests_cant=why, anchors=list(anchors)))
V="model/verticalwaterbalance/"; L="model/lateralwaterbalance/"

p("Canopy keeps every drop of precipitation",
  "canopy_water_balance on a cell with land: the (area-rescaled) canopy storage before the day plus precipitation equals the returned canopy storage plus the returned throughfall plus the returned canopy evaporation; on a cell whose land fraction is 0 the whole previous storage is handed back as the daily storage transfer and the storage becomes 0.",
  "every storage, LAI, PET, precipitation, land-fraction ratio and parameter value",
  "a conservation law over a continuum of real inputs and several branches; tests compare a few numbers to a tolerance",
  V+"canopy.py:canopy_water_balance")
p("Canopy storage and evaporation stay in their physical range",
  "For non-negative inputs the returned canopy storage is between 0 and max_canopy_storage_coefficient*LAI, the canopy evaporation is between 0 and both PET and the intercepted water, throughfall is non-negative, and canopy evaporation plus the PET passed to the soil equals the PET; hence along any sequence of days the storage never leaves [0, coefficient*LAI].",
  "every day and every history of days (PET, precipitation, LAI sequences)",
  "must hold after arbitrarily long histories",
  V+"canopy.py:canopy_water_balance")
p("Snow keeps every drop in each elevation band",
  "In every sub-grid elevation band of snow_water_balance the throughfall equals the change of snow water storage plus sublimation plus the effective precipitation (rain or melt, including the water released above the 1000 mm limit) of that band, and the cell means inherit this balance; with no land the mean snow storage goes to the daily storage transfer and all bands are emptied.",
  "every band, temperature, elevation, snow storage, throughfall and parameter value",
  "conservation over a continuum and an unbounded number of elevation bands",
  V+"snow.py:snow_water_balance")
p("Snow fluxes are physical",
  "For non-negative inputs the snow storage, snowfall, melt, sublimation and effective precipitation are never negative, melt never exceeds the snow available, sublimation never exceeds the potential evapotranspiration left for it or the snow available, and the snow cover fraction lies in [0,1].",
  "every band count, input and history",
  "inequalities over a continuum and all histories",
  V+"snow.py:snow_water_balance")
p("Soil storage stays between 0 and its capacity",
  "For any history of days with non-negative effective precipitation and non-negative parameters the soil water content returned by soil_water_balance stays within [0, max_soil_water_content].",
  "every history of days and every parameter value",
  "invariant over unbounded histories with rpow nonlinearity",
  V+"soil.py:soil_water_balance")
p("Runoff is split without loss",
  "The returned surface runoff and diffuse groundwater recharge are non-negative, recharge never exceeds the daily (texture dependent) maximum recharge, in arid cells with coarse texture recharge is 0 when precipitation is at or below the critical precipitation, and surface runoff + recharge equals the (corrected) total runoff. On a soil that is not frozen, evaporation, runoff and recharge follow Eq. 17-19 of Müller Schmied et al. 2021.",
  "every soil state and parameter value",
  "case split over textures, climates and continuous inputs",
  V+"soil.py:soil_water_balance")
p("Land water balance: corrected runoff closes the balance",
  "The total runoff from land, the corrected land evapotranspiration and the change of canopy, snow and soil storage reported for the day add up to that day's precipitation, whatever the areal correction factor is.",
  "every day, every areal correction factor, every land cell",
  "equality over all continuous inputs through several branches",
  V+"soil.py:soil_water_balance")
p("Leaf area index stays between its seasonal bounds",
  "After any sequence of daily temperature and precipitation values, get_leaf_area_index returns a value between min_leaf_area_index and max_leaf_area_index, with a 0/1 growth status and non-negative counters.",
  "every finite sequence of daily weather, every vegetation parameter set with min <= max",
  "state machine with memory: needs induction over arbitrary histories",
  V+"lai.py:get_leaf_area_index", V+"lai_init.py:LeafAreaIndex")
p("Potential evapotranspiration is never negative",
  "Priestley-Taylor PET is 0 whenever net radiation is not positive and strictly positive otherwise, and grows with net radiation; it never produces a negative or undefined value for physically possible temperatures. It is the Priestley-Taylor equation with the latent heat, psychrometric constant and slope (derivative) of the Tetens vapour pressure curve, applied to land net radiation for land PET and open-water net radiation for open-water PET.",
  "every temperature (above -237.3 degC), radiation and land cover parameter",
  "sign and monotonicity over all real inputs",
  V+"radiation_evapotranspiration.py")
p("Groundwater balance is exact",
  "groundwater_balance: previous storage plus recharge minus net abstraction equals the new storage plus groundwater discharge, in humid and arid cells; discharge is never negative, and is 0 when the stored water would not be positive.",
  "every storage, recharge, abstraction (of either sign) and recession constant",
  "conservation over a continuum, including negative storages caused by over-abstraction",
  L+"groundwater.py:groundwater_balance")
p("Groundwater abstraction adapts in the right direction",
  "When surface-water demand from irrigation stays unsatisfied today, the adapted net abstraction from groundwater is not smaller than the potential one (less return flow); when earlier unsatisfied demand is satisfied today it is not larger; with nothing unsatisfied or no irrigation it is exactly the potential one.",
  "every demand, irrigation fraction and efficiency in [0,1]",
  "sign reasoning over a continuum with division",
  L+"groundwater_adapt_net_abstraction.py")
p("Storage reduction factor is a fraction",
  "swb_redfactor always returns a value in [0,1], equals 1 when the water body is full, and equals 0 when a lake is at minus its maximum storage / a wetland or reservoir is empty.",
  "every storage within the physical range, every exponent, every water-body kind",
  "clamping and powers over all real inputs",
  L+"storage_reduction_factor.py:swb_redfactor")
p("Lakes and wetlands conserve water",
  "For every lake and wetland kind the storage before the day plus inflow plus precipitation on its area equals the new storage plus outflow plus recharge to groundwater plus evaporation plus the water actually abstracted (for non-negative demand).",
  "every water-body kind, storage, inflow, PET, demand and parameter value",
  "exponential reservoir solution with several cut-offs; cannot be enumerated",
  L+"lakes_wetlands.py:lake_wetland_water_balance")
p("Lake and wetland storage stays in its physical range",
  "Global and local lake storage stays in [-max,max], local wetland storage in [0,max], global wetland storage is at most max and outflow of each is non-negative, for every history.",
  "every history of days",
  "invariant over unbounded histories",
  L+"lakes_wetlands.py:lake_wetland_water_balance")
p("River conserves water",
  "river_water_balance: previous storage plus inflow equals new storage plus streamflow plus the abstraction it reports as satisfied; storage and streamflow are never negative; the abstraction satisfied never exceeds the demand; unsatisfied demand is the exact remainder; while the demand can be served the storage is that of the linear reservoir dS/dt = q - d - kS after one day.",
  "every storage, inflow, outflow constant and demand",
  "exponential solution with negative-storage repair branch over a continuum",
  L+"river.py:river_water_balance")
p("River velocity and geometry are well defined",
  "river_velocity returns a velocity of at least 1e-5 m/s (so the outflow constant is positive and finite), a water depth that is non-negative and reproduces the stored volume in the trapezoidal bed, and bankfull initialisation yields positive widths, depths and storages.",
  "every non-negative storage and positive river parameter",
  "square roots and real powers; well-definedness over a continuum",
  L+"river.py:river_velocity", L+"river_init.py")
p("Reservoir storage stays between empty and full and balances",
  "reservoir_regulated_lake_water_balance: storage before the day plus inflow plus precipitation on its area equals storage after plus outflow plus recharge plus evaporation plus abstraction; storage never exceeds the capacity and never falls below zero; abstraction alone never draws the storage below 10 % of the capacity; outflow is never negative.",
  "every state, inflow, demand, release and history",
  "many branches over a continuum and histories",
  L+"reservoir_regulated_lakes.py:reservoir_regulated_lake_water_balance")
p("Reservoir release rule (Hanasaki) is well defined",
  "The release coefficient changes only on the first day of the operational year's start month, the provisional release of an irrigation reservoir is at least 10 % of the mean annual inflow when demand is smaller than half of it, the release is non-negative and interpolates between inflow and the storage-scaled release when the capacity ratio is below 0.5; at most five cells downstream are searched for demand and the search stops at the next reservoir or sink.",
  "every month, storage, demand map, routing map",
  "graph walk plus continuous case analysis",
  L+"reservoir_release_hanasaki.py:hanasaki_res_reslease")
p("Routing into surface water bodies loses nothing",
  "frac_routing splits runoff and groundwater discharge between surface water bodies and the river: the two parts sum to the total, both are non-negative, and in an inland sink everything goes to the surface water bodies.",
  "every runoff, discharge, area fraction, aridity class",
  "conservation over all branches",
  L+"routing_to_surface_water_bodies.py:frac_routing")
p("Aggregating demand at riparian cells preserves total demand",
  "aggregate_potnetabs moves the positive demand of all riparian cells of a lake/reservoir to its outflow cell: the global sum of demand is unchanged, negative demand (return flow) stays where it is, and cells without a water body unit keep their value; the input array is not modified.",
  "every grid, every assignment of unit ids with one outflow cell per unit",
  "sum over arbitrary grids",
  L+"aggregate_net_abstraction.py:aggregate_potnetabs")
p("Unsatisfied demand returned to riparian cells is conserved",
  "redistritute_to_riparian hands the unsatisfied demand at an outflow cell back to the riparian cells in proportion to their demand so that the sum over the riparian cells and the outflow cell is the demand that was unsatisfied.",
  "every unit, every demand vector with positive total",
  "sum over arbitrary sets of cells with division",
  L+"distribute_net_abstraction.py:redistritute_to_riparian")
p("Abstraction from local lakes is bounded and balanced",
  "abstract_from_local_lake: water taken from the lake plus demand left over equals the demand, and the lake is never drawn below minus its maximum storage; a satisfied demand leaves nothing.",
  "every storage and demand",
  "case split over a continuum",
  L+"local_lake_net_abstraction.py:abstract_from_local_lake")
p("The neighbouring supply cell is the best eligible one",
  "get_neighbouringcell returns a listed neighbour whose available river, lake and reservoir storage is maximal among the eligible neighbours (never one that drains directly into the demand cell), and reports no cell when none has water.",
  "every neighbour list, storage map and routing map",
  "argmax over arbitrary lists",
  L+"neighbouring_cell.py:get_neighbouringcell")
p("Demand passed to and returned by a neighbour is conserved",
  "For every supply cell the unsatisfied remainder handed back to its demand cells sums to the demand allocated to it minus what it delivered, shared in proportion to what each asked for.",
  "every set of demand cells",
  "sum over arbitrary sets with division",
  L+"neighbouring_cell.py:allocate_unsat_demand_to_demandcell")
p("Lateral water balance of one cell closes",
  "For one cell and one day, runoff, groundwater recharge, precipitation on open water and inflow from upstream minus evaporation from open water, abstractions and streamflow equals the change of groundwater, lake, wetland, reservoir and river storage (discharge correction factor 1).",
  "every state of the cell and every configuration of water bodies",
  "composition of up to seven components, each with branches",
  L+"routing.py:river_routing")
p("Routing network neither creates nor loses water",
  "If every cell is routed after all its upstream neighbours, the water leaving each cell is received the same day by its downstream cell, so that the storage change of the whole network equals total input minus evaporation, abstraction and outflow at the sinks and coastal cells.",
  "every acyclic drainage network with any number of cells",
  "induction over arbitrary networks",
  L+"routing.py:river_routing")
p("Cells outside the selected basin are untouched",
  "In the vertical and lateral loops a cell that is not in the selected basin keeps all its storages and produces no flux, and the result in a basin cell does not depend on values in cells outside of it (vertical balance).",
  "every grid and basin mask",
  "frame property over arbitrary grids",
  V+"waterbalance_vertical.py:vert_water_balance", L+"routing.py:river_routing")
p("Land area fraction is a valid fraction",
  "compute_landareafrac/update_landareafrac always return a land area fraction that is not negative, and with consistent static data not larger than the continental fraction; land and surface-water fractions add up to the continental fraction unless clamped at zero.",
  "every combination of lake, wetland, reservoir fractions and reduction factors",
  "continuous inputs and clamping branches",
  "model/land_surfacewater_fraction.py")
p("Rescaling storages to a changing land area preserves volume",
  "When the land area fraction changes between days, the canopy, snow and soil storages (in mm over land) are rescaled so that storage times area is unchanged, and when the land disappears the whole volume is handed to runoff.",
  "every pair of fractions and every storage",
  "needs exact algebra with zero-division branches",
  "model/land_surfacewater_fraction.py", V+"canopy.py", V+"snow.py", V+"soil.py")
p("The simulation visits every day exactly once, in order",
  "A run without restart simulates spinup_years times the calendar year of the start date from the start date on, then every day from start to end in order exactly once, and then stops.",
  "every start and end date and every non-negative number of spin-up years",
  "loop termination and counting over all dates, including leap years",
  "run_watergap.py:run")
p("Nothing of the spin-up reaches the outputs",
  "Daily outputs are recorded only for the days of the simulation period, each date exactly once, and never during spin-up; model states for restart are saved exactly once, at the end date.",
  "every run configuration",
  "property of a whole execution trace",
  "run_watergap.py:run", "view/data_output_handler.py")
p("Monthly water demand is spread over its month",
  "The monthly net abstraction is converted to a daily rate with the number of days of the month so that summing the daily demands over the days of that month gives back the monthly value.",
  "every year and month (leap years included)",
  "ranges over all calendar years",
  "controller/read_forcings_and_static.py", L+"waterbalance_lateral.py")
p("Delayed use: unsatisfied demand is carried, never duplicated, and dropped at year end",
  "With delayed use the demand of a day is that day's potential demand plus the accumulated unsatisfied demand of the previous days of the same year; the accumulated amount always equals total demand minus total satisfied abstraction since the last 31 December; without delayed use nothing is carried.",
  "every sequence of daily demands and supplies over any number of years",
  "telescoping over unbounded histories",
  L+"routing.py:river_routing", L+"waterbalance_lateral.py")
p("Saved states restore exactly",
  "Saving the model states at the end of a run and reading them in a restart run restores every storage, LAI and land-fraction state that was saved, field by field.",
  "every model state",
  "field-by-field round trip for all values",
  "model/utility/restart_watergap.py")
p("A restarted run continues exactly like an uninterrupted one",
  "Running to a date, saving and restarting for the remaining days gives the same states and outputs as one uninterrupted run, for every split point.",
  "every split point, every number of days, every forcing history",
  "hyperproperty over pairs of executions",
  "run_watergap.py:run", "model/utility/restart_watergap.py")
p("Configuration options are resolved consistently",
  "With ant=false all human-impact options are off; with ant=true at least one of water use and reservoirs is on or the program stops; a non-daily time step stops the program.",
  "every combination of options",
  "combinatorial decision logic",
  "controller/configuration_module.py")
p("Reservoirs become active in the years given",
  "Reservoirs whose start year is reached within the configured range are activated on 1 January of that year and stay active; when reservoirs are off, only regulated lakes exist, treated as global lakes.",
  "every start-year map and every range of years",
  "history property over years and cells",
  "model/land_surfacewater_fraction_init.py", "model/land_surfacewater_fraction.py", "controller/configuration_module.py")
p("Each day's output lands on its own date",
  "Writing a day's values changes only that date of the selected variables; after writing all the days of a year each date holds the value of that day; unselected variables are never written.",
  "every sequence of days and every selection of variables",
  "array-store semantics over all histories",
  "view/createandwrite.py", "view/data_output_handler.py")
p("Output unit conversion matches the declared unit",
  "Values written to disk are in the unit the variable's metadata declares: fluxes in kg m-2 s-1, storages in kg m-2, discharge in m3 s-1, velocity in m s-1; the conversion is invertible wherever the continental area is positive.",
  "every variable key, every value, every cell area",
  "table-driven conversion over all keys and values",
  "view/data_output_handler.py", "view/output_var_info.py")
p("Basin selection is exactly the upstream closure",
  "The basin selected for a set of stations consists of exactly the stations' cells and all the cells from which water flows to one of them; every other cell is masked out.",
  "every acyclic drainage map and station set",
  "reachability in arbitrary graphs",
  "model/utility/get_upstream_basin.py")
p("Calibrated areal correction factor is within limits and moves discharge the right way",
  "The areal correction factors written by calibration status 3 lie in [0.5,1.5] in all cells of the calibration unit, cells outside it keep their factor, and before clamping applying the factors to the mean cell runoff changes the sum of runoff by exactly the missing discharge.",
  "every runoff map, every discharge, every calibration unit",
  "sums over arbitrary cell sets",
  "calibration/find_gamma_cfa_cfs.py:calib_cs3")
p("Calibration statuses are decided consistently",
  "Gamma stays within [0.1,5]; if simulated discharge cannot be brought to the observed one at the bound, gamma is left at that bound and status is at least 2; status 2 means within 10 % of observed discharge; the station correction factor is written only when the adapted discharge differs by 1 % or more from the simulated one and then makes the simulated mean equal to the adapted observed mean.",
  "every pair of simulated and observed discharges at the probed gammas",
  "decision procedure over an arbitrary response function of the model",
  "calibration/find_gamma_cfa_cfs.py")
p("Observed discharge selection for calibration",
  "generate_river_dis_calib returns at most 30 years, in increasing order, without duplicates, each with a valid observed value, and returns 30 whenever at least 30 valid years exist in 1901-2018.",
  "every record of valid/NA years",
  "2^118 availability patterns",
  "calibration/create_discharge_data.py:generate_river_dis_calib")
p("Reservoir start month is the start of the longest dry season",
  "find_reservoir_start_month returns a month in 1..12 that starts the longest run of consecutive (cyclic) months whose mean inflow is below the annual mean, or 1 when there are no dry months.",
  "every 12-month inflow climatology",
  "all 4096 dry patterns and all values behind them",
  "misc/get_reservoir_start_month.py:find_reservoir_start_month")
p("Calibration units partition the nested basins",
  "The direct-upstream cells of successive stations are pairwise disjoint and together cover exactly the union of the station basins.",
  "every list of stations and basins",
  "set algebra over arbitrary lists",
  "calibration/find_gamma_cfa_cfs.py:get_direct_upstreamcells", "calibration/regionalization.py")
p("Merging regional parameters keeps every calibrated value",
  "merge_parameters gives each cell the calibrated correction factors of the region that calibrated it, 1 where no region did, independent of the order of the files when regions do not overlap, and gamma clipped to [0.1,5] except for explicitly corrected cells.",
  "every list of regional files",
  "order independence over permutations",
  "calibration/merge_parameters.py:merge_parameters")
p("Calibration step A rewrites only the switches it should",
  "update_config_values leaves protected entries (period, spin-up, paths, time step) unchanged at any nesting depth, sets the required switches to true and all the others to false.",
  "every nested configuration",
  "recursion over arbitrary JSON trees",
  "run_calibration.py:update_config_values")
p("Forcing unit conversion and input checks",
  "Precipitation and temperature are converted to mm/day and degrees Celsius/kelvin according to the declared unit, negative precipitation is rejected before the run, and a simulation period outside of the forcing period is rejected.",
  "every value and every declared unit",
  "input-validation over all values",
  "model/utility/units_conveter_check_neg_precip.py", "controller/read_forcings_and_static.py")
p("Bankfull flow lookup stays within the table",
  "The k value used for bankfull flow is the linear interpolation of the Pearson-III table: it equals the table value at the table's nodes and always lies between the table's smallest and largest value.",
  "every increasing table and every skewness",
  "interpolation over a continuum",
  "misc/bankfull_flow.py:get_k_value")
p("Global water balance script closes exactly",
  "The reported long-term volume balance error of the global water-balance script equals the mean over the years of precipitation minus net streamflow minus evapotranspiration minus storage change and is zero when each cell's daily balance closes with correction factor 1.",
  "every number of years, days, cells",
  "telescoping sum over time and space",
  "misc/global_water_balance/waterbalance_global.py")

# ---- properties added as the model grew --------------------------------------------------------
p("Snow accumulation limiter",
  "In snow_water_balance, with elevations above sea level and sorted upwards, every elevation band that holds more than 1000 mm of snow and lies above the first such band gets the temperature of the first such band; the first one and all bands below the limit keep their own temperature. (Finding: the limiter does not act when the first saturated band lies at or below sea level.)",
  "every number of bands, every elevation profile, every snow state",
  "a threshold carried through an unbounded loop over bands",
  V+"snow.py:snow_water_balance")
p("A frozen cell passes no water to the soil",
  "If the air temperature of the lowest elevation band is at or below freezing, the effective precipitation returned by snow_water_balance is zero; soil_water_balance, which ignores effective precipitation on such days, therefore loses nothing.",
  "every snow state, elevation profile, temperature and throughfall",
  "two modules that are safe only together, over a continuum and any number of bands",
  V+"snow.py:snow_water_balance", V+"soil.py:soil_water_balance")
p("No water from nothing on land",
  "With an areal correction factor of at most 1, the runoff, recharge and evapotranspiration of a day on land together never exceed the day's precipitation plus the water stored in canopy, snow and soil (plus storages below 1e-10 mm that are flushed).",
  "every day, land cell and parameter set",
  "inequality through four composed modules over a continuum",
  V+"waterbalance_vertical.py:vert_water_balance")
p("All states stay physical over any history",
  "Along every history of weather, land-area changes and demands canopy, snow in every band, soil, lakes, wetlands, reservoir and river storages of every cell stay within their physical ranges, the land area fraction is what the water bodies leave, and no flux on land is negative.",
  "every number of days, cells, elevation bands; every weather and demand history",
  "invariant of the composed daily step over unbounded histories",
  V+"waterbalance_vertical.py:vert_water_balance", L+"routing.py:river_routing", "model/land_surfacewater_fraction.py")
p("Evaporation of a day is limited by energy",
  "Canopy evaporation, sublimation and soil evaporation of one day are together at most twice the potential evapotranspiration, and at most the potential evapotranspiration when either nothing sublimates or the soil does not evaporate. (Finding: the limit by the potential evapotranspiration itself is violated in cells with frozen and unfrozen bands.)",
  "every day and state", "inequality over a continuum through three modules",
  V+"snow.py:snow_water_balance", V+"soil.py:soil_water_balance", V+"canopy.py:canopy_water_balance")
p("Regionalisation keeps calibrated runoff coefficients",
  "A cell of a calibration unit keeps the coefficient calibrated for the unit's station; every other cell gets the estimate of its super basin, limited to [0.1,5], the same for all such cells of the super basin; all coefficients are in [0.1,5] if the calibrated ones are.",
  "every set of stations, super basins and any regression function",
  "holds for every grid and every regression result", "calibration/regionalization.py")
p("Ten-year abstraction files cover the calibration period exactly",
  "The files of actual abstractions written for a calibration station cover the calibration years exactly: every year of the period is in one and only one file, and no file covers more than ten years or a year outside the period.",
  "every calibration period", "list partition for arbitrary lengths", "calibration/find_gamma_cfa_cfs.py")

p("Demand passed between neighbouring cells is neither lost nor counted twice",
  "With subtract_use and neighbouring_cell_supply on, with or without delayed_use, over any sequence of days and of years in which reservoirs start to operate: the surface-water demand of all cells and days, plus the demand open at the start (own, handed to riparian cells, waiting at supply cells), equals the water taken, plus the demand given up (on 31 December; without delayed_use at the end of every day, and when a neighbour gives yesterday's demand back), plus the demand open at the end; on 31 December nothing is left waiting at a neighbour. A cell at its turn serves its own demand first and then what neighbours asked of it, returns what it could not supply to those who asked in proportion, and passes what is left of its own demand to the listed neighbour with most water that does not drain into it. The water balance of the basin closes on every such day. (Findings: neighbours in the first row or column of the grid are never asked; when the supply cell answers with exactly zero an outflow cell shares its next unsatisfied demand wrongly, see C21; without delayed_use demand given back to an outflow cell is subtracted from the demand of its riparian cells.)",
  "every basin, routing order, neighbour list, demand data, weather, storages and sequence of days and years",
  "demand travels between cells over days in an order that depends on the data; only an invariant over the ledger of all cells and days shows that nothing gets lost",
  L+"routing.py:river_routing", L+"neighbouring_cell.py:allocate_unsat_demand_to_demandcell", L+"neighbouring_cell.py:get_neighbouringcell", L+"waterbalance_lateral.py:calculate")
p("Return flows follow the unsatisfied demand exactly once",
  "Without delayed use, the unsatisfied demand by which a cell's groundwater abstraction is adapted sums, over any days, to the demand the cell gave up. With neighbouring-cell supply and delayed use, within a year the unsatisfied surface-water demand by which a cell's groundwater abstraction is adapted sums, over any days, to the change of the cell's unsatisfied demand as known to the model, whether demand is answered on the same day, on the next day or never; at the end of each day the known value is the cell's unsatisfied demand, except while an answer from an upstream-ordered neighbour is pending, when its own account is empty.",
  "every basin, neighbour list and sequence of days of a year",
  "needs the history of pending and returned demand of every cell over arbitrary days; a missed or repeated correction shows up only in long sums",
  L+"routing.py:river_routing", L+"waterbalance_lateral.py:calculate", L+"groundwater.py:groundwater_balance")

p("Potential evapotranspiration written to the output",
  "The potential evapotranspiration written for a cell is the mean of that of land and of open water, weighted with shares that add up to the continental area of the cell; the water share is that of lakes and reservoirs, with local lakes at full extent from the first simulated day and, from each later 1 January on, as the day before left them, and with the reservoirs of the current year; it therefore never lies outside the two values if lakes and reservoirs fit into the continental area. (Finding: where the static data put more lakes into a cell than continental area it does.)",
  "every history of simulated days (spin-up included), every cell", "the share depends on the whole history since the last 1 January and is hidden state carried between days",
  "model/land_surfacewater_fraction_init.py:get_land_and_water_freq", "model/verticalwaterbalance/waterbalance_vertical_init.py:calculate", "run_watergap.py")

p("Water-use data are used in the month they are for",
  "With monthly water-use files without gaps that start with the month of their reference date, the demand of every simulated day is the value the file declares for the month of that day divided by the days of the month; a run that needs a month the file does not declare ends with an error. (Findings: the time values in the file are ignored, so a file that starts later than its reference date is used too early; a reference date in mid-month shifts all values by a month.)",
  "every file length, reference month, simulation period, spin-up and day", "tests use one file and one period; the rebuilt time axis must be right for every month",
  "controller/wateruse_handler.py:Wateruse", "model/lateralwaterbalance/waterbalance_lateral.py:calculate")

p("Parallel calibration does not depend on scheduling",
  "In calibration step B, for every number of threads and every interleaving of them, a station is started only after all stations of its basin that lie upstream of it have been calibrated, every listed station is calibrated exactly once, the pool always finishes, the parameter files are those a sequential calibration gives, and in local mode regionalisation starts only then; the calibration unit of a station consists of exactly the cells whose first station downstream it is. (Findings: in cluster mode regionalisation does not wait for the jobs; basins whose numbers leave a gap are not calibrated; a basin without stations keeps the list of the previous calibration.)",
  "every number of threads, every schedule, every set of basins, stations and river network", "thread interleavings cannot be enumerated by tests",
  "run_calibration.py:CalibrateStations", "run_calibration.py:main", "calibration/calibration_setup.py:reorder_calib_stations", "calibration/find_gamma_cfa_cfs.py:calibrate_parameters")

p("Reservoir data match the forcing",
  "A simulation whose parameter file is named ..._<forcing>.<extension> reads the reservoir start months and demands made for that forcing, and a calibration those of the forcing calibrated for; if there are none, the run ends before the first simulated day. (Finding: the file the calibration writes ends in _global_parameters.nc, so a simulation with it looks for a forcing called parameters and ends.)",
  "every name and directory of the parameter file, every set of reservoir data folders, every forcing", "the choice is made by splitting strings; tests use the shipped name only",
  "controller/staticdata_handler.py:StaticData", "run_calibration.py:main", "calibration/merge_parameters.py:merge_parameters")

p("A basin run gives the results of the global run",
  "A simulation restricted to the basin of stations gives in every cell of the basin, on every day, the same outputs, storages and unsatisfied demands as the simulation of all cells, with water use, delayed use, reservoirs and groundwater adaptation, whatever the data outside the basin, provided no cell of the basin lies on the shore of a lake or reservoir whose outflow cell is outside; the basins selected for stations contain every cell that drains into them. With water supply from neighbouring cells the same holds, including the demands passed on, if no cell is on the other side of the boundary of the basin than a neighbour it may ask. Over years in which reservoirs start to operate it holds if all cells of a lake or reservoir lie on one side of the boundary. (Findings: with such a shore cell its demand is asked of a cell that is not simulated and disappears; with the neighbouring-cell option a basin gives other results than the world, because its cells cannot ask the cells around it.)",
  "every world, river network, routing order, basin, forcing, demand and number of days and years", "compares two complete simulations over arbitrary histories; tests run one small basin",
  "model/utility/get_upstream_basin.py:SelectUpstreamBasin", L+"routing.py:river_routing", L+"waterbalance_lateral.py:calculate", "model/verticalwaterbalance/waterbalance_vertical.py:vert_water_balance", "run_watergap.py")

p("Physical ranges survive floating-point rounding",
  "With every arithmetic operation rounded (IEEE binary64, or any monotone symmetric rounding), on every day of every weather history canopy, snow-band and soil storages are non-negative, the soil holds at most its capacity, canopy storage at most its own, throughfall, evaporation, sublimation, melt, effective precipitation, surface runoff and recharge are non-negative, recharge is at most total runoff and snow cover and soil saturation are fractions, potential evapotranspiration is non-negative and the leaf area index stays between its minimum and maximum up to 7 roundings; local and global lakes and local wetlands never exceed their maximum and never have negative outflow, a reservoir stays between 0 and its capacity whatever the release rule asks for, streamflow, groundwater discharge and unsatisfied demand are non-negative. In a whole simulation, over any number of days, in any river network and with any weather, release rule and demand (delayed or not, and however reservoirs share it with the cells on their shores), all of this holds on every day in every cell at once: land column, water bodies, land-cover fractions for the next day (never negative, and for a lake or wetland never more than its full extent), streamflow and what is left of the demand. The same holds over any number of years in each of which reservoirs may start to operate or grow, taking land whose water goes to the reservoir of their unit. With water supply from neighbouring cells it holds as well, over any number of days and of such years, whichever neighbours are asked and whatever they give back, and what a cell keeps of its unsatisfied demand or passes on to a neighbour is never negative. Without rounding these routines, the whole simulated day and the start of a year are the ones the other properties are about. (Finding: by rounding a local lake can fall below minus its capacity.)",
  "every rounding, every input, every number of days and years",
  "the last bit of a result depends on the operands; a test sees a few of the 2^64 values, and clamps that only work in exact arithmetic fail rarely",
  "model/verticalwaterbalance/canopy.py:canopy_water_balance", "model/verticalwaterbalance/snow.py:snow_water_balance", "model/verticalwaterbalance/soil.py:soil_water_balance", L+"lakes_wetlands.py:lake_wetland_water_balance", L+"reservoir_regulated_lakes.py:reservoir_regulated_lake_water_balance", L+"river.py:river_water_balance", L+"groundwater.py:groundwater_balance")
p("Saved storages and fluxes of a cell fit together",
  "The results saved for a cell are consistent with each other: on every day groundwstor equals its value of the day before plus qr minus qg minus atotusegw, and over any number of days the change of groundwstor is the sum of the daily qr - qg - atotusegw; qtot - qg is the surface runoff handed over by the land part and qr - qrf its recharge; qrf is zero outside arid regions and in inland sinks; atotuse is atotusegw plus atotusesw; ncrun is dis minus the inflow from upstream, and in an inland sink, where dis is missing, minus the inflow; the saved lake, wetland, reservoir and river storages together change by qtot, precipitation on open water and inflow minus dis, open-water evaporation, qrf and atotusesw, up to the residual volume below which a reservoir is emptied; a body the cell does not have has outflow zero and a constant saved storage.",
  "All cells, all static inputs and forcings, all storages the model can hold, all numbers of days.",
  "Sums over arbitrary series with inputs of unbounded range; tests compare a few saved days.",
  L + "waterbalance_lateral.py:764-815,905-956", L + "routing.py", L + "groundwater_balance.py")

p("Water balances close up to rounding",
  "With every arithmetic operation rounded with relative error u (2^-53 in IEEE binary64) and underflow error e (2^-1075), and with volumes of at most M, the water of each storage routine is accounted for up to a fixed number of roundings u*M+e, plus, where the code sets a small residue to zero, that residue: canopy 5, a snow band 3, immediate runoff 1, soil without areal correction 140 (frozen ground receives exactly nothing), the snow routine with its means over n elevation bands 2n+7, groundwater 6 per day and therefore 6n over n days, local lake and wetland 36, global lake and wetland 48, reservoir or regulated lake 43, river 10 plus the underflow M*e (this bounds lost water always, and created water whenever the streamflow is positive). The land column of canopy, snow, built-up land and soil closes with 2n+185 roundings a day; over a year with up to two metres of rain a day that is 0.00002 mm, over 123 years 0.3 mm, without assuming anything on the later storages; the same holds of the whole vertical water balance with radiation, potential evapotranspiration and leaf area index computed in the same arithmetic. A local lake falls below minus its capacity by at most 17 roundings. Between cells: what a cell receives from upstream is the streamflow of the cells that drain to it up to 2 roundings for each of them, and over any number of days the balance of a basin closes up to the errors of its cells and 2 roundings per day and cell that drains to another. A whole cell - lakes, wetlands, reservoirs also on days on which the water does not suffice (52 and 57 roundings), groundwater, river, local lake tapped at last - accounts for its water, as the code reports it, up to 400 roundings, 30 underflows M*e and the residue of its reservoir, which for volumes up to 131072 km3 is 6 cubic metres a day; so does, with 402 roundings a cell, a river basin of such cells on any number of days (lost water always, created water when no river is dry). (Exactly, it does not: beside 1 km3 a stream of 2^-60 km3 is lost on its way to the next cell.)",
  "every rounding of the given accuracy, every input up to size M, for groundwater and the network every number of days, every sound routing order and whatever the cells do with the water",
  "rounding errors depend on the operands and their accumulation on the history; a test with a tolerance samples a few of them",
  "model/verticalwaterbalance/canopy.py:canopy_water_balance", "model/verticalwaterbalance/snow.py:snow_water_balance", "model/verticalwaterbalance/soil.py:soil_water_balance", L+"lakes_wetlands.py:lake_wetland_water_balance", L+"reservoir_regulated_lakes.py:reservoir_regulated_lake_water_balance", L+"river.py:river_water_balance", L+"groundwater.py:groundwater_balance", L+"routing.py:river_routing")

p("Calibration uses the abstractions of the standard run",
  "The monthly volumes written for calibration are exactly the volumes the standard run abstracted, converted back from the saved mm/s; in a calibration run of any period the demand of the days of a month adds up to the abstraction of that month in the standard run; a cell without continental area gets no value. (Finding: in the February of a leap year the calibration run takes 29/28 of it.)",
  "every cell, every series of daily abstractions, every pair of periods, every month",
  "round trip through two runs, unit conversions and calendars",
  "calibration/calibration_setup.py:copy_actual_net_abstraction", L+"waterbalance_lateral.py:calculate", "view/createandwrite.py:base_units")
p("Regionalisation: groups and descriptors of basins",
  "In the table of a region every cell belongs to the first station of the file whose basin contains it, or to none; its coefficient is the mean over that station's unit, within the range of the unit's coefficients, and the common value if they agree. The descriptor of a basin is the mean of its cells weighted with their areas and so between the smallest and the largest; the soil capacity is the mean over cells with soil only and zero without any; the temperature is the mean of 1971-2000 in degrees Celsius cut to hundredths towards zero, and a cell without temperature stops the conversion. (Finding: for the other descriptors a missing value counts as zero with the full area.)",
  "every set of stations, basins, cells, areas, descriptors and temperatures",
  "sums over arbitrary cell sets and orders of stations",
  "calibration/regionalization.py:get_arcid_gamma", "calibration/regionalization.py:regionalize_paramters", "calibration/regionalization.py:read_input_files", "calibration/convert_data_csv.py:convert_csv")

p("Water of land taken by a new reservoir goes to the reservoir of its unit",
  "On 1 January of a reservoir year adapt_glores_storage adds the canopy, snow and soil water of land that a new reservoir takes to the first cell (in grid order) of the unit that has reservoir area, and to no other cell; no storage ever decreases; for every set of units the storages gain exactly the water lost by served cells - cells of a unit with a reservoir whose number is neither the smallest nor the largest value of the assignment map (a cell without a number counts as the largest) - and no water disappears exactly when every cell that loses water is served. (Finding: if every cell of the map has a number, the unit with the largest number is skipped and its water disappears.)",
  "every grid, assignment of cells to units, reservoir areas, lost volumes and storages",
  "a loop over the distinct values of a map; every assignment and order of cells",
  "model/land_surfacewater_fraction_init.py:LandsurfacewaterFraction.adapt_glores_storage")

p("Water balance over years in which reservoirs come into operation",
  "Over any number of calendar years, with any weather and demand, in which reservoirs start to operate on 1 January (area, capacity and fraction change, land is taken, its water is handed over), the long-term error that the balance tool computes from the outputs is, up to flushed residues, minus what the year starts added: per cell the water its reservoir got minus the water its land lost, and the error of rescaling the remaining land's storages with the ratio of the day before; on the whole grid these add up to the rescaling errors minus the water of unserved cells. (Areal correction factors as in C50; in every cell whose land does not vanish under water, the years add no more storage than precipitation and the year starts bring.) If the land fraction of cells with a growing reservoir did not change overnight and all water lost has a reservoir to go to, the error is at most the flushed residues. The first day of a simulation meets the conditions. All this holds with water supply from neighbouring cells as well, whoever asks whom and whatever still waits at a neighbour when the year starts. (Findings: the ratio is not recomputed after the reservoir has taken land; a reservoir that takes all the land gets its water although the column hands the same water to the lateral balance.)",
  "every basin, number of years and days, weather, demand, reservoir fractions that do not shrink and fit into the land, with and without water supply from neighbouring cells",
  "histories of arbitrary length over all cells; an invariant across year boundaries",
  "run_watergap.py:run", "model/land_surfacewater_fraction_init.py:LandsurfacewaterFraction.landareafrac_with_reservior", "model/land_surfacewater_fraction_init.py:LandsurfacewaterFraction.adapt_glores_storage", "misc/global_water_balance/waterbalance_global.py")

p("Calibration compares simulated and observed discharge of the same years",
  "For every set of years with observations, a calibration run covers every day of every year used and starts and ends with such a year; the two discharges compared are the mean of the yearly volumes simulated in exactly these years and the mean of the observations as volumes of 365 days, missing days counting as zero - neither spin-up years, nor years without observations in between, nor left-over days of the output variable enter. A simulation whose mean discharge is the observed one in every year has a bias of the leap years' share of the discharge divided by 365, so at most 1/365, and ends the calibration with status 1. The runoff used for the areal correction factor is the mean of all years from first to last without a missing day. (Findings: a perfect simulation of a leap year has a bias of 1/365; with years without observations in between the factor misses the discharge aimed at in the years compared; a station in an inland sink, whose streamflow is saved as missing, is compared with zero.)",
  "every station file, every daily series of discharge and runoff, every number of spin-up years and every forcing period that covers the run",
  "round trip through set-up, run loop, output variable and table merge for arbitrary years",
  "calibration/calibration_setup.py:generate_config_and_discharge_for_station", "run_watergap.py:run", "calibration/find_gamma_cfa_cfs.py:OptimizationState.calib_cs1", "calibration/find_gamma_cfa_cfs.py:OptimizationState.calib_cs3")

p("Every station is calibrated with the settings calibration needs and otherwise those of the user",
  "Calibration rewrites the user's configuration file and derives one file per station from it. Whatever the user chose, a station run is anthropogenic with water use, reservoirs and delayed use, without neighbouring cells, runs in calibration mode for its basin from the first to the last year given with the basin's parameter file, and of the output variables exactly streamflow and potential cell runoff are on; time step, reservoir years, spin-up, input and output directories, station list, observations and forcing name are the user's; every setting not named in the set-up is that of the file it is made from; a file with the sections every run reads always yields a station file. The file of step A names the parameter file of step A and writes exactly the two abstractions and the soil capacity, with every human impact on. (Finding: the restart options of the user survive into every station run.)",
  "every configuration file (any nesting of entries in its sections), every station period and parameter path",
  "all configuration trees and every place in them, through two rewriting passes",
  "run_calibration.py:CalibrateStations.modify_config_file", "calibration/calibration_setup.py:generate_config_and_discharge_for_station", "controller/configuration_module.py")

p("Every selected output is saved with its own values, nothing else is touched",
  "A complete run whose configuration file has the four output sections raises no exception in its output, whatever is selected. For each option that is set, and no other, there is one file per calendar year named <output>_<date>.nc (maximum soil moisture: smax.nc) that holds on every day of the period in that year the quantity the option stands for, converted to the unit of the output; all other files keep their content, in particular those of an earlier run that ended before this one starts. (Finding: a continued run that contains no 1 January replaces smax.nc by zeros.)",
  "every configuration file with the four sections, every period covered by the forcing, every sequence of daily results, every previous content of the output directory",
  "the options select 2^48 sets of outputs, the content of each depends on every day of a multi-year run, and tests look at a few variables of short runs",
  "view/createandwrite.py:CreateandWritetoVariables", "view/data_output_handler.py:OutputVariable", "controller/configuration_module.py", "model/lateralwaterbalance/waterbalance_lateral.py", "model/verticalwaterbalance/waterbalance_vertical_init.py")

p("The shipped river network can be routed and cut into basins",
  "The tables of the river network shipped with the model fit together. Every cell of the routing order is routed once and before the cell it drains to; its outflow cell is one of its eight neighbours, is itself routed and does not lie in the first row or column; so whatever the cells do with their water, all streamflow enters a routed cell or leaves a cell without outflow cell. Every id 1..67420 belongs to one routed cell and its row in the table of upstream cells lists exactly the cells draining to it. For every list of stations at centres of routed cells the selection of the basin succeeds far below Python's recursion limit and selects exactly the cells whose water passes a station, and a run of that basin gives its cells the inflow and streamflow of the global run. All 1509 shipped stations are centres of routed cells.",
  "all 67420 rows of the shipped tables, every list of stations, every behaviour of the cells, every recursion limit of at least 128",
  "tests run a few cells or one basin; a single wrong row among 67420 loses the water of a whole basin or makes the selection of another basin fail",
  "input_data/static_input/routing_order.csv", "input_data/static_input/upstream_cells_for_grid_arcid.csv", "input_data/static_input/ArcID_GCRC_Lon_Lat.txt", "input_data/static_input/stations.csv", "model/utility/get_upstream_basin.py", "model/lateralwaterbalance/routing.py:river_routing", "controller/staticdata_handler.py")

p("Every cell gets the parameters of its own land cover class",
  "With a table that lists every land cover class once, the albedo, snow albedo, emissivity, leaf area limits, initial days, degree-day factor and rooting depth of a cell are those of its own class, its soil capacity is the available water capacity times the rooting depth of the class, and a cell without land cover or with a class that is not in the table gets NaN for all of them instead of the values of another class. With the shipped table every cell whose parameters are numbers has positive soil capacity and degree-day factor, ordered non-negative leaf area limits, albedos in [0,1) and emissivity in (0,1], i.e. meets what the guarantees on the land column assume about these parameters.",
  "every map of land cover classes and water capacities, every table without repeated class; all rows of the shipped table",
  "tests look at a few classes; a wrong column or a class taken for another is silent because every class gives plausible numbers",
  "model/verticalwaterbalance/waterbalance_vertical_init.py:VerticalWaterBalance.__init__", "model/verticalwaterbalance/lai_init.py:LeafAreaIndex", "input_data/static_input/canopy_snow_parameters.csv")

p("Bankfull flow does not depend on the unit or the order of the data",
  "The bankfull flow the tool computes from daily discharge scales with the unit of discharge, does not depend on the order of the years and is never larger than every daily discharge of the period; periods of one or two years end with an error. (Findings: if the product of the annual maxima is exactly 1 the result depends on the unit; a river that carries water in only one of eleven or more years gets no bankfull flow.)",
  "every period of complete years, every non-negative daily discharge, every unit factor",
  "an invariance under rescaling over a continuum, across a logarithmic and an arithmetic branch with a piecewise linear table",
  "misc/bankfull_flow.py", "misc/bankfull_flow.py:compute_skewness", "misc/bankfull_flow.py:compute_bankfull_flow")

p("A simulation day never divides by zero nor takes an undefined power or root",
  "In every run from physical data and an initial state in range, every division, every power and every square root of the daily water balances (radiation, canopy, snow, soil, groundwater, lakes, wetlands, reservoirs, release rule, river, distribution of demand to riparian and neighbouring cells) that the code reaches in any cell on any day has a non-zero denominator, a base with a real power, a non-negative radicand, so that no NaN, infinity or ZeroDivisionError arises; the results are those of the model of the other properties. This holds over any number of years in which reservoirs come into operation on 1 January, too. (This is in exact arithmetic. With rounding, lakes and wetlands within their limits divide by positive losses, too; finding: a local lake that rounding has put below minus its capacity divides by zero on the next day without inflow.) Two combinations of data are excluded, and exactly in them the code has no result: an irrigation reservoir without mean inflow and without mean annual demand (a reservoir in operation always has an inflow), and unsatisfied surface water demand in a cell whose irrigation withdrawal is positive while its factor of net groundwater abstraction is zero, which for sensible data means that nothing is consumed and nothing returned to groundwater. (Findings: a regulated lake before its first year of operation is not asked for an inflow; the irrigation efficiency of water that is withdrawn but not used divides by zero.)",
  "every network in routing order, every physical data set, every forcing, every number of days, every initial state in range",
  "a zero denominator needs a rare coincidence of storage, area and demand in one of 67420 cells on one day, and numba turns it into an error or a silent NaN; tests use harmless numbers",
  "model/lateralwaterbalance/routing.py:river_routing", "model/lateralwaterbalance/groundwater_adapt_net_abstraction.py", "model/lateralwaterbalance/reservoir_release_hanasaki.py", "model/lateralwaterbalance/waterbalance_lateral.py", "model/verticalwaterbalance/soil.py")

p("Without water use nothing is abstracted",
  "In a simulation with water use switched off nothing is abstracted from groundwater or surface water in any cell on any day, no demand is left over or handed to other cells, and evaporation has no part from water use; its records and storages do not depend on the water-use files, the delayed-use option or the lake units, and they are those of a simulation with water use whose files ask for nothing. (Finding: continued from the saved states of a simulation with water use, it abstracts groundwater on its first day where surface water demand was unsatisfied and irrigation withdrew more than it consumed; from the second day on it does not.)",
  "every weather, every water-use file, every network and basin, every number of days, every initial storage",
  "the absence of an influence of all demand data on all days; the arrays, the saved states and six guards in two modules would each have to be tested against every demand",
  "model/lateralwaterbalance/waterbalance_lateral.py:LateralWaterBalance.calculate", "model/lateralwaterbalance/waterbalance_lateral.py:LateralWaterBalance.update_latbal_for_restart", "model/lateralwaterbalance/routing.py:river_routing", "model/lateralwaterbalance/groundwater.py:groundwater_balance", "model/lateralwaterbalance/groundwater_adapt_net_abstraction.py")

p("Net cell runoff of a basin is the discharge at its outlet",
  "For every region that includes everything upstream of it, the net cell runoff written for its cells, multiplied by their continental areas, adds up on every day of a simulation to the discharge written for the cells where water leaves the region; for the basin of a gauging station this is the discharge at the station, on every day and over every period, with and without water supply from neighbouring cells, also over years in which reservoirs start to operate. The discharge written is that of the cell's daily water balance, and the net cell runoff is that discharge (0 in an inland sink) minus the inflow from upstream. It holds for every simulation with the shipped river network and the shipped map of inland sinks.",
  "every weather, demand and storage, every region closed upstream, every day and every period of every simulation",
  "an identity between two output files summed over any basin; a test can compare the files of one run on one basin",
  "model/lateralwaterbalance/routing.py:river_routing", "model/lateralwaterbalance/waterbalance_lateral.py:LateralWaterBalance.calculate", "view/createandwrite.py:CreateandWritetoVariables.base_units")

p("Shipped drainage map, lake units and reservoir data fit together",
  "On the shipped maps inland sinks and coastal cells have no outflow cell in the routing order and every other cell flows to its neighbour in the mapped direction; every lake and reservoir belongs to a unit, and every unit except five has exactly one outflow cell; a reservoir has a capacity, a known type and a start year exactly where it has an area. (Finding: four units, 734, 1858, 2288 and 2467, have two or three outflow cells, so that the assumption under which demands are conserved fails there; one, 2265, has none.)",
  "all 67420 cells of the shipped maps and all 2465 units",
  "relations between seven data files that the code assumes and never checks; they must hold for every cell for the other properties to apply",
  "input_data/static_input/soil_storage/watergap_22e_drainage_direction.nc", "input_data/static_input/watergap_22e_glwdunits.nc", "input_data/static_input/routing_order.csv", "controller/staticdata_handler.py:StaticData", "model/lateralwaterbalance/aggregate_net_abstraction.py:aggregate_potnetabs")

p("The order of the routing table does not matter, and neither does anything downstream",
  "Any two routing tables that list the same river network with upstream cells first, and each cell of a lake or reservoir on the same side of its outflow cell, give identical states and records on every day of a simulation of the world or a basin, also over years in which reservoirs start to operate; without water use any two tables that list upstream cells first do; with water supply from neighbouring cells they do if they also list any two cells of which one may ask the other in the same order. Simulations whose weather, data and initial states agree in a region closed upstream give identical results there, whatever happens elsewhere, also with water supply from neighbouring cells if the cells of the region have their neighbours in it. Over years in which reservoirs start to operate the same holds if the lakes and reservoirs of the region lie in it as a whole. (Finding: if the tables disagree on the side of a shore cell, the results differ: the demand a reservoir could not supply is asked of the shore cell on the same day or only later; likewise with neighbours: a neighbour that has its turn later serves the demand on the same day, one that had its turn before on the next.)",
  "every two topological orders of every network, every basin, every weather and demand, every number of days and years, every region closed upstream",
  "two runs have to be compared for every pair of the astronomically many topological orders and for every change of data outside a region; tests compare a few",
  "model/lateralwaterbalance/routing.py:river_routing", "model/lateralwaterbalance/distribute_net_abstraction.py:redistritute_to_riparian", "input_data/static_input/routing_order.csv", "run_watergap.py:run")

p("Water supply from neighbouring cells is an addition that acts only when a cell asks",
  "A simulation with neighbouring_cell_supply on gives on every day the outputs, storages and unsatisfied demands of the simulation with the option off, as long as no cell asks a neighbour; in particular if in the simulation without the option no cell is left with unsatisfied demand on any day, if there is no demand for surface water, or if the cells have no neighbours; also over years in which reservoirs start to operate.",
  "every network, neighbour list, weather, demand, initial storages and number of days and years", "compares two complete simulations with different code paths over arbitrary histories",
  L+"routing.py:river_routing", L+"neighbouring_cell.py:get_neighbouringcell", L+"neighbouring_cell.py:allocate_unsat_demand_to_demandcell", L+"waterbalance_lateral.py:calculate")

p("On any day more water or less demand never lowers the streamflow",
  "Of two versions of a day with the same storages everywhere, the one in which every cell receives at least as much rain on its open water, runoff and groundwater recharge, withdraws no more groundwater on balance, receives at least as much from upstream and is asked for no more surface water gives, in every cell of the network and at every outlet, at least the outflow of the other, apart from the rule that empties rivers with almost no water, and leaves no more demand unsatisfied; the same holds for every single lake, wetland, reservoir and river. It needs station and river corrections that are not negative and a mean reservoir inflow that is not negative. (Findings: the rule for small volumes makes the streamflow of a nearly dry river fall when it receives a little more; and over several days the claim is false: a reservoir that received more on the first day may release less on the second.)",
  "every network, every storage, every pair of ordered inputs and demands, every option of water use",
  "a comparison of two days for every ordered pair of inputs through about a dozen branches per water body and any number of cells; tests compare a few values",
  L+"routing.py:river_routing", L+"lakes_wetlands.py:lake_wetland_water_balance", L+"reservoir_regulated_lakes.py:reservoir_regulated_lake_water_balance", L+"reservoir_release_hanasaki.py:hanasaki_res_reslease", L+"river.py:river_water_balance", L+"groundwater.py:groundwater_balance")

p("On any day more rain never gives less water from the land",
  "Of two versions of a day of a cell with the same storages and the same temperature and radiation, the one with more precipitation has at least as much throughfall, canopy evaporation, snow melt, groundwater recharge and total runoff from land (surface runoff plus recharge), and leaves at least as much water on the leaves and in every snow band; the surface runoff and the soil water grow too unless the rain of an arid cell with coarse soil crosses the critical precipitation of recharge. It is assumed that the extra rain does not start the growing season (40 mm since the last one) and that the station correction factor is at most 1: with either, and for the surface runoff at the critical precipitation, more rain can give less runoff.",
  "every cell with land, every storage, every pair of ordered precipitations, every temperature and radiation, any number of snow bands",
  "a comparison of two days through canopy, snow bands, soil, recharge and correction, each with several branches; tests compare a few values",
  V+"canopy.py:canopy_water_balance", V+"snow.py:snow_water_balance", V+"soil.py:soil_water_balance", V+"soil.py:immediate_runoff", V+"lai.py:get_leaf_area_index", V+"waterbalance_vertical.py:calculate")

p("On any day more rain never lowers the discharge",
  "A day of the simulation with water use is run twice from the same storages, with the same temperature, radiation and demand; if the second time no cell has less precipitation, no cell has less discharge in the output, and no cell is left with more unsatisfied demand. Assumed as for the land and the network alone: the extra rain starts no growing season, carries no arid cell with coarse soil over the critical precipitation of recharge (there the discharge does fall), no areal correction factor is above 1 (see C85), and the guard on small volumes does not empty the drier river.",
  "every network, every state, every weather, demand and pair of ordered precipitation fields", "a comparison of two complete days for every ordered pair of rain fields; tests compare a few values",
  V+"waterbalance_vertical.py:calculate", L+"waterbalance_lateral.py:calculate", L+"routing.py:river_routing", "run_watergap.py")

p("Potential and actual water use do not mix",
  "Every file of the configured folder is read either as potential or as actual use, files elsewhere are not read. Whatever the folders contain, preparing the calibration leaves the files of potential use untouched, and a calibration run then reads exactly the actual use written last, nothing left over and nothing missing, provided the configured folder is the one it is written to. (Finding: with any other folder configured, a calibration run finds no actual use at all, and earlier files are not removed from the folder written to.)",
  "every contents of the folders, every calibration period, every configured folder", "a statement about all histories of the folders; tests start from one folder",
  "controller/wateruse_handler.py:Wateruse", "calibration/calibration_setup.py:cleanup_simulation_files", "calibration/calibration_setup.py:copy_actual_net_abstraction")

p("What the regionalisation's regression determines",
  "Whatever the calibrated basins and their descriptors, a least-squares solution exists; over the calibrated basins the estimated coefficients have the same geometric mean as the calibrated ones and the errors are uncorrelated with every descriptor; the estimates do not depend on the units of the descriptors; if the logarithm of the calibrated coefficients is an affine function of the descriptors it is recovered. The coefficient of a basin without station is determined by the data exactly when its descriptors are a weighted mean of those of calibrated basins; otherwise every value from 0.1 to 5 comes from some least-squares solution.",
  "every set of basins, every descriptors and calibrated coefficients, every least-squares solution the library may return", "a statement about all solutions of a minimisation over all data sets",
  "calibration/regionalization.py:regionalize_paramters")

p("How long the groundwater remembers its initial storage",
  "Two histories of a cell's groundwater with the same recharge and abstraction every day but different initial storages: the one that starts with more never holds less and never discharges less on any day, and the difference left plus all the differences of discharge is exactly the difference at the start, so an error in the initial storage is never amplified. While there is discharge (without net abstraction: always, once there is water) the difference shrinks by the factor exp(-k) every day; with constant recharge the storage approaches recharge over outflow coefficient from any start. (Finding: in a depleted cell whose abstraction exceeds its recharge the difference stays for ever; no spin-up removes it.)",
  "every outflow coefficient, pair of initial storages, number of days and sequence of recharge and abstraction", "a statement about pairs of histories of any length and about a limit",
  L+"groundwater.py:groundwater_balance", "run_watergap.py")

p("Recomputed start months of reservoirs are the ones the next run uses",
  "If only a file of the name that the tool gives to its result has start months among the files a run reads, then after the tool has been run the run finds exactly one set of start months, that of the tool; so it is with the shipped data for ERA5. For each of the 1267 reservoirs and regulated lakes of the shipped network the data of either forcing have exactly one entry; its start month is what the tool computes from the shipped inflows, it is a month from 1 to 12, and with the shipped data the operational year of every reservoir with inflow begins with its longest dry period, with one exception. (Findings: with W5E5 the reservoir at 32.75 N, 104.25 W gets October instead of March; the shipped start months for W5E5 are in a file of another name than the tool uses, so that after the tool has been run the run finds two sets.)",
  "every folder, path and result of the tool; every shipped reservoir and forcing", "the hand-over between tool and model depends on every file in the folder; the data are 1267 reservoirs with 13 inflows each",
  "misc/get_reservoir_start_month.py:save_start_month_netcdf", "controller/staticdata_handler.py:StaticData", "input_data/static_input/reservoir_regulated_lake")

p("The shipped static data and parameters satisfy what the water balance assumes",
  "In each of the 67420 routed cells the shipped fractions are not negative, the continent makes up more than nothing and at most 100 percent, the fraction of reservoirs does not shrink from year to year; gamma lies in [0.1,5], the areal correction factor in [0.5,1.5], the station factor is positive, and 1 in every inland sink, and either factor differs from 1 only where gamma is at an end of its range; the soil can hold water, built-up fractions and groundwater factors lie in [0,1], land cover classes are in the table, river lengths and cell areas are positive. In all cells but 34 the water bodies fit into the continent, with the reservoirs of any year and without. Hence a simulation of the shipped rivers with these data, of any set of cells without the 34, over any number of days and with its exchange of demand, keeps all storages physical, and creates no water in cells other than 11. (Findings: in 34 cells the water bodies exceed the continent, by up to 0.000032 percent of the cell; in 11 cells with an areal correction factor above one lakes and wetlands can flood all of the land, and water is created when they do.)",
  "every routed cell, every reservoir year, with and without reservoirs; every simulation of any number of days and of any set of the cells", "tens of thousands of cells, 125 years of reservoirs and arbitrary weather",
  "controller/staticdata_handler.py:StaticData", "model/parameters.py:Parameters", "model/land_surfacewater_fraction.py:compute_landareafrac", L+"waterbalance_lateral.py:LateralWaterBalance", "input_data/static_input", "model/WaterGAP_2.2e_global_parameters_gswp3_w5e5.nc")

p("The demand of a cell is divided among the reservoirs upstream, not counted several times",
  "With the shipped river network, reservoirs and allocation coefficients, the mean annual demands that the releases of any set of reservoirs follow add up, in every year, to at most the mean annual demand of all cells (to one millionth). From 2020 on, when all shipped reservoirs are in operation, the same holds for the monthly demands, and the demands of all reservoirs together are that of the cells that have a reservoir or lie within five cells below one, each counted once (to one millionth). In earlier years this fails for the monthly demand: in 2000 three irrigation reservoirs each follow the whole demand of one cell, because the coefficients were computed with all reservoirs while the walk downstream goes through cells whose reservoir is not yet in operation.",
  "every year, every demand that is not negative, every set of reservoirs", "the sums run over 67420 cells and all reservoirs, and hold for every field of demands; no example covers the shares of 3012 supplied cells",
  L+"reservoir_release_hanasaki.py:hanasaki_res_reslease", L+"waterbalance_lateral.py:LateralWaterBalance", "input_data/static_input/alloc_coeff_by_routorder.csv", "input_data/static_input/routing_order.csv")

p("The parameter file of a basin survives interruptions of the calibration",
  "Whatever earlier calibrations did in the folder of a basin, stopped at any file operation, a new calibration of the basin (set-up, then the changes) ends with exactly one readable parameter file of the basin, under the name the configurations of the stations use, with the parameters of the set-up changed in order; while the parameters are changed a complete set, one of those reached so far, is in the folder at every moment, and if every basin had a change the merge reads exactly the calibrated parameters, one file per basin. (Findings: the parameter files of the model are deleted before it is known whether an uncalibrated file exists, and the repository ships none; between removing the old file and renaming the new one the basin has no file under its name; the set-up leaves the temporary file of an interrupted calibration, which the merge reads if the basin has no change; with a source not named ..._run-calib.nc no change finds a file; a file of another model version in the folder is changed instead.)",
  "every folder, every number of earlier attempts, every crash point between file operations, every sequence of changes, every set of basins", "the crash may come between any two file operations of any attempt; a test stops at one point",
  "run_calibration.py:main", "calibration/calibration_setup.py:SetupCalibration.copy_parameter_remove_temp_files", "calibration/find_gamma_cfa_cfs.py:OptimizationState", "calibration/merge_parameters.py:merge_parameters")

p("A run may be interrupted at any moment and repeated",
  "A run writes the files of all selected outputs at the end of every year, in parallel, and the states last. However often a run is interrupted, at any step of any of its writers, repeating it to the end gives, file by file, the disk of one run that was never interrupted; the states it starts from stay intact, so it can always be repeated; at every moment each file is as before, incomplete or final, nothing but the run's own files is touched, and once a file of a later year is touched those of the earlier years are final. A simulation in pieces, each continuing from the saved states and interrupted any number of times, ends with the states, and for every day and output the values, of one uninterrupted run. The order in which the parallel writers progress does not matter. (Findings: states saved earlier under the same date are lost by an interruption while they are overwritten; an interrupted repetition with other settings leaves complete files of both runs side by side; a file that cannot be written is not noticed and keeps its old content.)",
  "every period, split and number of interruptions, every crash point, every interleaving of the writing processes, every content of the disk before", "crash points, schedules and histories of attempts are unbounded",
  "run_watergap.py:run", "view/createandwrite.py:CreateandWritetoVariables.save_netcdf_parallel", "view/createandwrite.py:write_to_netcdf", "model/utility/restart_watergap.py:RestartState")

p("The shipped outflow cells of neighbours fit the river network",
  "When a cell with unsatisfied surface-water demand is supplied by a neighbouring cell, the neighbour must not be one that drains directly into it; the program knows that only from the shipped table of the outflow cells of the eight neighbours of every cell. In every row and column of that table stands exactly the outflow cell, according to the shipped routing order, of the cell to the east, north-east, north, north-west, west, south-west, south or south-east (the grid closes at the date line), and (0, 0) where there is no cell. So whatever the storages, the demand and the day, the cell that is asked lies next to the cell, is not the cell itself and does not drain into it, and (except on 31 December) has at least as much water as any other such neighbour. The table fits no other order of the directions. (Finding: a cell in the westernmost column, of which the shipped grid has eleven, can be chosen as the best but then counts as no cell, so that the demand is passed on to nobody although other neighbours have water.)",
  "all 67420 cells, all eight neighbours, all storages, demands and days",
  "a test looks at a few rows of a table with a million numbers and at a few storages",
  "input_data/static_input/neigbouringcells_outflow_latlon.csv", "input_data/static_input/routing_order.csv",
  L + "neighbouring_cell.py:get_neighbouringcell", L + "routing.py:river_routing", "controller/staticdata_handler.py:StaticData")

p("The floating-point numbers of a simulation can be reproduced bit for bit",
  "In any arithmetic that rounds (IEEE binary64 in particular) a simulation is reproducible to the last bit where it should be: two routing tables of the same river network that list upstream cells first and agree on the order of the cells draining into the same cell (and on the side of the outflow cell on which the shore cells of a lake stand) give the same numbers in every variable, on every day; a basin simulated on its own gives exactly the numbers the simulation of the world gives there, and nothing that happens outside a region closed under upstream cells changes a bit inside; a run continued from the state of another computes exactly the days the uninterrupted run would have computed. The agreement of tables and the independence of a basin also hold over years in which reservoirs start to operate. With water supply from neighbouring cells a basin that also contains the neighbours of its cells computes the same bits on its own, also over such years. (Finding: the sum of the inflows is not the same when the cells that drain into a cell are listed in another order.)",
  "every arithmetic, network, weather, demand, release rule, basin, number of days and state", "rounded addition is not associative, so that equality of all bits depends on the order of every operation of every cell on every day; tests compare to a tolerance",
  L+"routing.py:river_routing", L+"distribute_net_abstraction.py:redistritute_to_riparian", L+"waterbalance_lateral.py:LateralWaterBalance", "run_watergap.py:run", "controller/staticdata_handler.py:StaticData")

def q(i, statement=None, title=None, quantifier=None):
    x = P[i-1]
    if statement: x['statement'] = statement
    if title: x['title'] = title
    if quantifier: x['quantifier'] = quantifier

# ---- restatements after reading the code closely: true conditions, and the findings -------------
q(4, "For non-negative inputs the snow storage of every band, snowfall, sublimation and effective precipitation are never negative, snowfall never exceeds the precipitation, sublimation never exceeds the energy left for it, and the snow cover fraction lies in [0,1]; this holds along every history of days.")
q(5, "For any history of days with non-negative effective precipitation, a PET not above max_daily_pet and non-negative parameters the soil water content returned by soil_water_balance stays within [0, max_soil_water_content].")
q(7, "For every land cell whose soil can store water and an areal correction factor of at most 1, precipitation of the day equals surface runoff plus groundwater recharge plus corrected land evapotranspiration plus the change of canopy, snow and soil storage, up to storages below 1e-10 mm that are flushed; over any number of days the sums telescope. (Findings: the balance is violated for correction factors above 1 and in cells without soil capacity.)",
  quantifier="every day and every number of days, every areal correction factor <= 1, every land cell with soil")
q(8, "After any sequence of daily temperature and precipitation values, get_leaf_area_index returns a value between min_leaf_area_index and max_leaf_area_index with a 0/1 growth status and a non-negative day counter; from the start of the simulation on it moves by at most one thirtieth of its range per day; with the shipped parameter table the bounds are ordered for every land cover class.")
q(13, "For every lake and wetland kind and a non-negative demand the storage before the day plus inflow plus precipitation on its open-water area equals the new storage plus outflow plus recharge to groundwater plus evaporation plus the water actually abstracted; none of these exceeds its potential value; the losses are the published potential losses reduced by a common factor that is 1 unless the body runs empty, local outflow follows the published power law, global storage the solution of dS/dt = net inflow - kS. (Finding: with negative demand a global lake that runs dry loses water.)")
q(14, "For every history, global and local lake storage stays in [-max,max], local wetland storage in [0,max], global wetland storage is at most max, non-negative if the wetland is deep compared with a day's losses, and in any case above -k*max; the outflow of each is non-negative if the day starts with non-negative storage; the code does not divide by zero from such a state. (Findings: a shallow global wetland can end the day with negative storage - exactly when the losses exceed the inflow by more than k/(exp k - 1) times the storage but not by more than the storage; the next day it can divide by zero or have negative outflow.)")
q(16, "river_velocity returns a velocity of at least 1e-5 km/day (so the outflow constant is positive), a water depth that is non-negative and reproduces the stored volume in the trapezoidal bed, both grow with the storage; the velocity is the Manning-Strickler one; the bed follows the published hydraulic geometry; bankfull initialisation yields positive widths, depths and storages for every bankfull flow, and at bankfull storage the routing's depth is the bankfull depth of the initialisation.")
q(17, "reservoir_regulated_lake_water_balance: storage before the day plus inflow plus precipitation on its area equals storage after plus outflow plus recharge plus evaporation plus abstraction, up to the volume below which a storage is set to zero; storage never exceeds the capacity and never falls below zero, along every history; abstraction alone never draws the storage below 10 % of the capacity; outflow is never negative.")
q(18, "The release coefficient changes only on the first day of the operational year's start month and stays at least 0.1; the provisional release of an irrigation reservoir is at least 50 % of the mean annual inflow and averages to the mean inflow over a year whose monthly demands average to the mean demand; the release is non-negative and, if the reservoir holds less than half of the mean annual inflow, lies between the inflow and the storage-scaled release; at most five cells downstream are searched for demand and the search stops at the next reservoir or sink. (Finding: the coefficient of an overfull reservoir is not limited by that of a full one.)")
q(20, "aggregate_potnetabs moves the positive demand of all riparian cells of a lake/reservoir unit to the unit's outflow cell: the global sum of demand is unchanged, negative demand (return flow) stays where it is, and cells without a water body unit keep their value. Every unit of the map is treated this way if the map has a cell without unit (0) and a cell without value (NaN); on a map without a missing value the unit with the largest number is left out (finding).")
q(21, "redistritute_to_riparian hands the unsatisfied demand of the day at an outflow cell back to the riparian cells in proportion to their positive demand so that the sum over the riparian cells and the outflow cell is the demand that was unsatisfied; demand asked by neighbours and demand open from before stays with the outflow cell. (Findings: a unit with two outflow cells loses demand; after a neighbour has supplied everything the outflow cell keeps too much.)",
  quantifier="every unit with one outflow cell, every demand vector with positive total")
q(23, "get_neighbouringcell returns, on every day but 31 December, a listed neighbour whose available river, lake and reservoir storage is maximal among the neighbours that do not drain directly into the demand cell, and reports no cell when none has water; on 31 December a neighbour that has already been routed is dropped.")
q(25, "For one cell and one day, runoff and recharge from land plus precipitation on open water plus inflow from upstream equals evaporation from open water, actual abstractions, streamflow and the change of groundwater, lake, wetland, reservoir and river storage (up to a flushed reservoir volume; a station correction factor adds exactly the corrected minus the uncorrected streamflow); surface-water demand is abstracted, still unsatisfied or handed to riparian cells, and is left unsatisfied only when the river is empty and the local lake at its lowest level; the release coefficient of the reservoir changes on the first day of its start month only; storages stay in range along every history and the balance telescopes over any number of days.")
q(26, "If every cell is routed after all its upstream neighbours, each cell receives on the same day exactly the streamflow of the cells draining into it, two such orders give the same result, and the water balance of the whole basin closes with the outflow at its outlets. (Findings: a wrong order loses water; so does a river that flows into row or column 0 of the grid.)")
q(27, "In the vertical loop a cell outside the basin stays masked, the result in a basin cell depends on that cell's data alone, not on the visiting order or any other cell, and a basin run gives in its cells exactly what a global run gives.")
q(28, "compute_landareafrac/update_landareafrac never return a negative land area fraction; with static fractions that fit into the continental area, land and water-body fractions add up to the continental fraction on every day, without reservoirs and, under the stated conditions, with reservoirs over years. (Findings: violated when a run with reservoirs starts mid-year, and in a reservoir year after the water bodies shrank overnight.)")
q(29, "When the land area fraction changes between days, canopy, snow and soil storages (mm over land) are rescaled so that storage times area is unchanged, and when the land disappears the whole volume (times the areal correction factor) is handed to runoff. On the first day of a reservoir year the volume is kept exactly when the land did not change overnight or no land is left; otherwise the defect is given by a closed formula. (Finding.)")
q(30, "A run without restart over a period the forcing covers simulates spinup_years times the days from the start date to the 31 December of the start year, then every day from start to end in order exactly once, and then stops; a period outside of the forcing is refused before the first day. (Findings: a negative number of spin-up years, or an end date before the start date in the same year, gives a loop that never ends.)",
  quantifier="every start and end date, every number of spin-up years")
q(32, "On every simulated day the demand of a cell is the month's value from the data divided by the number of days of the (non-leap) month; over a month in the period the daily demands sum to the month's value. (Finding: in a leap February they sum to 29/28 of it.)")
q(33, "With delayed use, over any number of days and cells, total potential demand plus what was open at the start equals what was taken, what is still unsatisfied or handed to shore cells, and what was given up on a 31 December; the reported daily unsatisfied demand telescopes to the accumulated one; without delayed use the demand of a day is that of the data. Conditions: one outflow cell per unit, non-negative aggregated demand at global lakes, no neighbouring-cell option. (Findings: demand handed to shore cells survives 31 December and is carried even without delayed use.)")
q(34, "Saving the model states at the end of a run and reading them in a restart run restores every saved state, field by field, with none exchanged or missing; every other attribute is that of the freshly built objects.")
q(35, "Running to a date, saving and restarting for the remaining days without spin-up gives the same outputs and states as one uninterrupted run, for every split point, provided the configured reservoir years cover the restart year; a missing restart file stops the program before the first day. (Findings: restart with spin-up repeats days; reservoir years that end before the restart give a different run.)")
q(36, "With ant=false all human-impact options are off; with ant=true at least one of water use and reservoirs is on or the program stops; a time step other than daily stops the program; the reservoir years are exactly those of the configured range. (Finding: ant without water use keeps the delayed-use and neighbour switches.)")
q(37, "With reservoirs on, a reservoir with inflow has its full area and capacity on every day from 1 January of its start year on (or from the first day if the start year is past), none before; a regulated lake always has; reservoir and global-lake areas of a cell are never lost nor counted twice; with reservoirs off nothing is activated and regulated lakes are treated as global lakes; on the first day reservoirs in operation and global lakes are full. (Finding: a reservoir without inflow becomes lake, but its capacity remains as stored water that nothing can ever use.)")
q(38, "Writing a day's values changes only that date of the selected variables; each day of the period is on the time axis of the file of its year and has its value, if not missing, in exactly one file, under its own date; no value is stored under a missing date. (Findings: a run not starting on 1 January has surplus missing dates in its first file; smax is zero without a 1 January in the period.)")
q(39, "Every selectable output variable except river-velocity and netrad is saved in the unit its metadata declares, and the conversion is invertible wherever the continental area is positive; column outputs are volumes over the continental area. (Findings: river-velocity and netrad.)")
q(40, "The basin selected for a set of stations consists of exactly the stations' cells and all the cells from which water flows to one of them, every other cell is masked out; on an acyclic network the search ends, on a cycle it never does; an unknown station stops the program; the basin run gives in its cells the streamflow of the global run.")
q(41, "If some cell of the calibration unit has runoff, the areal correction factors written lie in [0.5,1.5] in the unit, cells outside keep theirs, and before clamping the factors change the unit's mean runoff by exactly the missing discharge; after clamping they move it in the right direction and never too far. (Finding: a unit without runoff gets NaN.)")
q(42, "Gamma stays within [0.1,5]; status 2, 3 or 4 is reported only if gamma is at a bound that does not reach the observed discharge; status 2 means within 10 % and no factor written; a station factor is written exactly in status 4, is at least 1 % from 1 and turns the simulated mean into the discharge aimed at; a try within 1 % found by the optimiser ends with status 1. (Findings: status 1 can be reported with a 30 % bias; without success the last, not the best, try is kept.)")
q(43, "For a station file listing all years 1901-2018, the years used are the first 30 with a value in the order 1981-2009, 1979, 1980, 2010-2018, 1978 down to 1901, returned ascending without duplicates; each has a value; an absent year of 1981-2009 stops the set-up. (Finding: the documented period 1981-2010 is not the one used.)")
q(44, "find_reservoir_start_month returns, in a cell with dry and wet months, a month in 1..12 in which a cyclic run of months with inflow below the annual mean begins; with one or two such runs, or a run of at least five months, it is the longest. (Findings: in exactly 413 of the 4094 dry/wet patterns it is a shorter one; without a dry month the result is 0, not the documented 1.)")
q(45, "The direct-upstream cells of successive stations are pairwise disjoint, each unit is its station's basin without the basins of earlier stations, and together they cover exactly the union of the basins. (Finding: re-running a station without set-up gives it another station's unit.)")
q(46, "merge_parameters gives each cell the correction factor of the only region that changed it, 1 where no region did, independent of the order of the files; gamma is clipped to [0.1,5] except for the explicitly corrected cells. (Finding: a NaN factor of one region wins.)")
q(47, "update_config_values leaves entries whose key contains a protected word unchanged at any nesting depth, sets the required switches to true and all other switches to false, and adds or removes no entry. (Finding: the restart options are kept because 'restart' contains 'start'.)")
q(48, "Precipitation is converted to mm/day and temperature to kelvin according to the declared unit, missing values stay missing; a run reaches its end exactly when no cell has negative precipitation on any of its days, and a day with one is never computed. A run that is not a calibration run starts only with accepted unit spellings. (Findings: the unit check does not look at which variable has which unit; calibration runs do not check, and only one spelling of the flux unit is recognised there.)")
q(49, "The k value used for bankfull flow is the linear interpolation of the Pearson-III table: it equals the table value at the nodes and lies in [-0.5953,-0.3332]; bankfull flow is -9999 or non-negative and lies below the mean (geometric mean) of the annual maxima. (Finding: a geometric mean of exactly 1 ignores the spread.)")
q(50, "For every simulation (any basin, weather, demand and number of days, with or without water supply from neighbouring cells) with complete years and station factor 1 in inland sinks, the long-term volume balance error the global water-balance tool computes from the model's outputs is at most the sum of the flushed residues if no areal correction factor is above 1 and land under a factor other than 1 is never flooded altogether; with factors above 1 as well, as long as such land is not flooded altogether, the error never shows more water than has fallen, up to the flushed residues; the net streamflow it reports is that of the cells draining to the ocean. (Findings: incomplete periods and inland sinks with a station factor produce a spurious error; when the land of a cell vanishes under water, its water is multiplied by the areal correction factor.)")

with open(os.path.join(os.path.dirname(__file__), "..", "properties.jsonl"), "w") as f:
    for x in P: f.write(json.dumps(x, ensure_ascii=False) + "\n")
print(len(P))
