{"id": "C01", "title": "Canopy keeps every drop of precipitation", "statement": "canopy_water_balance on a cell with land: the (area-rescaled) canopy storage before the day plus precipitation equals the returned canopy storage plus the returned throughfall plus the returned canopy evaporation; on a cell whose land fraction is 0 the whole previous storage is handed back as the daily storage transfer and the storage becomes 0.", "quantifier": "every storage, LAI, PET, precipitation, land-fraction ratio and parameter value", "why_tests_cant": "a conservation law over a continuum of real inputs and several branches; tests compare a few numbers to a tolerance", "anchors": ["model/verticalwaterbalance/canopy.py:canopy_water_balance"]}
{"id": "C02", "title": "Canopy storage and evaporation stay in their physical range", "statement": "For non-negative inputs the returned canopy storage is between 0 and max_canopy_storage_coefficient*LAI, the canopy evaporation is between 0 and both PET and the intercepted water, throughfall is non-negative, and canopy evaporation plus the PET passed to the soil equals the PET; hence along any sequence of days the storage never leaves [0, coefficient*LAI].", "quantifier": "every day and every history of days (PET, precipitation, LAI sequences)", "why_tests_cant": "must hold after arbitrarily long histories", "anchors": ["model/verticalwaterbalance/canopy.py:canopy_water_balance"]}
{"id": "C03", "title": "Snow keeps every drop in each elevation band", "statement": "In every sub-grid elevation band of snow_water_balance the throughfall equals the change of snow water storage plus sublimation plus the effective precipitation (rain or melt, including the water released above the 1000 mm limit) of that band, and the cell means inherit this balance; with no land the mean snow storage goes to the daily storage transfer and all bands are emptied.", "quantifier": "every band, temperature, elevation, snow storage, throughfall and parameter value", "why_tests_cant": "conservation over a continuum and an unbounded number of elevation bands", "anchors": ["model/verticalwaterbalance/snow.py:snow_water_balance"]}
{"id": "C04", "title": "Snow fluxes are physical", "statement": "For non-negative inputs the snow storage of every band, snowfall, sublimation and effective precipitation are never negative, snowfall never exceeds the precipitation, sublimation never exceeds the energy left for it, and the snow cover fraction lies in [0,1]; this holds along every history of days.", "quantifier": "every band count, input and history", "why_tests_cant": "inequalities over a continuum and all histories", "anchors": ["model/verticalwaterbalance/snow.py:snow_water_balance"]}
{"id": "C05", "title": "Soil storage stays between 0 and its capacity", "statement": "For any history of days with non-negative effective precipitation, a PET not above max_daily_pet and non-negative parameters the soil water content returned by soil_water_balance stays within [0, max_soil_water_content].", "quantifier": "every history of days and every parameter value", "why_tests_cant": "invariant over unbounded histories with rpow nonlinearity", "anchors": ["model/verticalwaterbalance/soil.py:soil_water_balance"]}
{"id": "C06", "title": "Runoff is split without loss", "statement": "The returned surface runoff and diffuse groundwater recharge are non-negative, recharge never exceeds the daily (texture dependent) maximum recharge, in arid cells with coarse texture recharge is 0 when precipitation is at or below the critical precipitation, and surface runoff + recharge equals the (corrected) total runoff. On a soil that is not frozen, evaporation, runoff and recharge follow Eq. 17-19 of Müller Schmied et al. 2021.", "quantifier": "every soil state and parameter value", "why_tests_cant": "case split over textures, climates and continuous inputs", "anchors": ["model/verticalwaterbalance/soil.py:soil_water_balance"]}
{"id": "C07", "title": "Land water balance: corrected runoff closes the balance", "statement": "For every land cell whose soil can store water and an areal correction factor of at most 1, precipitation of the day equals surface runoff plus groundwater recharge plus corrected land evapotranspiration plus the change of canopy, snow and soil storage, up to storages below 1e-10 mm that are flushed; over any number of days the sums telescope. (Findings: the balance is violated for correction factors above 1 and in cells without soil capacity.)", "quantifier": "every day and every number of days, every areal correction factor <= 1, every land cell with soil", "why_tests_cant": "equality over all continuous inputs through several branches", "anchors": ["model/verticalwaterbalance/soil.py:soil_water_balance"]}
{"id": "C08", "title": "Leaf area index stays between its seasonal bounds", "statement": "After any sequence of daily temperature and precipitation values, get_leaf_area_index returns a value between min_leaf_area_index and max_leaf_area_index with a 0/1 growth status and a non-negative day counter; from the start of the simulation on it moves by at most one thirtieth of its range per day; with the shipped parameter table the bounds are ordered for every land cover class.", "quantifier": "every finite sequence of daily weather, every vegetation parameter set with min <= max", "why_tests_cant": "state machine with memory: needs induction over arbitrary histories", "anchors": ["model/verticalwaterbalance/lai.py:get_leaf_area_index", "model/verticalwaterbalance/lai_init.py:LeafAreaIndex"]}
{"id": "C09", "title": "Potential evapotranspiration is never negative", "statement": "Priestley-Taylor PET is 0 whenever net radiation is not positive and strictly positive otherwise, and grows with net radiation; it never produces a negative or undefined value for physically possible temperatures. It is the Priestley-Taylor equation with the latent heat, psychrometric constant and slope (derivative) of the Tetens vapour pressure curve, applied to land net radiation for land PET and open-water net radiation for open-water PET.", "quantifier": "every temperature (above -237.3 degC), radiation and land cover parameter", "why_tests_cant": "sign and monotonicity over all real inputs", "anchors": ["model/verticalwaterbalance/radiation_evapotranspiration.py"]}
{"id": "C10", "title": "Groundwater balance is exact", "statement": "groundwater_balance: previous storage plus recharge minus net abstraction equals the new storage plus groundwater discharge, in humid and arid cells; discharge is never negative, and is 0 when the stored water would not be positive.", "quantifier": "every storage, recharge, abstraction (of either sign) and recession constant", "why_tests_cant": "conservation over a continuum, including negative storages caused by over-abstraction", "anchors": ["model/lateralwaterbalance/groundwater.py:groundwater_balance"]}
{"id": "C11", "title": "Groundwater abstraction adapts in the right direction", "statement": "When surface-water demand from irrigation stays unsatisfied today, the adapted net abstraction from groundwater is not smaller than the potential one (less return flow); when earlier unsatisfied demand is satisfied today it is not larger; with nothing unsatisfied or no irrigation it is exactly the potential one.", "quantifier": "every demand, irrigation fraction and efficiency in [0,1]", "why_tests_cant": "sign reasoning over a continuum with division", "anchors": ["model/lateralwaterbalance/groundwater_adapt_net_abstraction.py"]}
{"id": "C12", "title": "Storage reduction factor is a fraction", "statement": "swb_redfactor always returns a value in [0,1], equals 1 when the water body is full, and equals 0 when a lake is at minus its maximum storage / a wetland or reservoir is empty.", "quantifier": "every storage within the physical range, every exponent, every water-body kind", "why_tests_cant": "clamping and powers over all real inputs", "anchors": ["model/lateralwaterbalance/storage_reduction_factor.py:swb_redfactor"]}
{"id": "C13", "title": "Lakes and wetlands conserve water", "statement": "For every lake and wetland kind and a non-negative demand the storage before the day plus inflow plus precipitation on its open-water area equals the new storage plus outflow plus recharge to groundwater plus evaporation plus the water actually abstracted; none of these exceeds its potential value; the losses are the published potential losses reduced by a common factor that is 1 unless the body runs empty, local outflow follows the published power law, global storage the solution of dS/dt = net inflow - kS. (Finding: with negative demand a global lake that runs dry loses water.)", "quantifier": "every water-body kind, storage, inflow, PET, demand and parameter value", "why_tests_cant": "exponential reservoir solution with several cut-offs; cannot be enumerated", "anchors": ["model/lateralwaterbalance/lakes_wetlands.py:lake_wetland_water_balance"]}
{"id": "C14", "title": "Lake and wetland storage stays in its physical range", "statement": "For every history, global and local lake storage stays in [-max,max], local wetland storage in [0,max], global wetland storage is at most max, non-negative if the wetland is deep compared with a day's losses, and in any case above -k*max; the outflow of each is non-negative if the day starts with non-negative storage; the code does not divide by zero from such a state. (Findings: a shallow global wetland can end the day with negative storage - exactly when the losses exceed the inflow by more than k/(exp k - 1) times the storage but not by more than the storage; the next day it can divide by zero or have negative outflow.)", "quantifier": "every history of days", "why_tests_cant": "invariant over unbounded histories", "anchors": ["model/lateralwaterbalance/lakes_wetlands.py:lake_wetland_water_balance"]}
{"id": "C15", "title": "River conserves water", "statement": "river_water_balance: previous storage plus inflow equals new storage plus streamflow plus the abstraction it reports as satisfied; storage and streamflow are never negative; the abstraction satisfied never exceeds the demand; unsatisfied demand is the exact remainder; while the demand can be served the storage is that of the linear reservoir dS/dt = q - d - kS after one day.", "quantifier": "every storage, inflow, outflow constant and demand", "why_tests_cant": "exponential solution with negative-storage repair branch over a continuum", "anchors": ["model/lateralwaterbalance/river.py:river_water_balance"]}
{"id": "C16", "title": "River velocity and geometry are well defined", "statement": "river_velocity returns a velocity of at least 1e-5 km/day (so the outflow constant is positive), a water depth that is non-negative and reproduces the stored volume in the trapezoidal bed, both grow with the storage; the velocity is the Manning-Strickler one; the bed follows the published hydraulic geometry; bankfull initialisation yields positive widths, depths and storages for every bankfull flow, and at bankfull storage the routing's depth is the bankfull depth of the initialisation.", "quantifier": "every non-negative storage and positive river parameter", "why_tests_cant": "square roots and real powers; well-definedness over a continuum", "anchors": ["model/lateralwaterbalance/river.py:river_velocity", "model/lateralwaterbalance/river_init.py"]}
{"id": "C17", "title": "Reservoir storage stays between empty and full and balances", "statement": "reservoir_regulated_lake_water_balance: storage before the day plus inflow plus precipitation on its area equals storage after plus outflow plus recharge plus evaporation plus abstraction, up to the volume below which a storage is set to zero; storage never exceeds the capacity and never falls below zero, along every history; abstraction alone never draws the storage below 10 % of the capacity; outflow is never negative.", "quantifier": "every state, inflow, demand, release and history", "why_tests_cant": "many branches over a continuum and histories", "anchors": ["model/lateralwaterbalance/reservoir_regulated_lakes.py:reservoir_regulated_lake_water_balance"]}
{"id": "C18", "title": "Reservoir release rule (Hanasaki) is well defined", "statement": "The release coefficient changes only on the first day of the operational year's start month and stays at least 0.1; the provisional release of an irrigation reservoir is at least 50 % of the mean annual inflow and averages to the mean inflow over a year whose monthly demands average to the mean demand; the release is non-negative and, if the reservoir holds less than half of the mean annual inflow, lies between the inflow and the storage-scaled release; at most five cells downstream are searched for demand and the search stops at the next reservoir or sink. (Finding: the coefficient of an overfull reservoir is not limited by that of a full one.)", "quantifier": "every month, storage, demand map, routing map", "why_tests_cant": "graph walk plus continuous case analysis", "anchors": ["model/lateralwaterbalance/reservoir_release_hanasaki.py:hanasaki_res_reslease"]}
{"id": "C19", "title": "Routing into surface water bodies loses nothing", "statement": "frac_routing splits runoff and groundwater discharge between surface water bodies and the river: the two parts sum to the total, both are non-negative, and in an inland sink everything goes to the surface water bodies.", "quantifier": "every runoff, discharge, area fraction, aridity class", "why_tests_cant": "conservation over all branches", "anchors": ["model/lateralwaterbalance/routing_to_surface_water_bodies.py:frac_routing"]}
{"id": "C20", "title": "Aggregating demand at riparian cells preserves total demand", "statement": "aggregate_potnetabs moves the positive demand of all riparian cells of a lake/reservoir unit to the unit's outflow cell: the global sum of demand is unchanged, negative demand (return flow) stays where it is, and cells without a water body unit keep their value. Every unit of the map is treated this way if the map has a cell without unit (0) and a cell without value (NaN); on a map without a missing value the unit with the largest number is left out (finding).", "quantifier": "every grid, every assignment of unit ids with one outflow cell per unit", "why_tests_cant": "sum over arbitrary grids", "anchors": ["model/lateralwaterbalance/aggregate_net_abstraction.py:aggregate_potnetabs"]}
{"id": "C21", "title": "Unsatisfied demand returned to riparian cells is conserved", "statement": "redistritute_to_riparian hands the unsatisfied demand of the day at an outflow cell back to the riparian cells in proportion to their positive demand so that the sum over the riparian cells and the outflow cell is the demand that was unsatisfied; demand asked by neighbours and demand open from before stays with the outflow cell. (Findings: a unit with two outflow cells loses demand; after a neighbour has supplied everything the outflow cell keeps too much.)", "quantifier": "every unit with one outflow cell, every demand vector with positive total", "why_tests_cant": "sum over arbitrary sets of cells with division", "anchors": ["model/lateralwaterbalance/distribute_net_abstraction.py:redistritute_to_riparian"]}
{"id": "C22", "title": "Abstraction from local lakes is bounded and balanced", "statement": "abstract_from_local_lake: water taken from the lake plus demand left over equals the demand, and the lake is never drawn below minus its maximum storage; a satisfied demand leaves nothing.", "quantifier": "every storage and demand", "why_tests_cant": "case split over a continuum", "anchors": ["model/lateralwaterbalance/local_lake_net_abstraction.py:abstract_from_local_lake"]}
{"id": "C23", "title": "The neighbouring supply cell is the best eligible one", "statement": "get_neighbouringcell returns, on every day but 31 December, a listed neighbour whose available river, lake and reservoir storage is maximal among the neighbours that do not drain directly into the demand cell, and reports no cell when none has water; on 31 December a neighbour that has already been routed is dropped.", "quantifier": "every neighbour list, storage map and routing map", "why_tests_cant": "argmax over arbitrary lists", "anchors": ["model/lateralwaterbalance/neighbouring_cell.py:get_neighbouringcell"]}
{"id": "C24", "title": "Demand passed to and returned by a neighbour is conserved", "statement": "For every supply cell the unsatisfied remainder handed back to its demand cells sums to the demand allocated to it minus what it delivered, shared in proportion to what each asked for.", "quantifier": "every set of demand cells", "why_tests_cant": "sum over arbitrary sets with division", "anchors": ["model/lateralwaterbalance/neighbouring_cell.py:allocate_unsat_demand_to_demandcell"]}
{"id": "C25", "title": "Lateral water balance of one cell closes", "statement": "For one cell and one day, runoff and recharge from land plus precipitation on open water plus inflow from upstream equals evaporation from open water, actual abstractions, streamflow and the change of groundwater, lake, wetland, reservoir and river storage (up to a flushed reservoir volume; a station correction factor adds exactly the corrected minus the uncorrected streamflow); surface-water demand is abstracted, still unsatisfied or handed to riparian cells, and is left unsatisfied only when the river is empty and the local lake at its lowest level; the release coefficient of the reservoir changes on the first day of its start month only; storages stay in range along every history and the balance telescopes over any number of days.", "quantifier": "every state of the cell and every configuration of water bodies", "why_tests_cant": "composition of up to seven components, each with branches", "anchors": ["model/lateralwaterbalance/routing.py:river_routing"]}
{"id": "C26", "title": "Routing network neither creates nor loses water", "statement": "If every cell is routed after all its upstream neighbours, each cell receives on the same day exactly the streamflow of the cells draining into it, two such orders give the same result, and the water balance of the whole basin closes with the outflow at its outlets. (Findings: a wrong order loses water; so does a river that flows into row or column 0 of the grid.)", "quantifier": "every acyclic drainage network with any number of cells", "why_tests_cant": "induction over arbitrary networks", "anchors": ["model/lateralwaterbalance/routing.py:river_routing"]}
{"id": "C27", "title": "Cells outside the selected basin are untouched", "statement": "In the vertical loop a cell outside the basin stays masked, the result in a basin cell depends on that cell's data alone, not on the visiting order or any other cell, and a basin run gives in its cells exactly what a global run gives.", "quantifier": "every grid and basin mask", "why_tests_cant": "frame property over arbitrary grids", "anchors": ["model/verticalwaterbalance/waterbalance_vertical.py:vert_water_balance", "model/lateralwaterbalance/routing.py:river_routing"]}
{"id": "C28", "title": "Land area fraction is a valid fraction", "statement": "compute_landareafrac/update_landareafrac never return a negative land area fraction; with static fractions that fit into the continental area, land and water-body fractions add up to the continental fraction on every day, without reservoirs and, under the stated conditions, with reservoirs over years. (Findings: violated when a run with reservoirs starts mid-year, and in a reservoir year after the water bodies shrank overnight.)", "quantifier": "every combination of lake, wetland, reservoir fractions and reduction factors", "why_tests_cant": "continuous inputs and clamping branches", "anchors": ["model/land_surfacewater_fraction.py"]}
{"id": "C29", "title": "Rescaling storages to a changing land area preserves volume", "statement": "When the land area fraction changes between days, canopy, snow and soil storages (mm over land) are rescaled so that storage times area is unchanged, and when the land disappears the whole volume (times the areal correction factor) is handed to runoff. On the first day of a reservoir year the volume is kept exactly when the land did not change overnight or no land is left; otherwise the defect is given by a closed formula. (Finding.)", "quantifier": "every pair of fractions and every storage", "why_tests_cant": "needs exact algebra with zero-division branches", "anchors": ["model/land_surfacewater_fraction.py", "model/verticalwaterbalance/canopy.py", "model/verticalwaterbalance/snow.py", "model/verticalwaterbalance/soil.py"]}
{"id": "C30", "title": "The simulation visits every day exactly once, in order", "statement": "A run without restart over a period the forcing covers simulates spinup_years times the days from the start date to the 31 December of the start year, then every day from start to end in order exactly once, and then stops; a period outside of the forcing is refused before the first day. (Findings: a negative number of spin-up years, or an end date before the start date in the same year, gives a loop that never ends.)", "quantifier": "every start and end date, every number of spin-up years", "why_tests_cant": "loop termination and counting over all dates, including leap years", "anchors": ["run_watergap.py:run"]}
{"id": "C31", "title": "Nothing of the spin-up reaches the outputs", "statement": "Daily outputs are recorded only for the days of the simulation period, each date exactly once, and never during spin-up; model states for restart are saved exactly once, at the end date.", "quantifier": "every run configuration", "why_tests_cant": "property of a whole execution trace", "anchors": ["run_watergap.py:run", "view/data_output_handler.py"]}
{"id": "C32", "title": "Monthly water demand is spread over its month", "statement": "On every simulated day the demand of a cell is the month's value from the data divided by the number of days of the (non-leap) month; over a month in the period the daily demands sum to the month's value. (Finding: in a leap February they sum to 29/28 of it.)", "quantifier": "every year and month (leap years included)", "why_tests_cant": "ranges over all calendar years", "anchors": ["controller/read_forcings_and_static.py", "model/lateralwaterbalance/waterbalance_lateral.py"]}
{"id": "C33", "title": "Delayed use: unsatisfied demand is carried, never duplicated, and dropped at year end", "statement": "With delayed use, over any number of days and cells, total potential demand plus what was open at the start equals what was taken, what is still unsatisfied or handed to shore cells, and what was given up on a 31 December; the reported daily unsatisfied demand telescopes to the accumulated one; without delayed use the demand of a day is that of the data. Conditions: one outflow cell per unit, non-negative aggregated demand at global lakes, no neighbouring-cell option. (Findings: demand handed to shore cells survives 31 December and is carried even without delayed use.)", "quantifier": "every sequence of daily demands and supplies over any number of years", "why_tests_cant": "telescoping over unbounded histories", "anchors": ["model/lateralwaterbalance/routing.py:river_routing", "model/lateralwaterbalance/waterbalance_lateral.py"]}
{"id": "C34", "title": "Saved states restore exactly", "statement": "Saving the model states at the end of a run and reading them in a restart run restores every saved state, field by field, with none exchanged or missing; every other attribute is that of the freshly built objects.", "quantifier": "every model state", "why_tests_cant": "field-by-field round trip for all values", "anchors": ["model/utility/restart_watergap.py"]}
{"id": "C35", "title": "A restarted run continues exactly like an uninterrupted one", "statement": "Running to a date, saving and restarting for the remaining days without spin-up gives the same outputs and states as one uninterrupted run, for every split point, provided the configured reservoir years cover the restart year; a missing restart file stops the program before the first day. (Findings: restart with spin-up repeats days; reservoir years that end before the restart give a different run.)", "quantifier": "every split point, every number of days, every forcing history", "why_tests_cant": "hyperproperty over pairs of executions", "anchors": ["run_watergap.py:run", "model/utility/restart_watergap.py"]}
{"id": "C36", "title": "Configuration options are resolved consistently", "statement": "With ant=false all human-impact options are off; with ant=true at least one of water use and reservoirs is on or the program stops; a time step other than daily stops the program; the reservoir years are exactly those of the configured range. (Finding: ant without water use keeps the delayed-use and neighbour switches.)", "quantifier": "every combination of options", "why_tests_cant": "combinatorial decision logic", "anchors": ["controller/configuration_module.py"]}
{"id": "C37", "title": "Reservoirs become active in the years given", "statement": "With reservoirs on, a reservoir with inflow has its full area and capacity on every day from 1 January of its start year on (or from the first day if the start year is past), none before; a regulated lake always has; reservoir and global-lake areas of a cell are never lost nor counted twice; with reservoirs off nothing is activated and regulated lakes are treated as global lakes; on the first day reservoirs in operation and global lakes are full. (Finding: a reservoir without inflow becomes lake, but its capacity remains as stored water that nothing can ever use.)", "quantifier": "every start-year map and every range of years", "why_tests_cant": "history property over years and cells", "anchors": ["model/land_surfacewater_fraction_init.py", "model/land_surfacewater_fraction.py", "controller/configuration_module.py"]}
{"id": "C38", "title": "Each day's output lands on its own date", "statement": "Writing a day's values changes only that date of the selected variables; each day of the period is on the time axis of the file of its year and has its value, if not missing, in exactly one file, under its own date; no value is stored under a missing date. (Findings: a run not starting on 1 January has surplus missing dates in its first file; smax is zero without a 1 January in the period.)", "quantifier": "every sequence of days and every selection of variables", "why_tests_cant": "array-store semantics over all histories", "anchors": ["view/createandwrite.py", "view/data_output_handler.py"]}
{"id": "C39", "title": "Output unit conversion matches the declared unit", "statement": "Every selectable output variable except river-velocity and netrad is saved in the unit its metadata declares, and the conversion is invertible wherever the continental area is positive; column outputs are volumes over the continental area. (Findings: river-velocity and netrad.)", "quantifier": "every variable key, every value, every cell area", "why_tests_cant": "table-driven conversion over all keys and values", "anchors": ["view/data_output_handler.py", "view/output_var_info.py"]}
{"id": "C40", "title": "Basin selection is exactly the upstream closure", "statement": "The basin selected for a set of stations consists of exactly the stations' cells and all the cells from which water flows to one of them, every other cell is masked out; on an acyclic network the search ends, on a cycle it never does; an unknown station stops the program; the basin run gives in its cells the streamflow of the global run.", "quantifier": "every acyclic drainage map and station set", "why_tests_cant": "reachability in arbitrary graphs", "anchors": ["model/utility/get_upstream_basin.py"]}
{"id": "C41", "title": "Calibrated areal correction factor is within limits and moves discharge the right way", "statement": "If some cell of the calibration unit has runoff, the areal correction factors written lie in [0.5,1.5] in the unit, cells outside keep theirs, and before clamping the factors change the unit's mean runoff by exactly the missing discharge; after clamping they move it in the right direction and never too far. (Finding: a unit without runoff gets NaN.)", "quantifier": "every runoff map, every discharge, every calibration unit", "why_tests_cant": "sums over arbitrary cell sets", "anchors": ["calibration/find_gamma_cfa_cfs.py:calib_cs3"]}
{"id": "C42", "title": "Calibration statuses are decided consistently", "statement": "Gamma stays within [0.1,5]; status 2, 3 or 4 is reported only if gamma is at a bound that does not reach the observed discharge; status 2 means within 10 % and no factor written; a station factor is written exactly in status 4, is at least 1 % from 1 and turns the simulated mean into the discharge aimed at; a try within 1 % found by the optimiser ends with status 1. (Findings: status 1 can be reported with a 30 % bias; without success the last, not the best, try is kept.)", "quantifier": "every pair of simulated and observed discharges at the probed gammas", "why_tests_cant": "decision procedure over an arbitrary response function of the model", "anchors": ["calibration/find_gamma_cfa_cfs.py"]}
{"id": "C43", "title": "Observed discharge selection for calibration", "statement": "For a station file listing all years 1901-2018, the years used are the first 30 with a value in the order 1981-2009, 1979, 1980, 2010-2018, 1978 down to 1901, returned ascending without duplicates; each has a value; an absent year of 1981-2009 stops the set-up. (Finding: the documented period 1981-2010 is not the one used.)", "quantifier": "every record of valid/NA years", "why_tests_cant": "2^118 availability patterns", "anchors": ["calibration/create_discharge_data.py:generate_river_dis_calib"]}
{"id": "C44", "title": "Reservoir start month is the start of the longest dry season", "statement": "find_reservoir_start_month returns, in a cell with dry and wet months, a month in 1..12 in which a cyclic run of months with inflow below the annual mean begins; with one or two such runs, or a run of at least five months, it is the longest. (Findings: in exactly 413 of the 4094 dry/wet patterns it is a shorter one; without a dry month the result is 0, not the documented 1.)", "quantifier": "every 12-month inflow climatology", "why_tests_cant": "all 4096 dry patterns and all values behind them", "anchors": ["misc/get_reservoir_start_month.py:find_reservoir_start_month"]}
{"id": "C45", "title": "Calibration units partition the nested basins", "statement": "The direct-upstream cells of successive stations are pairwise disjoint, each unit is its station's basin without the basins of earlier stations, and together they cover exactly the union of the basins. (Finding: re-running a station without set-up gives it another station's unit.)", "quantifier": "every list of stations and basins", "why_tests_cant": "set algebra over arbitrary lists", "anchors": ["calibration/find_gamma_cfa_cfs.py:get_direct_upstreamcells", "calibration/regionalization.py"]}
{"id": "C46", "title": "Merging regional parameters keeps every calibrated value", "statement": "merge_parameters gives each cell the correction factor of the only region that changed it, 1 where no region did, independent of the order of the files; gamma is clipped to [0.1,5] except for the explicitly corrected cells. (Finding: a NaN factor of one region wins.)", "quantifier": "every list of regional files", "why_tests_cant": "order independence over permutations", "anchors": ["calibration/merge_parameters.py:merge_parameters"]}
{"id": "C47", "title": "Calibration step A rewrites only the switches it should", "statement": "update_config_values leaves entries whose key contains a protected word unchanged at any nesting depth, sets the required switches to true and all other switches to false, and adds or removes no entry. (Finding: the restart options are kept because 'restart' contains 'start'.)", "quantifier": "every nested configuration", "why_tests_cant": "recursion over arbitrary JSON trees", "anchors": ["run_calibration.py:update_config_values"]}
{"id": "C48", "title": "Forcing unit conversion and input checks", "statement": "Precipitation is converted to mm/day and temperature to kelvin according to the declared unit, missing values stay missing; a run reaches its end exactly when no cell has negative precipitation on any of its days, and a day with one is never computed. A run that is not a calibration run starts only with accepted unit spellings. (Findings: the unit check does not look at which variable has which unit; calibration runs do not check, and only one spelling of the flux unit is recognised there.)", "quantifier": "every value and every declared unit", "why_tests_cant": "input-validation over all values", "anchors": ["model/utility/units_conveter_check_neg_precip.py", "controller/read_forcings_and_static.py"]}
{"id": "C49", "title": "Bankfull flow lookup stays within the table", "statement": "The k value used for bankfull flow is the linear interpolation of the Pearson-III table: it equals the table value at the nodes and lies in [-0.5953,-0.3332]; bankfull flow is -9999 or non-negative and lies below the mean (geometric mean) of the annual maxima. (Finding: a geometric mean of exactly 1 ignores the spread.)", "quantifier": "every increasing table and every skewness", "why_tests_cant": "interpolation over a continuum", "anchors": ["misc/bankfull_flow.py:get_k_value"]}
{"id": "C50", "title": "Global water balance script closes exactly", "statement": "For every simulation (any basin, weather, demand and number of days, with or without water supply from neighbouring cells) with complete years and station factor 1 in inland sinks, the long-term volume balance error the global water-balance tool computes from the model's outputs is at most the sum of the flushed residues if no areal correction factor is above 1 and land under a factor other than 1 is never flooded altogether; with factors above 1 as well, as long as such land is not flooded altogether, the error never shows more water than has fallen, up to the flushed residues; the net streamflow it reports is that of the cells draining to the ocean. (Findings: incomplete periods and inland sinks with a station factor produce a spurious error; when the land of a cell vanishes under water, its water is multiplied by the areal correction factor.)", "quantifier": "every number of years, days, cells", "why_tests_cant": "telescoping sum over time and space", "anchors": ["misc/global_water_balance/waterbalance_global.py"]}
{"id": "C51", "title": "Snow accumulation limiter", "statement": "In snow_water_balance, with elevations above sea level and sorted upwards, every elevation band that holds more than 1000 mm of snow and lies above the first such band gets the temperature of the first such band; the first one and all bands below the limit keep their own temperature. (Finding: the limiter does not act when the first saturated band lies at or below sea level.)", "quantifier": "every number of bands, every elevation profile, every snow state", "why_tests_cant": "a threshold carried through an unbounded loop over bands", "anchors": ["model/verticalwaterbalance/snow.py:snow_water_balance"]}
{"id": "C52", "title": "A frozen cell passes no water to the soil", "statement": "If the air temperature of the lowest elevation band is at or below freezing, the effective precipitation returned by snow_water_balance is zero; soil_water_balance, which ignores effective precipitation on such days, therefore loses nothing.", "quantifier": "every snow state, elevation profile, temperature and throughfall", "why_tests_cant": "two modules that are safe only together, over a continuum and any number of bands", "anchors": ["model/verticalwaterbalance/snow.py:snow_water_balance", "model/verticalwaterbalance/soil.py:soil_water_balance"]}
{"id": "C53", "title": "No water from nothing on land", "statement": "With an areal correction factor of at most 1, the runoff, recharge and evapotranspiration of a day on land together never exceed the day's precipitation plus the water stored in canopy, snow and soil (plus storages below 1e-10 mm that are flushed).", "quantifier": "every day, land cell and parameter set", "why_tests_cant": "inequality through four composed modules over a continuum", "anchors": ["model/verticalwaterbalance/waterbalance_vertical.py:vert_water_balance"]}
{"id": "C54", "title": "All states stay physical over any history", "statement": "Along every history of weather, land-area changes and demands canopy, snow in every band, soil, lakes, wetlands, reservoir and river storages of every cell stay within their physical ranges, the land area fraction is what the water bodies leave, and no flux on land is negative.", "quantifier": "every number of days, cells, elevation bands; every weather and demand history", "why_tests_cant": "invariant of the composed daily step over unbounded histories", "anchors": ["model/verticalwaterbalance/waterbalance_vertical.py:vert_water_balance", "model/lateralwaterbalance/routing.py:river_routing", "model/land_surfacewater_fraction.py"]}
{"id": "C55", "title": "Evaporation of a day is limited by energy", "statement": "Canopy evaporation, sublimation and soil evaporation of one day are together at most twice the potential evapotranspiration, and at most the potential evapotranspiration when either nothing sublimates or the soil does not evaporate. (Finding: the limit by the potential evapotranspiration itself is violated in cells with frozen and unfrozen bands.)", "quantifier": "every day and state", "why_tests_cant": "inequality over a continuum through three modules", "anchors": ["model/verticalwaterbalance/snow.py:snow_water_balance", "model/verticalwaterbalance/soil.py:soil_water_balance", "model/verticalwaterbalance/canopy.py:canopy_water_balance"]}
{"id": "C56", "title": "Regionalisation keeps calibrated runoff coefficients", "statement": "A cell of a calibration unit keeps the coefficient calibrated for the unit's station; every other cell gets the estimate of its super basin, limited to [0.1,5], the same for all such cells of the super basin; all coefficients are in [0.1,5] if the calibrated ones are.", "quantifier": "every set of stations, super basins and any regression function", "why_tests_cant": "holds for every grid and every regression result", "anchors": ["calibration/regionalization.py"]}
{"id": "C57", "title": "Ten-year abstraction files cover the calibration period exactly", "statement": "The files of actual abstractions written for a calibration station cover the calibration years exactly: every year of the period is in one and only one file, and no file covers more than ten years or a year outside the period.", "quantifier": "every calibration period", "why_tests_cant": "list partition for arbitrary lengths", "anchors": ["calibration/find_gamma_cfa_cfs.py"]}
{"id": "C58", "title": "Demand passed between neighbouring cells is neither lost nor counted twice", "statement": "With subtract_use and neighbouring_cell_supply on, with or without delayed_use, over any sequence of days and of years in which reservoirs start to operate: the surface-water demand of all cells and days, plus the demand open at the start (own, handed to riparian cells, waiting at supply cells), equals the water taken, plus the demand given up (on 31 December; without delayed_use at the end of every day, and when a neighbour gives yesterday's demand back), plus the demand open at the end; on 31 December nothing is left waiting at a neighbour. A cell at its turn serves its own demand first and then what neighbours asked of it, returns what it could not supply to those who asked in proportion, and passes what is left of its own demand to the listed neighbour with most water that does not drain into it. The water balance of the basin closes on every such day. (Findings: neighbours in the first row or column of the grid are never asked; when the supply cell answers with exactly zero an outflow cell shares its next unsatisfied demand wrongly, see C21; without delayed_use demand given back to an outflow cell is subtracted from the demand of its riparian cells.)", "quantifier": "every basin, routing order, neighbour list, demand data, weather, storages and sequence of days and years", "why_tests_cant": "demand travels between cells over days in an order that depends on the data; only an invariant over the ledger of all cells and days shows that nothing gets lost", "anchors": ["model/lateralwaterbalance/routing.py:river_routing", "model/lateralwaterbalance/neighbouring_cell.py:allocate_unsat_demand_to_demandcell", "model/lateralwaterbalance/neighbouring_cell.py:get_neighbouringcell", "model/lateralwaterbalance/waterbalance_lateral.py:calculate"]}
{"id": "C59", "title": "Return flows follow the unsatisfied demand exactly once", "statement": "Without delayed use, the unsatisfied demand by which a cell's groundwater abstraction is adapted sums, over any days, to the demand the cell gave up. With neighbouring-cell supply and delayed use, within a year the unsatisfied surface-water demand by which a cell's groundwater abstraction is adapted sums, over any days, to the change of the cell's unsatisfied demand as known to the model, whether demand is answered on the same day, on the next day or never; at the end of each day the known value is the cell's unsatisfied demand, except while an answer from an upstream-ordered neighbour is pending, when its own account is empty.", "quantifier": "every basin, neighbour list and sequence of days of a year", "why_tests_cant": "needs the history of pending and returned demand of every cell over arbitrary days; a missed or repeated correction shows up only in long sums", "anchors": ["model/lateralwaterbalance/routing.py:river_routing", "model/lateralwaterbalance/waterbalance_lateral.py:calculate", "model/lateralwaterbalance/groundwater.py:groundwater_balance"]}
{"id": "C60", "title": "Potential evapotranspiration written to the output", "statement": "The potential evapotranspiration written for a cell is the mean of that of land and of open water, weighted with shares that add up to the continental area of the cell; the water share is that of lakes and reservoirs, with local lakes at full extent from the first simulated day and, from each later 1 January on, as the day before left them, and with the reservoirs of the current year; it therefore never lies outside the two values if lakes and reservoirs fit into the continental area. (Finding: where the static data put more lakes into a cell than continental area it does.)", "quantifier": "every history of simulated days (spin-up included), every cell", "why_tests_cant": "the share depends on the whole history since the last 1 January and is hidden state carried between days", "anchors": ["model/land_surfacewater_fraction_init.py:get_land_and_water_freq", "model/verticalwaterbalance/waterbalance_vertical_init.py:calculate", "run_watergap.py"]}
{"id": "C61", "title": "Water-use data are used in the month they are for", "statement": "With monthly water-use files without gaps that start with the month of their reference date, the demand of every simulated day is the value the file declares for the month of that day divided by the days of the month; a run that needs a month the file does not declare ends with an error. (Findings: the time values in the file are ignored, so a file that starts later than its reference date is used too early; a reference date in mid-month shifts all values by a month.)", "quantifier": "every file length, reference month, simulation period, spin-up and day", "why_tests_cant": "tests use one file and one period; the rebuilt time axis must be right for every month", "anchors": ["controller/wateruse_handler.py:Wateruse", "model/lateralwaterbalance/waterbalance_lateral.py:calculate"]}
{"id": "C62", "title": "Parallel calibration does not depend on scheduling", "statement": "In calibration step B, for every number of threads and every interleaving of them, a station is started only after all stations of its basin that lie upstream of it have been calibrated, every listed station is calibrated exactly once, the pool always finishes, the parameter files are those a sequential calibration gives, and in local mode regionalisation starts only then; the calibration unit of a station consists of exactly the cells whose first station downstream it is. (Findings: in cluster mode regionalisation does not wait for the jobs; basins whose numbers leave a gap are not calibrated; a basin without stations keeps the list of the previous calibration.)", "quantifier": "every number of threads, every schedule, every set of basins, stations and river network", "why_tests_cant": "thread interleavings cannot be enumerated by tests", "anchors": ["run_calibration.py:CalibrateStations", "run_calibration.py:main", "calibration/calibration_setup.py:reorder_calib_stations", "calibration/find_gamma_cfa_cfs.py:calibrate_parameters"]}
{"id": "C63", "title": "Reservoir data match the forcing", "statement": "A simulation whose parameter file is named ..._<forcing>.<extension> reads the reservoir start months and demands made for that forcing, and a calibration those of the forcing calibrated for; if there are none, the run ends before the first simulated day. (Finding: the file the calibration writes ends in _global_parameters.nc, so a simulation with it looks for a forcing called parameters and ends.)", "quantifier": "every name and directory of the parameter file, every set of reservoir data folders, every forcing", "why_tests_cant": "the choice is made by splitting strings; tests use the shipped name only", "anchors": ["controller/staticdata_handler.py:StaticData", "run_calibration.py:main", "calibration/merge_parameters.py:merge_parameters"]}
{"id": "C64", "title": "A basin run gives the results of the global run", "statement": "A simulation restricted to the basin of stations gives in every cell of the basin, on every day, the same outputs, storages and unsatisfied demands as the simulation of all cells, with water use, delayed use, reservoirs and groundwater adaptation, whatever the data outside the basin, provided no cell of the basin lies on the shore of a lake or reservoir whose outflow cell is outside; the basins selected for stations contain every cell that drains into them. With water supply from neighbouring cells the same holds, including the demands passed on, if no cell is on the other side of the boundary of the basin than a neighbour it may ask. Over years in which reservoirs start to operate it holds if all cells of a lake or reservoir lie on one side of the boundary. (Findings: with such a shore cell its demand is asked of a cell that is not simulated and disappears; with the neighbouring-cell option a basin gives other results than the world, because its cells cannot ask the cells around it.)", "quantifier": "every world, river network, routing order, basin, forcing, demand and number of days and years", "why_tests_cant": "compares two complete simulations over arbitrary histories; tests run one small basin", "anchors": ["model/utility/get_upstream_basin.py:SelectUpstreamBasin", "model/lateralwaterbalance/routing.py:river_routing", "model/lateralwaterbalance/waterbalance_lateral.py:calculate", "model/verticalwaterbalance/waterbalance_vertical.py:vert_water_balance", "run_watergap.py"]}
{"id": "C65", "title": "Physical ranges survive floating-point rounding", "statement": "With every arithmetic operation rounded (IEEE binary64, or any monotone symmetric rounding), on every day of every weather history canopy, snow-band and soil storages are non-negative, the soil holds at most its capacity, canopy storage at most its own, throughfall, evaporation, sublimation, melt, effective precipitation, surface runoff and recharge are non-negative, recharge is at most total runoff and snow cover and soil saturation are fractions, potential evapotranspiration is non-negative and the leaf area index stays between its minimum and maximum up to 7 roundings; local and global lakes and local wetlands never exceed their maximum and never have negative outflow, a reservoir stays between 0 and its capacity whatever the release rule asks for, streamflow, groundwater discharge and unsatisfied demand are non-negative. In a whole simulation, over any number of days, in any river network and with any weather, release rule and demand (delayed or not, and however reservoirs share it with the cells on their shores), all of this holds on every day in every cell at once: land column, water bodies, land-cover fractions for the next day (never negative, and for a lake or wetland never more than its full extent), streamflow and what is left of the demand. The same holds over any number of years in each of which reservoirs may start to operate or grow, taking land whose water goes to the reservoir of their unit. With water supply from neighbouring cells it holds as well, over any number of days and of such years, whichever neighbours are asked and whatever they give back, and what a cell keeps of its unsatisfied demand or passes on to a neighbour is never negative. Without rounding these routines, the whole simulated day and the start of a year are the ones the other properties are about. (Finding: by rounding a local lake can fall below minus its capacity.)", "quantifier": "every rounding, every input, every number of days and years", "why_tests_cant": "the last bit of a result depends on the operands; a test sees a few of the 2^64 values, and clamps that only work in exact arithmetic fail rarely", "anchors": ["model/verticalwaterbalance/canopy.py:canopy_water_balance", "model/verticalwaterbalance/snow.py:snow_water_balance", "model/verticalwaterbalance/soil.py:soil_water_balance", "model/lateralwaterbalance/lakes_wetlands.py:lake_wetland_water_balance", "model/lateralwaterbalance/reservoir_regulated_lakes.py:reservoir_regulated_lake_water_balance", "model/lateralwaterbalance/river.py:river_water_balance", "model/lateralwaterbalance/groundwater.py:groundwater_balance"]}
{"id": "C66", "title": "Saved storages and fluxes of a cell fit together", "statement": "The results saved for a cell are consistent with each other: on every day groundwstor equals its value of the day before plus qr minus qg minus atotusegw, and over any number of days the change of groundwstor is the sum of the daily qr - qg - atotusegw; qtot - qg is the surface runoff handed over by the land part and qr - qrf its recharge; qrf is zero outside arid regions and in inland sinks; atotuse is atotusegw plus atotusesw; ncrun is dis minus the inflow from upstream, and in an inland sink, where dis is missing, minus the inflow; the saved lake, wetland, reservoir and river storages together change by qtot, precipitation on open water and inflow minus dis, open-water evaporation, qrf and atotusesw, up to the residual volume below which a reservoir is emptied; a body the cell does not have has outflow zero and a constant saved storage.", "quantifier": "All cells, all static inputs and forcings, all storages the model can hold, all numbers of days.", "why_tests_cant": "Sums over arbitrary series with inputs of unbounded range; tests compare a few saved days.", "anchors": ["model/lateralwaterbalance/waterbalance_lateral.py:764-815,905-956", "model/lateralwaterbalance/routing.py", "model/lateralwaterbalance/groundwater_balance.py"]}
{"id": "C67", "title": "Water balances close up to rounding", "statement": "With every arithmetic operation rounded with relative error u (2^-53 in IEEE binary64) and underflow error e (2^-1075), and with volumes of at most M, the water of each storage routine is accounted for up to a fixed number of roundings u*M+e, plus, where the code sets a small residue to zero, that residue: canopy 5, a snow band 3, immediate runoff 1, soil without areal correction 140 (frozen ground receives exactly nothing), the snow routine with its means over n elevation bands 2n+7, groundwater 6 per day and therefore 6n over n days, local lake and wetland 36, global lake and wetland 48, reservoir or regulated lake 43, river 10 plus the underflow M*e (this bounds lost water always, and created water whenever the streamflow is positive). The land column of canopy, snow, built-up land and soil closes with 2n+185 roundings a day; over a year with up to two metres of rain a day that is 0.00002 mm, over 123 years 0.3 mm, without assuming anything on the later storages; the same holds of the whole vertical water balance with radiation, potential evapotranspiration and leaf area index computed in the same arithmetic. A local lake falls below minus its capacity by at most 17 roundings. Between cells: what a cell receives from upstream is the streamflow of the cells that drain to it up to 2 roundings for each of them, and over any number of days the balance of a basin closes up to the errors of its cells and 2 roundings per day and cell that drains to another. A whole cell - lakes, wetlands, reservoirs also on days on which the water does not suffice (52 and 57 roundings), groundwater, river, local lake tapped at last - accounts for its water, as the code reports it, up to 400 roundings, 30 underflows M*e and the residue of its reservoir, which for volumes up to 131072 km3 is 6 cubic metres a day; so does, with 402 roundings a cell, a river basin of such cells on any number of days (lost water always, created water when no river is dry). (Exactly, it does not: beside 1 km3 a stream of 2^-60 km3 is lost on its way to the next cell.)", "quantifier": "every rounding of the given accuracy, every input up to size M, for groundwater and the network every number of days, every sound routing order and whatever the cells do with the water", "why_tests_cant": "rounding errors depend on the operands and their accumulation on the history; a test with a tolerance samples a few of them", "anchors": ["model/verticalwaterbalance/canopy.py:canopy_water_balance", "model/verticalwaterbalance/snow.py:snow_water_balance", "model/verticalwaterbalance/soil.py:soil_water_balance", "model/lateralwaterbalance/lakes_wetlands.py:lake_wetland_water_balance", "model/lateralwaterbalance/reservoir_regulated_lakes.py:reservoir_regulated_lake_water_balance", "model/lateralwaterbalance/river.py:river_water_balance", "model/lateralwaterbalance/groundwater.py:groundwater_balance", "model/lateralwaterbalance/routing.py:river_routing"]}
{"id": "C68", "title": "Calibration uses the abstractions of the standard run", "statement": "The monthly volumes written for calibration are exactly the volumes the standard run abstracted, converted back from the saved mm/s; in a calibration run of any period the demand of the days of a month adds up to the abstraction of that month in the standard run; a cell without continental area gets no value. (Finding: in the February of a leap year the calibration run takes 29/28 of it.)", "quantifier": "every cell, every series of daily abstractions, every pair of periods, every month", "why_tests_cant": "round trip through two runs, unit conversions and calendars", "anchors": ["calibration/calibration_setup.py:copy_actual_net_abstraction", "model/lateralwaterbalance/waterbalance_lateral.py:calculate", "view/createandwrite.py:base_units"]}
{"id": "C69", "title": "Regionalisation: groups and descriptors of basins", "statement": "In the table of a region every cell belongs to the first station of the file whose basin contains it, or to none; its coefficient is the mean over that station's unit, within the range of the unit's coefficients, and the common value if they agree. The descriptor of a basin is the mean of its cells weighted with their areas and so between the smallest and the largest; the soil capacity is the mean over cells with soil only and zero without any; the temperature is the mean of 1971-2000 in degrees Celsius cut to hundredths towards zero, and a cell without temperature stops the conversion. (Finding: for the other descriptors a missing value counts as zero with the full area.)", "quantifier": "every set of stations, basins, cells, areas, descriptors and temperatures", "why_tests_cant": "sums over arbitrary cell sets and orders of stations", "anchors": ["calibration/regionalization.py:get_arcid_gamma", "calibration/regionalization.py:regionalize_paramters", "calibration/regionalization.py:read_input_files", "calibration/convert_data_csv.py:convert_csv"]}
{"id": "C70", "title": "Water of land taken by a new reservoir goes to the reservoir of its unit", "statement": "On 1 January of a reservoir year adapt_glores_storage adds the canopy, snow and soil water of land that a new reservoir takes to the first cell (in grid order) of the unit that has reservoir area, and to no other cell; no storage ever decreases; for every set of units the storages gain exactly the water lost by served cells - cells of a unit with a reservoir whose number is neither the smallest nor the largest value of the assignment map (a cell without a number counts as the largest) - and no water disappears exactly when every cell that loses water is served. (Finding: if every cell of the map has a number, the unit with the largest number is skipped and its water disappears.)", "quantifier": "every grid, assignment of cells to units, reservoir areas, lost volumes and storages", "why_tests_cant": "a loop over the distinct values of a map; every assignment and order of cells", "anchors": ["model/land_surfacewater_fraction_init.py:LandsurfacewaterFraction.adapt_glores_storage"]}
{"id": "C71", "title": "Water balance over years in which reservoirs come into operation", "statement": "Over any number of calendar years, with any weather and demand, in which reservoirs start to operate on 1 January (area, capacity and fraction change, land is taken, its water is handed over), the long-term error that the balance tool computes from the outputs is, up to flushed residues, minus what the year starts added: per cell the water its reservoir got minus the water its land lost, and the error of rescaling the remaining land's storages with the ratio of the day before; on the whole grid these add up to the rescaling errors minus the water of unserved cells. (Areal correction factors as in C50; in every cell whose land does not vanish under water, the years add no more storage than precipitation and the year starts bring.) If the land fraction of cells with a growing reservoir did not change overnight and all water lost has a reservoir to go to, the error is at most the flushed residues. The first day of a simulation meets the conditions. All this holds with water supply from neighbouring cells as well, whoever asks whom and whatever still waits at a neighbour when the year starts. (Findings: the ratio is not recomputed after the reservoir has taken land; a reservoir that takes all the land gets its water although the column hands the same water to the lateral balance.)", "quantifier": "every basin, number of years and days, weather, demand, reservoir fractions that do not shrink and fit into the land, with and without water supply from neighbouring cells", "why_tests_cant": "histories of arbitrary length over all cells; an invariant across year boundaries", "anchors": ["run_watergap.py:run", "model/land_surfacewater_fraction_init.py:LandsurfacewaterFraction.landareafrac_with_reservior", "model/land_surfacewater_fraction_init.py:LandsurfacewaterFraction.adapt_glores_storage", "misc/global_water_balance/waterbalance_global.py"]}
{"id": "C72", "title": "Calibration compares simulated and observed discharge of the same years", "statement": "For every set of years with observations, a calibration run covers every day of every year used and starts and ends with such a year; the two discharges compared are the mean of the yearly volumes simulated in exactly these years and the mean of the observations as volumes of 365 days, missing days counting as zero - neither spin-up years, nor years without observations in between, nor left-over days of the output variable enter. A simulation whose mean discharge is the observed one in every year has a bias of the leap years' share of the discharge divided by 365, so at most 1/365, and ends the calibration with status 1. The runoff used for the areal correction factor is the mean of all years from first to last without a missing day. (Findings: a perfect simulation of a leap year has a bias of 1/365; with years without observations in between the factor misses the discharge aimed at in the years compared; a station in an inland sink, whose streamflow is saved as missing, is compared with zero.)", "quantifier": "every station file, every daily series of discharge and runoff, every number of spin-up years and every forcing period that covers the run", "why_tests_cant": "round trip through set-up, run loop, output variable and table merge for arbitrary years", "anchors": ["calibration/calibration_setup.py:generate_config_and_discharge_for_station", "run_watergap.py:run", "calibration/find_gamma_cfa_cfs.py:OptimizationState.calib_cs1", "calibration/find_gamma_cfa_cfs.py:OptimizationState.calib_cs3"]}
{"id": "C73", "title": "Every station is calibrated with the settings calibration needs and otherwise those of the user", "statement": "Calibration rewrites the user's configuration file and derives one file per station from it. Whatever the user chose, a station run is anthropogenic with water use, reservoirs and delayed use, without neighbouring cells, runs in calibration mode for its basin from the first to the last year given with the basin's parameter file, and of the output variables exactly streamflow and potential cell runoff are on; time step, reservoir years, spin-up, input and output directories, station list, observations and forcing name are the user's; every setting not named in the set-up is that of the file it is made from; a file with the sections every run reads always yields a station file. The file of step A names the parameter file of step A and writes exactly the two abstractions and the soil capacity, with every human impact on. (Finding: the restart options of the user survive into every station run.)", "quantifier": "every configuration file (any nesting of entries in its sections), every station period and parameter path", "why_tests_cant": "all configuration trees and every place in them, through two rewriting passes", "anchors": ["run_calibration.py:CalibrateStations.modify_config_file", "calibration/calibration_setup.py:generate_config_and_discharge_for_station", "controller/configuration_module.py"]}
{"id": "C74", "title": "Every selected output is saved with its own values, nothing else is touched", "statement": "A complete run whose configuration file has the four output sections raises no exception in its output, whatever is selected. For each option that is set, and no other, there is one file per calendar year named <output>_<date>.nc (maximum soil moisture: smax.nc) that holds on every day of the period in that year the quantity the option stands for, converted to the unit of the output; all other files keep their content, in particular those of an earlier run that ended before this one starts. (Finding: a continued run that contains no 1 January replaces smax.nc by zeros.)", "quantifier": "every configuration file with the four sections, every period covered by the forcing, every sequence of daily results, every previous content of the output directory", "why_tests_cant": "the options select 2^48 sets of outputs, the content of each depends on every day of a multi-year run, and tests look at a few variables of short runs", "anchors": ["view/createandwrite.py:CreateandWritetoVariables", "view/data_output_handler.py:OutputVariable", "controller/configuration_module.py", "model/lateralwaterbalance/waterbalance_lateral.py", "model/verticalwaterbalance/waterbalance_vertical_init.py"]}
{"id": "C75", "title": "The shipped river network can be routed and cut into basins", "statement": "The tables of the river network shipped with the model fit together. Every cell of the routing order is routed once and before the cell it drains to; its outflow cell is one of its eight neighbours, is itself routed and does not lie in the first row or column; so whatever the cells do with their water, all streamflow enters a routed cell or leaves a cell without outflow cell. Every id 1..67420 belongs to one routed cell and its row in the table of upstream cells lists exactly the cells draining to it. For every list of stations at centres of routed cells the selection of the basin succeeds far below Python's recursion limit and selects exactly the cells whose water passes a station, and a run of that basin gives its cells the inflow and streamflow of the global run. All 1509 shipped stations are centres of routed cells.", "quantifier": "all 67420 rows of the shipped tables, every list of stations, every behaviour of the cells, every recursion limit of at least 128", "why_tests_cant": "tests run a few cells or one basin; a single wrong row among 67420 loses the water of a whole basin or makes the selection of another basin fail", "anchors": ["input_data/static_input/routing_order.csv", "input_data/static_input/upstream_cells_for_grid_arcid.csv", "input_data/static_input/ArcID_GCRC_Lon_Lat.txt", "input_data/static_input/stations.csv", "model/utility/get_upstream_basin.py", "model/lateralwaterbalance/routing.py:river_routing", "controller/staticdata_handler.py"]}
{"id": "C76", "title": "Every cell gets the parameters of its own land cover class", "statement": "With a table that lists every land cover class once, the albedo, snow albedo, emissivity, leaf area limits, initial days, degree-day factor and rooting depth of a cell are those of its own class, its soil capacity is the available water capacity times the rooting depth of the class, and a cell without land cover or with a class that is not in the table gets NaN for all of them instead of the values of another class. With the shipped table every cell whose parameters are numbers has positive soil capacity and degree-day factor, ordered non-negative leaf area limits, albedos in [0,1) and emissivity in (0,1], i.e. meets what the guarantees on the land column assume about these parameters.", "quantifier": "every map of land cover classes and water capacities, every table without repeated class; all rows of the shipped table", "why_tests_cant": "tests look at a few classes; a wrong column or a class taken for another is silent because every class gives plausible numbers", "anchors": ["model/verticalwaterbalance/waterbalance_vertical_init.py:VerticalWaterBalance.__init__", "model/verticalwaterbalance/lai_init.py:LeafAreaIndex", "input_data/static_input/canopy_snow_parameters.csv"]}
{"id": "C77", "title": "Bankfull flow does not depend on the unit or the order of the data", "statement": "The bankfull flow the tool computes from daily discharge scales with the unit of discharge, does not depend on the order of the years and is never larger than every daily discharge of the period; periods of one or two years end with an error. (Findings: if the product of the annual maxima is exactly 1 the result depends on the unit; a river that carries water in only one of eleven or more years gets no bankfull flow.)", "quantifier": "every period of complete years, every non-negative daily discharge, every unit factor", "why_tests_cant": "an invariance under rescaling over a continuum, across a logarithmic and an arithmetic branch with a piecewise linear table", "anchors": ["misc/bankfull_flow.py", "misc/bankfull_flow.py:compute_skewness", "misc/bankfull_flow.py:compute_bankfull_flow"]}
{"id": "C78", "title": "A simulation day never divides by zero nor takes an undefined power or root", "statement": "In every run from physical data and an initial state in range, every division, every power and every square root of the daily water balances (radiation, canopy, snow, soil, groundwater, lakes, wetlands, reservoirs, release rule, river, distribution of demand to riparian and neighbouring cells) that the code reaches in any cell on any day has a non-zero denominator, a base with a real power, a non-negative radicand, so that no NaN, infinity or ZeroDivisionError arises; the results are those of the model of the other properties. This holds over any number of years in which reservoirs come into operation on 1 January, too. (This is in exact arithmetic. With rounding, lakes and wetlands within their limits divide by positive losses, too; finding: a local lake that rounding has put below minus its capacity divides by zero on the next day without inflow.) Two combinations of data are excluded, and exactly in them the code has no result: an irrigation reservoir without mean inflow and without mean annual demand (a reservoir in operation always has an inflow), and unsatisfied surface water demand in a cell whose irrigation withdrawal is positive while its factor of net groundwater abstraction is zero, which for sensible data means that nothing is consumed and nothing returned to groundwater. (Findings: a regulated lake before its first year of operation is not asked for an inflow; the irrigation efficiency of water that is withdrawn but not used divides by zero.)", "quantifier": "every network in routing order, every physical data set, every forcing, every number of days, every initial state in range", "why_tests_cant": "a zero denominator needs a rare coincidence of storage, area and demand in one of 67420 cells on one day, and numba turns it into an error or a silent NaN; tests use harmless numbers", "anchors": ["model/lateralwaterbalance/routing.py:river_routing", "model/lateralwaterbalance/groundwater_adapt_net_abstraction.py", "model/lateralwaterbalance/reservoir_release_hanasaki.py", "model/lateralwaterbalance/waterbalance_lateral.py", "model/verticalwaterbalance/soil.py"]}
{"id": "C79", "title": "Without water use nothing is abstracted", "statement": "In a simulation with water use switched off nothing is abstracted from groundwater or surface water in any cell on any day, no demand is left over or handed to other cells, and evaporation has no part from water use; its records and storages do not depend on the water-use files, the delayed-use option or the lake units, and they are those of a simulation with water use whose files ask for nothing. (Finding: continued from the saved states of a simulation with water use, it abstracts groundwater on its first day where surface water demand was unsatisfied and irrigation withdrew more than it consumed; from the second day on it does not.)", "quantifier": "every weather, every water-use file, every network and basin, every number of days, every initial storage", "why_tests_cant": "the absence of an influence of all demand data on all days; the arrays, the saved states and six guards in two modules would each have to be tested against every demand", "anchors": ["model/lateralwaterbalance/waterbalance_lateral.py:LateralWaterBalance.calculate", "model/lateralwaterbalance/waterbalance_lateral.py:LateralWaterBalance.update_latbal_for_restart", "model/lateralwaterbalance/routing.py:river_routing", "model/lateralwaterbalance/groundwater.py:groundwater_balance", "model/lateralwaterbalance/groundwater_adapt_net_abstraction.py"]}
{"id": "C80", "title": "Net cell runoff of a basin is the discharge at its outlet", "statement": "For every region that includes everything upstream of it, the net cell runoff written for its cells, multiplied by their continental areas, adds up on every day of a simulation to the discharge written for the cells where water leaves the region; for the basin of a gauging station this is the discharge at the station, on every day and over every period, with and without water supply from neighbouring cells, also over years in which reservoirs start to operate. The discharge written is that of the cell's daily water balance, and the net cell runoff is that discharge (0 in an inland sink) minus the inflow from upstream. It holds for every simulation with the shipped river network and the shipped map of inland sinks.", "quantifier": "every weather, demand and storage, every region closed upstream, every day and every period of every simulation", "why_tests_cant": "an identity between two output files summed over any basin; a test can compare the files of one run on one basin", "anchors": ["model/lateralwaterbalance/routing.py:river_routing", "model/lateralwaterbalance/waterbalance_lateral.py:LateralWaterBalance.calculate", "view/createandwrite.py:CreateandWritetoVariables.base_units"]}
{"id": "C81", "title": "Shipped drainage map, lake units and reservoir data fit together", "statement": "On the shipped maps inland sinks and coastal cells have no outflow cell in the routing order and every other cell flows to its neighbour in the mapped direction; every lake and reservoir belongs to a unit, and every unit except five has exactly one outflow cell; a reservoir has a capacity, a known type and a start year exactly where it has an area. (Finding: four units, 734, 1858, 2288 and 2467, have two or three outflow cells, so that the assumption under which demands are conserved fails there; one, 2265, has none.)", "quantifier": "all 67420 cells of the shipped maps and all 2465 units", "why_tests_cant": "relations between seven data files that the code assumes and never checks; they must hold for every cell for the other properties to apply", "anchors": ["input_data/static_input/soil_storage/watergap_22e_drainage_direction.nc", "input_data/static_input/watergap_22e_glwdunits.nc", "input_data/static_input/routing_order.csv", "controller/staticdata_handler.py:StaticData", "model/lateralwaterbalance/aggregate_net_abstraction.py:aggregate_potnetabs"]}
{"id": "C82", "title": "The order of the routing table does not matter, and neither does anything downstream", "statement": "Any two routing tables that list the same river network with upstream cells first, and each cell of a lake or reservoir on the same side of its outflow cell, give identical states and records on every day of a simulation of the world or a basin, also over years in which reservoirs start to operate; without water use any two tables that list upstream cells first do; with water supply from neighbouring cells they do if they also list any two cells of which one may ask the other in the same order. Simulations whose weather, data and initial states agree in a region closed upstream give identical results there, whatever happens elsewhere, also with water supply from neighbouring cells if the cells of the region have their neighbours in it. Over years in which reservoirs start to operate the same holds if the lakes and reservoirs of the region lie in it as a whole. (Finding: if the tables disagree on the side of a shore cell, the results differ: the demand a reservoir could not supply is asked of the shore cell on the same day or only later; likewise with neighbours: a neighbour that has its turn later serves the demand on the same day, one that had its turn before on the next.)", "quantifier": "every two topological orders of every network, every basin, every weather and demand, every number of days and years, every region closed upstream", "why_tests_cant": "two runs have to be compared for every pair of the astronomically many topological orders and for every change of data outside a region; tests compare a few", "anchors": ["model/lateralwaterbalance/routing.py:river_routing", "model/lateralwaterbalance/distribute_net_abstraction.py:redistritute_to_riparian", "input_data/static_input/routing_order.csv", "run_watergap.py:run"]}
{"id": "C83", "title": "Water supply from neighbouring cells is an addition that acts only when a cell asks", "statement": "A simulation with neighbouring_cell_supply on gives on every day the outputs, storages and unsatisfied demands of the simulation with the option off, as long as no cell asks a neighbour; in particular if in the simulation without the option no cell is left with unsatisfied demand on any day, if there is no demand for surface water, or if the cells have no neighbours; also over years in which reservoirs start to operate.", "quantifier": "every network, neighbour list, weather, demand, initial storages and number of days and years", "why_tests_cant": "compares two complete simulations with different code paths over arbitrary histories", "anchors": ["model/lateralwaterbalance/routing.py:river_routing", "model/lateralwaterbalance/neighbouring_cell.py:get_neighbouringcell", "model/lateralwaterbalance/neighbouring_cell.py:allocate_unsat_demand_to_demandcell", "model/lateralwaterbalance/waterbalance_lateral.py:calculate"]}
{"id": "C84", "title": "On any day more water or less demand never lowers the streamflow", "statement": "Of two versions of a day with the same storages everywhere, the one in which every cell receives at least as much rain on its open water, runoff and groundwater recharge, withdraws no more groundwater on balance, receives at least as much from upstream and is asked for no more surface water gives, in every cell of the network and at every outlet, at least the outflow of the other, apart from the rule that empties rivers with almost no water, and leaves no more demand unsatisfied; the same holds for every single lake, wetland, reservoir and river. It needs station and river corrections that are not negative and a mean reservoir inflow that is not negative. (Findings: the rule for small volumes makes the streamflow of a nearly dry river fall when it receives a little more; and over several days the claim is false: a reservoir that received more on the first day may release less on the second.)", "quantifier": "every network, every storage, every pair of ordered inputs and demands, every option of water use", "why_tests_cant": "a comparison of two days for every ordered pair of inputs through about a dozen branches per water body and any number of cells; tests compare a few values", "anchors": ["model/lateralwaterbalance/routing.py:river_routing", "model/lateralwaterbalance/lakes_wetlands.py:lake_wetland_water_balance", "model/lateralwaterbalance/reservoir_regulated_lakes.py:reservoir_regulated_lake_water_balance", "model/lateralwaterbalance/reservoir_release_hanasaki.py:hanasaki_res_reslease", "model/lateralwaterbalance/river.py:river_water_balance", "model/lateralwaterbalance/groundwater.py:groundwater_balance"]}
{"id": "C85", "title": "On any day more rain never gives less water from the land", "statement": "Of two versions of a day of a cell with the same storages and the same temperature and radiation, the one with more precipitation has at least as much throughfall, canopy evaporation, snow melt, groundwater recharge and total runoff from land (surface runoff plus recharge), and leaves at least as much water on the leaves and in every snow band; the surface runoff and the soil water grow too unless the rain of an arid cell with coarse soil crosses the critical precipitation of recharge. It is assumed that the extra rain does not start the growing season (40 mm since the last one) and that the station correction factor is at most 1: with either, and for the surface runoff at the critical precipitation, more rain can give less runoff.", "quantifier": "every cell with land, every storage, every pair of ordered precipitations, every temperature and radiation, any number of snow bands", "why_tests_cant": "a comparison of two days through canopy, snow bands, soil, recharge and correction, each with several branches; tests compare a few values", "anchors": ["model/verticalwaterbalance/canopy.py:canopy_water_balance", "model/verticalwaterbalance/snow.py:snow_water_balance", "model/verticalwaterbalance/soil.py:soil_water_balance", "model/verticalwaterbalance/soil.py:immediate_runoff", "model/verticalwaterbalance/lai.py:get_leaf_area_index", "model/verticalwaterbalance/waterbalance_vertical.py:calculate"]}
{"id": "C86", "title": "On any day more rain never lowers the discharge", "statement": "A day of the simulation with water use is run twice from the same storages, with the same temperature, radiation and demand; if the second time no cell has less precipitation, no cell has less discharge in the output, and no cell is left with more unsatisfied demand. Assumed as for the land and the network alone: the extra rain starts no growing season, carries no arid cell with coarse soil over the critical precipitation of recharge (there the discharge does fall), no areal correction factor is above 1 (see C85), and the guard on small volumes does not empty the drier river.", "quantifier": "every network, every state, every weather, demand and pair of ordered precipitation fields", "why_tests_cant": "a comparison of two complete days for every ordered pair of rain fields; tests compare a few values", "anchors": ["model/verticalwaterbalance/waterbalance_vertical.py:calculate", "model/lateralwaterbalance/waterbalance_lateral.py:calculate", "model/lateralwaterbalance/routing.py:river_routing", "run_watergap.py"]}
{"id": "C87", "title": "Potential and actual water use do not mix", "statement": "Every file of the configured folder is read either as potential or as actual use, files elsewhere are not read. Whatever the folders contain, preparing the calibration leaves the files of potential use untouched, and a calibration run then reads exactly the actual use written last, nothing left over and nothing missing, provided the configured folder is the one it is written to. (Finding: with any other folder configured, a calibration run finds no actual use at all, and earlier files are not removed from the folder written to.)", "quantifier": "every contents of the folders, every calibration period, every configured folder", "why_tests_cant": "a statement about all histories of the folders; tests start from one folder", "anchors": ["controller/wateruse_handler.py:Wateruse", "calibration/calibration_setup.py:cleanup_simulation_files", "calibration/calibration_setup.py:copy_actual_net_abstraction"]}
{"id": "C88", "title": "What the regionalisation's regression determines", "statement": "Whatever the calibrated basins and their descriptors, a least-squares solution exists; over the calibrated basins the estimated coefficients have the same geometric mean as the calibrated ones and the errors are uncorrelated with every descriptor; the estimates do not depend on the units of the descriptors; if the logarithm of the calibrated coefficients is an affine function of the descriptors it is recovered. The coefficient of a basin without station is determined by the data exactly when its descriptors are a weighted mean of those of calibrated basins; otherwise every value from 0.1 to 5 comes from some least-squares solution.", "quantifier": "every set of basins, every descriptors and calibrated coefficients, every least-squares solution the library may return", "why_tests_cant": "a statement about all solutions of a minimisation over all data sets", "anchors": ["calibration/regionalization.py:regionalize_paramters"]}
{"id": "C89", "title": "How long the groundwater remembers its initial storage", "statement": "Two histories of a cell's groundwater with the same recharge and abstraction every day but different initial storages: the one that starts with more never holds less and never discharges less on any day, and the difference left plus all the differences of discharge is exactly the difference at the start, so an error in the initial storage is never amplified. While there is discharge (without net abstraction: always, once there is water) the difference shrinks by the factor exp(-k) every day; with constant recharge the storage approaches recharge over outflow coefficient from any start. (Finding: in a depleted cell whose abstraction exceeds its recharge the difference stays for ever; no spin-up removes it.)", "quantifier": "every outflow coefficient, pair of initial storages, number of days and sequence of recharge and abstraction", "why_tests_cant": "a statement about pairs of histories of any length and about a limit", "anchors": ["model/lateralwaterbalance/groundwater.py:groundwater_balance", "run_watergap.py"]}
{"id": "C90", "title": "Recomputed start months of reservoirs are the ones the next run uses", "statement": "If only a file of the name that the tool gives to its result has start months among the files a run reads, then after the tool has been run the run finds exactly one set of start months, that of the tool; so it is with the shipped data for ERA5. For each of the 1267 reservoirs and regulated lakes of the shipped network the data of either forcing have exactly one entry; its start month is what the tool computes from the shipped inflows, it is a month from 1 to 12, and with the shipped data the operational year of every reservoir with inflow begins with its longest dry period, with one exception. (Findings: with W5E5 the reservoir at 32.75 N, 104.25 W gets October instead of March; the shipped start months for W5E5 are in a file of another name than the tool uses, so that after the tool has been run the run finds two sets.)", "quantifier": "every folder, path and result of the tool; every shipped reservoir and forcing", "why_tests_cant": "the hand-over between tool and model depends on every file in the folder; the data are 1267 reservoirs with 13 inflows each", "anchors": ["misc/get_reservoir_start_month.py:save_start_month_netcdf", "controller/staticdata_handler.py:StaticData", "input_data/static_input/reservoir_regulated_lake"]}
{"id": "C91", "title": "The shipped static data and parameters satisfy what the water balance assumes", "statement": "In each of the 67420 routed cells the shipped fractions are not negative, the continent makes up more than nothing and at most 100 percent, the fraction of reservoirs does not shrink from year to year; gamma lies in [0.1,5], the areal correction factor in [0.5,1.5], the station factor is positive, and 1 in every inland sink, and either factor differs from 1 only where gamma is at an end of its range; the soil can hold water, built-up fractions and groundwater factors lie in [0,1], land cover classes are in the table, river lengths and cell areas are positive. In all cells but 34 the water bodies fit into the continent, with the reservoirs of any year and without. Hence a simulation of the shipped rivers with these data, of any set of cells without the 34, over any number of days and with its exchange of demand, keeps all storages physical, and creates no water in cells other than 11. (Findings: in 34 cells the water bodies exceed the continent, by up to 0.000032 percent of the cell; in 11 cells with an areal correction factor above one lakes and wetlands can flood all of the land, and water is created when they do.)", "quantifier": "every routed cell, every reservoir year, with and without reservoirs; every simulation of any number of days and of any set of the cells", "why_tests_cant": "tens of thousands of cells, 125 years of reservoirs and arbitrary weather", "anchors": ["controller/staticdata_handler.py:StaticData", "model/parameters.py:Parameters", "model/land_surfacewater_fraction.py:compute_landareafrac", "model/lateralwaterbalance/waterbalance_lateral.py:LateralWaterBalance", "input_data/static_input", "model/WaterGAP_2.2e_global_parameters_gswp3_w5e5.nc"]}
{"id": "C92", "title": "The demand of a cell is divided among the reservoirs upstream, not counted several times", "statement": "With the shipped river network, reservoirs and allocation coefficients, the mean annual demands that the releases of any set of reservoirs follow add up, in every year, to at most the mean annual demand of all cells (to one millionth). From 2020 on, when all shipped reservoirs are in operation, the same holds for the monthly demands, and the demands of all reservoirs together are that of the cells that have a reservoir or lie within five cells below one, each counted once (to one millionth). In earlier years this fails for the monthly demand: in 2000 three irrigation reservoirs each follow the whole demand of one cell, because the coefficients were computed with all reservoirs while the walk downstream goes through cells whose reservoir is not yet in operation.", "quantifier": "every year, every demand that is not negative, every set of reservoirs", "why_tests_cant": "the sums run over 67420 cells and all reservoirs, and hold for every field of demands; no example covers the shares of 3012 supplied cells", "anchors": ["model/lateralwaterbalance/reservoir_release_hanasaki.py:hanasaki_res_reslease", "model/lateralwaterbalance/waterbalance_lateral.py:LateralWaterBalance", "input_data/static_input/alloc_coeff_by_routorder.csv", "input_data/static_input/routing_order.csv"]}
{"id": "C93", "title": "The parameter file of a basin survives interruptions of the calibration", "statement": "Whatever earlier calibrations did in the folder of a basin, stopped at any file operation, a new calibration of the basin (set-up, then the changes) ends with exactly one readable parameter file of the basin, under the name the configurations of the stations use, with the parameters of the set-up changed in order; while the parameters are changed a complete set, one of those reached so far, is in the folder at every moment, and if every basin had a change the merge reads exactly the calibrated parameters, one file per basin. (Findings: the parameter files of the model are deleted before it is known whether an uncalibrated file exists, and the repository ships none; between removing the old file and renaming the new one the basin has no file under its name; the set-up leaves the temporary file of an interrupted calibration, which the merge reads if the basin has no change; with a source not named ..._run-calib.nc no change finds a file; a file of another model version in the folder is changed instead.)", "quantifier": "every folder, every number of earlier attempts, every crash point between file operations, every sequence of changes, every set of basins", "why_tests_cant": "the crash may come between any two file operations of any attempt; a test stops at one point", "anchors": ["run_calibration.py:main", "calibration/calibration_setup.py:SetupCalibration.copy_parameter_remove_temp_files", "calibration/find_gamma_cfa_cfs.py:OptimizationState", "calibration/merge_parameters.py:merge_parameters"]}
{"id": "C94", "title": "A run may be interrupted at any moment and repeated", "statement": "A run writes the files of all selected outputs at the end of every year, in parallel, and the states last. However often a run is interrupted, at any step of any of its writers, repeating it to the end gives, file by file, the disk of one run that was never interrupted; the states it starts from stay intact, so it can always be repeated; at every moment each file is as before, incomplete or final, nothing but the run's own files is touched, and once a file of a later year is touched those of the earlier years are final. A simulation in pieces, each continuing from the saved states and interrupted any number of times, ends with the states, and for every day and output the values, of one uninterrupted run. The order in which the parallel writers progress does not matter. (Findings: states saved earlier under the same date are lost by an interruption while they are overwritten; an interrupted repetition with other settings leaves complete files of both runs side by side; a file that cannot be written is not noticed and keeps its old content.)", "quantifier": "every period, split and number of interruptions, every crash point, every interleaving of the writing processes, every content of the disk before", "why_tests_cant": "crash points, schedules and histories of attempts are unbounded", "anchors": ["run_watergap.py:run", "view/createandwrite.py:CreateandWritetoVariables.save_netcdf_parallel", "view/createandwrite.py:write_to_netcdf", "model/utility/restart_watergap.py:RestartState"]}
{"id": "C95", "title": "The shipped outflow cells of neighbours fit the river network", "statement": "When a cell with unsatisfied surface-water demand is supplied by a neighbouring cell, the neighbour must not be one that drains directly into it; the program knows that only from the shipped table of the outflow cells of the eight neighbours of every cell. In every row and column of that table stands exactly the outflow cell, according to the shipped routing order, of the cell to the east, north-east, north, north-west, west, south-west, south or south-east (the grid closes at the date line), and (0, 0) where there is no cell. So whatever the storages, the demand and the day, the cell that is asked lies next to the cell, is not the cell itself and does not drain into it, and (except on 31 December) has at least as much water as any other such neighbour. The table fits no other order of the directions. (Finding: a cell in the westernmost column, of which the shipped grid has eleven, can be chosen as the best but then counts as no cell, so that the demand is passed on to nobody although other neighbours have water.)", "quantifier": "all 67420 cells, all eight neighbours, all storages, demands and days", "why_tests_cant": "a test looks at a few rows of a table with a million numbers and at a few storages", "anchors": ["input_data/static_input/neigbouringcells_outflow_latlon.csv", "input_data/static_input/routing_order.csv", "model/lateralwaterbalance/neighbouring_cell.py:get_neighbouringcell", "model/lateralwaterbalance/routing.py:river_routing", "controller/staticdata_handler.py:StaticData"]}
{"id": "C96", "title": "The floating-point numbers of a simulation can be reproduced bit for bit", "statement": "In any arithmetic that rounds (IEEE binary64 in particular) a simulation is reproducible to the last bit where it should be: two routing tables of the same river network that list upstream cells first and agree on the order of the cells draining into the same cell (and on the side of the outflow cell on which the shore cells of a lake stand) give the same numbers in every variable, on every day; a basin simulated on its own gives exactly the numbers the simulation of the world gives there, and nothing that happens outside a region closed under upstream cells changes a bit inside; a run continued from the state of another computes exactly the days the uninterrupted run would have computed. The agreement of tables and the independence of a basin also hold over years in which reservoirs start to operate. With water supply from neighbouring cells a basin that also contains the neighbours of its cells computes the same bits on its own, also over such years. (Finding: the sum of the inflows is not the same when the cells that drain into a cell are listed in another order.)", "quantifier": "every arithmetic, network, weather, demand, release rule, basin, number of days and state", "why_tests_cant": "rounded addition is not associative, so that equality of all bits depends on the order of every operation of every cell on every day; tests compare to a tolerance", "anchors": ["model/lateralwaterbalance/routing.py:river_routing", "model/lateralwaterbalance/distribute_net_abstraction.py:redistritute_to_riparian", "model/lateralwaterbalance/waterbalance_lateral.py:LateralWaterBalance", "run_watergap.py:run", "controller/staticdata_handler.py:StaticData"]}
