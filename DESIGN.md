# A machine-checked model of ReWaterGAP in Lean 4

## Layout

* `lean/Verif/Model/*.lean` — the model, one file per module (or group of modules) of `/repo`, written function by
  function and branch by branch; each definition cites the file and lines it models and says where it simplifies.
* `lean/Verif/Lemmas/*.lean` — helper lemmas (exponentials, lists, calendar).
* `lean/Verif/Props/*.lean` — specifications, property theorems (`C01_…` to `C59_…` and beyond) and, beside each, an
  `example` with a concrete case that meets its hypotheses.
* `properties.jsonl` — the properties in English (`tools/gen_properties.py` writes it); `MANIFEST.json` — property →
  theorems (`tools/gen_manifest.py`); `AXIOMS.md` — axioms of every property theorem (`tools/gen_axioms.sh`);
  `seeded/LOG.jsonl` — wrong programs tried against the theorems (`seeded/run.py`).

## Trusted base

* Lean 4.33.0's kernel. No `native_decide`/`bv_decide`, no own axioms. Theorems depend on at most `propext`,
  `Classical.choice`, `Quot.sound` (list per theorem in `AXIOMS.md`).
* Mathlib's definitions of ℝ, `Real.exp`, `Real.rpow`, `Real.sqrt`, `Real.log`, lists and finite sums.
* The reading of the Python source recorded in the citations. Two tables are extracted by scripts
  (`tools/gen_restart_tables.py`: syntax trees of the restart code; `tools/gen_pearson_table.py`: the CSV table).

## Number model and other simplifications

* float64 is modelled by exact reals, except in C65, C67 and C96, where the routines are modelled with every operation rounded (`Model/Float.lean`; the rounding is a parameter, IEEE binary64 with subnormals is `Model/Binary64.lean`). Overflow, NaN arithmetic, signed zero and 32-bit output are **not** modelled.
* NaN used as a sentinel (basin mask, missing forcing, returned demand, factors of calibration) is `Option`.
  Other NaN propagation is not modelled.
* Lean has `x / 0 = 0`; Python gives inf/NaN or raises. Where it matters the theorem carries a guard, or the model
  returns `none`.
* A variable not assigned on the taken path reads as 0 (Numba's behaviour; interpreted Python would raise).
  `np.isnan(x) is False` behaves as intended only under Numba, which the model follows.
* Discrete parts (calendar, main loop, configuration, restart, outputs, basin search, neighbour choice, calibration
  decisions) are computable functions on `Nat`, `Int`, `List`, `Option`, `String`.
* Grids are functions from cells or lists of cells; the basin mask is `Option` (0 inside, NaN outside).

## What is modelled

| code | model | remarks |
|---|---|---|
| `model/verticalwaterbalance/canopy.py`, `snow.py`, `soil.py`, `lai.py`, `lai_init.py`, `radiation_evapotranspiration.py`, `waterbalance_vertical.py` | Canopy, Snow, Soil, Lai, Radiation, Vertical | all branches; any number of elevation bands; the shipped land-cover table is checked completely |
| `waterbalance_vertical_init.py`, `climateforcing_handler.py` (units, negative precipitation, vertical outputs) | Forcing, Output | time axis of the forcing assumed daily without gaps |
| `groundwater*.py`, `storage_reduction_factor.py` | Groundwater | |
| `lakes_wetlands.py` | LakeWetland | four kinds |
| `river.py`, `river_init.py` | River | |
| `reservoir_regulated_lakes.py`, `reservoir_release_hanasaki.py` | Reservoir | |
| `routing_to_surface_water_bodies.py`, `aggregate_net_abstraction.py`, `distribute_net_abstraction.py`, `local_lake_net_abstraction.py`, `neighbouring_cell.py` | Abstraction | |
| `routing.py` | Routing (one cell), Network (order of cells, upstream flow), Demand (ledger of demand), Neighbour (ledger with water supply from neighbouring cells) | neighbour supply with and without delayed use |
| `waterbalance_lateral.py` | Activation (reservoir years), Demand (monthly demand, delayed use), GlobalBalance (glue) | |
| the day of `run_watergap.py` with `waterbalance_lateral.py` and basin mask | Whole | vertical, lateral and demand together, for the world or a basin; without days on which reservoirs are added; NbWhole: the same day of the world with neighbouring-cell supply; Natural: the same day with and without water use; Runoff: net cell runoff and discharge of the day as written |
| `land_surfacewater_fraction*.py` | LandFrac, PetOutput (output `potevap`) | |
| `adapt_glores_storage` on the grid, several reservoir years | YearStart, NbYears | NaN as top element of the unit numbers; lateral data of each year given (their activation is in Activation) |
| `run_watergap.py` | RunLoop, Restart | |
| `controller/configuration_module.py`, `run_calibration.py` | Config | options only, not argparse/paths |
| `view/data_output_handler.py`, `view/createandwrite.py`, `cf_conv.json` | Output | one cell; file system not modelled |
| `model/utility/*.py` | Basin, Restart, RestartTables, Forcing | pickling assumed faithful |
| `calibration/find_gamma_cfa_cfs.py`, `create_discharge_data.py`, `regionalization.py`, `merge_parameters.py`, `calibration_setup.py` (abstraction files) | Calibration, CalibData | a model run is an arbitrary function of gamma; Powell is the list of coefficients it tries; the regression is an arbitrary function per group |
| selection of outputs, daily writing, saved files: `view/createandwrite.py` (whole class) | OutSelect | calibration runs, second component of the neighbour map, failing writes |
| configuration files of a calibration: `run_calibration.py:modify_config_file`, `calibration_setup.py:230-253` | ConfigFile | three sections of the file |
| the years and means a calibration compares: `calibration_setup.py` (station period), `run_watergap.py` (yearly sums), `find_gamma_cfa_cfs.py` (tables) | CalibYears | 32-bit numbers not modelled |
| `input_data/static_input/{routing_order.csv, upstream_cells_for_grid_arcid.csv, ArcID_GCRC_Lon_Lat.txt}` | ShippedNetwork (RoutingData, UpstreamData, ArcidData) | zeros of the upstream table left out |
| `waterbalance_vertical_init.py:48-161`, `lai_init.py` (parameters per land cover) | LandCover | the other static maps are inputs |
| `controller/wateruse_handler.py` | WaterUse, DemandUnits | time axis and selection of a month, list of units that aggregate their demand; units of the file not modelled |
| `run_calibration.py` (step B, C), `calibration_setup.py` (order of stations) | CalibSchedule | calibrating a station is an arbitrary function of the files of its basin |
| `controller/staticdata_handler.py` (choice of the reservoir folder), name of the calibrated file | ParamPath | paths as character lists; only the part up to the existence check |
| the same functions and the simulation of Whole without demand ledger, with partial division, power and root | Checked | what Python/numba does after a division by zero (error or inf/NaN) is not distinguished |
| canopy, snow, soil, land day, lakes, reservoirs, river, groundwater once more with rounded operations | Float, FloatVert, FloatCell, FloatNet, FloatBasin, FloatWhole, FloatDemand, FloatYears, NbFloat, Binary64 | rounding a parameter; binary64 proved to be an instance; order of operations as in the source, no fused multiply-add |
| `calibration_setup.py` (`copy_actual_net_abstraction`), `regionalization.py` (table, descriptors), `convert_data_csv.py` | Regional | one cell or lists of cells; the regression itself is in Regression, as any least-squares solution |
| `get_reservoir_start_month.py` (files), `staticdata_handler.py` (files read), shipped inflows and start months | StartMonth, StartMonthData | content of a file: start months or none |
| `staticdata_handler.py`, `parameters.py` (values of the shipped fractions, soil data and parameters) | FractionData, ParamData, ShippedParams | values as exact rationals; generated by `tools/gen_params.py` |
| `alloc_coeff_by_routorder.csv` (`staticdata_handler.py:122,198`) | AllocData, ShippedAlloc | values in millionths; generated by `tools/gen_alloc.py` |
| file operations of `run_calibration.py`, `calibration_setup.py`, `find_gamma_cfa_cfs.py`, `merge_parameters.py` | CalibFiles | a folder is a list of names and contents; each file operation is one atomic step (writing: an incomplete file, then the complete one); the processes of several basins work in different folders |
| everything a run writes to the disk (`run_watergap.py:308-396`, `createandwrite.py:294-337`, `restart_watergap.py:228-261`) | Interrupt, on OutSelect and Restart | a file is absent, incomplete or complete; writers of a year in any interleaving; the folder of states has no foreign file ending with the date |
| `neigbouringcells_outflow_latlon.csv` (`staticdata_handler.py:127-129,202-203`) | NeighbourData, ShippedNeighbours | values as they are; generated by `tools/gen_neighbours.py`; the table of neighbours is not shipped |
| the saved dictionaries of `waterbalance_lateral.py` | LatOutput | one cell |
| `misc/get_reservoir_start_month.py`, `bankfull_flow.py`, `global_water_balance/` | Misc, PearsonTable, Bankfull, GlobalBalance | cells without discharge (ocean, inland sinks) are not modelled in Bankfull |

## What is not modelled

Input/output of NetCDF and CSV files, xarray/dask, logging, argparse, plotting
notebooks, tests and documentation; the shipped data files except the land-cover table, Pearson table, the metadata of
`cf_conv.json`, the three tables of the river network and (C81) the maps of drainage directions, units, lakes and reservoirs
(signs only for areas and capacities). That the shipped routing order lists every cell after its
upstream cells (`Sound`, a hypothesis of C26, C33, C50, C54, C58) is proved for the shipped table (C75); that the literals
in `Model/*Data.lean` are the files is trusted to `tools/gen_network.py`, `gen_surface.py`, `gen_startmonth.py`, `gen_params.py`, `gen_alloc.py` and `gen_neighbours.py` (with the netCDF reader
`tools/hdf5.py`), which read them back.

## Findings: where the code violates the natural property

Each is a theorem `…_violated_…` with a concrete witness; the property in `properties.jsonl` carries the condition
under which it does hold.

C07 correction factor above 1, and no soil capacity · C13 negative demand in a global lake that runs dry ·
C14 shallow global wetland goes negative, then divides by zero or has negative outflow · C18 coefficient of an overfull reservoir · C20 unit with the largest number on a map without NaN · C21 unit with two outflow cells, neighbour answering zero ·
C26 wrong order, and a river into row/column 0 · C28 start in mid-year, wetlands that shrink before a reservoir year ·
C29 reservoir year · C30 negative spin-up, reversed period (endless loop) · C32 leap February (29/28) ·
C33 shore demand survives 31 December and is carried without delayed use · C35 spin-up or reservoir years at restart ·
C36 demand switches without water use · C37 reservoir without inflow keeps stranded water · C38 surplus dates, `smax` · C39 `river-velocity`, `netrad` · C40 cycle ·
C41 unit without runoff · C42 status 1 kept, last try not best · C43 1981–2010 not used · C44 413 of 4094 patterns, no dry
month · C45 second calibration · C46 NaN wins · C47 `restart` contains `start` · C48 unit spelling in calibration runs, unit of another quantity accepted · C49 geometric
mean 1 · C50 incomplete period, inland sink with a station factor, vanishing land under an areal correction factor · C51 sea level · C55 energy used twice · C58 neighbour in first row or column, shore cells without delayed use · C68 leap February in calibration · C69 missing descriptors count as zero · C72 leap years, years without observations, station in an inland sink · C73 restart options in station runs · C74 smax.nc of a continued run · C60 more lakes than continental area · C61 times in water-use files ignored, reference date in mid-month · C62 cluster mode does not wait, gaps in basin numbers, stale station lists · C63 calibrated file not usable under its name · C64 shore cell of a lake outside the basin, neighbours outside the basin · C65 local lake below its floor by rounding · C70 unit with the largest number skipped · C71 reservoir that takes all land: its water counted twice; ratio not recomputed. · C96 order of tributaries · C95 supply cell in the westernmost column · C92 monthly demand counted three times while a downstream reservoir is not yet in operation · C77 product of the annual maxima exactly 1, water in one of eleven years · C78 regulated lake without inflow or demand before its first year, irrigation water withdrawn but neither used nor returned, division by zero of a local lake below its floor by rounding · C79 first day without water use after a restart from states with water use · C81 four shipped units with several outflow cells, one without · C82 side of shore cells, order of neighbours · C84 rivers with almost no water, reservoirs on the next day · C85 critical precipitation in arid cells, start of the growing season, correction factor above 1 · C86 critical precipitation · C87 other folder for the water use · C88 basins outside the span of the calibrated ones · C89 no forgetting in a depleted cell · C90 one shipped start month of a shorter dry period, name of the W5E5 start months · C91 34 cells whose water bodies do not fit, 11 cells whose land can vanish under a correction factor above one · C93 parameters of the model removed before a source is found, no file between remove and rename, stale temporary file merged, names other than `…_run-calib.nc`, file of another version changed · C94 states overwritten in place, files of two runs side by side, write errors not noticed

Kept in view but not findings: groundwater storage may become negative (intended), the reservoir start month 0 never matches a month.

## Plan and method per property

| id | modelled | proof method |
|---|---|---|
| C01, C02 | `canopy_water_balance` | case analysis; induction over days |
| C03, C04, C51, C52 | `snow_water_balance`: a band, the loop with its threshold, the means | case analysis per band; induction over bands and days |
| C05–C07 | `immediate_runoff`, `soil_water_balance` | case analysis, rpow bounds; induction over days |
| C08 | `get_leaf_area_index` state machine | invariant (on the seasonal profile) by induction over days |
| C09 | radiation and PET | sign analysis, monotonicity |
| C10–C12 | groundwater, adaptation of abstraction, reduction factor | algebra with exp, ODE solution, rpow bounds |
| C13, C14 | lakes/wetlands | case analysis, exp inequalities, induction over days |
| C15, C16 | river, velocity, geometry | case analysis, sqrt algebra, telescoping |
| C17, C18 | reservoir, Hanasaki rule | case analysis; recursion over the downstream walk |
| C19–C24 | fractional routing and demand exchange | finite sums over lists |
| C25 | one cell in the routing | composition of the above, induction over days |
| C26, C27, C40 | network fold, masks, upstream search | induction over routing order; reachability; well-founded rank |
| C28, C29 | land fraction | case analysis; induction over days and reservoir years |
| C30–C33 | calendar, run loop, monthly demand, delayed use | induction over loop steps, days, cells |
| C34, C35 | restart record, split runs | table lookup over the complete extracted tables; fold append |
| C36, C37 | configuration, reservoir activation | decision logic; induction over years |
| C38, C39 | output store, units | map semantics; case analysis over the complete variable table |
| C41–C46, C56, C57 | calibration | sums, decision logic, lists |
| C47 | configuration tree | structural induction |
| C48–C50 | forcing, bankfull tool, balance tool | induction, interpolation, telescoping over time and space |
| C58, C59 | `routing.py` with neighbour supply, end-of-day update | invariant over the ledger along the routing order (who asked whom, what waits where), induction over days; for the whole simulation (NbWhole, with C50 and C54) every cell's day is reduced to the cell of C50 with what its groundwater balance was told; C58 over years in which reservoirs start to operate by induction over the years (Props/LedgerYears): what has been handed to shores does not depend on lakes that did not exist yet |
| C60 | `get_land_and_water_freq`, output `potevap` | state machine over days, decomposition of the history at the last 1 January |
| C61 | `wateruse_handler.py` time axis | induction over months, composition with C32 |
| C62 | `reorder_calib_stations`, thread pool of `run_calibration.py` | invariant over all interleavings of a small-step pool; decreasing measure; linear order of stations along a river |
| C63 | `StaticData.__init__` folder choice, `merge_parameters` file name | list lemmas on splitting at the last/first separator, for all names |
| C64 | whole simulation with a mask (Whole) | bisimulation of the two routing loops, skipped cells do not touch the basin; then induction over days; also C33, C50, C54 for the whole simulation by refinement to the ledger; the same for the loop with neighbouring cells (Props/NbBasin: NbWhole, ledger agreement and closed `nbMap` as invariants); over years `handLost` respects every cut that does not divide a unit (Props/BasinYears) |
| C65 | canopy, snow, soil, land day loop, lakes/wetlands, reservoirs, river, groundwater with every operation rounded (Float); binary64 (Binary64) | comparisons with rounded numbers are safe (`le_of_lt_rnd`); case analysis; induction over days; `C65_exact_*`: without rounding the routines are the real-number model; radiation, potential evapotranspiration and leaf area index (FloatVert): latent heat is at least one and the slope non-negative, the line through minimum and maximum leaf area index by an error bound; binary64 satisfies the assumptions (`binary64_ok`); cell day: the bodies in their order, each handed a non-negative inflow; basin: prefixes of the routing order; whole simulation (FloatWhole, equal to `simDay` without rounding): column, then basin, then land fraction, days by induction; with the demand ledger (FloatDemand): what a cell asks for is a rounded number, whatever the ledger holds; years with reservoir starts (FloatYears): induction over the years, the land lost is `clampNeg` of a difference, the sum handed over is any sum of non-negative terms; neighbours (NbFloat): the demand a turn starts with is a rounded sum, so nothing is asked of the ledger; with years, the ledger is carried over unchanged |
| C66 | the dictionaries of saved storages and fluxes of one cell day (LatOutput) over the cell day of Routing | groundwater balance C10 for every input, surface = total (C25) minus groundwater, induction over days |
| C67 | the rounded routines of C65 (Float) with an accuracy of the rounding (`Arith.Near`: relative error u, underflow error η, doubling exact; binary64 proved to satisfy it) | each rounded result within u·K+η of its argument for \|argument\| ≤ K; branches by cases, sums by linarith; groundwater runs by induction over the days; network (FloatNet: the loop of C26 with the addition of inflows rounded, cells a parameter): the inflow is the machine's sum of the upstream streamflows, errors summed over the edges, days by induction; whole cell (FloatCell, equal to `cellDay` without rounding): errors of the bodies added up, the reduction of losses by an error bound for the quotient; basin (FloatBasin): every cell's result is that of its turn, then the network theorem; land column: sizes are natural numbers, so that bounds are machine numbers and rounded sums stay below them; the snow of later days is bounded along the induction over the days; the whole vertical balance is the land column with the computed potential evapotranspiration and leaf area index |
| C68 | monthly volumes written by `copy_actual_net_abstraction` (Regional), daily demand (Demand), output units (Output) | unit conversions cancel (field_simp); month totals by C32 |
| C69 | `get_arcid_gamma`, descriptors, temperature (Regional) over the units of C45 | induction over the stations of the file; weighted sums; floor and ceiling |
| C70 | loop over `np.unique(...)[1:-1]` (YearStart) | inner elements of a strictly sorted list; induction over units |
| C71 | year start, days of several years (YearStart) on top of C50's simulation | state with an equivalent previous land fraction, which satisfies C50's invariant; induction over years, telescoping; NbYears: the same on NbWhole, where the ledger of demand is carried across the year boundary |
| C72 | station period, yearly sums of the output variable, matching of years (CalibYears) over the run loop and output store of C30/C38 | invariant on the axis of the variable; lists of dates determined by order and members |
| C73 | configuration file as sections of trees, assignments by index and keys (ConfigFile) on top of C47's rewriting | get/set laws of trees; assignments to places apart from each other commute |
| C74 | the four tables of the code (options, storage names, dictionaries of daily results, file names) and the output of all variables together over the events of the main loop (OutSelect) | tables against an independent table of meanings; invariant over the trace relating all variables to the single-variable model of C38; file names injective by splitting at the last underscore |
| C75 | the three shipped tables of the river network and the list of stations as literals (RoutingData, UpstreamData, ArcidData, StationData, written and read back by `tools/gen_network.py`), read by ShippedNetwork | one Boolean check per row and per id, evaluated by the kernel (`decide +kernel`) against a certificate (position and height of every cell); the statements follow from the checks by proof, then C26 and C40 apply |
| C76 | parameters by land cover class (LandCover), shipped table | induction over the rows of the table; the table's ranges imply the hypotheses of C53–C55 |
| C77 | annual maxima, their statistics and the value in the file (Bankfull, Misc) | scale and shift laws of mean, standard deviation and skewness; the k value is negative and the mean is reached |
| C78 | the whole daily code once more, with division, power and root that may have no result (Checked, CheckedNb, CheckedYears; `Option` monad) | every function equals its total counterpart on states in range, by the range theorems of C01–C29; conditions for no result stated as equivalences |
| C79 | reading of water-use data, withdrawals remembered from the day before, `subtract_use` (Natural) on top of Whole | two simulations side by side (relation on the ledgers, `simDay_rel`), invariant that nothing is demanded |
| C80 | outputs `ncrun` and `dis` of a day (Runoff, NbRunoff) on top of GlobalBalance and NbWhole, over years `runoffSpan`, `nbRunoffSpan` (RunoffYears) | double sum over cells and their upstream cells (`sum_fibres`), closed under upstream; no physical assumption |
| C81 | the shipped maps as literals (SurfaceData, written and read back by `tools/gen_surface.py`), read by ShippedSurface | one Boolean check per cell and per unit, evaluated by the kernel (`decide +kernel`); uniqueness from a certificate |
| C82 | Whole, NbWhole; over years `wgSpan`, `nbSpan` (NbYears) | independent steps of the loop commute (`routeStep_comm`, `node_comm`); two lists that agree on dependent pairs have the same fold (`foldl_trace`); locality from C64 twice; with neighbouring-cell supply the turns of two cells of which neither is on the other's shore nor among the cells the other may ask commute on every ledger in which cells have asked only their neighbours (an invariant, carried as a subtype) |
| C83 | NbWhole and Whole; over years `wgSpan`, `nbSpan` (NbYears) | the two routing loops are in step until the first real neighbour; what a cell asked is read off at the end of the loop (`route_rel_final`); then induction over days |
| C84 | Routing, Demand, Reservoir, LakeWetland, River (no new program definitions) | monotonicity of every water body in (inflow, demand, rain on it), composed along the chain of a cell, then induction over the routing order with the demand ledger as second component; two counterexamples |
| C85 | Canopy, Snow, Soil, Lai, Vertical (no new program definitions) | every branch of canopy, snow band and soil monotone in the rain with the storage fixed (in the canopy: the evaporation grows less than the water; in the soil: the infiltration and the evaporation grow together less than the effective rain), means of bands, then composed for the column (`C85_land`); three concrete counterexamples for the excluded cases |
| C86 | GlobalBalance, Whole (no new program definitions) | C85 gives ordered inputs of the lateral balance (`fullIn_wetter`), C84 the ordered network, `ledger_refines` carries it to the simulation with its demand ledger (`C86_more_rain_more_discharge`); counterexample at the critical precipitation |
| C87 | UseFiles: the folders as a list of files, reading, cleaning and writing of the hand-over | file names are injective in the years, so the fold of writes is an append (`C87_handover`); finding for another folder |
| C88 | Regression: prediction, sum of squares, any minimiser as the fit | normal equations from one-parameter perturbations; existence by projection on a finite-dimensional subspace; uniqueness of predictions on the affine span; off the span a functional that vanishes on it |
| C89 | Groundwater (no new program definitions) | a day's discharge is the positive part of an increasing function with slope below one (`gw_shape`), so order and the difference are kept; induction over days; limit of a geometric sequence |
| C90 | StartMonth (names of files, which are read), StartMonthData (shipped inflows and start months, generated) with Misc, ShippedSurface | lists of names; binary32 order is the order of the bits, so the kernel checks every reservoir on the bits; a certificate gives the entry of each row of the routing order |
| C91 | FractionData, ParamData (shipped fractions, soil data and parameters, generated), ShippedParams with ShippedNetwork, ShippedSurface | the kernel checks every row on integers (binary32 numbers scaled by 2^50); ranges of dictionaries checked once; then `GoodCell`, `LandStays` follow and C54/C50_with_demand are instantiated on the shipped order |
| C92 | AllocData (shipped allocation coefficients, generated), ShippedAlloc with ShippedNetwork, ShippedSurface, Reservoir | a certificate lists the reservoirs of every supplied cell; the kernel checks that every walk from a reservoir is covered by it and that the coefficients add up; then sums over cells and reservoirs are exchanged |
| C93 | CalibFiles | the trace of the folder after each file operation; an invariant over any sequence of interrupted attempts says which files can be there; the final folder and every prefix of the last attempt follow from it |
| C94 | Interrupt | a run is a list of batches of files; each interleaving of a batch is reduced to the two steps of one file; a prefix of a schedule is split at a batch; the states a run starts from are not among its files, so its plan is the same at each repetition; pieces by induction with C35 |
| C95 | ShippedNeighbours, NeighbourData | for each of the 67420 rows the kernel looks up the eight cells around (NeighbourCheck1–4) with the certificate of C75; what is asked follows from C23 |
| C96 | the whole simulation with its demand in any rounding arithmetic (FloatDemand: FloatWhole and the demand ledger) | steps of the routing loop commute unless one cell drains into the other, both drain into the same cell or one is on the other's shore; skipped cells by a relation between states (as in C64); days by induction; over years `wgSpanR` (WgYearsR), by induction over the years; with neighbours `nbRunR`, `nbSpanR` (NbFloat) by the same relation as in C64_neighbours |
| C53–C55 | composed land column, composed simulation | composition, induction over days |

Assumptions used in several places: PET ≤ `max_daily_pet` (C05, C54); bodies fit into the cell (C50, C54), areal correction
factor ≤ 1 (only for closing the balance and for C85/C86; C54 and the one-sided C50 need it only to be positive), soil capacity > 0, deep global wetlands, positive station factors (C50, C54 whole simulation); the whole simulation
excludes days on which reservoir areas change (these are C28/C29/C37).

Where the code violates the natural property, the statement in `properties.jsonl` carries the exact condition or
extent, and the violation is proved as well; no theorem is `_partial` at present.
