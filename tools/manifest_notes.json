{
 "also": {
  "C40": [
   "WG.C26_basin_equals_global"
  ]
 },
 "status": {},
 "notes": {
  "C79": "Model Natural (on top of Whole, without the neighbouring-cell option): the option subtract_use, the reading of water-use data and the withdrawals remembered from the day before. C79_violated_restart is the finding.",
  "C80": "Stated in the units of the files. The only assumption about the network besides Sound is that inland sinks have no outflow cell; C80_shipped discharges both for the shipped data. C80_neighbours is the same with water supply from neighbouring cells.",
  "C81": "Literals read from the netCDF files by tools/gen_surface.py. C81_violated_several_outflow_cells and C81_violated_unit_assumption are the findings: the assumption UnitsOk of C33 and others fails for the shipped map at four units. Also seen with the tool but not formalised: in 34 cells the fractions of lakes, wetlands and land exceed the continental fraction by up to 3.2e-5 percentage points, in 67 they fill it exactly.",
  "C82": "Exact equality in real arithmetic (the sums of inflows are commutative there; in floating point equal up to rounding, C67). Proved by commuting independent steps of the routing loop (Mazurkiewicz traces). C82_violated_shore_order and C82_violated_neighbour_order are the findings. C82_with_neighbours is the case with the neighbouring-cell option: the tables must also agree on the order of any two cells of which one may ask the other.",
  "C83": "States compared: storages of columns and of the lateral balance, land fractions, accumulated, previous and daily unsatisfied demand, demand handed to shore cells (NbSim.Off); the records of every day are equal. 'Asks' is read off the map of neighbours at the end of the day (NobodyAsks).",
  "C84": "Hypotheses beside physical inputs (CellIn.Regular, HanIn.Forward): station and river corrections, wetland exponents and mean reservoir inflow are not negative, and on the first day of an operational year the provisional release is not negative. The storages are the same in both versions of the day. In C84_network the small-volume guard must not matter in the drier version (RiverGuardIrrelevant: water left in the river, or nothing flows out, or demand left); C84_river and C84_cell give the bound corr*minV without that hypothesis.",
  "C85": "Hypotheses beside physical inputs: the cell has land and soil, correction factor at most 1, the extra rain does not start the growing season; each of the last two, and the critical precipitation for the surface runoff alone, shown necessary by a violated theorem.",
  "C86": "For the simulation over the whole network (C64 carries it to basins), without the neighbouring-cell option. GoodCell, FullOk and WeatherOk are the sensible cells, states and weather of C50/C54; the states of every later day of a simulation meet them (C54_with_demand).",
  "C87": "Folders are compared by name, as if written the same way in the configuration. The contents of the files are those of C61 and C68.",
  "C88": "The regression is a library routine, modelled by its specification: any minimiser of the sum of squares. The descriptors of C69 are arbitrary here.",
  "C89": "For the groundwater of one cell with given net inflow; in a simulation the inflow itself may depend on the state through water use and the area of water bodies.",
  "C90": "The shipped numbers are read by tools/gen_startmonth.py (and compared after writing); xarray's combination of files is not modelled beyond the number of files with the variable.",
  "C67": "In the rounded cell and basin the answers of the release rule, the outflow constant of the river and the redistribution of demand are arbitrary functions; the sizes of all volumes are hypotheses (CellSize, BasinSize), proved to be met by every physical cell (C67_cell_sizes, C67_basin_sizes). Global wetlands with negative rounded outflow are excluded there. The land column is for an areal correction factor of one and, over several days, an unchanged land area; potential evapotranspiration and leaf area index are arbitrary machine numbers in C67_land_*, and those the code computes in C67_vertical_run, where the computed potential evapotranspiration is assumed to stay below its daily maximum.",
  "C91": "The shipped numbers are read by tools/gen_params.py (and compared after writing). Elevations and the amounts of reservoir capacities are not shipped or not used; the constants of the whole globe in the parameter file are only asked to be sensible (signs). In the simulation theorem weather within the daily limit, global wetlands that do not run dry within a day and no lake or reservoir in the four units of C81 with several outflow cells remain hypotheses.",
  "C92": "The shipped numbers are read by tools/gen_alloc.py and gen_surface.py (and compared after writing). Reservoirs with mean annual inflow zero (global lakes for the code) are any of the five rows idleRows, which the tool finds in the two shipped inflow files.",
  "C93": "A folder is a list of names with their content (none: the file exists but is not complete); each operation of the file system is one step and a crash may come after any of them. The order of listing is the order of the list; what a change does to the parameters is an arbitrary function.",
  "C94": "A step of a writer is opening a file (its old content is lost) or finishing it; smax.nc, which is written every year, is excluded where stated. As in C35 the pieces need reservoir years that cover their starts, and forcing data that reach the end of the last year. The outputs are those of one grid cell, as in C74.",
  "C95": "The literals are those of the file (tools/gen_neighbours.py reads them back). The table of the neighbours themselves, neigbouringcells_latlon.csv, is not in the repository; the theorems assume that it lists the routed neighbours in the order of the shipped table, which C95_column_order shows to be the only possible one.",
  "C96": "The arithmetic is a parameter without any assumption. The bits are those of the operations in the order of the source (no fused multiply-add); the release rule and the outflow constant of rivers are any functions. With the neighbouring-cell option the independence of a basin and the continuation of a run are proved (C96_neighbour_*), not the agreement of two tables. The tot of the year theorems, which adds up the water lost in a unit, is any function. C96_violated_tributaries is about the routing loop with given streamflows."
 }
}