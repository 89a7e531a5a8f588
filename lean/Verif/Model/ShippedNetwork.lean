import Verif.Model.NetworkRows
import Verif.Model.StationData
import Verif.Model.Network
import Verif.Model.Basin

/-!
# The shipped river network

The three tables that say which cell drains to which, as the code reads them, and the list of stations:

* `/repo/input_data/static_input/routing_order.csv`, read at `/repo/controller/staticdata_handler.py:119-120,193`, used at
  `/repo/model/lateralwaterbalance/waterbalance_lateral.py:155-160`.
* `/repo/input_data/static_input/upstream_cells_for_grid_arcid.csv`, read at `/repo/controller/staticdata_handler.py:135-137,208`,
  used by `/repo/model/utility/get_upstream_basin.py`.
* `/repo/input_data/static_input/ArcID_GCRC_Lon_Lat.txt`, read at `/repo/controller/staticdata_handler.py:131-133,209`, used by
  `/repo/model/utility/get_upstream_basin.py`.
* `/repo/input_data/static_input/stations.csv`, read at `/repo/controller/staticdata_handler.py:142-143,210`, used by
  `/repo/model/utility/get_upstream_basin.py` in the same way.

Cells are pairs of a latitude and a longitude index of the grid of 360 × 720 cells, counted from 0.
-/

namespace WG

/-- The number of rows of each of the three tables. -/
def shippedSize : ℕ := 67420

/-- Row `k` of the routing order, as 22 digits. -/
noncomputable def routingRow (k : ℕ) : ℕ := routingData.get (k / 64) / 10 ^ (22 * (63 - k % 64)) % 10 ^ 22

/-- A cell from the six digits of its indices. -/
def cellOf (c : ℕ) : Cell := (c / 1000, c % 1000)

/-- `rout_order_arcid` of row `k`. -/
noncomputable def shippedArc (k : ℕ) : ℕ := routingRow k / 10 ^ 17

/-- `Lat_index_routorder`, `Lon_index_routorder` of row `k`. -/
noncomputable def shippedCell (k : ℕ) : Cell := cellOf (routingRow k / 10 ^ 11 % 10 ^ 6)

/-- `outflow_cell_arcid` of row `k`. -/
noncomputable def shippedOutArc (k : ℕ) : ℕ := routingRow k / 10 ^ 6 % 10 ^ 5

/-- `Lat_index_outflowcell`, `Lon_index_outflowcell` of row `k`. -/
noncomputable def shippedOut (k : ℕ) : Cell := cellOf (routingRow k % 10 ^ 6)

/-- `self.rout_order`, `self.outflow_cell`: the cells in the order in which they are routed, each with its outflow cell,
`/repo/model/lateralwaterbalance/waterbalance_lateral.py:155-160`. -/
noncomputable def shippedOrder : List (Cell × Cell) := (List.range shippedSize).map fun k => (shippedCell k, shippedOut k)

/-- The positive entries of the row with `Arc_ID` `a` (1 or more). -/
noncomputable def shippedUp (a : ℕ) : List ℕ :=
  upEntries (upSkip (upstreamData.get ((a - 1) / 16)) ((a - 1) % 16) % 10) (upSkip (upstreamData.get ((a - 1) / 16)) ((a - 1) % 16) / 10)

/-- The table of upstream cells, `self.upstream_cells`, `/repo/controller/staticdata_handler.py:208`.  Simplified: the zeros of a row,
which `get_upstream_basin.py:94` drops, are left out. -/
noncomputable def shippedTable : InflowTable := fun a =>
  if 1 ≤ a ∧ a ≤ (shippedSize : ℤ) then some ((shippedUp a.toNat).map fun u : ℕ => (u : ℤ)) else none

/-- Longitude + 180 and latitude + 90 of the row with `ArcID` `a` (1 or more), as 10 digits. -/
noncomputable def arcidRow (a : ℕ) : ℕ := arcidData.get ((a - 1) / 64) / 10 ^ (10 * (63 - (a - 1) % 64)) % 10 ^ 10

/-- The coordinates (longitude, latitude) in hundredths of a degree of the row with `ArcID` `a`. -/
noncomputable def arcidCoord (a : ℕ) : ℤ × ℤ := ((arcidRow a / 10 ^ 5 : ℕ) - 18000, (arcidRow a % 10 ^ 5 : ℕ) - 9000)

/-- `lat_lon_arcid`, rounded to two decimals, `/repo/model/utility/get_upstream_basin.py:26`. -/
noncomputable def shippedCoords : List ((ℤ × ℤ) × ℤ) := (List.range shippedSize).map fun i => (arcidCoord (i + 1), ((i + 1 : ℕ) : ℤ))

/-- Station `i` of the file. -/
noncomputable def stationRow (i : ℕ) : ℕ := stationData.get (i / 64) / 10 ^ (10 * (63 - i % 64)) % 10 ^ 10

/-- The coordinates (longitude, latitude) of the shipped stations in hundredths of a degree. -/
noncomputable def shippedStations : List (ℤ × ℤ) :=
  (List.range 1509).map fun i => ((stationRow i / 10 ^ 5 : ℕ) - 18000, (stationRow i % 10 ^ 5 : ℕ) - 9000)

end WG
