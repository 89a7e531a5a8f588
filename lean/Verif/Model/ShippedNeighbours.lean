import Verif.Model.ShippedNetwork
import Verif.Model.NeighbourData
import Verif.Model.Abstraction

/-!
# The shipped outflow cells of neighbours

`/repo/input_data/static_input/neigbouringcells_outflow_latlon.csv`, read by `/repo/controller/staticdata_handler.py:127-129,201-203` and used
by `get_neighbouringcell`.  The other table it uses, `neigbouringcells_latlon.csv`, is not in the repository: theorems about it assume what
its content has to be.
-/

namespace WG

/-- Row `k` of the table without its first column (`.iloc[:, 1:]`), as 48 digits, `/repo/model/lateralwaterbalance/waterbalance_lateral.py:346-347`. -/
noncomputable def neighbourRow (k : ℕ) : ℕ := neighbourData.get (k / 32) / 10 ^ (48 * (31 - k % 32)) % 10 ^ 48

/-- The outflow cell in the columns `cell1_x`, `cell1_y` (`i` = 0) to `cell8_x`, `cell8_y` (`i` = 7) of row `k`. -/
noncomputable def shippedNbOut (k i : ℕ) : Cell := cellOf (neighbourRow k / 10 ^ (6 * (7 - i)) % 10 ^ 6)

/-- The neighbours of the cell of row `k` of the routing order with their outflow cells, in the order of the columns; `nb`: the table of
neighbours.  The row is that of the routing loop, `/repo/model/lateralwaterbalance/routing.py:218-222`,
`/repo/model/lateralwaterbalance/neighbouring_cell.py:213-218`. -/
noncomputable def shippedPairs (nb : ℕ → ℕ → Cell) (k : ℕ) : List (Cell × Cell) :=
  (List.range 8).map fun i => (nb k i, shippedNbOut k i)

end WG
