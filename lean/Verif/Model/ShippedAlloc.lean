import Verif.Model.ShippedNetwork
import Verif.Model.AllocData

/-!
# The shipped allocation coefficients of reservoirs

What `/repo/input_data/static_input/alloc_coeff_by_routorder.csv` says about the rows of the shipped routing order; the file is read at
`/repo/controller/staticdata_handler.py:122-123,198` and used at `/repo/model/lateralwaterbalance/waterbalance_lateral.py:198-200`.
`tools/gen_alloc.py` reads it and writes the tables `allocData` and `allocTable`.
-/

namespace WG

/-- The number of the coefficients of row `k` in `allocTable`. -/
noncomputable def allocId (k : ℕ) : ℕ := allocData.get (k / 64) / 10 ^ (3 * (63 - k % 64)) % 10 ^ 3

/-- `VALUE001` to `VALUE005` (`j` from 0 to 4) of row `k`, in millionths (the file has at most six decimals). -/
noncomputable def allocMicro (k j : ℕ) : ℕ := allocTable.get (allocId k) / 10 ^ (7 * (4 - j)) % 10 ^ 7

/-- `allocation_coeff[k][j]`, `waterbalance_lateral.py:198-200`, used at `reservoir_release_hanasaki.py:124-132`. -/
noncomputable def shippedAlloc (k j : ℕ) : ℝ := (allocMicro k j : ℝ) / 1000000

end WG
