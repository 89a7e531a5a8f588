import Mathlib.Data.Real.Basic
import Mathlib.Analysis.SpecialFunctions.Pow.Real
import Mathlib.Analysis.SpecialFunctions.Exp
import Mathlib.Analysis.SpecialFunctions.Exponential
import Mathlib.Tactic.Linarith
import Mathlib.Tactic.Positivity
import Mathlib.Tactic.Ring
import Mathlib.Tactic.FieldSimp
import Mathlib.Tactic.NormNum

/-!
# Prelude

The Mathlib modules used by the real-valued (hydrological) part of the model.  Nothing is defined here
except two tiny helpers used throughout.
-/

namespace WG

/-- `if np.abs(s) <= minstorage_volume: s = 0` — the guard against numerical residue that every storage
routine of the code applies (e.g. `/repo/model/verticalwaterbalance/canopy.py:75-76`). -/
noncomputable def flush (minV s : ℝ) : ℝ := if |s| ≤ minV then 0 else s

end WG
