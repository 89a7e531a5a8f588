import Mathlib.Data.Nat.Notation
import Verif.Model.RoutingData
import Verif.Model.UpstreamData
import Verif.Model.ArcidData

/-!
# Rows of the table of upstream cells

How a row of `/repo/input_data/static_input/upstream_cells_for_grid_arcid.csv` is taken out of `upstreamData`.
-/

namespace WG

/-- Passing over rows of the table of upstream cells within a leaf. -/
noncomputable def upSkip (n : Nat) (i : Nat) : Nat :=
  Nat.rec n (fun _ m => Nat.div m (Nat.pow 10 (Nat.succ (Nat.mul 5 (Nat.mod m 10))))) i

/-- The entries of a row of the table of upstream cells. -/
noncomputable def upEntries (c : Nat) : Nat → List Nat :=
  Nat.rec (fun _ => []) (fun _ f m => Nat.mod m 100000 :: f (Nat.div m 100000)) c

end WG
