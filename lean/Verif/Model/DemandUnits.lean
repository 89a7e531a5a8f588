import Verif.Model.Abstraction
import Verif.Model.YearStart

/-!
# Which units of a lake or reservoir aggregate the demand of their shore

The list of units handed to `aggregate_potnetabs`, `/repo/controller/wateruse_handler.py:120-122,157-162`.
-/

namespace WG

variable {α : Type} [DecidableEq α]

/-- The number of the unit of a cell as `Verif.Model.Abstraction` uses it.  The map has integers and NaN (`⊤`); simplified:
NaN, which equals nothing, and numbers below zero, which no unit has, become 0 (cells without unit). -/
def unitOf (glwd : α → WithTop ℤ) (x : α) : ℕ :=
  match glwd x with
  | some n => n.toNat
  | none => 0

/-- `np.unique(self.glwdunits)[1:-1]`, `/repo/controller/wateruse_handler.py:157`. -/
def demandUnits (cells : List α) (glwd : α → WithTop ℤ) : List ℕ :=
  (assignedUnits cells glwd).filterMap fun u =>
    match u with
    | some n => some n.toNat
    | none => none

/-- `aggregate_riparian_netpotabs`, `/repo/controller/wateruse_handler.py:136-162`. -/
noncomputable def aggregateRiparian (cells : List α) (glwd : α → WithTop ℤ) (lake res netabs : α → ℝ) : α → ℝ :=
  aggregate cells (unitOf glwd) lake res netabs (demandUnits cells glwd)

end WG
