import Verif.Props.NeighbourCheck

/-! Rows 33710 to 50564 of the table, see `Verif.Props.NeighbourCheck`. -/

namespace WG

theorem neighbours_33710 : checkFrom nbCheck 33710 3371 = true := by decide +kernel

theorem neighbours_37081 : checkFrom nbCheck 37081 3371 = true := by decide +kernel

theorem neighbours_40452 : checkFrom nbCheck 40452 3371 = true := by decide +kernel

theorem neighbours_43823 : checkFrom nbCheck 43823 3371 = true := by decide +kernel

theorem neighbours_47194 : checkFrom nbCheck 47194 3371 = true := by decide +kernel

end WG
