import Verif.Props.NeighbourCheck

/-! Rows 0 to 16854 of the table, see `Verif.Props.NeighbourCheck`. -/

namespace WG

theorem neighbours_0 : checkFrom nbCheck 0 3371 = true := by decide +kernel

theorem neighbours_3371 : checkFrom nbCheck 3371 3371 = true := by decide +kernel

theorem neighbours_6742 : checkFrom nbCheck 6742 3371 = true := by decide +kernel

theorem neighbours_10113 : checkFrom nbCheck 10113 3371 = true := by decide +kernel

theorem neighbours_13484 : checkFrom nbCheck 13484 3371 = true := by decide +kernel

end WG
