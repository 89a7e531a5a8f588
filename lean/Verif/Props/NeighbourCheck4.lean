import Verif.Props.NeighbourCheck

/-! Rows 50565 to 67419 of the table, see `Verif.Props.NeighbourCheck`. -/

namespace WG

theorem neighbours_50565 : checkFrom nbCheck 50565 3371 = true := by decide +kernel

theorem neighbours_53936 : checkFrom nbCheck 53936 3371 = true := by decide +kernel

theorem neighbours_57307 : checkFrom nbCheck 57307 3371 = true := by decide +kernel

theorem neighbours_60678 : checkFrom nbCheck 60678 3371 = true := by decide +kernel

theorem neighbours_64049 : checkFrom nbCheck 64049 3371 = true := by decide +kernel

end WG
