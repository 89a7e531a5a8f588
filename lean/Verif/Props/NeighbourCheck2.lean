import Verif.Props.NeighbourCheck

/-! Rows 16855 to 33709 of the table, see `Verif.Props.NeighbourCheck`. -/

namespace WG

theorem neighbours_16855 : checkFrom nbCheck 16855 3371 = true := by decide +kernel

theorem neighbours_20226 : checkFrom nbCheck 20226 3371 = true := by decide +kernel

theorem neighbours_23597 : checkFrom nbCheck 23597 3371 = true := by decide +kernel

theorem neighbours_26968 : checkFrom nbCheck 26968 3371 = true := by decide +kernel

theorem neighbours_30339 : checkFrom nbCheck 30339 3371 = true := by decide +kernel

end WG
