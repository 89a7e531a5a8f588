import Verif.Props.NetworkCheck1

/-! Rows 16855 to 33709 of the tables, see `Verif.Props.NetworkCheck`. -/

namespace WG

theorem rows_16855 : checkFrom rowCheck 16855 3371 = true := by decide +kernel

theorem arcs_16855 : checkFrom arcCheck 16855 3371 = true := by decide +kernel

theorem rows_20226 : checkFrom rowCheck 20226 3371 = true := by decide +kernel

theorem arcs_20226 : checkFrom arcCheck 20226 3371 = true := by decide +kernel

theorem rows_23597 : checkFrom rowCheck 23597 3371 = true := by decide +kernel

theorem arcs_23597 : checkFrom arcCheck 23597 3371 = true := by decide +kernel

theorem rows_26968 : checkFrom rowCheck 26968 3371 = true := by decide +kernel

theorem arcs_26968 : checkFrom arcCheck 26968 3371 = true := by decide +kernel

theorem rows_30339 : checkFrom rowCheck 30339 3371 = true := by decide +kernel

theorem arcs_30339 : checkFrom arcCheck 30339 3371 = true := by decide +kernel

end WG
