import Verif.Props.NetworkCheck

/-! Rows 0 to 16854 of the tables, see `Verif.Props.NetworkCheck`. -/

namespace WG

theorem rows_0 : checkFrom rowCheck 0 3371 = true := by decide +kernel

theorem arcs_0 : checkFrom arcCheck 0 3371 = true := by decide +kernel

theorem rows_3371 : checkFrom rowCheck 3371 3371 = true := by decide +kernel

theorem arcs_3371 : checkFrom arcCheck 3371 3371 = true := by decide +kernel

theorem rows_6742 : checkFrom rowCheck 6742 3371 = true := by decide +kernel

theorem arcs_6742 : checkFrom arcCheck 6742 3371 = true := by decide +kernel

theorem rows_10113 : checkFrom rowCheck 10113 3371 = true := by decide +kernel

theorem arcs_10113 : checkFrom arcCheck 10113 3371 = true := by decide +kernel

theorem rows_13484 : checkFrom rowCheck 13484 3371 = true := by decide +kernel

theorem arcs_13484 : checkFrom arcCheck 13484 3371 = true := by decide +kernel

end WG
