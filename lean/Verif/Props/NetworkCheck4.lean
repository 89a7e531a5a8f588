import Verif.Props.NetworkCheck3

/-! Rows 50565 to 67419 of the tables, see `Verif.Props.NetworkCheck`. -/

namespace WG

theorem rows_50565 : checkFrom rowCheck 50565 3371 = true := by decide +kernel

theorem arcs_50565 : checkFrom arcCheck 50565 3371 = true := by decide +kernel

theorem rows_53936 : checkFrom rowCheck 53936 3371 = true := by decide +kernel

theorem arcs_53936 : checkFrom arcCheck 53936 3371 = true := by decide +kernel

theorem rows_57307 : checkFrom rowCheck 57307 3371 = true := by decide +kernel

theorem arcs_57307 : checkFrom arcCheck 57307 3371 = true := by decide +kernel

theorem rows_60678 : checkFrom rowCheck 60678 3371 = true := by decide +kernel

theorem arcs_60678 : checkFrom arcCheck 60678 3371 = true := by decide +kernel

theorem rows_64049 : checkFrom rowCheck 64049 3371 = true := by decide +kernel

theorem arcs_64049 : checkFrom arcCheck 64049 3371 = true := by decide +kernel

end WG
