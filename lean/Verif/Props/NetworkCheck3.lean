import Verif.Props.NetworkCheck2

/-! Rows 33710 to 50564 of the tables, see `Verif.Props.NetworkCheck`. -/

namespace WG

theorem rows_33710 : checkFrom rowCheck 33710 3371 = true := by decide +kernel

theorem arcs_33710 : checkFrom arcCheck 33710 3371 = true := by decide +kernel

theorem rows_37081 : checkFrom rowCheck 37081 3371 = true := by decide +kernel

theorem arcs_37081 : checkFrom arcCheck 37081 3371 = true := by decide +kernel

theorem rows_40452 : checkFrom rowCheck 40452 3371 = true := by decide +kernel

theorem arcs_40452 : checkFrom arcCheck 40452 3371 = true := by decide +kernel

theorem rows_43823 : checkFrom rowCheck 43823 3371 = true := by decide +kernel

theorem arcs_43823 : checkFrom arcCheck 43823 3371 = true := by decide +kernel

theorem rows_47194 : checkFrom rowCheck 47194 3371 = true := by decide +kernel

theorem arcs_47194 : checkFrom arcCheck 47194 3371 = true := by decide +kernel

end WG
