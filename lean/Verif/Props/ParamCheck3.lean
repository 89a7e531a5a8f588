import Verif.Props.ParamCheck

/-! Part 3 of the kernel check of the shipped fractions and parameters. -/

namespace WG

theorem param_33710 : checkFrom paramCheck 33710 3371 = true := by decide +kernel

theorem param_37081 : checkFrom paramCheck 37081 3371 = true := by decide +kernel

theorem param_40452 : checkFrom paramCheck 40452 3371 = true := by decide +kernel

theorem param_43823 : checkFrom paramCheck 43823 3371 = true := by decide +kernel

theorem param_47194 : checkFrom paramCheck 47194 3371 = true := by decide +kernel

end WG
