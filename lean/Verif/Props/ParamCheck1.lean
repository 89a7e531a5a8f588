import Verif.Props.ParamCheck

/-! Part 1 of the kernel check of the shipped fractions and parameters. -/

namespace WG

theorem param_0 : checkFrom paramCheck 0 3371 = true := by decide +kernel

theorem param_3371 : checkFrom paramCheck 3371 3371 = true := by decide +kernel

theorem param_6742 : checkFrom paramCheck 6742 3371 = true := by decide +kernel

theorem param_10113 : checkFrom paramCheck 10113 3371 = true := by decide +kernel

theorem param_13484 : checkFrom paramCheck 13484 3371 = true := by decide +kernel

end WG
