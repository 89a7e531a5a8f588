import Verif.Props.ParamCheck

/-! Part 4 of the kernel check of the shipped fractions and parameters. -/

namespace WG

theorem param_50565 : checkFrom paramCheck 50565 3371 = true := by decide +kernel

theorem param_53936 : checkFrom paramCheck 53936 3371 = true := by decide +kernel

theorem param_57307 : checkFrom paramCheck 57307 3371 = true := by decide +kernel

theorem param_60678 : checkFrom paramCheck 60678 3371 = true := by decide +kernel

theorem param_64049 : checkFrom paramCheck 64049 3371 = true := by decide +kernel

end WG
