import Verif.Props.ParamCheck

/-! Part 2 of the kernel check of the shipped fractions and parameters. -/

namespace WG

theorem param_16855 : checkFrom paramCheck 16855 3371 = true := by decide +kernel

theorem param_20226 : checkFrom paramCheck 20226 3371 = true := by decide +kernel

theorem param_23597 : checkFrom paramCheck 23597 3371 = true := by decide +kernel

theorem param_26968 : checkFrom paramCheck 26968 3371 = true := by decide +kernel

theorem param_30339 : checkFrom paramCheck 30339 3371 = true := by decide +kernel

end WG
