import Verif.Props.DryYear1

/-! Patterns with January wet and February dry; the modules follow one another so as not to be checked at once. -/

namespace WG

theorem extent_01 (c d : Bool) :
    countPatterns 8 (fun l => ((false :: true :: c :: d :: l).any id && !(false :: true :: c :: d :: l).all id) &&
      startsLongest (false :: true :: c :: d :: l)) = extentTable false true c d := by
  cases c <;> cases d <;> decide +kernel

end WG
