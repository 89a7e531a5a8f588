import Verif.Props.DryYear3

/-! Patterns with January dry and February dry; the modules follow one another so as not to be checked at once. -/

namespace WG

theorem extent_11 (c d : Bool) :
    countPatterns 8 (fun l => ((true :: true :: c :: d :: l).any id && !(true :: true :: c :: d :: l).all id) &&
      startsLongest (true :: true :: c :: d :: l)) = extentTable true true c d := by
  cases c <;> cases d <;> decide +kernel

end WG
