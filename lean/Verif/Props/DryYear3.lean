import Verif.Props.DryYear2

/-! Patterns with January dry and February wet; the modules follow one another so as not to be checked at once. -/

namespace WG

theorem extent_10 (c d : Bool) :
    countPatterns 8 (fun l => ((true :: false :: c :: d :: l).any id && !(true :: false :: c :: d :: l).all id) &&
      startsLongest (true :: false :: c :: d :: l)) = extentTable true false c d := by
  cases c <;> cases d <;> decide +kernel

end WG
