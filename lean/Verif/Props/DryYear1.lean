import Verif.Props.DryYear

/-! Patterns with January wet and February wet; the modules follow one another so as not to be checked at once. -/

namespace WG

theorem extent_00 (c d : Bool) :
    countPatterns 8 (fun l => ((false :: false :: c :: d :: l).any id && !(false :: false :: c :: d :: l).all id) &&
      startsLongest (false :: false :: c :: d :: l)) = extentTable false false c d := by
  cases c <;> cases d <;> decide +kernel

end WG
