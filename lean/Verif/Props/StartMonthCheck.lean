import Verif.Props.DryYear
import Verif.Props.NetworkCheck
import Verif.Props.StartMonthCert
import Verif.Props.SurfaceCheck
import Verif.Model.StartMonthData

/-!
# What the kernel checks about the shipped inflows and start months
-/

namespace WG

/-- Month `11 - j` of the row `n` is below the annual mean. -/
noncomputable def dryR (n j : ℕ) : Bool :=
  Nat.blt (Nat.mod (Nat.div n (Nat.pow 10 (Nat.mul 10 j))) 10000000000) (Nat.mod (Nat.div n (Nat.pow 10 120)) 10000000000)

noncomputable def patR (n : ℕ) : List Bool :=
  [dryR n 11, dryR n 10, dryR n 9, dryR n 8, dryR n 7, dryR n 6, dryR n 5, dryR n 4, dryR n 3, dryR n 2, dryR n 1, dryR n 0]

noncomputable def monthR (n : ℕ) : ℕ := Nat.mod (Nat.div n (Nat.pow 10 130)) 100

/-- The check of the row `n`; `bad`: its start month is not that of a longest dry period. -/
noncomputable def startCheck1 (n : ℕ) (bad : Bool) : Bool :=
  cond (Nat.beq (Nat.mod (Nat.div n (Nat.pow 10 120)) 10000000000) 0) (cond bad false (Nat.beq (monthR n) 1))
    ((fun p => cond (p.any id) (cond (p.all id) false (cond (Nat.beq (dryStart p) (monthR n))
      (cond bad (not (startsLongest p)) (startsLongest p)) false)) false) (patR n))

/-- Reservoir `r` of a table; `b`: the number of the one exception. -/
noncomputable def startCheck (t : DTree) (b r : ℕ) : Bool :=
  cond (startCheck1 (t.get r) (Nat.beq r b))
    (cond (Nat.blt r 1266) (Nat.blt (Nat.div (t.get r) (Nat.pow 10 132)) (Nat.div (t.get (Nat.succ r)) (Nat.pow 10 132))) true) false

/-- The reservoir of row `k` in the certificate. -/
noncomputable def resNoR (k : ℕ) : ℕ :=
  Nat.mod (Nat.div (startCert.get (Nat.div k 64)) (Nat.pow 10 (Nat.mul 4 (Nat.sub 63 (Nat.mod k 64))))) 10000

/-- Row `k` is in both tables if it has a reservoir, and its reservoir is that of the certificate. -/
noncomputable def coverCheck (k : ℕ) : Bool :=
  cond (Nat.beq (Nat.mod (Nat.div (Nat.mod (Nat.div (surfR k) 100000) 100) 2) 2) 1)
    ((fun r => cond (Nat.blt r 1267) (cond (Nat.beq (Nat.div (startDataEra5.get r) (Nat.pow 10 132)) k)
      (Nat.beq (Nat.div (startDataW5e5.get r) (Nat.pow 10 132)) k) false) false) (resNoR k)) true

theorem startEra5_0 : checkFrom (startCheck startDataEra5 9999) 0 181 = true := by decide +kernel

theorem startEra5_181 : checkFrom (startCheck startDataEra5 9999) 181 181 = true := by decide +kernel

theorem startEra5_362 : checkFrom (startCheck startDataEra5 9999) 362 181 = true := by decide +kernel

theorem startEra5_543 : checkFrom (startCheck startDataEra5 9999) 543 181 = true := by decide +kernel

theorem startEra5_724 : checkFrom (startCheck startDataEra5 9999) 724 181 = true := by decide +kernel

theorem startEra5_905 : checkFrom (startCheck startDataEra5 9999) 905 181 = true := by decide +kernel

theorem startEra5_1086 : checkFrom (startCheck startDataEra5 9999) 1086 181 = true := by decide +kernel

theorem startW5e5_0 : checkFrom (startCheck startDataW5e5 1022) 0 181 = true := by decide +kernel

theorem startW5e5_181 : checkFrom (startCheck startDataW5e5 1022) 181 181 = true := by decide +kernel

theorem startW5e5_362 : checkFrom (startCheck startDataW5e5 1022) 362 181 = true := by decide +kernel

theorem startW5e5_543 : checkFrom (startCheck startDataW5e5 1022) 543 181 = true := by decide +kernel

theorem startW5e5_724 : checkFrom (startCheck startDataW5e5 1022) 724 181 = true := by decide +kernel

theorem startW5e5_905 : checkFrom (startCheck startDataW5e5 1022) 905 181 = true := by decide +kernel

theorem startW5e5_1086 : checkFrom (startCheck startDataW5e5 1022) 1086 181 = true := by decide +kernel

theorem cover_0 : checkFrom coverCheck 0 3371 = true := by decide +kernel

theorem cover_3371 : checkFrom coverCheck 3371 3371 = true := by decide +kernel

theorem cover_6742 : checkFrom coverCheck 6742 3371 = true := by decide +kernel

theorem cover_10113 : checkFrom coverCheck 10113 3371 = true := by decide +kernel

theorem cover_13484 : checkFrom coverCheck 13484 3371 = true := by decide +kernel

theorem cover_16855 : checkFrom coverCheck 16855 3371 = true := by decide +kernel

theorem cover_20226 : checkFrom coverCheck 20226 3371 = true := by decide +kernel

theorem cover_23597 : checkFrom coverCheck 23597 3371 = true := by decide +kernel

theorem cover_26968 : checkFrom coverCheck 26968 3371 = true := by decide +kernel

theorem cover_30339 : checkFrom coverCheck 30339 3371 = true := by decide +kernel

theorem cover_33710 : checkFrom coverCheck 33710 3371 = true := by decide +kernel

theorem cover_37081 : checkFrom coverCheck 37081 3371 = true := by decide +kernel

theorem cover_40452 : checkFrom coverCheck 40452 3371 = true := by decide +kernel

theorem cover_43823 : checkFrom coverCheck 43823 3371 = true := by decide +kernel

theorem cover_47194 : checkFrom coverCheck 47194 3371 = true := by decide +kernel

theorem cover_50565 : checkFrom coverCheck 50565 3371 = true := by decide +kernel

theorem cover_53936 : checkFrom coverCheck 53936 3371 = true := by decide +kernel

theorem cover_57307 : checkFrom coverCheck 57307 3371 = true := by decide +kernel

theorem cover_60678 : checkFrom coverCheck 60678 3371 = true := by decide +kernel

theorem cover_64049 : checkFrom coverCheck 64049 3371 = true := by decide +kernel

end WG
