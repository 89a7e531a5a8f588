import Verif.Model.Misc

/-!
# Dry periods of a year (C44)

What the start month of the operational year should be, and a way of counting patterns of dry and wet months.
-/

namespace WG

/-- Number of consecutive dry months from month `m` on (0 = January), across the turn of the year. -/
def spellLength (dry : List Bool) (m : ℕ) : ℕ :=
  ((List.range 12).takeWhile fun k => isDry dry ((m + k) % 12)).length

/-- A dry period begins in month `m`: dry, after a wet month. -/
def spellStart (dry : List Bool) (m : ℕ) : Bool := isDry dry m && !isDry dry ((m + 11) % 12)

/-- Number of separate dry periods of the year. -/
def spellCount (dry : List Bool) : ℕ := ((List.range 12).filter (spellStart dry)).length

/-- The start month is the first month of a longest dry period. -/
def startsLongest (dry : List Bool) : Bool :=
  (List.range 12).all fun m => decide (spellLength dry m ≤ spellLength dry (dryStart dry - 1))

/-- Number of patterns of `n` months with a property, by splitting on the first month. -/
def countPatterns : ℕ → (List Bool → Bool) → ℕ
  | 0, f => if f [] then 1 else 0
  | n + 1, f => countPatterns n (fun l => f (false :: l)) + countPatterns n (fun l => f (true :: l))

/-- Patterns of the remaining eight months, by the first four (January is the lowest digit). -/
def extentTable (a b c d : Bool) : ℕ :=
  [249, 238, 239, 239, 239, 226, 198, 249, 238, 221, 226, 224, 220, 199, 221, 255].getD
    (a.toNat + 2 * b.toNat + 4 * c.toNat + 8 * d.toNat) 0

end WG
