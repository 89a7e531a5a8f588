import Verif.Model.Float
import Mathlib.Data.Int.Log

/-!
# IEEE 754 binary64

The rounding of the 64-bit floating-point numbers with which the program computes (Python's `float`, numpy's and
Numba's `float64`): round to nearest, ties to even, with subnormal numbers; no largest number.  This is no code of the
repository: it is what `Arith` stands for in practice.
-/

namespace WG

/-- Nearest integer, ties to even. -/
noncomputable def nearestEven (x : ℝ) : ℤ :=
  if Int.fract x < 1 / 2 then ⌊x⌋
  else if 1 / 2 < Int.fract x then ⌊x⌋ + 1
  else if Even ⌊x⌋ then ⌊x⌋ else ⌊x⌋ + 1

/-- The exponent of the last bit of a positive number: 53 significant bits, at least `-1074`. -/
noncomputable def lastBit (x : ℝ) : ℤ := max (Int.log 2 x - 52) (-1074)

/-- Rounding of a non-negative number. -/
noncomputable def roundPos (x : ℝ) : ℝ := nearestEven (x / 2 ^ lastBit x) * 2 ^ lastBit x

/-- Rounding to binary64. -/
noncomputable def fl64 (x : ℝ) : ℝ := if x < 0 then -roundPos (-x) else roundPos x

/-- Binary64 arithmetic with correctly rounded library functions. -/
noncomputable def binary64 : Arith :=
  { rnd := fl64, pow := fun x y => fl64 (x ^ y), exp := fun x => fl64 (Real.exp x) }

end WG
