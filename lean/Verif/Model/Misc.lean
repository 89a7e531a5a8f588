import Verif.Prelude
import Verif.Model.PearsonTable

/-!
# Tools in `/repo/misc`

Model of `get_reservoir_start_month.py` and `bankfull_flow.py`.
-/

namespace WG

/-! ## First month of the operational year of reservoirs -/

/-- The variables of the search for the longest dry period: `get_reservoir_start_month.py:80-86`. -/
structure DryScan where
  longestLength : ℕ
  longestStart : ℕ
  currentLength : ℕ
  currentStart : ℕ
  lastDry : Bool

/-- `dry[m]`. -/
def isDry (dry : List Bool) (m : ℕ) : Bool := dry.getD m false

/-- `while first_wet < 12 and dry[first_wet]: first_wet += 1`: `get_reservoir_start_month.py:76-78`. -/
def firstWet (dry : List Bool) : ℕ := (dry.takeWhile id).length

/-- One month of the search: `get_reservoir_start_month.py:91-111`. -/
def dryStep (dry : List Bool) (s : DryScan) (k : ℕ) : DryScan :=
  let month := (firstWet dry + k) % 12
  if isDry dry month then
    { s with currentLength := s.currentLength + 1
             currentStart := if s.lastDry then s.currentStart else month
             lastDry := true }
  else if s.lastDry then
    if s.currentLength > s.longestLength then
      { s with lastDry := false, longestLength := s.currentLength, longestStart := s.currentStart, currentLength := 0 }
    else { s with lastDry := false }
  else s

/-- The search over one annual cycle, for twelve months of which some is dry: `get_reservoir_start_month.py:76-118`. -/
def dryStart (dry : List Bool) : ℕ :=
  let s := (List.range 12).foldl (dryStep dry) ⟨0, 0, 0, 0, true⟩
  (if s.currentLength > s.longestLength then s.currentStart else s.longestStart) + 1

open Classical in
/-- `find_reservoir_start_month` for a cell: monthly means of January to December, annual mean (`none`: NaN). The
array comes in as 0 where the annual mean is a number and NaN elsewhere; `get_reservoir_start_month.py:50-120, 206-208`. -/
noncomputable def startMonth (monthly : List ℝ) (annual : Option ℝ) : Option ℕ :=
  match annual with
  | none => none
  | some a =>
    if a = 0 then some 1
    else
      let dry := monthly.map fun x => decide (x < a)
      if dry.any id = false then some 0 else some (dryStart dry)

/-! ## Bankfull flow -/

/-- `np.interp` for `x` right of the first support point; constant beyond the last. -/
noncomputable def interpFrom (x : ℝ) (x0 y0 : ℝ) : List (ℝ × ℝ) → ℝ
  | [] => y0
  | (x1, y1) :: rest => if x < x1 then y0 + (y1 - y0) / (x1 - x0) * (x - x0) else interpFrom x x1 y1 rest

/-- `np.interp(x, skewness_values, k_values)`: constant left of the first support point;
`bankfull_flow.py:133-153`. -/
noncomputable def interp (x : ℝ) : List (ℝ × ℝ) → ℝ
  | [] => 0
  | (x0, y0) :: rest => if x < x0 then y0 else interpFrom x x0 y0 rest

/-- The table of `K_PEARSON_3.csv` for a return period of 1.5 years as real numbers; `bankfull_flow.py:127-130`. -/
noncomputable def pearsonK : List (ℝ × ℝ) := pearsonTable.map fun p => ((p.1 : ℝ) / 10, (p.2 : ℝ) / 10000)

/-- The statistics of the annual maxima of a cell. `std`, `mean` and `skew` are arithmetic; the logarithmic ones are
missing if some annual maximum is 0. -/
structure AmsStats where
  std : ℝ
  mean : ℝ
  skew : ℝ
  logStats : Option (ℝ × ℝ × ℝ)

open Classical in
/-- `np.divide(std, mean, out=zeros, where=mean != 0)`: `bankfull_flow.py:63-75`. -/
noncomputable def varCoeff (std mean : ℝ) : ℝ := if mean ≠ 0 then std / mean else 0

open Classical in
/-- `compute_bankfull_flow` for a cell on land (km³/day); `logStats` is log mean, log standard deviation and log
skewness. `none`: no data (−9999). With a skewness of 0 the quotient `2 cv / skew` is `+inf` and `d_limit` negative;
`bankfull_flow.py:156-211`. -/
noncomputable def bankfullDay (s : AmsStats) : Option ℝ :=
  if s.std > 0 then
    let arithmetic : ℝ :=
      let cv := varCoeff s.std s.mean
      let dNeg : Prop := s.skew = 0 ∨ s.mean * (1 - 2 * cv / s.skew) < 0
      let skew := if s.skew < 0 ∨ dNeg then 2 * cv else s.skew
      s.mean * (1 + cv * interp skew pearsonK)
    match s.logStats with
    | none => some arithmetic
    | some (lm, ls, lk) =>
      if lk ≥ 0 then some (Real.exp (lm * (1 + varCoeff ls lm * interp lk pearsonK))) else some arithmetic
  else none

open Classical in
/-- The value in the file (m³/s): −9999 for no data and for negative values; `bankfull_flow.py:232-234`. -/
noncomputable def bankfullOut (s : AmsStats) : ℝ :=
  let v := (bankfullDay s).getD (-9999) * (1e9 / (24 * 60 * 60))
  if v < 0 then -9999 else v

end WG
