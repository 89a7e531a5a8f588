import Verif.Prelude

/-!
# Data of the calibration

Model of `/repo/calibration/create_discharge_data.py`, the copy of the abstractions in `calibration_setup.py`,
`regionalization.py` and `merge_parameters.py`.
-/

namespace WG

/-! ## Observed discharge -/

/-- A year in the file of a station: not listed, listed as `"NA"`, or with a value;
`create_discharge_data.py:34-38, 64-67`. -/
inductive YearEntry
  | absent
  | na
  | value
  deriving DecidableEq

/-- `df.loc[i].values[0] != "NA"`; a year that is not listed raises `KeyError`; `create_discharge_data.py:63-73`. -/
def YearEntry.check (y : ℕ) : YearEntry → Except String Bool
  | .absent => .error s!"KeyError {y}"
  | .na => .ok false
  | .value => .ok true

/-- `for i in range(start, end): add_next_value(i)`; `create_discharge_data.py:75-76`. -/
def addAll (tab : ℕ → YearEntry) : List ℕ → List ℕ → Except String (List ℕ)
  | [], acc => .ok acc
  | y :: ys, acc =>
    match (tab y).check y with
    | .error e => .error e
    | .ok b => addAll tab ys (if b then acc ++ [y] else acc)

/-- The loops that stop as soon as there are 30 years; `front`: `insert_value_at_start`;
`create_discharge_data.py:79-108`. -/
def addUntil (tab : ℕ → YearEntry) (front : Bool) : List ℕ → List ℕ → Except String (List ℕ)
  | [], acc => .ok acc
  | y :: ys, acc =>
    if acc.length = 30 then .ok acc
    else
      match (tab y).check y with
      | .error e => .error e
      | .ok b => addUntil tab front ys (if b then (if front then y :: acc else acc ++ [y]) else acc)

/-- `range(a, b)`. -/
def pyRange (a b : ℕ) : List ℕ := (List.range (b - a)).map (· + a)

/-- The years of `generate_river_dis_calib`, sorted; `create_discharge_data.py:42-113`. The two conditions
`len(data_dis) == 30: pass` are the first test of `addUntil`. -/
def calibYears (tab : ℕ → YearEntry) : Except String (List ℕ) :=
  match addAll tab (pyRange 1981 2010) [] with
  | .error e => .error e
  | .ok a =>
    match addUntil tab true (pyRange 1979 1981) a with
    | .error e => .error e
    | .ok b =>
      match addUntil tab false (pyRange 2010 2019) b with
      | .error e => .error e
      | .ok c =>
        match addUntil tab true (pyRange 1901 1979).reverse c with
        | .error e => .error e
        | .ok d => .ok (d.insertionSort (· ≤ ·))

/-! ## Files of ten years -/

/-- `for start_year in range(start, end + 1, 10): end_year = min(start_year + 9, end)`;
`calibration_setup.py:87-92`. -/
def tenYears (start fin : ℕ) : List (ℕ × ℕ) :=
  if start ≤ fin then (start, min (start + 9) fin) :: tenYears (start + 10) fin else []
  termination_by fin + 1 - start

/-! ## Merging the parameter files -/

open Classical in
/-- `np.where(region != 1, region, out)`: NaN is different from 1; `merge_parameters.py:44-54`. -/
noncomputable def mergeStep (out region : Option ℝ) : Option ℝ := if region ≠ some 1 then region else out

/-- The merged correction factor of a cell: 1 on land of the first file, then file after file;
`merge_parameters.py:32-54`. -/
noncomputable def mergeFactor (files : List (Option ℝ)) : Option ℝ :=
  files.foldl mergeStep ((files.headD none).map fun _ => 1)

/-- `clip(lower=0.1, upper=5)`: NaN stays; `merge_parameters.py:67`, `regionalization.py:193-195`. -/
noncomputable def clipGamma (g : ℝ) : ℝ := min 5 (max 0.1 g)

/-- The runoff coefficient of a cell in the merged file: clipped, and replaced by the value of the North China
Plain unless that is −99; `merge_parameters.py:59-81`. -/
noncomputable def mergeGamma (final : Option ℝ) (china : Option ℝ) : Option ℝ :=
  match china with
  | none => final.map clipGamma
  | some v => if v = -99 then final.map clipGamma else some v

/-! ## Regionalisation -/

/-- The group of a cell: the station in whose calibration unit it is, or its super basin. -/
abbrev Group := String ⊕ ℕ

variable {ι : Type}

/-- `fillna` with one region after the other: the first region that has the cell in a unit;
`regionalization.py:123-127`. -/
def firstRegion (regions : List (ι → Option (String × ℝ))) (i : ι) : Option (String × ℝ) :=
  regions.findSome? (fun r => r i)

/-- `basin_identifier`: `regionalization.py:123-133`. -/
def groupOf (regions : List (ι → Option (String × ℝ))) (superBasin : ι → ℕ) (i : ι) : Group :=
  match firstRegion regions i with
  | some (s, _) => .inl s
  | none => .inr (superBasin i)

/-- The coefficients in a group. -/
def groupGammas (cells : List ι) (regions : List (ι → Option (String × ℝ))) (superBasin : ι → ℕ) (g : Group) : List ℝ :=
  (cells.filter fun i => groupOf regions superBasin i = g).filterMap fun i => (firstRegion regions i).map (·.2)

/-- `groupby(...)['gamma'].mean()`: the mean without missing values, NaN if there are none;
`regionalization.py:164`. -/
noncomputable def groupMean (cells : List ι) (regions : List (ι → Option (String × ℝ))) (superBasin : ι → ℕ) (g : Group) :
    Option ℝ :=
  let gs := groupGammas cells regions superBasin g
  if gs = [] then none else some (gs.sum / gs.length)

/-- `gamma_final` of a cell; `lnEst` is the prediction of the regression for a group; `regionalization.py:190-206`. -/
noncomputable def gammaFinal (cells : List ι) (regions : List (ι → Option (String × ℝ))) (superBasin : ι → ℕ)
    (lnEst : Group → ℝ) (i : ι) : ℝ :=
  let g := groupOf regions superBasin i
  match groupMean cells regions superBasin g with
  | some v => v
  | none => clipGamma (Real.exp (lnEst g))

end WG
