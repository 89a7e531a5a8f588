import Verif.Prelude

/-! Model of `/repo/model/verticalwaterbalance/lai.py` and `lai_init.py`. -/

namespace WG

/-- Loop-carried state of `get_leaf_area_index`: the returned tuple `leaf_area_index, days,
cum_precipitation, growth_status` (`lai.py:253`).  `grown` is `growth_status == 1`; the code only ever stores
0 or 1 (`lai.py:122,162,165,210,235`).  The day counter is a float in the code that only ever holds whole
numbers (start value 0, steps of 1, assignments from `initial_days`, which is a whole number in the parameter
table); it is an integer here. -/
structure LaiState where
  lai : ℝ
  days : ℤ
  cumPrecip : ℝ
  grown : Bool

/-- Static vegetation parameters of a cell (`lai.py:24-27`). -/
structure LaiPar where
  initialDays : ℤ
  minLai : ℝ
  maxLai : ℝ
  /-- `none` models a NaN land cover -/
  landCover : Option ℝ
  humidArid : ℝ

/-- `lai.py:121-129` = `lai.py:209-217`: linear growth until `initial_days + 30`. -/
noncomputable def laiGrow (p : LaiPar) (days : ℤ) (cum : ℝ) : LaiState :=
  if days ≥ p.initialDays + 30 then { lai := p.maxLai, days := days, cumPrecip := cum, grown := true }
  else { lai := p.minLai + ((p.maxLai - p.minLai) / 30) * ((days - p.initialDays : ℤ) : ℝ),
         days := days, cumPrecip := cum, grown := false }

/-- `get_leaf_area_index` (`lai.py:24-253`), one day. -/
noncomputable def laiStep (p : LaiPar) (s : LaiState) (temperature precip : ℝ) : LaiState :=
  match p.landCover with
  | none => s                                                     -- line 99
  | some lc =>
    if temperature > 281.15 then                                  -- line 108
      if s.grown = false then
        if s.days ≥ p.initialDays then                            -- lines 110-139
          if s.cumPrecip + precip > 40 then laiGrow p (s.days + 1) (s.cumPrecip + precip)
          else { lai := p.minLai, days := p.initialDays, cumPrecip := s.cumPrecip + precip,
                 grown := false }
        else                                                      -- lines 146-148
          { lai := p.minLai, days := s.days + 1, cumPrecip := s.cumPrecip + precip, grown := false }
      else
        if s.days ≤ 30 then                                       -- lines 156-171
          let d1 := s.days - 1
          let g1 := if lc ≤ 2 then false else true
          let d2 := if d1 ≤ 0 then 0 else d1
          let g2 := if d1 ≤ 0 then false else g1
          let c2 := if d1 ≤ 0 then 0 else s.cumPrecip
          { lai := p.maxLai - ((p.maxLai - p.minLai) / 30) * ((30 - d2 : ℤ) : ℝ),
            days := d2, cumPrecip := c2, grown := g2 }
        else                                                      -- lines 181-192
          { lai := p.maxLai,
            days := if p.humidArid = 1 ∧ precip < 0.5 then s.days - 1 else p.initialDays + 30,
            cumPrecip := s.cumPrecip, grown := true }
    else
      if s.grown = false then                                     -- lines 198-224
        if s.days > p.initialDays then
          if s.cumPrecip + precip > 40 then laiGrow p (s.days + 1) (s.cumPrecip + precip)
          else { lai := p.minLai, days := p.initialDays, cumPrecip := s.cumPrecip + precip,
                 grown := false }
        else { lai := p.minLai, days := s.days, cumPrecip := s.cumPrecip + precip, grown := false }
      else
        if s.days ≤ 30 then                                       -- lines 231-241
          let d1 := s.days - 1
          let d2 := if d1 ≤ 0 then 0 else d1
          let g2 := if d1 ≤ 0 then false else true
          let c2 := if d1 ≤ 0 then 0 else s.cumPrecip
          { lai := p.maxLai - ((p.maxLai - p.minLai) / 30) * ((30 - d2 : ℤ) : ℝ),
            days := d2, cumPrecip := c2, grown := g2 }
        else                                                      -- lines 250-251
          { lai := p.maxLai, days := s.days - 1, cumPrecip := s.cumPrecip, grown := true }

/-- The states after each day of a weather sequence `(temperature, precipitation)`. -/
noncomputable def laiRun (p : LaiPar) (s : LaiState) : List (ℝ × ℝ) → LaiState
  | [] => s
  | w :: ws => laiRun p (laiStep p s w.1 w.2) ws

/-- `minimum_leaf_area_index` (`lai_init.py:38-65`). -/
noncomputable def minLeafAreaIndex (maxLai fracDecid redEvergreen : ℝ) : ℝ :=
  0.1 * fracDecid + (1 - fracDecid) * redEvergreen * maxLai

/-- A row of `/repo/input_data/static_input/canopy_snow_parameters.csv` (columns used here). -/
structure LandCoverRow where
  number : ℕ
  maxLai : ℚ
  fracDecid : ℚ
  redEvergreen : ℚ
  initialDays : ℤ
  albedo : ℚ
  snowAlbedo : ℚ
  emissivity : ℚ
  degreeDay : ℚ
  rootingDepth : ℚ

/-- The table shipped with the code, `/repo/input_data/static_input/canopy_snow_parameters.csv:2-15`. -/
def landCoverTable : List LandCoverRow :=
  [ ⟨1, 4.02, 0, 1, 1, 0.11, 0.278, 0.9956, 1.5, 2⟩, ⟨2, 4.78, 0, 0.8, 1, 0.07, 0.3, 0.9956, 3, 4⟩,
    ⟨3, 4.63, 1, 0.8, 10, 0.13, 0.406, 0.99, 1.5, 2⟩, ⟨4, 4.49, 1, 0.8, 10, 0.13, 0.558, 0.99, 3, 2⟩,
    ⟨5, 4.34, 0.25, 0.8, 10, 0.12, 0.406, 0.9928, 2, 2⟩, ⟨6, 2.08, 0.5, 0.8, 10, 0.13, 0.7, 0.9837, 3, 1⟩,
    ⟨7, 1.88, 0.5, 0.8, 10, 0.2, 0.7, 0.9541, 4, 0.5⟩, ⟨8, 2.08, 0.5, 0.3, 10, 0.2, 0.558, 0.9932, 4, 1.5⟩,
    ⟨9, 1.71, 0.5, 0.5, 10, 0.3, 0.7, 0.9932, 4, 1.5⟩, ⟨10, 1.71, 0, 0.5, 10, 0.25, 0.7, 0.9932, 5, 1⟩,
    ⟨12, 3.62, 0, 0.1, 10, 0.23, 0.376, 0.9813, 4, 1⟩, ⟨14, 3.62, 0.5, 0.5, 10, 0.18, 0.3, 0.983, 4, 1⟩,
    ⟨15, 0, 0, 0, 0, 0.6, 0.7, 0.9999, 6, 1⟩, ⟨16, 1.31, 0, 1, 10, 0.35, 0.7, 0.9412, 6, 0.1⟩ ]

end WG
