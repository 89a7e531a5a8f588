import Verif.Prelude

/-!
# Land area fraction

Model of `/repo/model/land_surfacewater_fraction.py` and `/repo/model/land_surfacewater_fraction_init.py` for one
grid cell.  Static fractions are in percent, land and dynamic fractions are fractions of the cell.
-/

namespace WG

/-- The static fractions read by `compute_landareafrac`, `land_surfacewater_fraction.py:50-65`. -/
structure FracStatic where
  cont : ℝ
  glolake : ℝ
  reglake : ℝ
  glowet : ℝ
  locwet : ℝ
  loclake : ℝ
  locres : ℝ

/-- The attributes of `LandsurfacewaterFraction` that change, `land_surfacewater_fraction_init.py:24-111`. -/
structure LandState where
  cur : ℝ
  prev : ℝ
  ratio : ℝ
  swb : ℝ
  gloresPrev : ℝ
  gloresChange : ℝ
  init : Bool

/-- `x[x < 0] = 0`. -/
noncomputable def clampNeg (x : ℝ) : ℝ := if x < 0 then 0 else x

/-- Land area fraction without reservoirs, `land_surfacewater_fraction.py:71-78,140-147`. -/
noncomputable def landFracPlain (s : FracStatic) : ℝ :=
  clampNeg ((s.cont - (s.glolake + s.reglake + s.glowet + s.loclake + s.locwet)) / 100)

/-- Land area fraction on the first day with reservoirs, `land_surfacewater_fraction.py:97-114`. -/
noncomputable def landFracInitRes (s : FracStatic) (glores : ℝ) : ℝ :=
  clampNeg ((s.cont - (s.glolake + s.glowet + (s.loclake + s.locres) + s.locwet + glores)) / 100)

/-- Land area fraction in later years, `land_surfacewater_fraction.py:119-134`: new fraction and change of the
reservoir fraction. -/
noncomputable def landFracYear (land glores gloresPrev : ℝ) : ℝ × ℝ :=
  let change := glores - gloresPrev
  let new := if gloresPrev > 0 then land - change / 100 else land - glores / 100
  (clampNeg (if change > 0 then new else land), change)

/-- `__init__` without reservoirs, `land_surfacewater_fraction_init.py:71-100`. -/
noncomputable def landStartPlain (s : FracStatic) : LandState :=
  { cur := landFracPlain s, prev := 0, ratio := if landFracPlain s = 0 then 0 else 1
    swb := (s.loclake + s.locwet + s.glowet) / 100, gloresPrev := 0, gloresChange := 0, init := true }

/-- `__init__` with reservoirs, `land_surfacewater_fraction_init.py:30-62,106-111`: the fraction itself is computed on
the first day. -/
noncomputable def landStartRes (s : FracStatic) : LandState :=
  { cur := 0, prev := 0, ratio := 0, swb := (s.loclake + s.locres + s.locwet + s.glowet) / 100, gloresPrev := 0,
    gloresChange := 0, init := true }

/-- `landareafrac_with_reservior` (only called with reservoirs on), `land_surfacewater_fraction_init.py:150-199`: `opt`
is `date in reservoir_opt_year`, `glores` the reservoir fraction of the year of the date. -/
noncomputable def landYear (fs : FracStatic) (opt : Bool) (glores : ℝ) (s : LandState) : LandState :=
  if opt || s.init then
    if s.init then
      { s with cur := landFracInitRes fs glores, gloresChange := 0,
               ratio := if landFracInitRes fs glores = 0 then 0 else 1, prev := 0, init := false }
    else
      { s with cur := (landFracYear s.cur glores s.gloresPrev).1,
               gloresChange := (landFracYear s.cur glores s.gloresPrev).2 }
  else s

/-- `adapt_glores_storage` of a cell, `land_surfacewater_fraction_init.py:234-310`: the new state and the fraction of
the cell whose land storages are handed to the reservoir. -/
noncomputable def landAdapt (opt : Bool) (glores : ℝ) (s : LandState) : LandState × ℝ :=
  if opt then
    let lc := s.cur - s.prev
    ({ s with cur := if s.gloresChange > 0 ∧ lc ≥ 0 then s.prev else s.cur, gloresPrev := glores },
     if s.gloresChange > 0 ∧ lc < 0 then -1 * lc else 0)
  else (s, 0)

/-- `update_landareafrac` with the new fraction of local lakes, local wetlands and global wetlands,
`land_surfacewater_fraction_init.py:360-402`. -/
noncomputable def landUpdate (swbNew : ℝ) (s : LandState) : LandState :=
  let cur := clampNeg (s.cur - (swbNew - s.swb))
  { s with swb := swbNew, prev := s.cur, cur := cur, ratio := if cur ≠ 0 then s.cur / cur else 0 }

/-- One day: yearly part (with reservoirs), then the daily update, `/repo/run_watergap.py:233-284`. -/
noncomputable def landDay (fs : FracStatic) (res : Bool) (opt : Bool) (glores swbNew : ℝ) (s : LandState) : LandState :=
  landUpdate swbNew (if res then (landAdapt opt glores (landYear fs opt glores s)).1 else s)

/-- The land fraction the water balances of the day use. -/
noncomputable def landToday (fs : FracStatic) (res : Bool) (opt : Bool) (glores : ℝ) (s : LandState) : ℝ :=
  (if res then (landAdapt opt glores (landYear fs opt glores s)).1 else s).cur

/-- What decides a day. -/
structure LandDay where
  opt : Bool
  glores : ℝ
  swb : ℝ

/-- The state after consecutive days. -/
noncomputable def landRun (fs : FracStatic) (res : Bool) (s : LandState) (days : List LandDay) : LandState :=
  days.foldl (fun s d => landDay fs res d.opt d.glores d.swb s) s

/-- `get_glolake_area`, `land_surfacewater_fraction.py:150-192`: global lake area, with regulated lakes added unless
reservoirs are operated. -/
noncomputable def glolakeArea (ant resOpt : Bool) (lakeArea regArea : ℝ) (status : ℕ) : ℝ :=
  if ant && resOpt then lakeArea else if status = 1 then lakeArea + regArea else lakeArea

/-- `get_land_and_water_freq`, `land_surfacewater_fraction_init.py:312-358`: (water_freq, land_freq) in percent when
they are recomputed, with the local lake fraction in percent. -/
noncomputable def landWaterFreq (cont glolake loclake glores : ℝ) : ℝ × ℝ :=
  (glolake + loclake + glores, cont - (glolake + loclake + glores))

end WG
