import Verif.Model.FloatDemand
import Verif.Model.YearStart

/-!
# Several years in rounded arithmetic

The start of a reservoir year (`Model/YearStart.lean`) with the operations of the machine, and the days of several years.
`tot` is the sum of an array (`numpy` adds in an order of its own, pairwise): any function of the list.
-/

namespace WG

section
variable (A : Arith)

local notation:65 x:65 " ⊞ " y:66 => Arith.add A x y
local notation:65 x:65 " ⊟ " y:66 => Arith.sub A x y
local notation:70 x:70 " ⊠ " y:71 => Arith.mul A x y
local notation:70 x:70 " ⧄ " y:71 => Arith.div A x y

/-- See `landFracInitRes`, `/repo/model/land_surfacewater_fraction.py:97-114`. -/
noncomputable def landFracInitResR (s : FracStatic) (glores : ℝ) : ℝ :=
  clampNeg ((s.cont ⊟ (s.glolake ⊞ s.glowet ⊞ (s.loclake ⊞ s.locres) ⊞ s.locwet ⊞ glores)) ⧄ 100)

/-- See `landFracYear`, `/repo/model/land_surfacewater_fraction.py:119-134`. -/
noncomputable def landFracYearR (land glores gloresPrev : ℝ) : ℝ × ℝ :=
  let change := glores ⊟ gloresPrev
  let new := if gloresPrev > 0 then land ⊟ change ⧄ 100 else land ⊟ glores ⧄ 100
  (clampNeg (if change > 0 then new else land), change)

/-- See `landYear`, on 1 January of a reservoir year, `/repo/model/land_surfacewater_fraction_init.py:150-199`. -/
noncomputable def landYearR (fs : FracStatic) (glores : ℝ) (s : LandState) : LandState :=
  if s.init then
    { s with cur := landFracInitResR A fs glores, gloresChange := 0,
             ratio := if landFracInitResR A fs glores = 0 then 0 else 1, prev := 0, init := false }
  else
    { s with cur := (landFracYearR A s.cur glores s.gloresPrev).1,
             gloresChange := (landFracYearR A s.cur glores s.gloresPrev).2 }

/-- See `landAdapt`, `land_surfacewater_fraction_init.py:234-310`. -/
noncomputable def landAdaptR (glores : ℝ) (s : LandState) : LandState × ℝ :=
  let lc := s.cur ⊟ s.prev
  ({ s with cur := if s.gloresChange > 0 ∧ lc ≥ 0 then s.prev else s.cur, gloresPrev := glores },
   if s.gloresChange > 0 ∧ lc < 0 then (-1) ⊠ lc else 0)

/-- See `yearLand`, `/repo/run_watergap.py:238-251`. -/
noncomputable def yearLandR (fs : FracStatic) (glores : ℝ) (l : LandState) : LandState × ℝ :=
  landAdaptR A glores (landYearR A fs glores l)

/-- See `yearLost`: the water on the lost land (km³), `land_surfacewater_fraction_init.py:259-277,295-299`. -/
noncomputable def yearLostR (area : ℝ) (fs : FracStatic) (glores : ℝ) (s : FullState) : ℝ :=
  s.vert.canopy ⊠ A.rnd 1e-6 ⊠ area ⊠ (yearLandR A fs glores s.land).2
    ⊞ s.vert.soil ⊠ A.rnd 1e-6 ⊠ area ⊠ (yearLandR A fs glores s.land).2
    ⊞ s.vert.snow ⊠ A.rnd 1e-6 ⊠ area ⊠ (yearLandR A fs glores s.land).2

section units
variable {ι : Type} [DecidableEq ι] (tot : List ℝ → ℝ)

open Classical in
/-- See `handUnit`, `land_surfacewater_fraction_init.py:284-301`. -/
noncomputable def handUnitR (cells : List ι) (assign : ι → WithTop ℤ) (area lost : ι → ℝ) (st : ι → ℝ) (u : WithTop ℤ) :
    ι → ℝ :=
  match cells.find? fun x => decide (assign x = u ∧ u ≠ ⊤ ∧ 0 < area x) with
  | none => st
  | some x => Function.update st x (st x ⊞ tot (cells.map fun y => if assign y = u then lost y else 0))

/-- See `handLost`, `land_surfacewater_fraction_init.py:284-301`. -/
noncomputable def handLostR (cells : List ι) (assign : ι → WithTop ℤ) (area lost : ι → ℝ) (st : ι → ℝ) : ι → ℝ :=
  (assignedUnits cells assign).foldl (handUnitR A tot cells assign area lost) st

end units

section years
variable {δ : Type} (tot : List ℝ → ℝ) (rule : HanIn → ℝ → ℝ × ℝ) (kRiver : CellIn → ℝ → ℝ) (G : Grid)
  (order : List (Cell × Cell))

/-- The parameters of the cells in a year, see `Grid.par`, `land_surfacewater_fraction_init.py:193-199`. -/
noncomputable def Grid.parR (G : Grid) (glores : Cell → ℝ) (x : Cell) : FullPar :=
  ⟨G.vert x, G.area x, clampNeg (((G.frac x).cont ⊟ (G.frac x).glolake ⊟ glores x) ⧄ 100)⟩

/-- See `yearStart`, `/repo/run_watergap.py:233-251`. -/
noncomputable def yearStartR (y : ResYear δ) (s : Sim δ) : Sim δ :=
  { s with
    state := fun x =>
      { s.state x with
        land := (yearLandR A (G.frac x) (y.glores x) (s.state x).land).1
        lat := { (s.state x).lat with
          res := handLostR A tot G.cells G.assign y.resArea (fun z => yearLostR A (G.area z) (G.frac z) (y.glores z) (s.state z))
            (fun z => (s.state z).lat.res) x } } }

/-- See `simSpan`: the days of the running year and of the following years, with the reservoir fractions of the year of each
day, `/repo/run_watergap.py:225-284`. -/
noncomputable def simSpanR : (Cell → ℝ) → List (SimDay δ) → Sim δ → List (ResYear δ) →
    List ((Cell → ℝ) × Sim δ × SimDay δ × NetState (Basin δ) × Sim δ)
  | glores, days, s, [] => (simRunR A rule kRiver (G.parR A glores) order s days).map fun t => (glores, t)
  | glores, days, s, y :: ys =>
    let r := simRunR A rule kRiver (G.parR A glores) order s days
    (r.map fun t => (glores, t)) ++
      simSpanR y.glores y.days (yearStartR A tot G y ((r.getLast?.map fun t => t.2.2.2).getD s)) ys

end years

end

end WG
