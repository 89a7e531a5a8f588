import Verif.Model.GlobalBalance
import Mathlib.Data.Finset.Sort
import Mathlib.Order.WithBot

/-! Model of the start of a reservoir year: `adapt_glores_storage`,
`/repo/model/land_surfacewater_fraction_init.py:234-310`, on the whole grid, and the days of several years,
`/repo/run_watergap.py:225-284`. -/

namespace WG

section units
variable {ι : Type} [DecidableEq ι]

/-- `np.unique(self.outflow_cell_assignment)[1:-1]`, `land_surfacewater_fraction_init.py:123-126`: the values on the
grid, each once and ascending, without the first and the last one. A value is the number of a unit or NaN (`⊤`), which
`np.unique` puts last, once. -/
def assignedUnits (cells : List ι) (assign : ι → WithTop ℤ) : List (WithTop ℤ) :=
  ((cells.map assign).toFinset.sort (· ≤ ·)).tail.dropLast

open Classical in
/-- One pass of the loop, `land_surfacewater_fraction_init.py:284-301`: the first cell (in the order of the grid) of the
unit that has reservoir area gets what all cells of the unit have lost. Nothing equals NaN. -/
noncomputable def handUnit (cells : List ι) (assign : ι → WithTop ℤ) (area lost : ι → ℝ) (st : ι → ℝ) (u : WithTop ℤ) :
    ι → ℝ :=
  match cells.find? fun x => decide (assign x = u ∧ u ≠ ⊤ ∧ 0 < area x) with
  | none => st
  | some x => Function.update st x (st x + (cells.map fun y => if assign y = u then lost y else 0).sum)

/-- The loop over the units, `land_surfacewater_fraction_init.py:284-301`. -/
noncomputable def handLost (cells : List ι) (assign : ι → WithTop ℤ) (area lost : ι → ℝ) (st : ι → ℝ) : ι → ℝ :=
  (assignedUnits cells assign).foldl (handUnit cells assign area lost) st

end units

/-- `landwaterfrac_excl_glolake_res` in a reservoir year, `land_surfacewater_fraction_init.py:193-199`. -/
noncomputable def resLandWater (fs : FracStatic) (glores : ℝ) : ℝ := clampNeg ((fs.cont - fs.glolake - glores) / 100)

/-- The land fractions of a cell after `landareafrac_with_reservior` and `adapt_glores_storage` on 1 January of a
reservoir year, `/repo/run_watergap.py:238-251`, and the fraction of the cell lost to the reservoir. -/
noncomputable def yearLand (fs : FracStatic) (glores : ℝ) (l : LandState) : LandState × ℝ :=
  landAdapt true glores (landYear fs true glores l)

/-- A cell on the first day of a simulation that starts on 1 January of a reservoir year, before the water balances:
nothing is stored on land (`waterbalance_vertical_init.py:84-140`), lakes and wetlands are full
(`waterbalance_lateral.py:55-112`), the reservoir has the storage `res` set by the activation (`Verif.Model.Activation`), the
river its bankfull storage `river` (`waterbalance_lateral.py:164`), the release coefficient is 0.1
(`waterbalance_lateral.py:222-223`). -/
noncomputable def freshFull (fs : FracStatic) (glores : ℝ) (v : VertPar) (c : CellIn) (res river : ℝ) : FullState :=
  { vert := { lai := { lai := 0, days := 0, cumPrecip := 0, grown := false }, canopy := 0, snow := 0, bands := v.elevs.map fun _ => 0, soil := 0 }
    land := (yearLand fs glores (landStartRes fs)).1
    lat := { gw := 0, locLake := c.locLake.maxStorage, locWet := c.locWet.maxStorage, gloLake := c.maxGlolake, res := res,
             k := 0.1, gloWet := c.gloWet.maxStorage, river := river } }

/-- The water on the lost land (km³), `land_surfacewater_fraction_init.py:259-277`. -/
noncomputable def yearLost (area : ℝ) (fs : FracStatic) (glores : ℝ) (s : FullState) : ℝ :=
  s.vert.canopy * 1e-6 * area * (yearLand fs glores s.land).2 + s.vert.soil * 1e-6 * area * (yearLand fs glores s.land).2
    + s.vert.snow * 1e-6 * area * (yearLand fs glores s.land).2

/-- What is static over all years: the cells of the grid in row-major order, the static fractions, the outflow cell
assignment, parameters of the columns and cell areas. -/
structure Grid where
  cells : List Cell
  frac : Cell → FracStatic
  assign : Cell → WithTop ℤ
  vert : Cell → VertPar
  area : Cell → ℝ

/-- A calendar year: reservoir fractions of the cells (percent), the reservoir areas that
`activate_res_area_storage_capacity` set on 1 January (the model of which is in `Verif.Model.Activation`), and the days. -/
structure ResYear (δ : Type) where
  glores : Cell → ℝ
  resArea : Cell → ℝ
  days : List (SimDay δ)

/-- The static data of the cells in a year with the given reservoir fractions. -/
noncomputable def Grid.par (G : Grid) (glores : Cell → ℝ) (x : Cell) : FullPar :=
  ⟨G.vert x, G.area x, resLandWater (G.frac x) (glores x)⟩

section years
variable {δ : Type} (G : Grid) (order : List (Cell × Cell))

/-- The start of a reservoir year, `/repo/run_watergap.py:233-251`. -/
noncomputable def yearStart (y : ResYear δ) (s : Sim δ) : Sim δ :=
  { s with
    state := fun x =>
      { s.state x with
        land := (yearLand (G.frac x) (y.glores x) (s.state x).land).1
        lat := { (s.state x).lat with
          res := handLost G.cells G.assign y.resArea (fun z => yearLost (G.area z) (G.frac z) (y.glores z) (s.state z))
            (fun z => (s.state z).lat.res) x } } }

/-- The days of the running year (with reservoir fractions `glores`) and of the following years: final state and
records, `/repo/run_watergap.py:225-284`. -/
noncomputable def simSpan : (Cell → ℝ) → List (SimDay δ) → Sim δ → List (ResYear δ) →
    Sim δ × List (Cell → Option DayRec)
  | glores, days, s, [] => simRun (G.par glores) order s days
  | glores, days, s, y :: ys =>
    let r := simRun (G.par glores) order s days
    let q := simSpan y.glores y.days (yearStart G y r.1) ys
    (q.1, r.2 ++ q.2)

end years

end WG
