import Verif.Model.Checked
import Verif.Model.CheckedNb
import Verif.Model.YearStart
import Verif.Model.NbYears

/-!
# Several years with divisions, powers and roots that may have no result

`simSpan` and `nbSpan` on top of `Checked.lean` and `CheckedNb.lean`.  The start of a reservoir year
(`/repo/model/land_surfacewater_fraction_init.py:134-310`) divides by nothing but the constant 100, so it is that of
`YearStart.lean`.
-/

namespace WG

/-- The days of the running year and of the following years (`simSpan`): no result as soon as a day has none,
`/repo/run_watergap.py:225-284`. -/
noncomputable def simSpanC {δ : Type} (G : Grid) (order : List (Cell × Cell)) : (Cell → ℝ) → List (SimDay δ) → Sim δ →
    List (ResYear δ) → Option (Sim δ)
  | glores, days, s, [] => simRunC (G.par glores) order s days
  | glores, days, s, y :: ys => do
    let n ← simRunC (G.par glores) order s days
    simSpanC G order y.glores y.days (yearStart G y n) ys

/-- The same with water supply from neighbouring cells (`nbSpan`), `/repo/run_watergap.py:225-284`. -/
noncomputable def nbSpanC (G : Grid) (r : NbRun) : (Cell → ℝ) → List NbWgDay → NbSim → List NbYear → Option NbSim
  | glores, days, s, [] => nbSimRunC (G.par glores) r s days
  | glores, days, s, y :: ys => do
    let n ← nbSimRunC (G.par glores) r s days
    nbSpanC G r y.glores y.days (nbYearStart G y n) ys

end WG
