import Verif.Model.Runoff
import Verif.Model.NbRunoff
import Verif.Model.NbYears

/-!
# Discharge and net cell runoff over years in which reservoirs start to operate

`Model/Runoff.lean`, `Model/NbRunoff.lean` on top of `Model/YearStart.lean`, `Model/NbYears.lean`.
-/

namespace WG

/-- The two outputs of the days of the running year and of the following years, see `simSpan`, `runoffRun`,
`/repo/run_watergap.py:225-284`. -/
noncomputable def runoffSpan {δ : Type} (G : Grid) (order : List (Cell × Cell)) (cf : Cell → ℝ) :
    (Cell → ℝ) → List (SimDay δ) → Sim δ → List (ResYear δ) → List (Cell → Option RunoffRec)
  | glores, days, s, [] => runoffRun (G.par glores) order cf s days
  | glores, days, s, y :: ys =>
    runoffRun (G.par glores) order cf s days
      ++ runoffSpan G order cf y.glores y.days (yearStart G y (simRun (G.par glores) order s days).1) ys

/-- The same with water supply from neighbouring cells, see `nbSpan`, `nbRunoffRun`, `/repo/run_watergap.py:225-284`. -/
noncomputable def nbRunoffSpan (G : Grid) (r : NbRun) (cf : Cell → ℝ) :
    (Cell → ℝ) → List NbWgDay → NbSim → List NbYear → List (Cell → Option RunoffRec)
  | glores, days, s, [] => nbRunoffRun (G.par glores) r cf s days
  | glores, days, s, y :: ys =>
    nbRunoffRun (G.par glores) r cf s days
      ++ nbRunoffSpan G r cf y.glores y.days (nbYearStart G y (nbSimRun (G.par glores) r s days).1) ys

end WG
