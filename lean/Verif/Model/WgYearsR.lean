import Verif.Model.FloatYears
import Verif.Model.FloatDemand
import Verif.Model.NbYears

/-!
# Years of a simulation with its demand, in rounded arithmetic
-/

namespace WG

/-- The days of the running year and of the following years, of the world or of a basin. See `wgSpan`, `simSpanR`, `wgRunR`,
`/repo/run_watergap.py:225-333`. -/
noncomputable def wgSpanR (A : Arith) (tot : List ℝ → ℝ) (rule : HanIn → ℝ → ℝ × ℝ) (kRiver : CellIn → ℝ → ℝ) (G : Grid)
    (delayed : Bool) (unit : Cell → ℕ) (world : List (Cell × Cell)) (basin : Cell → Bool) (glores : Cell → ℝ)
    (days : List WgDay) (s : Sim DemandState) (years : List WgYear) :
    List ((Cell → ℝ) × Sim DemandState × SimDay DemandState × NetState (Basin DemandState) × Sim DemandState) :=
  simSpanR A tot rule kRiver G (masked world basin) glores (days.map fun d => d.simR A delayed unit world) s
    (years.map fun y => ⟨y.glores, y.resArea, y.days.map fun d => d.simR A delayed unit world⟩)

end WG
