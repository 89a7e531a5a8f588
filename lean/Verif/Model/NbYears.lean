import Verif.Model.NbWhole
import Verif.Model.YearStart
import Verif.Model.Whole

/-!
# Several years with water supply from neighbouring cells

`Model/YearStart.lean` on top of `Model/NbWhole.lean`: the reservoirs that start to operate on 1 January
(`/repo/run_watergap.py:233-251`).
-/

namespace WG

/-- A year of the simulation: the reservoir fractions (percent) and reservoir areas from 1 January on, and its days,
`/repo/run_watergap.py:233-251`. -/
structure NbYear where
  /-- reservoir fraction of the cell (percent) -/
  glores : Cell → ℝ
  /-- reservoir area -/
  resArea : Cell → ℝ
  /-- days of the year -/
  days : List NbWgDay

/-- The start of a reservoir year; what is waiting at neighbours and shores stays as it is. See `yearStart`,
`/repo/run_watergap.py:233-251`. -/
noncomputable def nbYearStart (G : Grid) (y : NbYear) (s : NbSim) : NbSim :=
  { s with
    land := fun x => (yearLand (G.frac x) (y.glores x) (s.land x)).1
    carry := { s.carry with
      state := fun x => { s.carry.state x with
        res := handLost G.cells G.assign y.resArea (fun z => yearLost (G.area z) (G.frac z) (y.glores z) (s.full z))
          (fun z => (s.carry.state z).res) x } } }

/-- The days of the running year and of the following years: the final state and the records. See `simSpan`,
`/repo/run_watergap.py:225-284`. -/
noncomputable def nbSpan (G : Grid) (r : NbRun) : (Cell → ℝ) → List NbWgDay → NbSim → List NbYear →
    NbSim × List (Cell → Option DayRec)
  | glores, days, s, [] => nbSimRun (G.par glores) r s days
  | glores, days, s, y :: ys =>
    let p := nbSimRun (G.par glores) r s days
    let q := nbSpan G r y.glores y.days (nbYearStart G y p.1) ys
    (q.1, p.2 ++ q.2)

/-- A year of a simulation without the option: see `NbYear`, `/repo/run_watergap.py:233-251`. -/
structure WgYear where
  /-- reservoir fraction of the cell (percent) -/
  glores : Cell → ℝ
  /-- reservoir area -/
  resArea : Cell → ℝ
  /-- days of the year -/
  days : List WgDay

/-- The days of the running year and of the following years without the option, of the world or of a basin. See `wgRun`,
`simSpan`, `/repo/run_watergap.py:225-333`. -/
noncomputable def wgSpan (G : Grid) (delayed : Bool) (unit : Cell → ℕ) (world : List (Cell × Cell)) (basin : Cell → Bool)
    (glores : Cell → ℝ) (days : List WgDay) (s : Sim DemandState) (years : List WgYear) :
    Sim DemandState × List (Cell → Option DayRec) :=
  simSpan G (masked world basin) glores (days.map fun d => d.sim delayed unit world) s
    (years.map fun y => ⟨y.glores, y.resArea, y.days.map fun d => d.sim delayed unit world⟩)

end WG
