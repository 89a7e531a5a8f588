import Verif.Model.FloatDemand
import Verif.Props.FloatWhole
import Verif.Props.OrderFree

/-!
# C65: the whole simulation with its demand stays in range in rounded arithmetic
-/

namespace WG

open Arith

variable {A : Arith} {u η : ℝ} (hA : A.Ok) (hn : A.Near u η) (rule : HanIn → ℝ → ℝ × ℝ) (kRiver : CellIn → ℝ → ℝ)
  (par : Cell → FullPar) (delayed : Bool) (unit : Cell → ℕ) (world : List (Cell × Cell)) (B : Cell → Bool)

/-- C65: without rounding, the rounded demand ledger is the ledger the other properties are about. -/
theorem C65_exact_ledger (d : WgDay) : d.simR exact delayed unit world = d.sim delayed unit world := by
  unfold WgDay.simR WgDay.sim
  congr 1

/-- C65: without rounding, the rounded simulation leaves the state the simulation of the other properties leaves. -/
theorem C65_exact_with_demand (days : List WgDay) (s : Sim DemandState) :
    (((wgRunR exact hanasaki (fun c s => outflowConstant s c.len c.width c.rough c.mult c.slope) par delayed unit world B s
      days).getLast?).map fun t => t.2.2.2).getD s = (wgRun par delayed unit world B s days).1 := by
  unfold wgRunR wgRun
  induction days generalizing s with
  | nil => rfl
  | cons d ds ih =>
    have h1 : simDayR exact hanasaki (fun c s => outflowConstant s c.len c.width c.rough c.mult c.slope) par (masked world B)
        (d.simR exact delayed unit world) s = (simDay par (masked world B) (d.sim delayed unit world) s).1 := by
      rw [C65_exact_ledger, C65_exact_simulation]
    simp only [List.map_cons, simRunR, simRun]
    rw [← ih, ← h1]
    cases ds with
    | nil => rfl
    | cons e es => simp only [List.map_cons, simRunR, List.getLast?_cons, Option.map_some, Option.getD_some]

/-- What is read for a day is sensible: precipitation is not negative and a machine number, less than 673 K, and water
bodies as in `CellFine`.  Nothing is asked of the demand. -/
structure WgDayFine (A : Arith) (order : List (Cell × Cell)) (d : WgDay) : Prop where
  precip : ∀ x ∈ order.map Prod.fst, 0 ≤ (d.weather x).precip ∧ A.F (d.weather x).precip
  temperature : ∀ x ∈ order.map Prod.fst, (d.weather x).temperature ≤ 673
  bodies : ∀ x ∈ order.map Prod.fst, CellFine A (d.lateral x)

include hA in
/-- What a cell keeps of an unsatisfied demand is a machine number. -/
theorem redistributeR_machine (i : RedistIn Cell) (hi : A.F i.acc) (rip : Cell → ℝ) : A.F (redistributeR A i rip).1 := by
  have hc : A.F (carriedR A i) := by
    unfold carriedR
    split_ifs
    · exact add_F hA _ _
    · exact add_F hA _ _
  have step : ∀ st r, A.F st.1 → A.F (redistStepR A i st r).1 := by
    intro st r h
    unfold redistStepR
    by_cases h1 : i.unit i.x = i.unit r ∧ i.x ≠ r
    · rw [if_pos h1]
      by_cases h2 : A.sub i.acc (carriedR A i) > 0
      · rw [if_pos h2]
        by_cases h3 : i.unagg i.x ≤ 0
        · rw [if_pos h3]; exact hc
        · rw [if_neg h3]
          by_cases h4 : i.pot > 0
          · simp only [if_pos h4]; exact add_F hA _ _
          · simp only [if_neg h4]; exact hc
      · rw [if_neg h2]; exact hi
    · rw [if_neg h1]; exact h
  unfold redistributeR
  have : ∀ (l : List Cell) (st : ℝ × (Cell → ℝ)), A.F st.1 → A.F (l.foldl (redistStepR A i) st).1 := by
    intro l
    induction l with
    | nil => intro _ h; exact h
    | cons r l ih => intro st h; exact ih _ (step st r h)
  exact this _ _ hi

include hA in
theorem wgDay_fine (d : WgDay) (order : List (Cell × Cell)) (h : WgDayFine A order d) :
    DayFine A order (d.simR A delayed unit world) :=
  ⟨h.precip, h.temperature,
    fun _ x hx => by
      have k := h.bodies x hx
      exact ⟨k.runoff, k.precip, k.corr, k.swbK, k.factor, k.fractions, k.capacities, k.machine⟩,
    fun _ _ => ⟨add_F hA _ _, fun _ hv => redistributeR_machine hA _ hv _⟩⟩

include hA hn in
/-- C65: the whole simulation with its demand in rounded arithmetic, of the world or of a basin, over any number of days:
whatever the demands, delayed or not, and however lakes share them with their shores, on every day the column of every cell
and its water bodies are in range, streamflow is not negative, and the land fraction of the next day is not negative. -/
theorem C65_whole_run_with_demand (hu : u ≤ 1 / 100) (hη : η ≤ 1 / 100000)
    (hnd : ((masked world B).map Prod.fst).Nodup) (hp : ∀ x ∈ (masked world B).map Prod.fst, ParFine A (par x))
    (days : List WgDay) (hd : ∀ d ∈ days, WgDayFine A (masked world B) d) (s : Sim DemandState)
    (hs : ∀ x ∈ (masked world B).map Prod.fst, StateFine (par x) (s.state x)) :
    ∀ t ∈ wgRunR A rule kRiver par delayed unit world B s days, ∀ x ∈ (masked world B).map Prod.fst,
      ColumnInRange (par x).vert.maxSoil (fullVertR A (par x) (t.2.1.weather x) (t.1.state x)) ∧
      (∃ o, t.2.2.1.ledger.out x = some o ∧ DayInRange (t.2.1.lateral t.1.demand x) o ∧
        (t.2.2.2.state x).lat = o.state) ∧
      StateFine (par x) (t.2.2.2.state x) :=
  C65_whole_run hA hn rule kRiver par hu hη (masked world B) hnd hp _
    (fun e he => by
      obtain ⟨d, hd', rfl⟩ := List.mem_map.1 he
      exact wgDay_fine hA delayed unit world d _ (hd d hd'))
    s hs

/-! ## Non-vacuity -/

/-- A day at 272 K with 5 mm of precipitation in the basin of `rangeIn`; 2 km³ are asked of the upper cell, and 3 km³ are
returned to the lower one. -/
noncomputable def rangeWgDay : WgDay :=
  { weather := fun _ => ⟨272, 100, 300, 5⟩
    lateral := fun x => { rangeIn x with useOpt := true }
    pot := fun x => if x = (1, 1) then 2 else -3
    unagg := fun x => if x = (1, 1) then 1 else -3
    dec31 := false }

/-- Two such days in binary64 arithmetic with delayed use, the two cells on the shore of the same reservoir, whatever the
radiation and leaf parameters and the release rule. -/
example (rad : RadPar) (lai : LaiPar) (rule : HanIn → ℝ → ℝ × ℝ) :
    let order := [(((1, 1) : Cell), ((1, 2) : Cell)), ((1, 2), (0, 0))]
    let run := wgRunR binary64 rule (fun _ _ => 0.9) (fun _ => ⟨demoPar rad lai, 3000, 0.9⟩) true (fun _ => 7) order
      (fun _ => true)
      ⟨⟨fun _ => 0.1, fun _ => 0.1, fun _ => 0, fun _ => 0.2⟩,
        fun x => ⟨⟨⟨0, 0, 0, false⟩, 1, 3, [2, 3, 4], 80⟩, ⟨0.5, 0.5, 1, 0.3, 0, 0, false⟩, pairState x⟩⟩
      [rangeWgDay, rangeWgDay]
    run.length = 2 ∧ ∀ t ∈ run, ∀ x ∈ [((1, 1) : Cell), (1, 2)],
      0 ≤ (t.2.2.2.state x).vert.soil ∧ (t.2.2.2.state x).vert.soil ≤ 150 ∧ 0 ≤ (t.2.2.2.state x).lat.res := by
  intro order run
  refine ⟨rfl, fun t ht x hx => ?_⟩
  have hF : ∀ n : ℕ, n ≤ 2 ^ 53 → binary64.F n := fun n h => nat64 n h
  have f5 : binary64.F 5 := by exact_mod_cast hF 5 (by norm_num)
  have f7 : binary64.F 7 := by exact_mod_cast hF 7 (by norm_num)
  have f150 : binary64.F 150 := by exact_mod_cast hF 150 (by norm_num)
  have hm : masked order (fun _ => true) = order := by simp [masked]
  have key := C65_whole_run_with_demand binary64_ok binary64_near rule (fun _ _ => 0.9)
    (fun _ => ⟨demoPar rad lai, 3000, 0.9⟩) true (fun _ => 7) order (fun _ => true)
    (by norm_num) tiny_eta (by rw [hm]; exact pair_sound.1)
    (fun x _ => ⟨by constructor <;> norm_num [demoPar, f7, f150], by norm_num [demoPar], by norm_num⟩)
    [rangeWgDay, rangeWgDay]
    (by
      intro d hd
      simp only [List.mem_cons, List.not_mem_nil, or_false, or_self] at hd
      subst hd
      refine ⟨fun _ _ => ⟨by norm_num [rangeWgDay], f5⟩, fun _ _ => by norm_num [rangeWgDay], fun x _ => ?_⟩
      have k := rangeIn_fine x
      exact ⟨k.runoff, k.precip, k.corr, k.swbK, k.factor, k.fractions, k.capacities, k.machine⟩)
    ⟨⟨fun _ => 0.1, fun _ => 0.1, fun _ => 0, fun _ => 0.2⟩,
        fun x => ⟨⟨⟨0, 0, 0, false⟩, 1, 3, [2, 3, 4], 80⟩, ⟨0.5, 0.5, 1, 0.3, 0, 0, false⟩, pairState x⟩⟩
    (by
      intro x _
      refine ⟨⟨?_, ?_, ?_⟩, ?_, ?_, ?_, ?_, ?_⟩ <;> try norm_num [VertState.land, demoPar]
      unfold pairState
      split_ifs <;> norm_num [exState, landState]) t ht x
    (by rw [hm]; simpa [order] using hx)
  have h1 := key.2.2.column.soil
  exact ⟨by simpa [VertState.land, demoPar] using h1.1, by simpa [VertState.land, demoPar] using h1.2, key.2.2.res⟩

/-- The run of `C64` and `C82`, without rounding. -/
example := C65_exact_with_demand (fun _ => exFull) true shoreUnit shoreOrder (fun _ => true) [shoreDay, shoreDay] shoreSim

end WG
