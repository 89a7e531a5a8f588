import Verif.Model.FloatYears
import Verif.Props.FloatDemand

/-!
# C65: several years with reservoirs that start to operate stay in range in rounded arithmetic
-/

namespace WG

open Arith

variable {A : Arith} {u η : ℝ} (hA : A.Ok) (hn : A.Near u η) {δ : Type} (tot : List ℝ → ℝ) (rule : HanIn → ℝ → ℝ × ℝ)
  (kRiver : CellIn → ℝ → ℝ) (G : Grid) (order : List (Cell × Cell))

/-- C65: without rounding, the start of a reservoir year is that of the other properties. -/
theorem C65_exact_year_start (y : ResYear δ) (s : Sim δ) : yearStartR exact List.sum G y s = yearStart G y s := rfl

theorem simRunR_last (par : Cell → FullPar) (days : List (SimDay δ)) : ∀ s : Sim δ,
    ((simRunR exact hanasaki (fun c s => outflowConstant s c.len c.width c.rough c.mult c.slope) par order s days).getLast?.map
      fun t => t.2.2.2).getD s = (simRun par order s days).1 := by
  induction days with
  | nil => intro s; rfl
  | cons d ds ih =>
    intro s
    have h := ih (simDay par order d s).1
    simp only [simRunR, simRun, C65_exact_simulation]
    rw [← h, List.getLast?_cons]
    cases (simRunR exact hanasaki (fun c s => outflowConstant s c.len c.width c.rough c.mult c.slope) par order
      (simDay par order d s).1 ds).getLast? <;> rfl

/-- C65: without rounding, the years (each with at least a day) lead to the state of the other properties. -/
theorem C65_exact_years (years : List (ResYear δ)) : ∀ (g : Cell → ℝ) (days : List (SimDay δ)) (s : Sim δ),
    (∀ y ∈ years, y.days ≠ []) →
    ((simSpanR exact List.sum hanasaki (fun c s => outflowConstant s c.len c.width c.rough c.mult c.slope) G order g days s
        years).getLast?.map fun t => t.2.2.2.2).getD s = (simSpan G order g days s years).1 := by
  induction years with
  | nil =>
    intro g days s _
    simp only [simSpanR, simSpan, List.getLast?_map, Option.map_map]
    exact simRunR_last order (G.par g) days s
  | cons y ys ih =>
    intro g days s hy
    have hl := simRunR_last order (G.par g) days s
    have h := ih y.glores y.days (yearStart G y (simRun (G.par g) order s days).1) fun z hz => hy z (List.mem_cons_of_mem _ hz)
    have e : simSpanR exact List.sum hanasaki (fun c s => outflowConstant s c.len c.width c.rough c.mult c.slope) G order g days s
        (y :: ys) = ((simRunR exact hanasaki (fun c s => outflowConstant s c.len c.width c.rough c.mult c.slope) (G.par g) order s
          days).map fun t => (g, t)) ++ simSpanR exact List.sum hanasaki
          (fun c s => outflowConstant s c.len c.width c.rough c.mult c.slope) G order y.glores y.days
          (yearStart G y (simRun (G.par g) order s days).1) ys := by
      rw [← hl]; rfl
    rw [e]
    simp only [simSpan]
    rw [← h]
    have hne : (simSpanR exact List.sum hanasaki (fun c s => outflowConstant s c.len c.width c.rough c.mult c.slope) G order
        y.glores y.days (yearStart G y (simRun (G.par g) order s days).1) ys) ≠ [] := by
      have hd := hy y List.mem_cons_self
      obtain ⟨d, ds, hdd⟩ := List.exists_cons_of_ne_nil hd
      cases ys with
      | nil => simp [simSpanR, hdd, simRunR]
      | cons z zs => simp [simSpanR, hdd, simRunR]
    obtain ⟨t, ht⟩ := Option.isSome_iff_exists.mp (List.getLast?_isSome.mpr hne)
    rw [List.getLast?_append, ht]
    rfl

include hA in
theorem yearLandR_fine (fs : FracStatic) (g : ℝ) (l : LandState) (_ : 0 ≤ l.cur) (hp : 0 ≤ l.prev) (hr : 0 ≤ l.ratio) :
    0 ≤ (yearLandR A fs g l).1.cur ∧ 0 ≤ (yearLandR A fs g l).1.prev ∧ 0 ≤ (yearLandR A fs g l).1.ratio ∧
      0 ≤ (yearLandR A fs g l).2 := by
  have hcl : ∀ x : ℝ, 0 ≤ clampNeg x := by
    intro x; unfold clampNeg; split_ifs with h
    · exact le_rfl
    · exact not_lt.mp h
  have hy : 0 ≤ (landYearR A fs g l).cur ∧ 0 ≤ (landYearR A fs g l).prev ∧ 0 ≤ (landYearR A fs g l).ratio := by
    unfold landYearR
    split_ifs <;> refine ⟨?_, ?_, ?_⟩ <;> simp [landFracInitResR, landFracYearR, hcl, hp, hr]
  simp only [yearLandR, landAdaptR]
  refine ⟨?_, hy.2.1, hy.2.2, ?_⟩
  · split_ifs
    exacts [hy.2.1, hy.1]
  · split_ifs with h
    · exact rnd_nonneg hA (by nlinarith [h.2])
    · exact le_rfl

include hA in
theorem yearLostR_nonneg (area : ℝ) (ha : 0 ≤ area) (fs : FracStatic) (g : ℝ) (p : FullPar) (s : FullState) (hs : StateFine p s) :
    0 ≤ yearLostR A area fs g s := by
  have hl := (yearLandR_fine hA fs g s.land hs.cur hs.prev hs.ratio).2.2.2
  have h6 : 0 ≤ A.rnd 1e-6 := rnd_nonneg hA (by norm_num)
  have k : ∀ x, 0 ≤ x → 0 ≤ A.mul (A.mul (A.mul x (A.rnd 1e-6)) area) (yearLandR A fs g s.land).2 := fun x hx =>
    Arith.mul_nonneg hA (Arith.mul_nonneg hA (Arith.mul_nonneg hA hx h6) ha) hl
  exact Arith.add_nonneg hA (Arith.add_nonneg hA (k _ hs.column.canopy) (k _ hs.column.soil.1)) (k _ hs.snow)

include hA in
theorem handLostR_nonneg (hT : ∀ l : List ℝ, (∀ x ∈ l, 0 ≤ x) → 0 ≤ tot l) (cells : List Cell) (assign : Cell → WithTop ℤ)
    (area lost st : Cell → ℝ) (S : Cell → Prop) (hS : ∀ x ∈ cells, S x) (hl : ∀ x ∈ cells, 0 ≤ lost x) (hs : ∀ x, S x → 0 ≤ st x) :
    ∀ x, S x → 0 ≤ handLostR A tot cells assign area lost st x := by
  unfold handLostR
  generalize assignedUnits cells assign = us
  induction us generalizing st with
  | nil => exact hs
  | cons v vs ih =>
    refine ih (handUnitR A tot cells assign area lost st v) ?_
    intro x hx
    unfold handUnitR
    generalize hz : List.find? _ cells = o
    cases o with
    | none => exact hs x hx
    | some z =>
      have hz' := hS z (List.mem_of_find?_eq_some hz)
      dsimp only
      by_cases e : x = z
      · subst e
        rw [Function.update_self]
        refine Arith.add_nonneg hA (hs _ hx) (hT _ fun y hy => ?_)
        obtain ⟨w, hw, rfl⟩ := List.mem_map.mp hy
        split_ifs
        exacts [hl w hw, le_rfl]
      · rw [Function.update_of_ne e]
        exact hs x hx

include hA in
theorem yearStartR_fine (hT : ∀ l : List ℝ, (∀ x ∈ l, 0 ≤ x) → 0 ≤ tot l) (y : ResYear δ) (s : Sim δ) (g g' : Cell → ℝ)
    (S : Cell → Prop) (hS : ∀ x ∈ G.cells, S x) (ha : ∀ x, S x → 0 ≤ G.area x)
    (hs : ∀ x, S x → StateFine (G.parR A g x) (s.state x)) :
    ∀ x, S x → StateFine (G.parR A g' x) ((yearStartR A tot G y s).state x) := by
  intro x hx
  have h := hs x hx
  have hl := yearLandR_fine hA (G.frac x) (y.glores x) (s.state x).land h.cur h.prev h.ratio
  refine ⟨h.column, hl.1, hl.2.1, hl.2.2.1, ?_, h.snow⟩
  exact handLostR_nonneg hA tot hT G.cells G.assign y.resArea _ _ S hS
    (fun z hz => yearLostR_nonneg hA _ (ha z (hS z hz)) _ _ _ _ (hs z (hS z hz))) (fun z hz => (hs z hz).res) x hx

theorem simRunR_start (par : Cell → FullPar) (P : Sim δ → Prop) (days : List (SimDay δ)) : ∀ s : Sim δ, P s →
    (∀ t ∈ simRunR A rule kRiver par order s days, P t.2.2.2) →
    P (((simRunR A rule kRiver par order s days).getLast?.map fun t => t.2.2.2).getD s) := by
  intro s hs h
  cases e : (simRunR A rule kRiver par order s days).getLast? with
  | none => simpa using hs
  | some t => simpa using h t (List.mem_of_getLast? e)

include hA hn in
/-- C65: the whole simulation in rounded arithmetic over any number of days and of years, in each of which reservoirs may
start to operate, grow, or replace land (the land they lose hands its water to the reservoir of their unit): on every day
the column of every cell and its water bodies are in range, streamflow is not negative, and neither is the land fraction
of the next day. -/
theorem C65_years (hu : u ≤ 1 / 100) (hη : η ≤ 1 / 100000) (hT : ∀ l : List ℝ, (∀ x ∈ l, 0 ≤ x) → 0 ≤ tot l)
    (hnd : (order.map Prod.fst).Nodup) (hcells : ∀ x ∈ G.cells, x ∈ order.map Prod.fst)
    (hp : ∀ x ∈ order.map Prod.fst, LandParOk A (G.vert x) ∧ 0 ≤ (G.vert x).alpha ∧ 0 ≤ G.area x) (years : List (ResYear δ)) :
    ∀ (g : Cell → ℝ) (days : List (SimDay δ)) (s : Sim δ), (∀ d ∈ days, DayFine A order d) →
    (∀ y ∈ years, ∀ d ∈ y.days, DayFine A order d) →
    (∀ x ∈ order.map Prod.fst, StateFine (G.parR A g x) (s.state x)) →
    ∀ t ∈ simSpanR A tot rule kRiver G order g days s years, ∀ x ∈ order.map Prod.fst,
      ColumnInRange (G.vert x).maxSoil (fullVertR A (G.parR A t.1 x) (t.2.2.1.weather x) (t.2.1.state x)) ∧
      (∃ o, t.2.2.2.1.ledger.out x = some o ∧ DayInRange (t.2.2.1.lateral t.2.1.demand x) o ∧
        (t.2.2.2.2.state x).lat = o.state) ∧
      StateFine (G.parR A t.1 x) (t.2.2.2.2.state x) := by
  have run : ∀ (g : Cell → ℝ) (days : List (SimDay δ)) (s : Sim δ), (∀ d ∈ days, DayFine A order d) →
      (∀ x ∈ order.map Prod.fst, StateFine (G.parR A g x) (s.state x)) → _ := fun g days s hd hs =>
    C65_whole_run hA hn rule kRiver (G.parR A g) hu hη order hnd
      (fun x hx => ⟨(hp x hx).1, (hp x hx).2.1, (hp x hx).2.2⟩) days hd s hs
  induction years with
  | nil =>
    intro g days s hd _ hs t ht x hx
    simp only [simSpanR, List.mem_map] at ht
    obtain ⟨t, ht, rfl⟩ := ht
    exact run g days s hd hs t ht x hx
  | cons y ys ih =>
    intro g days s hd hy hs t ht x hx
    simp only [simSpanR, List.mem_append, List.mem_map] at ht
    rcases ht with ⟨t, ht, rfl⟩ | ht
    · exact run g days s hd hs t ht x hx
    · have hlast := simRunR_start rule kRiver order (G.parR A g)
        (fun s => ∀ x ∈ order.map Prod.fst, StateFine (G.parR A g x) (s.state x)) days s hs
        fun t ht x hx => (run g days s hd hs t ht x hx).2.2
      exact ih y.glores y.days _ (hy y List.mem_cons_self) (fun z hz => hy z (List.mem_cons_of_mem _ hz))
        (yearStartR_fine hA tot G hT y _ g y.glores (fun x => x ∈ order.map Prod.fst) hcells (fun x hx => (hp x hx).2.2) hlast)
        t ht x hx

/-- Three cells: the land of the upper cell of the pair is lost to the reservoir of its unit. -/
noncomputable def rangeGrid (rad : RadPar) (lai : LaiPar) : Grid where
  cells := [(1, 1), (1, 2), (2, 2)]
  frac := fun _ => ⟨100, 10, 0, 0, 0, 0, 0⟩
  assign := fun x => if x = (1, 1) then (1 : ℤ) else if x = (1, 2) then (5 : ℤ) else (0 : ℤ)
  vert := fun _ => demoPar rad lai
  area := fun _ => 3000

/-- A day of the first year and a day of the next, in which a reservoir of 40 percent of the cell starts in the upper
cell, in binary64 arithmetic, whatever the radiation and leaf parameters and the release rule. -/
example (rad : RadPar) (lai : LaiPar) (rule : HanIn → ℝ → ℝ × ℝ) :
    let run := simSpanR binary64 binary64.sum rule (fun _ _ => 0.9) (rangeGrid rad lai)
      [((1, 1), (1, 2)), ((1, 2), (0, 0)), ((2, 2), (0, 0))] (fun _ => 0) [rangeDay]
      ⟨(), fun x => ⟨⟨⟨0, 0, 0, false⟩, 1, 3, [2, 3, 4], 80⟩, ⟨0.5, 0.5, 1, 0.3, 0, 0, false⟩, pairState x⟩⟩
      [⟨fun x => if x = (1, 1) then 40 else 0, fun x => if x = (1, 1) then 900 else 0, [rangeDay]⟩]
    run.length = 2 ∧ ∀ t ∈ run, (∃ o, t.2.2.2.1.ledger.out (1, 1) = some o ∧ 0 ≤ o.state.res) ∧
      ∀ x ∈ [((1, 1) : Cell), (1, 2), (2, 2)], 0 ≤ (t.2.2.2.2.state x).vert.soil ∧ (t.2.2.2.2.state x).vert.soil ≤ 150 := by
  intro run
  refine ⟨rfl, fun t ht => ?_⟩
  have hF : ∀ n : ℕ, n ≤ 2 ^ 53 → binary64.F n := fun n h => nat64 n h
  have f2 : binary64.F 2 := by exact_mod_cast hF 2 (by norm_num)
  have f5 : binary64.F 5 := by exact_mod_cast hF 5 (by norm_num)
  have f7 : binary64.F 7 := by exact_mod_cast hF 7 (by norm_num)
  have f150 : binary64.F 150 := by exact_mod_cast hF 150 (by norm_num)
  have hd : DayFine binary64 [((1, 1), (1, 2)), ((1, 2), (0, 0)), ((2, 2), (0, 0))] rangeDay :=
    ⟨fun _ _ => ⟨by norm_num [rangeDay], f5⟩, fun _ _ => by norm_num [rangeDay], fun _ x _ => rangeIn_fine x,
      fun _ _ => ⟨f2, fun _ h => h⟩⟩
  have key := C65_years binary64_ok binary64_near binary64.sum rule (fun _ _ => 0.9) (rangeGrid rad lai)
    [((1, 1), (1, 2)), ((1, 2), (0, 0)), ((2, 2), (0, 0))]
    (by norm_num) tiny_eta (fun l h => sum_nonneg binary64_ok l h) (by decide) (fun x hx => hx)
    (fun x _ => ⟨by constructor <;> norm_num [rangeGrid, demoPar, f7, f150], by norm_num [rangeGrid, demoPar],
      by norm_num [rangeGrid]⟩)
    [⟨fun x => if x = (1, 1) then 40 else 0, fun x => if x = (1, 1) then 900 else 0, [rangeDay]⟩] (fun _ => 0) [rangeDay]
    ⟨(), fun x => ⟨⟨⟨0, 0, 0, false⟩, 1, 3, [2, 3, 4], 80⟩, ⟨0.5, 0.5, 1, 0.3, 0, 0, false⟩, pairState x⟩⟩
    (by simpa using hd)
    (by simpa using hd)
    (by
      intro x _
      refine ⟨⟨?_, ?_, ?_⟩, ?_, ?_, ?_, ?_, ?_⟩ <;> try norm_num [VertState.land, demoPar, Grid.parR, rangeGrid]
      unfold pairState
      split_ifs <;> norm_num [exState, landState]) t ht
  refine ⟨?_, fun x hx => ?_⟩
  · obtain ⟨-, ⟨o, h1, h2, -⟩, -⟩ := key (1, 1) (by simp)
    exact ⟨o, h1, h2.bodies.res.1⟩
  · have := (key x (by simpa using hx)).2.2.column.soil
    simpa [VertState.land, demoPar, Grid.parR, rangeGrid] using this

end WG
