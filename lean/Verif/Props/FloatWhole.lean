import Verif.Model.FloatWhole
import Verif.Props.FloatRange
import Verif.Props.RoundingVert

/-!
# C65: the whole simulation stays in range in rounded arithmetic
-/

namespace WG

open Arith

variable {A : Arith} {u η : ℝ} (hA : A.Ok) (hn : A.Near u η) {δ : Type} (rule : HanIn → ℝ → ℝ × ℝ) (kRiver : CellIn → ℝ → ℝ)
  (par : Cell → FullPar)

/-- C65: without rounding, the rounded day of the simulation is the day of the simulation the other properties are about. -/
theorem C65_exact_simulation (order : List (Cell × Cell)) (d : SimDay δ) (s : Sim δ) :
    simDayR exact hanasaki (fun c s => outflowConstant s c.len c.width c.rough c.mult c.slope) par order d s
      = (simDay par order d s).1 := by
  have hv : ∀ x, fullVertR exact (par x) (d.weather x) (s.state x) = fullVert (par x) (d.weather x) (s.state x) :=
    fun x => C65_exact_vertical _ _ _
  have hin : (fun x => fullInR exact (par x) (d.lateral s.demand x) (d.weather x) (s.state x)) = simIn par d s := by
    funext x
    simp only [simIn, fullInR, fullIn, hv]
    rfl
  have hnet : simNetR exact hanasaki (fun c s => outflowConstant s c.len c.width c.rough c.mult c.slope) par order d s
      = simNet par order d s := by
    unfold simNetR simNet
    rw [hin, C67_basin_exact]
  unfold simDayR simDay
  simp only [hnet]
  congr 1
  funext x
  cases (simNet par order d s).ledger.out x with
  | none => rfl
  | some o =>
    simp only [fullNextR, fullNext, hv]
    rfl

/-- Parameters of the column are in range; the cell has an area. -/
structure ParFine (A : Arith) (p : FullPar) : Prop where
  vert : LandParOk A p.vert
  alpha : 0 ≤ p.vert.alpha
  area : 0 ≤ p.area

/-- Storages of the column and of the reservoir are in range, and neither a fraction nor the snow is negative. -/
structure StateFine (p : FullPar) (s : FullState) : Prop where
  column : LandStoreOk p.vert.maxSoil s.vert.land
  cur : 0 ≤ s.land.cur
  prev : 0 ≤ s.land.prev
  ratio : 0 ≤ s.land.ratio
  res : 0 ≤ s.lat.res
  snow : 0 ≤ s.vert.snow

/-- What a day of the vertical balance yields in the ranges physics allows. -/
structure ColumnInRange (maxSoil : ℝ) (v : VertOut) : Prop where
  store : LandStoreOk maxSoil v.next.land
  pet : 0 ≤ v.pet ∧ 0 ≤ v.openPet
  canopy : 0 ≤ v.throughfall ∧ 0 ≤ v.canopyEvap
  snow : 0 ≤ v.next.snow ∧ 0 ≤ v.snowfall ∧ 0 ≤ v.sublimation ∧ 0 ≤ v.melt ∧ 0 ≤ v.coverFrac ∧ v.coverFrac ≤ 1
  flows : 0 ≤ v.recharge ∧ 0 ≤ v.surfaceRunoff ∧ 0 ≤ v.landAet

include hA in
/-- The storages handed over by a cell that has lost its land are not negative. -/
theorem transferR_nonneg (p : VertPar) (hp : LandParOk A p) (f : VertForcing) (s : VertState) (hs : LandStoreOk p.maxSoil s.land)
    (h0 : f.frac = 0) : 0 ≤ (vertCellR A p f s).transfer := by
  have hnf : ¬ f.frac > 0 := by rw [h0]; exact lt_irrefl _
  have hm : 0 ≤ meanR A ((p.elevs.zip s.land.bands).map (·.2)) := by
    refine meanR_nonneg hA _ fun x hx => ?_
    obtain ⟨y, hy, rfl⟩ := List.mem_map.mp hx
    exact hs.bands _ (List.of_mem_zip hy).2
  simp only [vertCellR, landDayR, vertForcingR, soilR, snowR, canopyR, hnf, if_false]
  exact mul_nonneg hA (add_nonneg hA (add_nonneg hA hs.canopy hm) hs.soil.1) hp.cfa

include hA hn in
theorem column_day (p : FullPar) (hp : ParFine A p) (hu : u ≤ 1 / 100) (hη : η ≤ 1 / 100000) (w : Weather) (s : FullState)
    (hs : StateFine p s) (hw : 0 ≤ w.precip ∧ A.F w.precip) (ht : w.temperature ≤ 673) :
    ColumnInRange p.vert.maxSoil (fullVertR A p w s) := by
  have h := C65_vertical_run hA hn p.vert hp.vert hp.alpha hu hη [fullForcing w s.land]
    (by simp only [List.mem_singleton, forall_eq]; exact ⟨hw, ht, hs.ratio⟩) s.vert hs.column (fullVertR A p w s)
    (by simp [vertRunR, fullVertR])
  exact ⟨h.1, h.2.1, h.2.2.1, h.2.2.2.1, h.2.2.2.2⟩

include hA in
theorem fullInR_fine (p : FullPar) (hp : ParFine A p) (c : CellIn) (hc : CellFine A c) (w : Weather) (s : FullState)
    (hs : StateFine p s) (hw : 0 ≤ w.precip) (hv : ColumnInRange p.vert.maxSoil (fullVertR A p w s)) :
    CellFine A (fullInR A p c w s) := by
  have h6 : 0 ≤ A.rnd 1e-6 := rnd_nonneg hA (by norm_num)
  refine ⟨?_, mul_nonneg hA hw h6, hc.corr, hc.swbK, hc.factor, hc.fractions, hc.capacities, hc.machine⟩
  simp only [fullInR]
  split_ifs with h0
  · exact mul_nonneg hA (mul_nonneg hA (mul_nonneg hA (transferR_nonneg hA p.vert hp.vert _ _ hs.column h0) hp.area) h6) hs.prev
  · exact mul_nonneg hA (mul_nonneg hA (mul_nonneg hA hv.flows.2.1 hp.area) h6) hs.cur

include hA in
theorem landUpdateR_fine (a b c : ℝ) (s : LandState) (hs : 0 ≤ s.cur) :
    0 ≤ (landUpdateR A a b c s).cur ∧ 0 ≤ (landUpdateR A a b c s).prev ∧ 0 ≤ (landUpdateR A a b c s).ratio := by
  have hcl : ∀ x : ℝ, 0 ≤ clampNeg x := by
    intro x; unfold clampNeg; split_ifs with h
    · exact le_rfl
    · exact not_lt.mp h
  simp only [landUpdateR]
  refine ⟨hcl _, hs, ?_⟩
  split_ifs
  · exact div_nonneg hA hs (hcl _)
  · exact le_rfl

/-- What is given for a day is sensible: precipitation is not negative and a machine number, less than 673 K, water bodies
as in `CellFine`, and the demand that is read is a machine number. -/
structure DayFine (A : Arith) (order : List (Cell × Cell)) (d : SimDay δ) : Prop where
  precip : ∀ x ∈ order.map Prod.fst, 0 ≤ (d.weather x).precip ∧ A.F (d.weather x).precip
  temperature : ∀ x ∈ order.map Prod.fst, (d.weather x).temperature ≤ 673
  bodies : ∀ l, ∀ x ∈ order.map Prod.fst, CellFine A (d.lateral l x)
  demand : ∀ l x, A.F (d.get l x).1 ∧ ∀ v, A.F v → A.F ((d.get l x).2 v)

include hA hn in
/-- C65: the whole simulation in rounded arithmetic, over any number of days, any network and any weather: on every day
the column of every cell and its water bodies are in range, streamflow is not negative, and the land fraction of the next
day is not negative. -/
theorem C65_whole_run (hu : u ≤ 1 / 100) (hη : η ≤ 1 / 100000) (order : List (Cell × Cell)) (hnd : (order.map Prod.fst).Nodup)
    (hp : ∀ x ∈ order.map Prod.fst, ParFine A (par x)) (days : List (SimDay δ)) (hd : ∀ d ∈ days, DayFine A order d) :
    ∀ s : Sim δ, (∀ x ∈ order.map Prod.fst, StateFine (par x) (s.state x)) →
    ∀ t ∈ simRunR A rule kRiver par order s days, ∀ x ∈ order.map Prod.fst,
      ColumnInRange (par x).vert.maxSoil (fullVertR A (par x) (t.2.1.weather x) (t.1.state x)) ∧
      (∃ o, t.2.2.1.ledger.out x = some o ∧ DayInRange (t.2.1.lateral t.1.demand x) o ∧
        (t.2.2.2.state x).lat = o.state) ∧
      StateFine (par x) (t.2.2.2.state x) := by
  induction days with
  | nil => intro _ _ t h; simp [simRunR] at h
  | cons d ds ih =>
    intro s hs t ht
    have hday := hd d List.mem_cons_self
    have hcol : ∀ x ∈ order.map Prod.fst, ColumnInRange (par x).vert.maxSoil (fullVertR A (par x) (d.weather x) (s.state x)) :=
      fun x hx => column_day hA hn (par x) (hp x hx) hu hη (d.weather x) (s.state x) (hs x hx) (hday.precip x hx)
        (hday.temperature x hx)
    have hbasin := C65_basin_day hA rule kRiver d.get d.upd
      (fun x => fullInR A (par x) (d.lateral s.demand x) (d.weather x) (s.state x)) order hnd (d.start s.demand)
      (fun x => (s.state x).lat)
      (fun x hx => fullInR_fine hA (par x) (hp x hx) _ (hday.bodies _ x hx) _ _ (hs x hx) (hday.precip x hx).1 (hcol x hx))
      (fun x hx => (hs x hx).res) hday.demand
    have hnext : ∀ x ∈ order.map Prod.fst, ∃ o, (simNetR A rule kRiver par order d s).ledger.out x = some o ∧
        DayInRange (d.lateral s.demand x) o ∧
        ((simDayR A rule kRiver par order d s).state x).lat = o.state ∧
        StateFine (par x) ((simDayR A rule kRiver par order d s).state x) := by
      intro x hx
      obtain ⟨o, h1, -, h3⟩ := hbasin x hx
      have h1' : (simNetR A rule kRiver par order d s).ledger.out x = some o := h1
      have e : (simDayR A rule kRiver par order d s).state x = fullNextR A (par x) (d.weather x) (s.state x) o := by
        simp only [simDayR, h1']
      have hl := landUpdateR_fine hA o.locLakeFrac o.locWetFrac o.gloWetFrac (s.state x).land (hs x hx).cur
      rw [e]
      exact ⟨o, h1', ⟨⟨h3.bodies.locLake, h3.bodies.locWet, h3.bodies.gloLake, h3.bodies.gloWet, h3.bodies.res⟩,
        h3.streamflow, h3.unsat, h3.locLakeFrac, h3.locWetFrac, h3.gloWetFrac⟩, rfl,
        ⟨(hcol x hx).store, hl.1, hl.2.1, hl.2.2, h3.bodies.res.1, (hcol x hx).snow.1⟩⟩
    simp only [simRunR, List.mem_cons] at ht
    rcases ht with rfl | ht
    · intro x hx
      obtain ⟨o, h1, h2, h3, h4⟩ := hnext x hx
      exact ⟨hcol x hx, ⟨o, h1, h2, h3⟩, h4⟩
    · exact ih (fun e he => hd e (List.mem_cons_of_mem _ he)) _ (fun x hx => (hnext x hx).choose_spec.2.2.2) t ht

/-- A day at 272 K with 5 mm of precipitation in the basin of `rangeIn`, with 2 km³ of demand in every cell. -/
noncomputable def rangeDay : SimDay Unit :=
  { weather := fun _ => ⟨272, 100, 300, 5⟩
    lateral := fun _ => rangeIn
    start := id
    get := fun _ _ => (2, id)
    upd := fun l _ _ => l
    close := id }

/-- Two such days in binary64 arithmetic, whatever the radiation and leaf parameters and the release rule: on both days
the reservoir of the upper cell is in range, and the soil of both cells. -/
example (rad : RadPar) (lai : LaiPar) (rule : HanIn → ℝ → ℝ × ℝ) :
    let run := simRunR binary64 rule (fun _ _ => 0.9) (fun _ => ⟨demoPar rad lai, 3000, 0.9⟩) [((1, 1), (1, 2)), ((1, 2), (0, 0))]
      ⟨(), fun x => ⟨⟨⟨0, 0, 0, false⟩, 1, 3, [2, 3, 4], 80⟩, ⟨0.5, 0.5, 1, 0.3, 0, 0, false⟩, pairState x⟩⟩ [rangeDay, rangeDay]
    run.length = 2 ∧ ∀ t ∈ run, (∃ o, t.2.2.1.ledger.out (1, 1) = some o ∧ o.state.res ≤ 2) ∧
      ∀ x ∈ [((1, 1) : Cell), (1, 2)], 0 ≤ (t.2.2.2.state x).vert.soil ∧ (t.2.2.2.state x).vert.soil ≤ 150 := by
  intro run
  refine ⟨rfl, fun t ht => ?_⟩
  have hF : ∀ n : ℕ, n ≤ 2 ^ 53 → binary64.F n := fun n h => nat64 n h
  have f2 : binary64.F 2 := by exact_mod_cast hF 2 (by norm_num)
  have f5 : binary64.F 5 := by exact_mod_cast hF 5 (by norm_num)
  have f7 : binary64.F 7 := by exact_mod_cast hF 7 (by norm_num)
  have f150 : binary64.F 150 := by exact_mod_cast hF 150 (by norm_num)
  have key := C65_whole_run binary64_ok binary64_near rule (fun _ _ => 0.9) (fun _ => ⟨demoPar rad lai, 3000, 0.9⟩)
    (by norm_num) tiny_eta [((1, 1), (1, 2)), ((1, 2), (0, 0))] pair_sound.1
    (fun x _ => ⟨by constructor <;> norm_num [demoPar, f7, f150], by norm_num [demoPar], by norm_num⟩) [rangeDay, rangeDay]
    (by
      intro d hd
      simp only [List.mem_cons, List.not_mem_nil, or_false, or_self] at hd
      subst hd
      exact ⟨fun _ _ => ⟨by norm_num [rangeDay], f5⟩, fun _ _ => by norm_num [rangeDay], fun _ x _ => rangeIn_fine x,
        fun _ _ => ⟨f2, fun _ h => h⟩⟩)
    ⟨(), fun x => ⟨⟨⟨0, 0, 0, false⟩, 1, 3, [2, 3, 4], 80⟩, ⟨0.5, 0.5, 1, 0.3, 0, 0, false⟩, pairState x⟩⟩
    (by
      intro x _
      refine ⟨⟨?_, ?_, ?_⟩, ?_, ?_, ?_, ?_, ?_⟩ <;> try norm_num [VertState.land, demoPar]
      unfold pairState
      split_ifs <;> norm_num [exState, landState]) t ht
  have hd : t.2.1 = rangeDay := by
    simp only [run, simRunR, List.mem_cons, List.not_mem_nil, or_false] at ht
    rcases ht with rfl | rfl <;> rfl
  refine ⟨?_, fun x hx => ?_⟩
  · obtain ⟨-, ⟨o, h1, h2, -⟩, -⟩ := key (1, 1) (by simp)
    have h3 := h2.bodies.res.2
    rw [hd] at h3
    simp only [rangeDay, rangeIn, if_true, exCell] at h3
    exact ⟨o, h1, h3 (by norm_num)⟩
  · have := (key x (by simpa using hx)).2.2.column.soil
    simpa [VertState.land, demoPar] using this

end WG
