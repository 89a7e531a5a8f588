import Verif.Model.NbWhole
import Verif.Props.GlobalBalance
import Verif.Props.Neighbour

/-!
# The whole simulation with water supply from neighbouring cells (C50, C54, C58, C59)
-/

namespace WG

/-! ## Lemmas: one cell, one day -/

/-- Between the state `s` and the state `s'` a cell has had a sensible day that left the record `r`. -/
def CellStep (p : FullPar) (c0 : CellIn) (s : FullState) (r : DayRec) (s' : FullState) : Prop :=
  ∃ (c : CellIn) (w : Weather) (up dem : ℝ) (keep : ℝ → ℝ),
    let o := cellDay (fullIn p c w s) s.lat up dem keep
    GoodCell p c ∧ SameCell c0 c ∧ WeatherOk p w s ∧ (fullIn p c w s).WetDeep ∧ (0 < c.glolakeArea → 0 ≤ dem) ∧ 0 ≤ up ∧
    s' = fullNext p w s o ∧ r = fullRec p c w s up o

theorem cellStep_closes {p : FullPar} {c0 : CellIn} {s s' : FullState} {r : DayRec} (h : CellStep p c0 s r s')
    (hs : FullOk p c0 s) (hcorr : 0 < c0.corr) (hsink : c0.sink = true → c0.corr = 1) :
    FullOk p c0 s' ∧ DayError p c0 (dayNet c0.corr r - (r.tws - twsBefore p s)) ∧ twsBefore p s' = r.tws := by
  obtain ⟨c, w, up, dem, keep, g1, g2, g3, g4, k1, k2, rfl, hr⟩ := h
  have hf := FullOk_same g2 hs
  obtain ⟨a1, a2⟩ := C50_cell_state p c w s g1 hf g3 up dem keep k2 k1 g4
  have hbal := cell_day_error p c w s g1 hf g3 up dem keep k2 (by rw [← g2.corr]; exact hcorr.ne') k1
  simp only at hbal
  rw [DayError_same g2.symm] at hbal
  refine ⟨FullOk_same g2.symm a1, ?_, by rw [hr]; exact a2⟩
  set o := cellDay (fullIn p c w s) s.lat up dem keep with ho
  have hdis : r.dis = if c.sink then none else some o.streamflow := by rw [hr]; rfl
  have hu : r.up = up := by rw [hr]; rfl
  rw [← hr] at hbal
  have hcs : o.streamflow / c.corr - o.streamflow = r.dis.getD 0 / c0.corr - r.dis.getD 0 := by
    rw [hdis, ← g2.corr]
    by_cases hk : c.sink = true
    · rw [hsink (by rw [g2.sink]; exact hk)]; simp [hk]
    · rw [if_neg hk]; rfl
  rw [hcs] at hbal
  refine Eq.mp (congrArg _ ?_) hbal
  unfold dayNet
  rw [hu]
  ring

/-! ## The simulation -/

section
variable (par : Cell → FullPar) (lat0 : Cell → CellIn) (r : NbRun)

/-- A sensible day: cells described by `lat0` with sensible data and weather, global wetlands that do not run dry within the
day, water use switched on, no negative demand on a global lake, and the demand of the shore cells of a lake or reservoir
aggregated to its outflow cell. -/
structure NbWgDay.Ok (d : NbWgDay) (s : NbSim) : Prop where
  same : ∀ x, SameCell (lat0 x) (d.lateral x)
  cells : ∀ x ∈ r.order.map Prod.fst, GoodCell (par x) (d.lateral x) ∧ WeatherOk (par x) (d.weather x) (s.full x) ∧
    (fullIn (par x) (d.lateral x) (d.weather x) (s.full x)).WetDeep
  use : ∀ x, (d.lateral x).useOpt = true
  sign : ∀ x, 0 < (lat0 x).glolakeArea → 0 ≤ d.pot x
  cons : ∀ x, (lat0 x).hasLake → d.pot x = min (d.unagg x) 0 + (max (d.unagg x) 0 +
    (((r.order.map Prod.fst).filter fun y => r.unit x = r.unit y ∧ x ≠ y).map fun y => max (d.unagg y) 0).sum)

/-- A sensible state: cells as in `FullOk`, demand as in `NbCarry.Good`. -/
def NbSim.Ok (s : NbSim) : Prop :=
  s.carry.Good lat0 r ∧ ∀ x ∈ r.order.map Prod.fst, FullOk (par x) (lat0 x) (s.full x)

/-- Sensible days, one after the other. -/
def NbWgDaysOk : NbSim → List NbWgDay → Prop
  | _, [] => True
  | s, d :: ds => d.Ok par lat0 r s ∧ NbWgDaysOk (d.next par r s) ds

/-- The records of a cell. -/
noncomputable def nbSeries (s : NbSim) (days : List NbWgDay) (x : Cell) : List DayRec :=
  (nbSimRun par r s days).2.filterMap (· x)

/-- What the lateral water balance gets on the days of a simulation. -/
noncomputable def nbLatDays : NbSim → List NbWgDay → List NbDayIn
  | _, [] => []
  | s, d :: ds => d.lat par s :: nbLatDays (d.next par r s) ds

variable {par lat0 r}

theorem sameBodies_fullIn {c0 c : CellIn} (h : SameBodies c0 c) (p : FullPar) (w : Weather) (s : FullState) :
    SameBodies c0 (fullIn p c w s) :=
  ⟨h.1, h.2, h.3, h.4, h.5, h.6, h.7⟩

theorem nbLat_good (hcorr : ∀ x ∈ r.order.map Prod.fst, 0 < (lat0 x).corr) {d : NbWgDay} {s : NbSim}
    (hs : s.Ok par lat0 r) (hd : d.Ok par lat0 r s) : (d.lat par s).Good lat0 r where
  same x := sameBodies_fullIn (hd.same x).bodies _ _ _
  cell x hx := by
    obtain ⟨g1, g2, g3⟩ := hd.cells x hx
    refine ⟨fullIn_physical _ _ _ _ g1 (FullOk_same (hd.same x) (hs.2 x hx)) g2, ?_, g3⟩
    change 0 ≤ (d.lateral x).corr
    rw [← (hd.same x).corr]; exact (hcorr x hx).le
  use := hd.use
  sign x hx := by
    refine hd.sign x ?_
    rw [(hd.same x).bodies.area]; exact hx
  cons := hd.cons

/-- What happens in a cell on a sensible day. -/
theorem nbDay_cell (hr : r.Good lat0) (hcorr : ∀ x ∈ r.order.map Prod.fst, 0 < (lat0 x).corr) {d : NbWgDay} {s : NbSim}
    (hs : s.Ok par lat0 r) (hd : d.Ok par lat0 r s) (x : Cell) (hx : x ∈ r.order.map Prod.fst) :
    ∃ rec, d.recs par r s x = some rec ∧ CellStep (par x) (lat0 x) (s.full x) rec ((d.next par r s).full x) := by
  have hg := nbLat_good hcorr hs hd
  have hok := nbDayIn_ok hr hg hs.1
  have hcc : ∀ x ∈ r.order.map Prod.fst, ((d.lat par s).cin x).Physical ∧ (s.carry.state x).Ok ((d.lat par s).cin x) ∧
      0 ≤ ((d.lat par s).cin x).corr :=
    fun x hx => ⟨(hg.cell x hx).1, Ok_same (hg.same x) (hs.1.state x hx), (hg.cell x hx).2.1⟩
  obtain ⟨-, -, -, -, j5⟩ := nb_inv hr.sound hok s.carry.state hcc r.order [] (by simp)
  obtain ⟨⟨dem, keep, k1, k2, k3, k4, -⟩, -⟩ := j5 x hx
  change ((d.lat par s).routed r s.carry).ledger.out x = _ at k3
  change ((d.lat par s).next r s.carry).state x = _ at k4
  change 0 ≤ ((d.lat par s).routed r s.carry).up x at k2
  set n := (d.lat par s).routed r s.carry with hn
  set v := nbSeen ((d.lat par s).nbDay r s.carry) ((d.lat par s).ledger r s.carry) n.ledger.demand x with hv
  obtain ⟨g1, g2, g3⟩ := hd.cells x hx
  refine ⟨fullRec (par x) (d.lateral x) (d.weather x) (s.full x) (n.up x)
      (cellDay { (d.lat par s).cin x with unsatNas := v } (s.carry.state x) (n.up x) dem keep), ?_,
    { d.lateral x with unsatNas := v }, d.weather x, n.up x, dem, keep, ?_, ?_, g2, g3, ?_, k2, ?_, ?_⟩
  · simp only [NbWgDay.recs]
    rw [← hn, k3]
    rfl
  · exact { g1 with lat := physical_unsatNas g1.lat v }
  · exact ⟨⟨(hd.same x).bodies.1, (hd.same x).bodies.2, (hd.same x).bodies.3, (hd.same x).bodies.4, (hd.same x).bodies.5,
      (hd.same x).bodies.6, (hd.same x).bodies.7⟩, (hd.same x).redExp, (hd.same x).corr, (hd.same x).sink, (hd.same x).minV⟩
  · exact k1
  · unfold NbSim.full
    simp only [NbWgDay.next]
    rw [← hn, k3, k4]
    rfl
  · rfl

theorem nbDay_ok (hr : r.Good lat0) (hcorr : ∀ x ∈ r.order.map Prod.fst, 0 < (lat0 x).corr)
    (hsink : ∀ x ∈ r.order.map Prod.fst, (lat0 x).sink = true → (lat0 x).corr = 1) {d : NbWgDay} {s : NbSim}
    (hs : s.Ok par lat0 r) (hd : d.Ok par lat0 r s) : (d.next par r s).Ok par lat0 r := by
  refine ⟨(nb_day hr (nbLat_good hcorr hs hd) hs.1).1, fun x hx => ?_⟩
  obtain ⟨_, -, h⟩ := nbDay_cell hr hcorr hs hd x hx
  exact (cellStep_closes h (hs.2 x hx) (hcorr x hx) (hsink x hx)).1

variable (par lat0 r)

/-- What the records of a cell leave unexplained. -/
theorem nbSeries_errors (hr : r.Good lat0) (hcorr : ∀ x ∈ r.order.map Prod.fst, 0 < (lat0 x).corr)
    (hsink : ∀ x ∈ r.order.map Prod.fst, (lat0 x).sink = true → (lat0 x).corr = 1)
    (days : List NbWgDay) (s : NbSim) (hs : s.Ok par lat0 r) (hd : NbWgDaysOk par lat0 r s days)
    (x : Cell) (hx : x ∈ r.order.map Prod.fst) :
    (∀ e ∈ dayErrors (lat0 x).corr (twsBefore (par x) (s.full x)) (nbSeries par r s days x), DayError (par x) (lat0 x) e) ∧
    (nbSeries par r s days x).length = days.length := by
  induction days generalizing s with
  | nil => exact ⟨by simp [nbSeries, nbSimRun, dayErrors], rfl⟩
  | cons d ds ih =>
    obtain ⟨i1, i2⟩ := ih _ (nbDay_ok hr hcorr hsink hs hd.1) hd.2
    obtain ⟨rec, k1, k2⟩ := nbDay_cell hr hcorr hs hd.1 x hx
    obtain ⟨-, a2, a3⟩ := cellStep_closes k2 (hs.2 x hx) (hcorr x hx) (hsink x hx)
    have hser : nbSeries par r s (d :: ds) x = rec :: nbSeries par r (d.next par r s) ds x := by
      simp only [nbSeries, nbSimRun]
      rw [List.filterMap_cons, k1]
    rw [hser]
    refine ⟨List.forall_mem_cons.mpr ⟨a2, ?_⟩, by rw [List.length_cons, i2, List.length_cons]⟩
    rw [← a3]
    exact i1

/-- The records of a closing cell close from day to day. -/
theorem nbSeries_closes (hr : r.Good lat0) (hcorr : ∀ x ∈ r.order.map Prod.fst, 0 < (lat0 x).corr)
    (hsink : ∀ x ∈ r.order.map Prod.fst, (lat0 x).sink = true → (lat0 x).corr = 1)
    (days : List NbWgDay) (s : NbSim) (hs : s.Ok par lat0 r) (hd : NbWgDaysOk par lat0 r s days)
    (x : Cell) (hx : x ∈ r.order.map Prod.fst) (hcl : Closing (par x) (lat0 x)) :
    Closes (lat0 x).corr (flushTol (par x) (lat0 x)) (twsBefore (par x) (s.full x)) (nbSeries par r s days x) ∧
    (nbSeries par r s days x).length = days.length := by
  obtain ⟨h1, h2⟩ := nbSeries_errors par lat0 r hr hcorr hsink days s hs hd x hx
  exact ⟨(closes_iff _ _ _ _).mpr fun e he => (h1 e he).abs hcl, h2⟩

/-- **C54.**  With water supply from neighbouring cells: over any number of days, in all cells, the storages of column and
water bodies stay physical, the land fraction is what the water bodies leave, and the demand carried over makes sense. -/
theorem C54_neighbours (hr : r.Good lat0) (hcorr : ∀ x ∈ r.order.map Prod.fst, 0 < (lat0 x).corr)
    (hsink : ∀ x ∈ r.order.map Prod.fst, (lat0 x).sink = true → (lat0 x).corr = 1)
    (days : List NbWgDay) (s : NbSim) (hs : s.Ok par lat0 r) (hd : NbWgDaysOk par lat0 r s days) :
    (nbSimRun par r s days).1.Ok par lat0 r := by
  induction days generalizing s with
  | nil => exact hs
  | cons d ds ih => exact ih _ (nbDay_ok hr hcorr hsink hs hd.1) hd.2

/-- **C50.**  The global water balance closes also when cells ask their neighbours for water, whoever asks whom on
which day: the long-term balance error of the tool, however the days are grouped into `n` years, is at most the volume of the
residues that may be flushed. -/
theorem C50_neighbours (hr : r.Good lat0) (hcorr : ∀ x ∈ r.order.map Prod.fst, 0 < (lat0 x).corr)
    (hsink : ∀ x ∈ r.order.map Prod.fst, (lat0 x).sink = true → (lat0 x).corr = 1)
    (days : List NbWgDay) (s : NbSim) (hs : s.Ok par lat0 r) (hd : NbWgDaysOk par lat0 r s days)
    (cells : List Cell) (hcells : ∀ x ∈ cells, x ∈ r.order.map Prod.fst ∧ Closing (par x) (lat0 x)) (n : ℕ) (recs : Cell → List (List DayRec))
    (hrec : ∀ x ∈ cells, (recs x).flatten = nbSeries par r s days x ∧ (recs x).length = n) :
    |balanceError cells (fun x => (lat0 x).corr) (fun x => twsBefore (par x) (s.full x)) n recs|
      ≤ (cells.map fun x => flushTol (par x) (lat0 x)).sum * days.length / n := by
  apply C50_tool
  · intro x hx
    refine ⟨(hrec x hx).2, ?_⟩
    rw [(hrec x hx).1]
    exact (nbSeries_closes par lat0 r hr hcorr hsink days s hs hd x (hcells x hx).1 (hcells x hx).2).2
  · intro x hx
    rw [(hrec x hx).1]
    exact (nbSeries_closes par lat0 r hr hcorr hsink days s hs hd x (hcells x hx).1 (hcells x hx).2).1

/-- **C50.**  With water supply from neighbouring cells and any areal correction factor: no water is created. -/
theorem C50_neighbours_no_gain (hr : r.Good lat0) (hcorr : ∀ x ∈ r.order.map Prod.fst, 0 < (lat0 x).corr)
    (hsink : ∀ x ∈ r.order.map Prod.fst, (lat0 x).sink = true → (lat0 x).corr = 1)
    (days : List NbWgDay) (s : NbSim) (hs : s.Ok par lat0 r) (hd : NbWgDaysOk par lat0 r s days)
    (cells : List Cell) (hcells : ∀ x ∈ cells, x ∈ r.order.map Prod.fst ∧ LandStays (par x) (lat0 x)) (n : ℕ)
    (recs : Cell → List (List DayRec))
    (hrec : ∀ x ∈ cells, (recs x).flatten = nbSeries par r s days x ∧ (recs x).length = n) :
    -((cells.map fun x => flushTol (par x) (lat0 x)).sum * days.length / n)
      ≤ balanceError cells (fun x => (lat0 x).corr) (fun x => twsBefore (par x) (s.full x)) n recs := by
  apply C50_tool_no_gain
  · intro x hx
    refine ⟨(hrec x hx).2, ?_⟩
    rw [(hrec x hx).1]
    exact (nbSeries_errors par lat0 r hr hcorr hsink days s hs hd x (hcells x hx).1).2
  · intro x hx
    rw [(hrec x hx).1]
    intro e he
    exact ((nbSeries_errors par lat0 r hr hcorr hsink days s hs hd x (hcells x hx).1).1 e he).1 (hcells x hx).2

/-- The lateral water balance of a sensible simulation has sensible days, and carries over what the simulation does. -/
theorem nbLatDays_good (hr : r.Good lat0) (hcorr : ∀ x ∈ r.order.map Prod.fst, 0 < (lat0 x).corr)
    (hsink : ∀ x ∈ r.order.map Prod.fst, (lat0 x).sink = true → (lat0 x).corr = 1)
    (days : List NbWgDay) (s : NbSim) (hs : s.Ok par lat0 r) (hd : NbWgDaysOk par lat0 r s days) :
    (∀ e ∈ nbLatDays par r s days, e.Good lat0 r) ∧
    (nbHistory r s.carry (nbLatDays par r s days)).1 = (nbSimRun par r s days).1.carry ∧
    (nbLatDays par r s days).map (·.pot) = days.map (·.pot) := by
  induction days generalizing s with
  | nil => exact ⟨by simp [nbLatDays], rfl, rfl⟩
  | cons d ds ih =>
    obtain ⟨i1, i2, i3⟩ := ih _ (nbDay_ok hr hcorr hsink hs hd.1) hd.2
    refine ⟨?_, ?_, ?_⟩
    · intro e he
      simp only [nbLatDays, List.mem_cons] at he
      rcases he with rfl | he
      · exact nbLat_good hcorr hs hd.1
      · exact i1 e he
    · simp only [nbLatDays, nbHistory, nbSimRun]
      exact i2
    · simp only [nbLatDays, List.map_cons]
      rw [i3]
      rfl

/-- **C58 (whole simulation).**  In a simulation with vertical water balance, changing land area and lateral water balance, in
which cells ask their neighbours: the demand of all days plus what was open at the start is what the cells took, what was given
up, and what is open at the end. -/
theorem C58_simulation (hr : r.Good lat0) (hcorr : ∀ x ∈ r.order.map Prod.fst, 0 < (lat0 x).corr)
    (hsink : ∀ x ∈ r.order.map Prod.fst, (lat0 x).sink = true → (lat0 x).corr = 1)
    (days : List NbWgDay) (s : NbSim) (hs : s.Ok par lat0 r) (hd : NbWgDaysOk par lat0 r s days) :
    let h := nbHistory r s.carry (nbLatDays par r s days)
    s.carry.open lat0 r + (days.map fun d => ((r.order.map Prod.fst).map d.pot).sum).sum
      = h.2.1 + h.2.2 + (nbSimRun par r s days).1.carry.open lat0 r := by
  obtain ⟨h1, h2, h3⟩ := nbLatDays_good par lat0 r hr hcorr hsink days s hs hd
  have hh := (C58_history lat0 r hr _ h1 s.carry hs.1).2
  have e : (nbLatDays par r s days).map (fun d => ((r.order.map Prod.fst).map d.pot).sum)
      = days.map fun d => ((r.order.map Prod.fst).map d.pot).sum := by
    have := congrArg (List.map fun p : Cell → ℝ => ((r.order.map Prod.fst).map p).sum) h3
    rw [List.map_map, List.map_map] at this
    exact this
  rw [e, h2] at hh
  exact hh

/-- **C59 (whole simulation).**  Within a year, whatever a cell passes on to neighbours and gets back: what its groundwater
balance has been told in the simulation, with what it will be told tomorrow, adds up to the change of the cell's
unsatisfied demand as known, with what it was still to be told at the start. -/
theorem C59_simulation (hr : r.Good lat0) (hdl : r.delayed = true)
    (hcorr : ∀ x ∈ r.order.map Prod.fst, 0 < (lat0 x).corr)
    (hsink : ∀ x ∈ r.order.map Prod.fst, (lat0 x).sink = true → (lat0 x).corr = 1)
    (days : List NbWgDay) (s : NbSim) (hs : s.Ok par lat0 r) (hd : NbWgDaysOk par lat0 r s days)
    (hyear : ∀ d ∈ days, ¬ (d.month = 12 ∧ d.day = 31)) (x : Cell) (hx : x ∈ r.order.map Prod.fst) :
    (toldRun r x s.carry (nbLatDays par r s days)).2 + ((nbSimRun par r s days).1.carry.unsat x).daily
      = (s.carry.unsat x).daily + (((nbSimRun par r s days).1.carry.unsat x).prev - (s.carry.unsat x).prev) := by
  obtain ⟨h1, h2, -⟩ := nbLatDays_good par lat0 r hr hcorr hsink days s hs hd
  have hdates : ∀ (days : List NbWgDay) (s : NbSim), (∀ d ∈ days, ¬ (d.month = 12 ∧ d.day = 31)) →
      ∀ e ∈ nbLatDays par r s days, ¬ (e.month = 12 ∧ e.day = 31) := by
    intro days
    induction days with
    | nil => intro s _ e he; simp [nbLatDays] at he
    | cons d ds ih =>
      intro s hy e he
      simp only [nbLatDays, List.mem_cons] at he
      rcases he with rfl | he
      · exact hy d (by simp)
      · exact ih _ (fun y hy' => hy y (by simp [hy'])) e he
  have hrun : ∀ (l : List NbDayIn) (c : NbCarry), (toldRun r x c l).1 = (nbHistory r c l).1 := by
    intro l
    induction l with
    | nil => intro c; rfl
    | cons d ds ih => intro c; exact ih _
  have hh := C59_told_once lat0 r hr hdl x hx (nbLatDays par r s days)
    (fun e he => ⟨h1 e he, hdates days s hyear e he⟩) s.carry hs.1
  simp only [hrun, h2] at hh
  exact hh

end

/-! ### The hypotheses are met -/

/-- The two cells of `waitCarry`, one of which waits for the answer of the other, with columns. -/
noncomputable def waitSim : NbSim :=
  { carry := waitCarry, vert := fun _ => sampleVertState, land := fun _ => ⟨0.9, 0.9, 1, 0, 0, 0, false⟩ }

/-- A day on which shore cells need water. -/
noncomputable def waitDay : NbWgDay :=
  { weather := fun _ => exWeather, lateral := dryBase, pot := fun x => if x = (1, 2) then 1 else 0,
    unagg := fun x => if x = (1, 1) then 1 else 0, month := 3, day := 1 }

theorem dryBase_cases (x : Cell) : ∃ a, dryBase x = { dryRes with resArea := a } := by
  unfold dryBase
  split_ifs
  · exact ⟨_, rfl⟩
  · exact ⟨_, rfl⟩

theorem dryBase_good (x : Cell) : GoodCell exFull (dryBase x) := by
  have hp := dryBase_physical x
  obtain ⟨a, ha⟩ := dryBase_cases x
  rw [ha] at hp ⊢
  exact {
    vert := sampleVert_ok
    soil := by norm_num [exFull, sampleVert]
    area := by norm_num [exFull]
    lat := hp
    locLake := by norm_num [dryRes]
    locWet := by norm_num [dryRes, exCell]
    gloWet := by norm_num [dryRes]
    fit := by norm_num [dryRes, exCell, exFull] }

theorem waitSim_ok : waitSim.Ok (fun _ => exFull) dryBase askRun := by
  refine ⟨waitCarry_good, fun x hx => ?_⟩
  have hok := waitCarry_good.state x hx
  refine ⟨sampleVertState_ok, hok, ?_, ?_, ?_, ?_, ?_, ?_⟩
  · obtain ⟨a, ha⟩ := dryBase_cases x
    rw [ha]
    norm_num [waitSim, NbSim.full, openFrac, dryRes, exCell]
  · norm_num [waitSim, NbSim.full, exFull]
  · norm_num [waitSim, NbSim.full]
  · norm_num [waitSim, NbSim.full, exFull]
  · norm_num [waitSim, NbSim.full]
  · intro _; left; norm_num [waitSim, NbSim.full]

theorem waitDay_ok : waitDay.Ok (fun _ => exFull) dryBase askRun waitSim where
  same := fun _ => ⟨⟨rfl, rfl, rfl, rfl, rfl, rfl, rfl⟩, rfl, rfl, rfl, rfl⟩
  cells := by
    intro x _
    refine ⟨dryBase_good x, ⟨sampleVertForcing_ok.temp, by norm_num [waitDay, exWeather], sampleVertForcing_ok.petMax⟩, ?_⟩
    intro hf
    exfalso
    change 0 < (dryBase x).gloWet.frac at hf
    obtain ⟨a, ha⟩ := dryBase_cases x
    rw [ha] at hf
    norm_num [dryRes] at hf
  use := (dryDay_good false).use
  sign := (dryDay_good false).sign
  cons := (dryDay_good false).cons

theorem dryBase_corr (x : Cell) : (dryBase x).corr = 1 := by
  obtain ⟨a, ha⟩ := dryBase_cases x
  rw [ha]; rfl

example (recs : Cell → List (List DayRec))
    (hrec : ∀ x, recs x = [nbSeries (fun _ => exFull) askRun waitSim [waitDay] x]) :=
  C50_neighbours (fun _ => exFull) dryBase askRun askRun_good (fun x _ => by rw [dryBase_corr]; norm_num)
    (fun x _ _ => dryBase_corr x) [waitDay] waitSim waitSim_ok ⟨waitDay_ok, trivial⟩ [(1, 1), (1, 2)]
    (fun x hx => ⟨by revert x; decide, exFull_closing _⟩) 1 recs
    (fun x _ => ⟨by rw [hrec x]; simp, by rw [hrec x]; rfl⟩)

example (recs : Cell → List (List DayRec))
    (hrec : ∀ x, recs x = [nbSeries (fun _ => exFull) askRun waitSim [waitDay] x]) :=
  C50_neighbours_no_gain (fun _ => exFull) dryBase askRun askRun_good (fun x _ => by rw [dryBase_corr]; norm_num)
    (fun x _ _ => dryBase_corr x) [waitDay] waitSim waitSim_ok ⟨waitDay_ok, trivial⟩ [(1, 1), (1, 2)]
    (fun x hx => ⟨by revert x; decide, (exFull_closing _).stays⟩) 1 recs
    (fun x _ => ⟨by rw [hrec x]; simp, by rw [hrec x]; rfl⟩)

example := C54_neighbours (fun _ => exFull) dryBase askRun askRun_good (fun x _ => by rw [dryBase_corr]; norm_num)
    (fun x _ _ => dryBase_corr x) [waitDay] waitSim waitSim_ok ⟨waitDay_ok, trivial⟩

example := C58_simulation (fun _ => exFull) dryBase askRun askRun_good (fun x _ => by rw [dryBase_corr]; norm_num)
    (fun x _ _ => dryBase_corr x) [waitDay] waitSim waitSim_ok ⟨waitDay_ok, trivial⟩

example := C59_simulation (fun _ => exFull) dryBase askRun askRun_good rfl (fun x _ => by rw [dryBase_corr]; norm_num)
    (fun x _ _ => dryBase_corr x) [waitDay] waitSim waitSim_ok ⟨waitDay_ok, trivial⟩ (by simp [waitDay]) (1, 2)
    (by simp [askRun, dryOrder])

end WG
