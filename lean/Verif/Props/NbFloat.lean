import Verif.Model.NbFloat
import Verif.Props.FloatDemand
import Verif.Props.FloatYears
import Verif.Props.NbWhole
import Verif.Props.Years

/-!
# C65: the whole simulation with water supply from neighbouring cells stays in range in rounded arithmetic
-/

namespace WG

open Arith

variable {A : Arith} {u η : ℝ} (hA : A.Ok) (hn : A.Near u η) (rule : HanIn → ℝ → ℝ × ℝ) (kRiver : CellIn → ℝ → ℝ)
  (par : Cell → FullPar) (r : NbRun)

/-! ## Without rounding -/

theorem nbNodeR_exact (cin : Cell → CellIn) (q : NbDay) :
    nbNodeR exact hanasaki (fun c s => outflowConstant s c.len c.width c.rough c.mult c.slope) cin q = nbNode cin q := by
  have hown : ∀ l x, nbOwnR exact cin q l x = nbOwn cin q l x := by
    intro l x
    unfold nbOwnR nbOwn
    cases l.takenUp x <;> split_ifs <;> simp [Arith.add, exact]
  have hdem : ∀ l x, nbDemandR exact cin q l x = nbDemand cin q l x := by
    intro l x
    unfold nbDemandR nbDemand
    rw [hown]; rfl
  have hin : ∀ l x, nbInR exact cin q l x = nbIn cin q l x := fun _ _ => rfl
  have hupd : ∀ l x o st, nbUpdR exact cin q l x o st = nbUpd cin q l x o st := by
    intro l x o st
    have h1 : nbAllocR exact cin q l x o = nbAlloc cin q l x o := by
      unfold nbAllocR nbAlloc; rw [hown]
    unfold nbUpdR nbUpd
    rw [h1]
    rfl
  have hturn : ∀ l x st up, nbTurnR exact hanasaki (fun c s => outflowConstant s c.len c.width c.rough c.mult c.slope) cin q l x
      st up = nbTurn cin q l x st up := by
    intro l x st up
    unfold nbTurnR nbTurn
    rw [C67_cell_exact, hdem, hin]; rfl
  funext b x up
  unfold nbNodeR nbNode
  simp only [hturn, hupd, hin, hdem, cellResInR_exact, cellRiverInR_exact]

/-- C65: without rounding, the rounded day with water supply from neighbouring cells is the day the other properties are
about. -/
theorem C65_exact_neighbours (d : NbWgDay) (s : NbSim) :
    d.nextR exact hanasaki (fun c s => outflowConstant s c.len c.width c.rough c.mult c.slope) par r s = d.next par r s := by
  have hlat : d.latR exact par s = d.lat par s := by
    unfold NbWgDay.latR NbWgDay.lat
    congr 1
    funext x
    simp only [fullInR, fullIn, fullVertR, fullVert, C65_exact_vertical]
    rfl
  have hnet : (d.lat par s).routedR exact hanasaki (fun c s => outflowConstant s c.len c.width c.rough c.mult c.slope) r s.carry
      = (d.lat par s).routed r s.carry := by
    unfold NbDayIn.routedR NbDayIn.routed nbDayRunR nbDayRun
    rw [nbNodeR_exact]
    rfl
  have hcar : (d.lat par s).nextR exact hanasaki (fun c s => outflowConstant s c.len c.width c.rough c.mult c.slope) r s.carry
      = (d.lat par s).next r s.carry := by
    unfold NbDayIn.nextR NbDayIn.next
    rw [hnet]
    rfl
  unfold NbWgDay.nextR NbWgDay.next NbWgDay.netR
  simp only [hlat, hnet, hcar]
  congr 1
  · funext x
    cases ((d.lat par s).routed r s.carry).ledger.out x with
    | none => rfl
    | some o =>
      simp only [fullNextR, fullNext, fullVertR, fullVert, C65_exact_vertical]

/-- C65: without rounding, the rounded simulation over any number of days leaves the state the simulation of the other
properties leaves. -/
theorem C65_exact_neighbour_run (days : List NbWgDay) (s : NbSim) :
    (((nbRunR exact hanasaki (fun c s => outflowConstant s c.len c.width c.rough c.mult c.slope) par r s
      days).getLast?).map fun t => t.2.2.2).getD s = (nbSimRun par r s days).1 := by
  induction days generalizing s with
  | nil => rfl
  | cons d ds ih =>
    simp only [nbRunR, nbSimRun]
    rw [← ih, ← C65_exact_neighbours]
    cases ds with
    | nil => rfl
    | cons e es => simp only [nbRunR, List.getLast?_cons, Option.map_some, Option.getD_some]

/-! ## With rounding -/

include hA in
/-- The turn of a cell that may be asked by its neighbours, and may ask one. -/
theorem nbTurnR_fine (cin : Cell → CellIn) (q : NbDay) (l : NbLedger) (x : Cell) (hc : CellFine A (cin x)) (st : CellState)
    (up : ℝ) (hup : 0 ≤ up) (hres : 0 ≤ st.res) : DayInRange (cin x) (nbTurnR A rule kRiver cin q l x st up) := by
  have h := C65_cell_day hA rule kRiver (nbInR A cin q l x)
    ⟨hc.runoff, hc.precip, hc.corr, hc.swbK, hc.factor, hc.fractions, hc.capacities, hc.machine⟩ st up
    (nbDemandR A cin q l x) (nbKeepR A q l x) hup (add_F hA _ _) (fun _ hv => redistributeR_machine hA _ hv _) hres
  exact ⟨⟨h.bodies.locLake, h.bodies.locWet, h.bodies.gloLake, h.bodies.gloWet, h.bodies.res⟩, h.streamflow, h.unsat,
    h.locLakeFrac, h.locWetFrac, h.gloWetFrac⟩

include hA in
/-- C65: what a cell with no negative unsatisfied demand keeps of it after it has given the rest back, and what it passes on to
the neighbour it asks, is not negative. -/
theorem C65_neighbour_demand (cin : Cell → CellIn) (q : NbDay) (l : NbLedger) (x : Cell) (hc : CellFine A (cin x)) (st : CellState)
    (up : ℝ) (hup : 0 ≤ up) (hres : 0 ≤ st.res) (state : Cell → CellState) :
    let l' := nbUpdR A cin q l x (nbTurnR A rule kRiver cin q l x st up) state
    0 ≤ l'.acc x ∧ 0 ≤ l'.sent x := by
  intro l'
  have hu := (nbTurnR_fine hA rule kRiver cin q l x hc st up hup hres).unsat
  have ha : ∀ ret, 0 ≤ (allocateR A (nbAllocR A cin q l x (nbTurnR A rule kRiver cin q l x st up)) ret).1 := by
    intro ret
    change 0 ≤ (allocSplitR A (nbAllocR A cin q l x (nbTurnR A rule kRiver cin q l x st up))).1
    generalize hi : nbAllocR A cin q l x (nbTurnR A rule kRiver cin q l x st up) = i
    have hacc : 0 ≤ i.acc := by rw [← hi]; exact hu
    unfold allocSplitR
    by_cases h1 : i.toSupply > 0
    · rw [if_pos h1]
      by_cases h2 : i.acc > 0
      · rw [if_pos h2]
        by_cases h3 : i.totalNoAlloc > 0
        · rw [if_pos h3]
          dsimp only
          split_ifs with h4
          · exact le_rfl
          · exact not_lt.mp h4
        · rw [if_neg h3]
      · rw [if_neg h2]
    · rw [if_neg h1]; exact hacc
  simp only [l', nbUpdR, Function.update_self]
  constructor
  · split_ifs <;> first | exact le_rfl | exact ha _
  · split_ifs <;> first | exact le_rfl | exact ha _

include hA in
/-- C65: a day of a basin whose cells ask their neighbours for water, in rounded arithmetic, whatever the ledger says in the
morning. -/
theorem C65_neighbour_day (cin : Cell → CellIn) (q : NbDay) (order : List (Cell × Cell)) (hn : (order.map Prod.fst).Nodup)
    (l : NbLedger) (state : Cell → CellState) (hc : ∀ x ∈ order.map Prod.fst, CellFine A (cin x))
    (hres : ∀ x ∈ order.map Prod.fst, 0 ≤ (state x).res) :
    ∀ x ∈ order.map Prod.fst, ∃ o, (nbDayRunR A rule kRiver cin q order l state).ledger.out x = some o ∧
      (nbDayRunR A rule kRiver cin q order l state).ledger.state x = o.state ∧ DayInRange (cin x) o := by
  have key : ∀ p q' : List (Cell × Cell), order = p ++ q' →
      (∀ y, y ∉ p.map Prod.fst → 0 ≤ (nbDayRunR A rule kRiver cin q p l state).inflow y ∧
        (nbDayRunR A rule kRiver cin q p l state).ledger.state y = state y) ∧
      ∀ x ∈ p.map Prod.fst, ∃ o, (nbDayRunR A rule kRiver cin q p l state).ledger.out x = some o ∧
        (nbDayRunR A rule kRiver cin q p l state).ledger.state x = o.state ∧ DayInRange (cin x) o := by
    intro p
    induction p using List.reverseRecOn with
    | nil => intro q' _; simp [nbDayRunR, routeR, routeStart]
    | append_singleton p e ih =>
      intro q' ho
      obtain ⟨i1, i2⟩ := ih (e :: q') (by rw [ho]; simp)
      have hmem : e.1 ∈ order.map Prod.fst := by rw [ho]; simp
      have hnew : e.1 ∉ p.map Prod.fst := by
        intro h
        have h1 := hn
        rw [ho, List.map_append, List.map_append, List.nodup_append] at h1
        exact (List.nodup_append.mp h1.1).2.2 _ h _ (by simp) rfl
      have hstep : nbDayRunR A rule kRiver cin q (p ++ [e]) l state
          = routeStepR A (nbNodeR A rule kRiver cin q) (nbDayRunR A rule kRiver cin q p l state) e := by
        simp [nbDayRunR, routeR]
      rw [hstep]
      generalize nbDayRunR A rule kRiver cin q p l state = s at *
      have hup := (i1 e.1 hnew).1
      have hst := (i1 e.1 hnew).2
      have hday := nbTurnR_fine hA rule kRiver cin q s.ledger.demand e.1 (hc e.1 hmem) (s.ledger.state e.1) (s.inflow e.1) hup
        (by rw [hst]; exact hres e.1 hmem)
      refine ⟨fun y hy => ?_, fun x hx => ?_⟩
      · have hy' : y ∉ p.map Prod.fst := fun h => hy (by simp at h ⊢; exact Or.inl h)
        have hne : y ≠ e.1 := fun h => hy (by simp [h])
        refine ⟨?_, ?_⟩
        · simp only [routeStepR]
          split_ifs
          · by_cases he : y = e.2
            · subst he
              rw [Function.update_self, Function.update_of_ne hne]
              exact add_nonneg hA (i1 _ hy').1 hday.streamflow
            · rw [Function.update_of_ne he, Function.update_of_ne hne]; exact (i1 y hy').1
          · rw [Function.update_of_ne hne]; exact (i1 y hy').1
        · simp only [routeStepR, nbNodeR]
          rw [Function.update_of_ne hne]; exact (i1 y hy').2
      · by_cases he : x = e.1
        · subst he
          refine ⟨_, ?_, ?_, hday⟩ <;> simp only [routeStepR, nbNodeR, Function.update_self]
        · have hx' : x ∈ p.map Prod.fst := by
            rw [List.map_append, List.mem_append] at hx
            rcases hx with h | h
            · exact h
            · simp at h; exact absurd h he
          obtain ⟨o, h1, h2, h3⟩ := i2 x hx'
          refine ⟨o, ?_, ?_, h3⟩ <;> simp only [routeStepR, nbNodeR] <;> rw [Function.update_of_ne he]
          · exact h1
          · exact h2
  exact (key order [] (by simp)).2

/-- What is read for a day is sensible: precipitation is not negative and a machine number, less than 673 K, and water
bodies as in `CellFine`.  Nothing is asked of the demand, nor of the neighbours. -/
structure NbDayFine (A : Arith) (order : List (Cell × Cell)) (d : NbWgDay) : Prop where
  precip : ∀ x ∈ order.map Prod.fst, 0 ≤ (d.weather x).precip ∧ A.F (d.weather x).precip
  temperature : ∀ x ∈ order.map Prod.fst, (d.weather x).temperature ≤ 673
  bodies : ∀ x ∈ order.map Prod.fst, CellFine A (d.lateral x)

include hA hn in
/-- C65: the whole simulation with water supply from neighbouring cells in rounded arithmetic, over any number of days:
whatever the demands, whichever neighbours are asked and whatever they give back, on every day the column of every cell and
its water bodies are in range, streamflow is not negative, and the land fraction of the next day is not negative. -/
theorem C65_whole_run_with_neighbours (hu : u ≤ 1 / 100) (hη : η ≤ 1 / 100000) (hnd : (r.order.map Prod.fst).Nodup)
    (hp : ∀ x ∈ r.order.map Prod.fst, ParFine A (par x)) (days : List NbWgDay) (hd : ∀ d ∈ days, NbDayFine A r.order d) :
    ∀ s : NbSim, (∀ x ∈ r.order.map Prod.fst, StateFine (par x) (s.full x)) →
    ∀ t ∈ nbRunR A rule kRiver par r s days, ∀ x ∈ r.order.map Prod.fst,
      ColumnInRange (par x).vert.maxSoil (fullVertR A (par x) (t.2.1.weather x) (t.1.full x)) ∧
      (∃ o, t.2.2.1.ledger.out x = some o ∧ DayInRange (t.2.1.lateral x) o ∧ (t.2.2.2.full x).lat = o.state) ∧
      StateFine (par x) (t.2.2.2.full x) := by
  induction days with
  | nil => intro _ _ t h; simp [nbRunR] at h
  | cons d ds ih =>
    intro s hs t ht
    have hday := hd d List.mem_cons_self
    have hcol : ∀ x ∈ r.order.map Prod.fst, ColumnInRange (par x).vert.maxSoil (fullVertR A (par x) (d.weather x) (s.full x)) :=
      fun x hx => column_day hA hn (par x) (hp x hx) hu hη (d.weather x) (s.full x) (hs x hx) (hday.precip x hx)
        (hday.temperature x hx)
    have hbasin := C65_neighbour_day hA rule kRiver
      (fun x => fullInR A (par x) (d.lateral x) (d.weather x) (s.full x)) ((d.latR A par s).nbDay r s.carry) r.order hnd
      ((d.latR A par s).ledgerR A r s.carry) s.carry.state
      (fun x hx => fullInR_fine hA (par x) (hp x hx) _ (hday.bodies x hx) _ _ (hs x hx) (hday.precip x hx).1 (hcol x hx))
      (fun x hx => (hs x hx).res)
    have hnext : ∀ x ∈ r.order.map Prod.fst, ∃ o, (d.netR A rule kRiver par r s).ledger.out x = some o ∧
        DayInRange (d.lateral x) o ∧ ((d.nextR A rule kRiver par r s).full x).lat = o.state ∧
        StateFine (par x) ((d.nextR A rule kRiver par r s).full x) := by
      intro x hx
      obtain ⟨o, h1, h2, h3⟩ := hbasin x hx
      have h1' : (d.netR A rule kRiver par r s).ledger.out x = some o := h1
      have h2' : (d.netR A rule kRiver par r s).ledger.state x = o.state := h2
      have e : (d.nextR A rule kRiver par r s).full x = fullNextR A (par x) (d.weather x) (s.full x) o := by
        simp only [NbSim.full, NbWgDay.nextR, h1']
        have : ((d.latR A par s).nextR A rule kRiver r s.carry).state x = o.state := h2'
        rw [this]; rfl
      have hl := landUpdateR_fine hA o.locLakeFrac o.locWetFrac o.gloWetFrac (s.full x).land (hs x hx).cur
      rw [e]
      exact ⟨o, h1', ⟨⟨h3.bodies.locLake, h3.bodies.locWet, h3.bodies.gloLake, h3.bodies.gloWet, h3.bodies.res⟩,
        h3.streamflow, h3.unsat, h3.locLakeFrac, h3.locWetFrac, h3.gloWetFrac⟩, rfl,
        ⟨(hcol x hx).store, hl.1, hl.2.1, hl.2.2, h3.bodies.res.1, (hcol x hx).snow.1⟩⟩
    simp only [nbRunR, List.mem_cons] at ht
    rcases ht with rfl | ht
    · intro x hx
      obtain ⟨o, h1, h2, h3, h4⟩ := hnext x hx
      exact ⟨hcol x hx, ⟨o, h1, h2, h3⟩, h4⟩
    · exact ih (fun e he => hd e (List.mem_cons_of_mem _ he)) _ (fun x hx => (hnext x hx).choose_spec.2.2.2) t ht

/-! ## Years in which reservoirs start to operate -/

section years
variable (tot : List ℝ → ℝ) (G : Grid)

/-- C65: without rounding, the years (each with at least a day) lead to the state of the model without rounding, in which
the start of a year is `yearStart` in every cell. -/
theorem C65_exact_neighbour_years (years : List NbYear) : ∀ (g : Cell → ℝ) (days : List NbWgDay) (s : NbSim),
    (∀ y ∈ years, y.days ≠ []) →
    ((nbSpanR exact hanasaki (fun c s => outflowConstant s c.len c.width c.rough c.mult c.slope) r List.sum G g days s
        years).getLast?.map fun t => t.2.2.2.2).getD s = (nbSpan G r g days s years).1 := by
  induction years with
  | nil =>
    intro g days s _
    simp only [nbSpanR, nbSpan, List.getLast?_map, Option.map_map]
    exact C65_exact_neighbour_run (G.par g) r days s
  | cons y ys ih =>
    intro g days s hy
    have hl := C65_exact_neighbour_run (G.par g) r days s
    have h := ih y.glores y.days (nbYearStart G y (nbSimRun (G.par g) r s days).1) fun z hz => hy z (List.mem_cons_of_mem _ hz)
    have e : nbSpanR exact hanasaki (fun c s => outflowConstant s c.len c.width c.rough c.mult c.slope) r List.sum G g days s
        (y :: ys) = ((nbRunR exact hanasaki (fun c s => outflowConstant s c.len c.width c.rough c.mult c.slope) (G.par g) r s
          days).map fun t => (g, t)) ++ nbSpanR exact hanasaki
          (fun c s => outflowConstant s c.len c.width c.rough c.mult c.slope) r List.sum G y.glores y.days
          (nbYearStart G y (nbSimRun (G.par g) r s days).1) ys := by
      rw [← hl]; rfl
    rw [e]
    simp only [nbSpan]
    rw [← h]
    have hne : (nbSpanR exact hanasaki (fun c s => outflowConstant s c.len c.width c.rough c.mult c.slope) r List.sum G
        y.glores y.days (nbYearStart G y (nbSimRun (G.par g) r s days).1) ys) ≠ [] := by
      have hd := hy y List.mem_cons_self
      obtain ⟨d, ds, hdd⟩ := List.exists_cons_of_ne_nil hd
      cases ys with
      | nil => simp [nbSpanR, hdd, nbRunR]
      | cons z zs => simp [nbSpanR, hdd, nbRunR]
    obtain ⟨t, ht⟩ := Option.isSome_iff_exists.mp (List.getLast?_isSome.mpr hne)
    rw [List.getLast?_append, ht]
    rfl

/-- The start of a year with neighbours changes every cell as the start of a year without. -/
theorem nbYearStart_full (y : NbYear) (s : NbSim) (x : Cell) :
    (nbYearStart G y s).full x = (yearStart (δ := Unit) G ⟨y.glores, y.resArea, []⟩ ⟨(), s.full⟩).state x := rfl

include hA hn in
/-- C65: the whole simulation with water supply from neighbouring cells in rounded arithmetic, over any number of days and of
years in each of which reservoirs may start to operate, grow, or replace land: on every day the column of every cell and its
water bodies are in range, streamflow is not negative, and neither is the land fraction of the next day. -/
theorem C65_neighbour_years (hu : u ≤ 1 / 100) (hη : η ≤ 1 / 100000) (hT : ∀ l : List ℝ, (∀ x ∈ l, 0 ≤ x) → 0 ≤ tot l)
    (hnd : (r.order.map Prod.fst).Nodup) (hcells : ∀ x ∈ G.cells, x ∈ r.order.map Prod.fst)
    (hp : ∀ x ∈ r.order.map Prod.fst, LandParOk A (G.vert x) ∧ 0 ≤ (G.vert x).alpha ∧ 0 ≤ G.area x) (years : List NbYear) :
    ∀ (g : Cell → ℝ) (days : List NbWgDay) (s : NbSim), (∀ d ∈ days, NbDayFine A r.order d) →
    (∀ y ∈ years, ∀ d ∈ y.days, NbDayFine A r.order d) →
    (∀ x ∈ r.order.map Prod.fst, StateFine (G.parR A g x) (s.full x)) →
    ∀ t ∈ nbSpanR A rule kRiver r tot G g days s years, ∀ x ∈ r.order.map Prod.fst,
      ColumnInRange (G.vert x).maxSoil (fullVertR A (G.parR A t.1 x) (t.2.2.1.weather x) (t.2.1.full x)) ∧
      (∃ o, t.2.2.2.1.ledger.out x = some o ∧ DayInRange (t.2.2.1.lateral x) o ∧ (t.2.2.2.2.full x).lat = o.state) ∧
      StateFine (G.parR A t.1 x) (t.2.2.2.2.full x) := by
  have run : ∀ (g : Cell → ℝ) (days : List NbWgDay) (s : NbSim), (∀ d ∈ days, NbDayFine A r.order d) →
      (∀ x ∈ r.order.map Prod.fst, StateFine (G.parR A g x) (s.full x)) → _ := fun g days s hd hs =>
    C65_whole_run_with_neighbours hA hn rule kRiver (G.parR A g) r hu hη hnd
      (fun x hx => ⟨(hp x hx).1, (hp x hx).2.1, (hp x hx).2.2⟩) days hd s hs
  induction years with
  | nil =>
    intro g days s hd _ hs t ht x hx
    simp only [nbSpanR, List.mem_map] at ht
    obtain ⟨t, ht, rfl⟩ := ht
    exact run g days s hd hs t ht x hx
  | cons y ys ih =>
    intro g days s hd hy hs t ht x hx
    simp only [nbSpanR, List.mem_append, List.mem_map] at ht
    rcases ht with ⟨t, ht, rfl⟩ | ht
    · exact run g days s hd hs t ht x hx
    · have hlast : ∀ x ∈ r.order.map Prod.fst, StateFine (G.parR A g x)
          ((((nbRunR A rule kRiver (G.parR A g) r s days).getLast?.map fun t => t.2.2.2).getD s).full x) := by
        intro x hx
        cases e : (nbRunR A rule kRiver (G.parR A g) r s days).getLast? with
        | none => simpa using hs x hx
        | some t => simpa using (run g days s hd hs t (List.mem_of_getLast? e) x hx).2.2
      generalize ((nbRunR A rule kRiver (G.parR A g) r s days).getLast?.map fun t => t.2.2.2).getD s = s1 at *
      refine ih y.glores y.days _ (hy y List.mem_cons_self) (fun z hz => hy z (List.mem_cons_of_mem _ hz)) (fun x hx => ?_) t ht x hx
      exact yearStartR_fine (δ := Unit) hA tot G hT ⟨y.glores, y.resArea, []⟩ ⟨(), s1.full⟩ g y.glores
        (fun x => x ∈ r.order.map Prod.fst) hcells (fun x hx => (hp x hx).2.2) hlast x hx

end years

/-! ## Non-vacuity -/

/-- A day at 272 K with 5 mm of precipitation in the basin of `rangeIn`; 2 km³ are asked of the lower cell, which has no
water bodies. -/
noncomputable def rangeNbDay : NbWgDay :=
  { weather := fun _ => ⟨272, 100, 300, 5⟩
    lateral := fun x => { rangeIn x with useOpt := true }
    pot := fun x => if x = (1, 2) then 2 else 0
    unagg := fun x => if x = (1, 2) then 2 else 0
    month := 12, day := 30 }

/-- The lower cell may ask the upper one, and is asked by it; delayed use. -/
def rangeNbRun : NbRun :=
  { delayed := true, resOpt := true, unit := fun _ => 0, nbs := fun x => if x = (1, 2) then [((1, 1), (0, 0))] else [((1, 2), (0, 0))],
    order := [((1, 1), (1, 2)), ((1, 2), (0, 0))] }

/-- Two such days in binary64 arithmetic, the lower cell waiting for 0.2 km³ it asked of the upper one the day before,
whatever the radiation and leaf parameters and the release rule. -/
example (rad : RadPar) (lai : LaiPar) (rule : HanIn → ℝ → ℝ × ℝ) :
    let run := nbRunR binary64 rule (fun _ _ => 0.9) (fun _ => ⟨demoPar rad lai, 3000, 0.9⟩) rangeNbRun
      { carry :=
          { unsat := fun _ => ⟨0.1, 0.1, 0⟩, rip := fun _ => 0, sent := fun x => if x = (1, 2) then 0.2 else 0
            toSupply := fun x => if x = (1, 1) then 0.2 else 0, nbMap := fun x => if x = (1, 2) then (1, 1) else (0, 0)
            state := pairState }
        vert := fun _ => ⟨⟨0, 0, 0, false⟩, 1, 3, [2, 3, 4], 80⟩
        land := fun _ => ⟨0.5, 0.5, 1, 0.3, 0, 0, false⟩ }
      [rangeNbDay, rangeNbDay]
    run.length = 2 ∧ ∀ t ∈ run, ∀ x ∈ [((1, 1) : Cell), (1, 2)],
      0 ≤ (t.2.2.2.full x).vert.soil ∧ (t.2.2.2.full x).vert.soil ≤ 150 ∧ 0 ≤ (t.2.2.2.full x).lat.res := by
  intro run
  refine ⟨rfl, fun t ht x hx => ?_⟩
  have hF : ∀ n : ℕ, n ≤ 2 ^ 53 → binary64.F n := fun n h => nat64 n h
  have f5 : binary64.F 5 := by exact_mod_cast hF 5 (by norm_num)
  have f7 : binary64.F 7 := by exact_mod_cast hF 7 (by norm_num)
  have f150 : binary64.F 150 := by exact_mod_cast hF 150 (by norm_num)
  have key := C65_whole_run_with_neighbours binary64_ok binary64_near rule (fun _ _ => 0.9)
    (fun _ => ⟨demoPar rad lai, 3000, 0.9⟩) rangeNbRun (by norm_num) tiny_eta pair_sound.1
    (fun x _ => ⟨by constructor <;> norm_num [demoPar, f7, f150], by norm_num [demoPar], by norm_num⟩)
    [rangeNbDay, rangeNbDay]
    (by
      intro d hd
      simp only [List.mem_cons, List.not_mem_nil, or_false, or_self] at hd
      subst hd
      refine ⟨fun _ _ => ⟨by norm_num [rangeNbDay], f5⟩, fun _ _ => by norm_num [rangeNbDay], fun x _ => ?_⟩
      have k := rangeIn_fine x
      exact ⟨k.runoff, k.precip, k.corr, k.swbK, k.factor, k.fractions, k.capacities, k.machine⟩)
    _
    (by
      intro x _
      refine ⟨⟨?_, ?_, ?_⟩, ?_, ?_, ?_, ?_, ?_⟩ <;> (try norm_num [NbSim.full, VertState.land, demoPar])
      unfold pairState
      split_ifs <;> norm_num [exState, landState]) t ht x
    (by simpa [rangeNbRun] using hx)
  have h1 := key.2.2.column.soil
  exact ⟨by simpa [NbSim.full, VertState.land, demoPar] using h1.1, by simpa [NbSim.full, VertState.land, demoPar] using h1.2,
    key.2.2.res⟩

/-- The day of the cells that wait for each other's answers (`C64`), without rounding. -/
example := C65_exact_neighbours (fun _ => exFull) askRun waitDay waitSim

/-- Two such days. -/
example := C65_exact_neighbour_run (fun _ => exFull) askRun [waitDay, waitDay] waitSim

/-- The turn of the lower cell of that basin, whatever it is asked for and whichever neighbours it has. -/
example (rule : HanIn → ℝ → ℝ × ℝ) (l : NbLedger) (q : NbDay) :
    let l' := nbUpdR binary64 rangeIn q l (1, 2) (nbTurnR binary64 rule (fun _ _ => 0.9) rangeIn q l (1, 2) landState 1) pairState
    0 ≤ l'.acc (1, 2) ∧ 0 ≤ l'.sent (1, 2) :=
  C65_neighbour_demand binary64_ok rule _ rangeIn q l (1, 2) (rangeIn_fine _) landState 1 (by norm_num) (by norm_num [landState]) _

/-- A day of the first year and a day of the next, in which a reservoir of 40 percent of the cell starts in the upper cell,
in binary64 arithmetic, with demands and neighbours as above. -/
example (rad : RadPar) (lai : LaiPar) (rule : HanIn → ℝ → ℝ × ℝ) :
    let G := { rangeGrid rad lai with cells := [(1, 1), (1, 2)] }
    let run := nbSpanR binary64 rule (fun _ _ => 0.9) rangeNbRun binary64.sum G (fun _ => 0) [rangeNbDay]
      { carry :=
          { unsat := fun _ => ⟨0.1, 0.1, 0⟩, rip := fun _ => 0, sent := fun x => if x = (1, 2) then 0.2 else 0
            toSupply := fun x => if x = (1, 1) then 0.2 else 0, nbMap := fun x => if x = (1, 2) then (1, 1) else (0, 0)
            state := pairState }
        vert := fun _ => ⟨⟨0, 0, 0, false⟩, 1, 3, [2, 3, 4], 80⟩
        land := fun _ => ⟨0.5, 0.5, 1, 0.3, 0, 0, false⟩ }
      [⟨fun x => if x = (1, 1) then 40 else 0, fun x => if x = (1, 1) then 900 else 0, [rangeNbDay]⟩]
    run.length = 2 ∧ ∀ t ∈ run, ∀ x ∈ [((1, 1) : Cell), (1, 2)],
      0 ≤ (t.2.2.2.2.full x).vert.soil ∧ (t.2.2.2.2.full x).vert.soil ≤ 150 ∧ 0 ≤ (t.2.2.2.2.full x).lat.res := by
  intro G run
  refine ⟨rfl, fun t ht x hx => ?_⟩
  have hF : ∀ n : ℕ, n ≤ 2 ^ 53 → binary64.F n := fun n h => nat64 n h
  have f5 : binary64.F 5 := by exact_mod_cast hF 5 (by norm_num)
  have f7 : binary64.F 7 := by exact_mod_cast hF 7 (by norm_num)
  have f150 : binary64.F 150 := by exact_mod_cast hF 150 (by norm_num)
  have hd : NbDayFine binary64 rangeNbRun.order rangeNbDay := by
    refine ⟨fun _ _ => ⟨by norm_num [rangeNbDay], f5⟩, fun _ _ => by norm_num [rangeNbDay], fun x _ => ?_⟩
    have k := rangeIn_fine x
    exact ⟨k.runoff, k.precip, k.corr, k.swbK, k.factor, k.fractions, k.capacities, k.machine⟩
  have key := C65_neighbour_years binary64_ok binary64_near rule (fun _ _ => 0.9) rangeNbRun binary64.sum G (by norm_num)
    tiny_eta (fun l h => sum_nonneg binary64_ok l h) pair_sound.1 (fun x hx => hx)
    (fun x _ => ⟨by constructor <;> norm_num [G, rangeGrid, demoPar, f7, f150], by norm_num [G, rangeGrid, demoPar],
      by norm_num [G, rangeGrid]⟩)
    [⟨fun x => if x = (1, 1) then 40 else 0, fun x => if x = (1, 1) then 900 else 0, [rangeNbDay]⟩] (fun _ => 0) [rangeNbDay] _
    (by simpa using hd) (by simpa using hd)
    (by
      intro x _
      refine ⟨⟨?_, ?_, ?_⟩, ?_, ?_, ?_, ?_, ?_⟩ <;> (try norm_num [NbSim.full, VertState.land, demoPar, Grid.parR, G, rangeGrid])
      unfold pairState
      split_ifs <;> norm_num [exState, landState]) t ht x
    (by simpa [rangeNbRun] using hx)
  have h1 := key.2.2.column.soil
  exact ⟨by simpa [NbSim.full, VertState.land, demoPar, Grid.parR, G, rangeGrid] using h1.1,
    by simpa [NbSim.full, VertState.land, demoPar, Grid.parR, G, rangeGrid] using h1.2, key.2.2.res⟩

/-- Two years without rounding. -/
example := C65_exact_neighbour_years askRun exGrid
  [⟨fun _ => 0, fun _ => 0, [waitDay]⟩] (fun _ => 0) [waitDay] waitSim (by simp)

end WG
