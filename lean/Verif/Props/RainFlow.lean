import Verif.Props.Monotone
import Verif.Props.Rain
import Verif.Props.Runoff

/-!
# C86: more rain on a day never lowers the discharge

C85 (the land of a cell) and C84 (water bodies and river network) put together: a day of the whole simulation, run twice
from the same state with the same temperature, radiation and demand; if the second time no cell has less rain, no cell has
less discharge in the output and no cell is left with more unsatisfied demand.  `RiverGuardIrrelevant` and
`CellIn.Regular` are those of C84, `NoSwitch` the two thresholds of C85.
-/

namespace WG

/-- The extra rain neither starts the growing season nor lifts an arid cell with coarse soil over the critical
precipitation of recharge. -/
structure NoSwitch (p : VertPar) (s : VertState) (P P' : ℝ) : Prop where
  season : ¬ (s.lai.grown = false ∧ s.lai.cumPrecip + P ≤ 40 ∧ 40 < s.lai.cumPrecip + P')
  recharge : ¬ (p.lai.humidArid = 1 ∧ p.texture < 21 ∧ p.drainage ≥ 0 ∧ P ≤ p.critPrecip ∧ p.critPrecip < P')

/-- The same weather with another precipitation. -/
def Weather.rain (w : Weather) (P : ℝ) : Weather := { w with precip := P }

/-- The same day with another precipitation. -/
def WgDay.rain (d : WgDay) (P : Cell → ℝ) : WgDay := { d with weather := fun x => (d.weather x).rain (P x) }

section
variable (p : FullPar) (c : CellIn) (w : Weather) (s : FullState) (P : ℝ)

theorem fullVert_rain : fullVert p (w.rain P) s = vertCell p.vert ((fullForcing w s.land).rain P) s.vert := rfl

/-- A cell without land hands over what was stored on its land, whatever the rain. -/
theorem transfer_rain (h : s.land.cur = 0) : (fullVert p (w.rain P) s).transfer = (fullVert p w s).transfer := by
  have key : ∀ w : Weather, (fullVert p w s).transfer
      = (s.vert.canopy + mean ((p.vert.elevs.zip s.vert.bands).map (·.2)) + s.vert.soil) * p.vert.cfa := by
    intro w
    have n : ¬ (fullForcing w s.land).frac > 0 := by
      change ¬ s.land.cur > 0
      rw [h]; exact lt_irrefl _
    have e1 : (colCanopy p.vert (fullForcing w s.land) s.vert).transfer = s.vert.canopy := by
      unfold colCanopy canopyWaterBalance
      rw [if_neg n]
    have e2 : (colSnow p.vert (fullForcing w s.land) s.vert).transfer
        = s.vert.canopy + mean ((p.vert.elevs.zip s.vert.bands).map (·.2)) := by
      unfold colSnow snowWaterBalance
      rw [if_neg n, e1]
    have e3 : (soilWaterBalance (colSoilIn p.vert (fullForcing w s.land) s.vert) s.vert.soil).transfer
        = ((colSnow p.vert (fullForcing w s.land) s.vert).transfer + s.vert.soil) * p.vert.cfa := by
      have n' : ¬ (colSoilIn p.vert (fullForcing w s.land) s.vert).frac > 0 := n
      unfold soilWaterBalance
      rw [if_neg n']
    rw [← e2, ← e3]
    rfl
  rw [key, key]

theorem fullIn_wetter (hg : GoodCell p c) (hcfa : p.vert.cfa ≤ 1) (hs : FullOk p c s) (hw : WeatherOk p w s) (hP : w.precip ≤ P)
    (hn : s.land.cur ≠ 0 → NoSwitch p.vert s.vert w.precip P) :
    Wetter (fullIn p c w s) (fullIn p c (w.rain P) s) := by
  obtain ⟨l1, -⟩ := land_facts p c s hg hs
  have k : 0 ≤ p.area * 1e-6 * s.land.cur := mul_nonneg (mul_nonneg hg.area (by norm_num)) l1
  refine ⟨rfl, ?_, ?_, ?_, le_rfl⟩
  · change w.precip * 1e-6 ≤ P * 1e-6
    linarith
  · change (if s.land.cur = 0 then (fullVert p w s).transfer * p.area * 1e-6 * s.land.prev
        else (fullVert p w s).surfaceRunoff * p.area * 1e-6 * s.land.cur) ≤
      (if s.land.cur = 0 then (fullVert p (w.rain P) s).transfer * p.area * 1e-6 * s.land.prev
        else (fullVert p (w.rain P) s).surfaceRunoff * p.area * 1e-6 * s.land.cur)
    by_cases h : s.land.cur = 0
    · rw [if_pos h, if_pos h, transfer_rain p w s P h]
    · rw [if_neg h, if_neg h]
      have l : 0 < s.land.cur := lt_of_le_of_ne l1 (Ne.symm h)
      obtain ⟨-, -, -, -, -, -, -, -, m⟩ := C85_land p.vert (fullForcing w s.land) s.vert P hg.vert
        (fullForcing_ok p c w s hw hs) hs.vert l hg.soil hcfa hP (hn h).season
      have := mul_le_mul_of_nonneg_right (m (hn h).recharge).1 k
      rw [fullVert_rain]
      unfold fullVert
      linarith
  · change (fullVert p w s).recharge * p.area * 1e-6 * s.land.cur ≤
      (fullVert p (w.rain P) s).recharge * p.area * 1e-6 * s.land.cur
    by_cases h : s.land.cur = 0
    · rw [h, mul_zero, mul_zero]
    · have l : 0 < s.land.cur := lt_of_le_of_ne l1 (Ne.symm h)
      obtain ⟨-, -, -, m, -⟩ := C85_land p.vert (fullForcing w s.land) s.vert P hg.vert
        (fullForcing_ok p c w s hw hs) hs.vert l hg.soil hcfa hP (hn h).season
      have := mul_le_mul_of_nonneg_right m k
      rw [fullVert_rain]
      unfold fullVert
      linarith

end

section
variable (par : Cell → FullPar) (delayed : Bool) (unit : Cell → ℕ) (world : List (Cell × Cell)) (d : WgDay)
  (s : Sim DemandState) (P : Cell → ℝ)

/-- C86: one day of the simulation, run twice from the same state with the same demand, temperature and radiation.  The
second time at least as much rain falls on every cell.  Then no cell has less discharge and no cell is left with more
unsatisfied demand. -/
theorem C86_more_rain_more_discharge (hnet : Sound world)
    (hcell : ∀ x ∈ world.map Prod.fst, GoodCell (par x) (d.inputs s.demand x) ∧
      FullOk (par x) (d.inputs s.demand x) (s.state x) ∧ WeatherOk (par x) (d.weather x) (s.state x) ∧
      (d.inputs s.demand x).Regular ∧ (par x).vert.cfa ≤ 1)
    (hrain : ∀ x ∈ world.map Prod.fst, (d.weather x).precip ≤ P x ∧
      ((s.state x).land.cur ≠ 0 → NoSwitch (par x).vert (s.state x).vert (d.weather x).precip (P x)))
    (hrip : ∀ x, 0 ≤ s.demand.rip x)
    (hguard : ∀ x ∈ world.map Prod.fst, ∀ o, (simNet par world (d.sim delayed unit world) s).ledger.out x = some o →
      RiverGuardIrrelevant (d.lateral x) o) :
    let dry := simDay par world (d.sim delayed unit world) s
    let wet := simDay par world ((d.rain P).sim delayed unit world) s
    (∀ x r, dry.2 x = some r → ∃ r', wet.2 x = some r' ∧ (r.dis.isSome ↔ r'.dis.isSome) ∧
      ∀ q ∈ r.dis, ∀ q' ∈ r'.dis, q ≤ q') ∧
    (∀ x, (simNet par world ((d.rain P).sim delayed unit world) s).ledger.demand.acc x
      ≤ (simNet par world (d.sim delayed unit world) s).ledger.demand.acc x) := by
  have a1 := ledger_refines par delayed unit world d s
  have a2 := ledger_refines par delayed unit world (d.rain P) s
  have eq : ((d.rain P).ledgerDay par delayed unit world s).demandDay unit world s.carry
    = (d.ledgerDay par delayed unit world s).demandDay unit world s.carry := rfl
  set ld := d.ledgerDay par delayed unit world s
  set lw := (d.rain P).ledgerDay par delayed unit world s
  have ph : ∀ x ∈ world.map Prod.fst, (ld.cin x).Physical ∧ (s.carry.state x).Ok (ld.cin x) ∧ (ld.cin x).Regular := by
    intro x hx
    obtain ⟨g, f, w, r, hc⟩ := hcell x hx
    exact ⟨fullIn_physical _ _ _ _ g f w, ⟨f.lat.locLake, f.lat.locWet, f.lat.gloLake, f.lat.res, f.lat.gloWet, f.lat.river⟩,
      ⟨r.gwK, r.wetExp, r.corr, r.cfa, r.han⟩⟩
  have wt : ∀ x ∈ world.map Prod.fst, Wetter (ld.cin x) (lw.cin x) ∧ (lw.cin x).useOpt = (ld.cin x).useOpt := by
    intro x hx
    obtain ⟨g, f, w, r, hc⟩ := hcell x hx
    exact ⟨fullIn_wetter _ _ _ _ _ g hc f w (hrain x hx).1 (hrain x hx).2, rfl⟩
  have net := C84_network ld.cin lw.cin (ld.demandDay unit world s.carry) world (ld.ledger delayed s.carry)
    (lw.ledger delayed s.carry) s.carry.state hnet.nodup ph wt (fun x => le_rfl) (fun x => ⟨hrip x, le_rfl⟩) (by
      intro x hx o ho
      have e : (simNet par world (d.sim delayed unit world) s).ledger.out
        = (ld.routed delayed unit world s.carry).ledger.out := a1.ledger.2.2.2.2.1
      exact hguard x hx o (by rw [e]; exact ho))
  obtain ⟨n1, n2⟩ := net
  refine ⟨?_, ?_⟩
  · intro x r hr
    have o1 := basinDay_out (simIn par (d.sim delayed unit world) s) (d.sim delayed unit world).get
      (d.sim delayed unit world).upd world hnet ((d.sim delayed unit world).start s.demand) fun x => (s.state x).lat
    have o2 := basinDay_out (simIn par ((d.rain P).sim delayed unit world) s) ((d.rain P).sim delayed unit world).get
      ((d.rain P).sim delayed unit world).upd world hnet (((d.rain P).sim delayed unit world).start s.demand)
      fun x => (s.state x).lat
    by_cases hx : x ∈ world.map Prod.fst
    · obtain ⟨o, p1, p2, -⟩ := o1 x hx
      obtain ⟨o', q1, q2, -⟩ := o2 x hx
      have le : o.streamflow ≤ o'.streamflow := by
        rw [← p2, ← q2]
        have e1 := a1.flow x rfl
        have e2 := a2.flow x rfl
        have := n1 x
        change (simNet par world (d.sim delayed unit world) s).flow x
          ≤ (simNet par world ((d.rain P).sim delayed unit world) s).flow x
        rw [e1, e2]
        exact this
      have er : (simDay par world (d.sim delayed unit world) s).2 x
          = some (fullRec (par x) (d.inputs s.demand x) (d.weather x) (s.state x)
            ((simNet par world (d.sim delayed unit world) s).up x) o) := by
        change ((simNet par world (d.sim delayed unit world) s).ledger.out x).map _ = _
        rw [show (simNet par world (d.sim delayed unit world) s).ledger.out x = some o from p1]
        rfl
      have er' : (simDay par world ((d.rain P).sim delayed unit world) s).2 x
          = some (fullRec (par x) (d.inputs s.demand x) ((d.weather x).rain (P x)) (s.state x)
            ((simNet par world ((d.rain P).sim delayed unit world) s).up x) o') := by
        change ((simNet par world ((d.rain P).sim delayed unit world) s).ledger.out x).map _ = _
        rw [show (simNet par world ((d.rain P).sim delayed unit world) s).ledger.out x = some o' from q1]
        rfl
      rw [er] at hr
      refine ⟨_, er', ?_⟩
      rw [← Option.some.inj hr]
      have f1 : ∀ w up o, (fullRec (par x) (d.inputs s.demand x) w (s.state x) up o).dis
          = if (d.lateral x).sink then none else some o.streamflow := fun _ _ _ => rfl
      rw [f1, f1]
      by_cases sk : (d.lateral x).sink = true
      · rw [if_pos sk, if_pos sk]; simp
      · rw [if_neg sk, if_neg sk]
        simpa using le
    · exfalso
      have none : ∀ (w : List (Cell × Cell)) (t : NetState (Basin DemandState)), x ∉ w.map Prod.fst →
          t.ledger.out x = none → (w.foldl (routeStep (basinNode (simIn par (d.sim delayed unit world) s)
            (d.sim delayed unit world).get (d.sim delayed unit world).upd)) t).ledger.out x = none := by
        intro w
        induction w with
        | nil => intro t _ h; exact h
        | cons e w ih =>
          intro t hx h
          simp only [List.map_cons, List.mem_cons, not_or] at hx
          rw [List.foldl_cons]
          apply ih _ hx.2
          simp only [routeStep, basinNode]
          rw [Function.update_of_ne hx.1]
          exact h
      have z : (simNet par world (d.sim delayed unit world) s).ledger.out x = Option.none := none world _ hx rfl
      change ((simNet par world (d.sim delayed unit world) s).ledger.out x).map _ = _ at hr
      rw [z] at hr
      cases hr
  · intro x
    have e1 : (simNet par world (d.sim delayed unit world) s).ledger.demand.acc = _ := a1.ledger.1
    have e2 : (simNet par world ((d.rain P).sim delayed unit world) s).ledger.demand.acc = _ := a2.ledger.1
    rw [e1, e2]
    exact n2 x

end
/-! ### A case that meets the hypotheses -/

/-- Land all over `slowCell`. -/
noncomputable def slowState : FullState :=
  { vert := sampleVertState, land := ⟨0.9, 0.9, 1, 0, 0, 0, false⟩, lat := exState }

/-- A day with rain; no demand. -/
noncomputable def slowDay : WgDay :=
  { weather := fun _ => exWeather, lateral := fun _ => slowCell, pot := fun _ => 0, unagg := fun _ => 0, dec31 := false }

/-- Nothing owed. -/
noncomputable def slowSim : Sim DemandState := ⟨⟨fun _ => 0, fun _ => 0, fun _ => 0, fun _ => 0⟩, fun _ => slowState⟩

theorem slow_good : GoodCell exFull slowCell where
  vert := sampleVert_ok
  soil := by norm_num [exFull, sampleVert]
  area := by norm_num [exFull]
  lat := slowCell_physical
  locLake := by norm_num [slowCell, exCell]
  locWet := by norm_num [slowCell, exCell]
  gloWet := by norm_num [slowCell, exCell]
  fit := by norm_num [slowCell, exCell, exFull]

theorem slow_ok : FullOk exFull slowCell slowState where
  vert := sampleVertState_ok
  lat := slowCell_ok
  swb := by norm_num [slowState, openFrac, slowCell, exCell]
  cover := by norm_num [slowState, exFull]
  prev0 := by norm_num [slowState]
  prev1 := by norm_num [slowState, exFull]
  ratio0 := by norm_num [slowState]
  ratio := by intro _; left; norm_num [slowState]

/-- Two cells, the first draining into the second, on a day with 10 mm and with 12 mm of rain. -/
example : let world : List (Cell × Cell) := [((1, 1), (1, 2)), ((1, 2), (0, 0))]
    Sound world ∧
    (∀ x ∈ world.map Prod.fst, GoodCell exFull (slowDay.inputs slowSim.demand x) ∧
      FullOk exFull (slowDay.inputs slowSim.demand x) (slowSim.state x) ∧
      WeatherOk exFull (slowDay.weather x) (slowSim.state x) ∧ (slowDay.inputs slowSim.demand x).Regular ∧
      exFull.vert.cfa ≤ 1) ∧
    (∀ x ∈ world.map Prod.fst, (slowDay.weather x).precip ≤ 12 ∧
      ((slowSim.state x).land.cur ≠ 0 → NoSwitch exFull.vert (slowSim.state x).vert (slowDay.weather x).precip 12)) ∧
    (∀ x, 0 ≤ slowSim.demand.rip x) ∧
    (∀ x ∈ world.map Prod.fst, ∀ o, (simNet (fun _ => exFull) world (slowDay.sim true (fun _ => 0) world) slowSim).ledger.out x
      = some o → RiverGuardIrrelevant (slowDay.lateral x) o) := by
  intro world
  have same : ∀ x, slowDay.inputs slowSim.demand x = slowCell := fun _ => rfl
  have wok : WeatherOk exFull exWeather slowState :=
    ⟨sampleVertForcing_ok.temp, by norm_num [exWeather], sampleVertForcing_ok.petMax⟩
  refine ⟨⟨by decide, by decide, by decide⟩, fun x _ => ⟨slow_good, slow_ok, wok, slowCell_regular, by norm_num [exFull, sampleVert]⟩, fun x _ => ⟨?_, fun _ => ?_⟩,
    fun _ => le_rfl, ?_⟩
  · change (10 : ℝ) ≤ 12; norm_num
  · constructor <;> norm_num [slowSim, slowState, sampleVertState, slowDay, exWeather, exFull, sampleVert, laiInit]
  · have ph := fullIn_physical exFull slowCell exWeather slowState slow_good slow_ok wok
    have ri : ∀ up, 0 ≤ up → 0 ≤ cellRiverIn (fullIn exFull slowCell exWeather slowState) exState up 0 := fun up hup =>
      (cellRiverIn_mono _ (fullIn exFull slowCell exWeather slowState) exState up up 0 0 ph
        ⟨slowCell_ok.locLake, slowCell_ok.locWet, slowCell_ok.gloLake, slowCell_ok.res, slowCell_ok.gloWet, slowCell_ok.river⟩
        ⟨slowCell_regular.gwK, slowCell_regular.wetExp, slowCell_regular.corr, slowCell_regular.cfa, slowCell_regular.han⟩
        le_rfl le_rfl le_rfl le_rfl hup le_rfl le_rfl).1
    have river : ∀ up keep, 0 ≤ up →
        (cellDay (fullIn exFull slowCell exWeather slowState) exState up 0 keep).state.river ≠ 0 := fun up keep hup =>
      (slow_river _ up 0 keep rfl rfl rfl rfl rfl le_rfl (by norm_num) (ri up hup)).1
    have nn : ∀ up d keep, 0 ≤ (cellDay (fullIn exFull slowCell exWeather slowState) exState up d keep).streamflow := by
      intro up d keep
      change 0 ≤ (cellRiver _ _ _ _ _).streamflow
      unfold cellRiver riverBalance
      dsimp only
      refine mul_nonneg ?_ slowCell_regular.corr
      split_ifs <;> dsimp only <;> linarith
    intro x hx o ho
    left
    simp only [world, List.map_cons, List.map_nil, List.mem_cons, List.not_mem_nil, or_false] at hx
    have hs : ∀ x, simIn (fun _ => exFull) (slowDay.sim true (fun _ => 0) world) slowSim x
      = fullIn exFull slowCell exWeather slowState := fun _ => rfl
    have ne : ((1, 2) : Cell) ≠ (1, 1) := by decide
    have ne' : ((1, 1) : Cell) ≠ (1, 2) := by decide
    have dr : drains (1, 2) := by decide
    have dr' : ¬ drains (0, 0) := by decide
    have lk : ¬ slowCell.hasLake := by unfold CellIn.hasLake slowCell; norm_num
    have dd : dayDemand slowCell.useOpt true 0 0 = 0 := by unfold dayDemand; norm_num
    unfold simNet at ho
    rw [show simIn (fun _ => exFull) (slowDay.sim true (fun _ => 0) world) slowSim
      = fun _ => fullIn exFull slowCell exWeather slowState from rfl] at ho
    clear hs ph ri
    generalize fullIn exFull slowCell exWeather slowState = C at *
    rcases hx with rfl | rfl
    · simp [world, basinDay, route, routeStep, routeStart, basinNode, WgDay.sim, ledgerGet, slowDay, slowSim, slowState, dd,
        dr, dr', ne, ne'] at ho
      rw [← ho]
      exact river _ _ le_rfl
    · simp [world, basinDay, route, routeStep, routeStart, basinNode, WgDay.sim, ledgerGet, ledgerUpd, slowDay, slowSim,
        slowState, dd, dr, dr', ne, lk] at ho
      rw [← ho]
      exact river _ _ (nn _ _ _)

/-! ### Where the plain statement fails -/

/-- The saturated arid land of `C85_violated_critical_precipitation`, 2000 km² without water bodies. -/
noncomputable def aridFull : FullPar := ⟨wetPar 1 0 0, 2000, 1⟩

/-- An arid cell with a slow river and nothing else. -/
noncomputable def aridCell : CellIn := { slowCell with arid := true, potNag := 0 }

/-- Its groundwater is depleted. -/
noncomputable def aridState : FullState :=
  { vert := wetState laiInit, land := ⟨1, 1, 1, 0, 0, 0, false⟩, lat := exState }

/-- A day without radiation. -/
noncomputable def aridWeather (P : ℝ) : Weather := ⟨280, 0, 0, P⟩

theorem arid_river (P r q : ℝ) (h : (fullVert aridFull (aridWeather P) aridState).recharge = r) (h3 : r ≤ 3)
    (hq : (fullVert aridFull (aridWeather P) aridState).surfaceRunoff = q) :
    cellRiverIn (fullIn aridFull aridCell (aridWeather P) aridState) exState 0 0 = q * 0.002 := by
  have hr : (fullIn aridFull aridCell (aridWeather P) aridState).recharge = r * 0.002 := by
    change (fullVert aridFull (aridWeather P) aridState).recharge * 2000 * 1e-6 * 1 = _
    rw [h]; ring
  have hro : (fullIn aridFull aridCell (aridWeather P) aridState).runoff = q * 0.002 := by
    change (if (1 : ℝ) = 0 then _ else (fullVert aridFull (aridWeather P) aridState).surfaceRunoff * 2000 * 1e-6 * 1) = _
    rw [if_neg one_ne_zero, hq]; ring
  have kd : (fullIn aridFull aridCell (aridWeather P) aridState).gwKind = .arid := rfl
  have sp : cellSplit (fullIn aridFull aridCell (aridWeather P) aridState) exState = (0, q * 0.002) := by
    have e : cellSplit (fullIn aridFull aridCell (aridWeather P) aridState) exState
        = fracRouting (fullIn aridFull aridCell (aridWeather P) aridState).runoff 0 0 0 0 20 false := rfl
    rw [e, hro]
    unfold fracRouting swbShare
    norm_num
  have b1 : cellLocLake (fullIn aridFull aridCell (aridWeather P) aridState) exState
      = { storage := exState.locLake, outflow := 0, gwr := 0, newFrac := 0, unsat := 0, use := 0, evapKm3 := 0 } := by
    unfold cellLocLake bodyDay
    rw [if_neg (show ¬ (fullIn aridFull aridCell (aridWeather P) aridState).locLake.frac > 0 from lt_irrefl _), sp]
    rfl
  have b2 : cellLocWet (fullIn aridFull aridCell (aridWeather P) aridState) exState
      = { storage := exState.locWet, outflow := 0, gwr := 0, newFrac := 0, unsat := 0, use := 0, evapKm3 := 0 } := by
    unfold cellLocWet bodyDay
    rw [if_neg (show ¬ (fullIn aridFull aridCell (aridWeather P) aridState).locWet.frac > 0 from lt_irrefl _), b1]
    rfl
  have b3 : cellGloLake (fullIn aridFull aridCell (aridWeather P) aridState) exState 0 0
      = { storage := exState.gloLake, outflow := 0, gwr := 0, newFrac := 0, unsat := 0, use := 0, evapKm3 := 0 } := by
    unfold cellGloLake bodyDay
    rw [if_neg (show ¬ (fullIn aridFull aridCell (aridWeather P) aridState).glolakeArea > 0 from lt_irrefl _), b2]
    simp [CellIn.lakeIn]
  have b4 : (cellRes (fullIn aridFull aridCell (aridWeather P) aridState) exState 0 0).outflow = 0 ∧
      (cellRes (fullIn aridFull aridCell (aridWeather P) aridState) exState 0 0).gwr = 0 := by
    unfold cellRes
    rw [if_neg (show ¬ (fullIn aridFull aridCell (aridWeather P) aridState).resArea > 0 from lt_irrefl _), b3]
    exact ⟨rfl, rfl⟩
  have b5 : cellGloWet (fullIn aridFull aridCell (aridWeather P) aridState) exState 0 0
      = { storage := exState.gloWet, outflow := 0, gwr := 0, newFrac := 0, unsat := 0, use := 0, evapKm3 := 0 } := by
    unfold cellGloWet bodyDay
    rw [if_neg (show ¬ (fullIn aridFull aridCell (aridWeather P) aridState).gloWet.frac > 0 from lt_irrefl _), b4.1]
    rfl
  have pt : cellPoint (fullIn aridFull aridCell (aridWeather P) aridState) exState 0 0 = 0 := by
    unfold cellPoint
    rw [b1, b2, b3, b4.2, b5]
    norm_num
  have gw : (cellGwFinal (fullIn aridFull aridCell (aridWeather P) aridState) exState 0 0).discharge = 0 := by
    have e : (cellGwFinal (fullIn aridFull aridCell (aridWeather P) aridState) exState 0 0).discharge
        = (gwStorage (-0.3) ((fullIn aridFull aridCell (aridWeather P) aridState).recharge
            + cellPoint (fullIn aridFull aridCell (aridWeather P) aridState) exState 0 0
            - (if (0 : ℝ) ≠ 0 then updateNetabsGw 0 0 0 0 0.5 else 0)) 0.01).2 := rfl
    rw [e, pt, hr, if_neg (by norm_num)]
    obtain ⟨e0, e1, -, c0, c1, c2, -⟩ := release_facts 0.01 (by norm_num)
    unfold gwStorage
    dsimp only
    rw [if_pos]
    have : (r * 0.002 + 0 - 0) / 0.01 * (1 - Real.exp (-1 * 0.01))
        = r * 0.002 * ((1 - Real.exp (-1 * 0.01)) / 0.01) := by ring
    rw [this]
    set g := (1 - Real.exp (-1 * 0.01)) / 0.01
    nlinarith
  unfold cellRiverIn
  dsimp only
  rw [sp, kd, if_pos rfl, gw, b5]
  rw [if_neg (show ¬ ((fullIn aridFull aridCell (aridWeather P) aridState).sink = true) from Bool.false_ne_true)]
  norm_num

/-- C86 violated at the critical precipitation: with 12.6 mm of rain instead of 12.5 mm the cell has less streamflow, since
3 mm of the rain now go to the groundwater. -/
theorem C86_violated_critical_precipitation :
    GoodCell aridFull aridCell ∧ FullOk aridFull aridCell aridState ∧ WeatherOk aridFull (aridWeather 12.5) aridState ∧
    aridCell.Regular ∧ aridFull.vert.cfa ≤ 1 ∧
    (cellDay (fullIn aridFull aridCell (aridWeather 12.6) aridState) exState 0 0 id).streamflow
      < (cellDay (fullIn aridFull aridCell (aridWeather 12.5) aridState) exState 0 0 id).streamflow := by
  obtain ⟨pok, sok, w1, w2, -, -⟩ := C85_violated_critical_precipitation
  refine ⟨?_, ?_, ⟨w1.temp, w1.precip, w1.petMax⟩, ?_, by norm_num [aridFull, wetPar, sampleVert], ?_⟩
  · exact
      { vert := pok, soil := by norm_num [aridFull, wetPar, sampleVert],
        area := by norm_num [aridFull],
        lat := by constructor <;> (try unfold aridCell slowCell exCell) <;> (try constructor) <;> norm_num,
        locLake := by norm_num [aridCell, slowCell, exCell], locWet := by norm_num [aridCell, slowCell, exCell],
        gloWet := by norm_num [aridCell, slowCell, exCell], fit := by norm_num [aridCell, slowCell, exCell, aridFull] }
  · exact
      { vert := sok, lat := by constructor <;> (try unfold aridCell slowCell exCell) <;> (try unfold aridState exState) <;> norm_num,
        swb := by norm_num [aridState, openFrac, aridCell, slowCell, exCell], cover := by norm_num [aridState, aridFull],
        prev0 := by norm_num [aridState], prev1 := by norm_num [aridState, aridFull], ratio0 := by norm_num [aridState],
        ratio := by intro _; left; norm_num [aridState] }
  · exact ⟨by norm_num [aridCell, slowCell, exCell], by norm_num [aridCell, slowCell, exCell],
      by norm_num [aridCell, slowCell, exCell], by norm_num [aridCell, slowCell, exCell],
      fun h => by norm_num [aridCell, slowCell] at h⟩
  · have a := darkDay_runoff 1 0 0 12.5 laiInit le_rfl le_rfl (by norm_num) le_rfl
    have b := darkDay_runoff 1 0 0 12.6 laiInit le_rfl le_rfl (by norm_num) le_rfl
    rw [darkDay_canopy] at a b
    have q1 := arid_river 12.5 0 12.5 (by
      refine Eq.trans a.1 ?_
      norm_num) (by norm_num) (by
      refine Eq.trans a.2 ?_
      norm_num [laiStep, laiGrow, wetPar, laiInit])
    have q2 := arid_river 12.6 3 9.6 (by
      refine Eq.trans b.1 ?_
      norm_num [laiStep, laiGrow, wetPar, laiInit]) (by norm_num) (by
      refine Eq.trans b.2 ?_
      norm_num [laiStep, laiGrow, wetPar, laiInit])
    have k : (0 : ℝ) < 0.00001 / 55 := by norm_num
    have g := (release_facts (0.00001 / 55) k).2.2.2.2.1
    rw [(slow_river (fullIn aridFull aridCell (aridWeather 12.6) aridState) 0 0 id rfl rfl rfl rfl rfl le_rfl (by norm_num)
        (by rw [q2]; norm_num)).2,
      (slow_river (fullIn aridFull aridCell (aridWeather 12.5) aridState) 0 0 id rfl rfl rfl rfl rfl le_rfl (by norm_num)
        (by rw [q1]; norm_num)).2, q1, q2]
    have c1 : ∀ P, (fullIn aridFull aridCell (aridWeather P) aridState).corr = 1 := fun _ => rfl
    rw [c1, c1]
    linarith

end WG
