import Verif.Model.LatOutput
import Verif.Props.Routing

/-! Property C66: the saved storages and fluxes of a cell fit together. -/

namespace WG

variable (c : CellIn) (st : CellState) (up demand : ℝ) (keep : ℝ → ℝ)

theorem lakeGwr_zero (kind : LakeKind) (i : LakeIn) (s : ℝ) (h : (i.arid && i.drainageOk) = false) :
    lakeGwr kind i s = 0 := by
  simp [lakeGwr, h]

theorem bodyDay_gwr_zero (kind : LakeKind) (i : LakeIn) (s : ℝ) (P : Prop) [Decidable P]
    (h : (i.arid && i.drainageOk) = false) : (bodyDay kind i s P).gwr = 0 := by
  unfold bodyDay
  split_ifs
  · simp [lakeBalance, lakeGwr_zero kind i s h]
  · rfl

/-- C66: recharge from surface water bodies is saved only in arid cells that are no inland sinks. -/
theorem C66_recharge_arid (h : ¬ (c.arid = true ∧ c.sink = false)) : (latSaved c st up demand keep).qrf = 0 := by
  have hb : (c.arid && !c.sink) = false := by
    cases ha : c.arid <;> cases hs : c.sink <;> simp_all
  have hres : (cellRes c st up demand).gwr = 0 := by
    unfold cellRes
    split_ifs
    · have : resGwr (cellResIn c st up demand) st.res = 0 := by
        unfold resGwr
        rw [if_neg]
        change ¬ (c.arid && !c.sink) = true
        rw [hb]; simp
      simp only [resBalance, this, zero_mul]
    · rfl
  change cellPoint c st up demand = 0
  unfold cellPoint cellLocLake cellLocWet cellGloLake cellGloWet
  rw [bodyDay_gwr_zero _ _ _ _ hb, bodyDay_gwr_zero _ _ _ _ hb, bodyDay_gwr_zero _ _ _ _ hb,
    bodyDay_gwr_zero _ _ _ _ hb, hres]
  ring

/-- C66: the groundwater storage of a day is that of the day before plus total recharge minus groundwater discharge minus
net abstraction from groundwater, for every cell and all inputs; and discharge is not negative. -/
theorem C66_groundwater :
    let o := latSaved c st up demand keep
    o.groundwstor = st.gw + o.qr - o.qg - o.atotusegw ∧ 0 ≤ o.qg := by
  intro o
  have hb := C10_groundwater_balance c.gwKind st.gw c.recharge c.potNag c.unsatNas c.gwK c.withdrawal c.consumptive
    c.fracReturn (cellPoint c st up demand)
  simp only at hb
  obtain ⟨h1, h2⟩ := hb
  have hp : (if c.gwKind = .arid then cellPoint c st up demand else 0) = cellPoint c st up demand := by
    by_cases h : c.arid = true ∧ c.sink = false
    · simp [CellIn.gwKind, h.1, h.2]
    · have := C66_recharge_arid c st up demand keep h
      change cellPoint c st up demand = 0 at this
      rw [this, ite_self]
  rw [hp] at h1
  refine ⟨?_, h2⟩
  change (cellGwFinal c st up demand).storage = st.gw + (cellPoint c st up demand + c.recharge)
    - (cellGwFinal c st up demand).discharge - (cellGwFinal c st up demand).nag
  unfold cellGwFinal cellGw
  linarith

/-- C66: the relations between the saved fluxes: total runoff is groundwater discharge plus surface runoff, total use is
the use from groundwater and surface water, net cell runoff is discharge minus inflow from upstream and in an inland sink,
where no discharge is saved, minus the inflow. -/
theorem C66_fluxes :
    let o := latSaved c st up demand keep
    o.qtot - o.qg = c.runoff ∧ o.qr - o.qrf = c.recharge ∧ o.atotuse = o.atotusegw + o.atotusesw ∧
    (c.sink = false → ∃ d, o.dis = some d ∧ o.ncrun = d - o.disFromUpstream) ∧
    (c.sink = true → o.dis = none ∧ o.ncrun = -o.disFromUpstream) := by
  intro o
  have e1 : o.qtot = o.qg + c.runoff := rfl
  have e2 : o.qr = o.qrf + c.recharge := rfl
  refine ⟨by rw [e1]; ring, by rw [e2]; ring, rfl, fun h => ⟨(cellDay c st up demand keep).streamflow, ?_, ?_⟩,
    fun h => ⟨?_, ?_⟩⟩
  · change (if c.sink then none else some _) = _
    simp [h]
  · change (if c.sink then -1 * up else _ - up) = _ - up
    simp only [h, Bool.false_eq_true, if_false]
    rfl
  · change (if c.sink then none else some _) = _
    simp [h]
  · change (if c.sink then -1 * up else _ - up) = -up
    simp [h]

/-- C66: the storages of lakes, wetlands, reservoir and river together change by total runoff, precipitation on open water
and inflow from upstream, minus discharge, evaporation from open water, recharge to groundwater and net abstraction from
surface water, up to the volume below which a reservoir's storage is set to zero (station factor 1; in an inland sink
the streamflow is part of the evaporation). -/
theorem C66_surface (h : c.Physical) (hs : st.Ok c) (hup : 0 ≤ up) (hcorr : c.corr = 1)
    (hd : 0 < c.glolakeArea → 0 ≤ demand) :
    let o := latSaved c st up demand keep
    let r := cellDay c st up demand keep
    |(o.locallakestor + o.localwetlandstor + o.globallakestor + o.globalwetlandstor + o.riverstor + o.reservoirstor
        - (st.locLake + st.locWet + st.gloLake + st.gloWet + st.river + st.res))
      - (o.qtot + r.precipSwb - o.ncrun - r.evap - o.qrf - o.atotusesw)| ≤ (if 0 < c.resArea then c.minV else 0) := by
  intro o r
  have h1 := C25_cell_balance c st up demand keep h hs hup hcorr hd
  have h2 := (C66_groundwater c st up demand keep).1
  simp only at h1 h2
  have e1 : o.qtot = o.qg + c.runoff := rfl
  have e2 : o.qr = o.qrf + c.recharge := rfl
  have e3 : r.state.total = o.groundwstor + o.locallakestor + o.localwetlandstor + o.globallakestor
      + o.reservoirstor + o.globalwetlandstor + o.riverstor := rfl
  have e4 : st.total = st.gw + st.locLake + st.locWet + st.gloLake + st.res + st.gloWet + st.river := rfl
  have e5 : r.evapTotal = o.atotusegw + o.atotusesw + r.evap := rfl
  have e6 : r.cellRunoff = o.ncrun := rfl
  have h3 : o.groundwstor = st.gw + o.qr - o.qg - o.atotusegw := h2
  rw [abs_sub_comm]
  refine le_trans (le_of_eq ?_) h1
  congr 1
  change _ = c.runoff + c.recharge + r.precipSwb - (r.state.total - st.total + r.cellRunoff + r.evapTotal)
  rw [e3, e4, e5, e6, e1]
  linarith

/-- C66: in the saved groundwater series of any number of days the storage change is the sum of the daily recharge minus
discharge minus net abstraction. -/
theorem C66_groundwater_series (ds : List LatDay) : ∀ st : CellState,
    ((latSeries st ds).getLast?.map (·.groundwstor)).getD st.gw
      = st.gw + ((latSeries st ds).map fun o => o.qr - o.qg - o.atotusegw).sum := by
  induction ds with
  | nil => intro st; simp [latSeries]
  | cons d ds ih =>
    intro st
    have h1 := (C66_groundwater d.cell st d.up d.demand d.keep).1
    have h2 := ih (cellDay d.cell st d.up d.demand d.keep).state
    have h3 : (cellDay d.cell st d.up d.demand d.keep).state.gw
      = (latSaved d.cell st d.up d.demand d.keep).groundwstor := rfl
    rw [h3] at h2
    simp only [latSeries, List.map_cons, List.sum_cons]
    cases hl : latSeries (cellDay d.cell st d.up d.demand d.keep).state ds with
    | nil =>
      simp only [List.getLast?_singleton, Option.map_some, Option.getD_some, List.map_nil, List.sum_nil]
      linarith
    | cons o os =>
      rw [hl] at h2
      rw [List.getLast?_cons_cons]
      rw [List.getLast?_eq_some_getLast (List.cons_ne_nil o os)] at h2 ⊢
      simp only [Option.map_some, Option.getD_some] at h2 ⊢
      rw [h2]
      linarith

/-- C66 (potential runoff, the quantity areal correction factors are computed from): over any number of days it adds up to
the water the land hands over, the corrected surplus of precipitation over potential evaporation on the full area
of all lakes, wetlands and the reservoir and the recharge below them, minus the use of groundwater and what the
groundwater storage gained. -/
theorem C66_potential_runoff (ds : List LatDay) : ∀ st : CellState,
    ((latSeries st ds).map fun o => o.potCellRunoff - o.qrf + o.atotusegw).sum =
      (ds.map fun d => d.cell.runoff + d.cell.recharge + (d.cell.precip - d.cell.openPet) * d.cell.cfa *
        (d.cell.locLake.maxArea + d.cell.locWet.maxArea + d.cell.glolakeArea + d.cell.gloWet.maxArea + d.cell.resArea)).sum
      - (((latSeries st ds).getLast?.map (·.groundwstor)).getD st.gw - st.gw) := by
  have key : ∀ (ds : List LatDay) (st : CellState),
      ((latSeries st ds).map fun o => o.potCellRunoff - o.qrf + o.atotusegw).sum =
      (ds.map fun d => d.cell.runoff + d.cell.recharge + (d.cell.precip - d.cell.openPet) * d.cell.cfa *
        (d.cell.locLake.maxArea + d.cell.locWet.maxArea + d.cell.glolakeArea + d.cell.gloWet.maxArea + d.cell.resArea)).sum
      - ((latSeries st ds).map fun o => o.qr - o.qg - o.atotusegw).sum := by
    intro ds
    induction ds with
    | nil => intro st; simp [latSeries]
    | cons d ds ih =>
      intro st
      obtain ⟨h1, h2, -⟩ := C66_fluxes d.cell st d.up d.demand d.keep
      have h3 : (latSaved d.cell st d.up d.demand d.keep).potCellRunoff
          = (latSaved d.cell st d.up d.demand d.keep).qtot + (d.cell.precip - d.cell.openPet) * d.cell.cfa *
          (d.cell.resArea + d.cell.glolakeArea + d.cell.locLake.maxArea + d.cell.locWet.maxArea + d.cell.gloWet.maxArea) := rfl
      simp only [latSeries, List.map_cons, List.sum_cons, ih, h3]
      linarith
  intro st
  have := C66_groundwater_series ds st
  rw [key ds st, this]; ring

/-- C66: the saved outflow of a water body the cell does not have is zero and its saved storage does not change. -/
theorem C66_missing_body :
    let o := latSaved c st up demand keep
    (¬ 0 < c.locWet.frac → o.localwetlandOutflow = 0 ∧ o.localwetlandstor = st.locWet) ∧
    (¬ 0 < c.glolakeArea → o.globallakeOutflow = 0 ∧ o.globallakestor = st.gloLake) ∧
    (¬ 0 < c.gloWet.frac → o.globalwetlandOutflow = 0 ∧ o.globalwetlandstor = st.gloWet) ∧
    (¬ 0 < c.locLake.frac → o.locallakeOutflow = 0 ∧ o.locallakestor = st.locLake) ∧
    (¬ 0 < c.resArea → o.reservoirstor = st.res) := by
  intro o
  refine ⟨fun h => ⟨if_neg h, ?_⟩, fun h => ⟨if_neg h, ?_⟩, fun h => ⟨if_neg h, ?_⟩, fun h => ⟨if_neg h, ?_⟩,
    fun h => ?_⟩
  · change (cellLocWet c st).storage = _
    unfold cellLocWet bodyDay; rw [if_neg h]
  · change (cellGloLake c st up demand).storage = _
    unfold cellGloLake bodyDay; rw [if_neg h]
  · change (cellGloWet c st up demand).storage = _
    unfold cellGloWet bodyDay; rw [if_neg h]
  · change (cellTapped c st up demand keep).1 = _
    have : ¬ cellTap c st up demand keep := fun ht => h ht.2.1
    unfold cellTapped; rw [if_neg this]
    change (cellLocLake c st).storage = _
    unfold cellLocLake bodyDay; rw [if_neg h]
  · change (cellRes c st up demand).storage = _
    unfold cellRes; rw [if_neg h]

/-! ## Examples -/

example := C66_recharge_arid { exCell with arid := false } exState 0.02 0.3 (fun d => d / 2) (by simp)
example := C66_groundwater exCell exState 0.02 0.3 (fun d => d / 2)
example := C66_fluxes exCell exState 0.02 0.3 (fun d => d / 2)
example := C66_surface exCell exState 0.02 0.3 (fun d => d / 2) exCell_physical exState_ok (by norm_num) rfl
  (fun _ => by norm_num)
example := C66_groundwater_series [⟨exCell, 0.02, 0.3, id⟩, ⟨exCell, 0, 0.1, id⟩] exState
example := C66_potential_runoff [⟨exCell, 0.02, 0.3, id⟩, ⟨exCell, 0, 0.1, id⟩] exState
example := (C66_missing_body { exCell with resArea := 0 } exState 0.02 0.3 id).2.2.2.2 (by norm_num)

end WG
