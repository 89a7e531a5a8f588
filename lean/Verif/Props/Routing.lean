import Verif.Model.Routing
import Verif.Props.LakeWetland
import Verif.Props.River
import Verif.Props.Reservoir
import Verif.Props.Groundwater
import Verif.Props.Abstraction

/-! Property C25: the water balance of a cell and of its demand. -/

namespace WG

set_option linter.unusedSectionVars false

/-- A water body that is there has a capacity, and an area that is not negative. -/
structure Body.Physical (b : Body) : Prop where
  frac : 0 ≤ b.frac
  storage : 0 < b.frac → 0 < b.maxStorage
  area : 0 < b.frac → 0 ≤ b.maxArea

/-- Sensible inputs of a cell for a day. Recharge, abstraction from groundwater and the factor `cfa` are free. -/
structure CellIn.Physical (c : CellIn) : Prop where
  precip : 0 ≤ c.precip
  openPet : 0 ≤ c.openPet
  runoff : 0 ≤ c.runoff
  minV : 0 ≤ c.minV
  factor : 0 ≤ c.factor
  swbK : 0 < c.swbK
  gwConst : 0 ≤ c.gwConst
  redExp : 0 < c.redExp
  len : 0 < c.len
  locLake : c.locLake.Physical
  locWet : c.locWet.Physical
  gloWet : c.gloWet.Physical
  maxGlolake : 0 < c.glolakeArea → 0 < c.maxGlolake
  cap : 0 < c.resArea → 0 < c.han.cap

/-- The storages are within the limits of the water bodies that exist. Groundwater may be negative. -/
structure CellState.Ok (c : CellIn) (s : CellState) : Prop where
  locLake : 0 < c.locLake.frac → -c.locLake.maxStorage ≤ s.locLake ∧ s.locLake ≤ c.locLake.maxStorage
  locWet : 0 < c.locWet.frac → 0 ≤ s.locWet ∧ s.locWet ≤ c.locWet.maxStorage
  gloLake : 0 < c.glolakeArea → -c.maxGlolake ≤ s.gloLake ∧ s.gloLake ≤ c.maxGlolake
  res : 0 < c.resArea → 0 ≤ s.res ∧ s.res ≤ c.han.cap
  gloWet : 0 < c.gloWet.frac → 0 ≤ s.gloWet ∧ s.gloWet ≤ c.gloWet.maxStorage
  river : 0 ≤ s.river

section
variable (c : CellIn) (st : CellState) (up demand : ℝ) (keep : ℝ → ℝ)

theorem lakeIn_physical (h : c.Physical) (b : Body) (hb : b.Physical) (hf : 0 < b.frac) (inflow a d : ℝ)
    (hi : 0 ≤ inflow) (hd : 0 ≤ d) : (c.lakeIn b inflow a d).Physical :=
  { precip := h.precip, openPet := h.openPet, inflow := hi, k := h.swbK, gw := h.gwConst, redExp := h.redExp,
    maxStorage := hb.storage hf, maxArea := hb.area hf, frac := hb.frac, demand := hd }

theorem cellGw_discharge_nonneg (p : ℝ) : 0 ≤ (cellGw c st p).discharge :=
  (C10_groundwater_balance c.gwKind st.gw c.recharge c.potNag c.unsatNas c.gwK c.withdrawal c.consumptive
    c.fracReturn p).2

theorem early_nonneg : 0 ≤ cellEarlyDischarge c st := by
  unfold cellEarlyDischarge; split_ifs
  · exact le_rfl
  · exact cellGw_discharge_nonneg c st 0

theorem split_facts (h : c.Physical) :
    (cellSplit c st).1 + (cellSplit c st).2 = c.runoff + cellEarlyDischarge c st ∧ 0 ≤ (cellSplit c st).1 ∧
    0 ≤ (cellSplit c st).2 ∧ (c.sink = true → (cellSplit c st).2 = 0) := by
  have := C19_frac_routing c.runoff (cellEarlyDischarge c st) c.locLake.frac c.locWet.frac c.gloWet.frac c.factor
    c.sink h.runoff (early_nonneg c st) h.locLake.frac h.locWet.frac h.gloWet.frac h.factor
  exact ⟨this.1, this.2.1, this.2.2.1, fun hs => (this.2.2.2.1 hs).2⟩

/-- What the later steps need to know about one water body of the cell. -/
structure BodyFacts (s inflow precip area : ℝ) (o : LakeOut) : Prop where
  bal : s + inflow + precip * area = o.storage + o.outflow + o.gwr + o.evapKm3 + o.use
  out : 0 ≤ o.outflow
  gwr : 0 ≤ o.gwr
  evap : 0 ≤ o.evapKm3

theorem locLake_facts (h : c.Physical) (hs : st.Ok c) :
    BodyFacts st.locLake (cellSplit c st).1 c.precip
      (if c.locLake.frac > 0 then lakeArea .localLake (c.lakeIn c.locLake 0 0 0) st.locLake else 0)
      (cellLocLake c st) ∧ (cellLocLake c st).use = 0 ∧ (¬(c.arid = true ∧ c.sink = false) → (cellLocLake c st).gwr = 0) ∧
      (0 < c.locLake.frac → -c.locLake.maxStorage ≤ (cellLocLake c st).storage ∧
        (cellLocLake c st).storage ≤ c.locLake.maxStorage) ∧
      0 ≤ (cellLocLake c st).newFrac ∧ (cellLocLake c st).newFrac ≤ c.locLake.frac := by
  unfold cellLocLake bodyDay
  split_ifs with hf
  · have hp := lakeIn_physical c h c.locLake h.locLake hf (cellSplit c st).1 0 0 (split_facts c st h).2.1 le_rfl
    have hb := hs.locLake hf
    have h1 := C13_lake_balance .localLake _ st.locLake hp hb.1
    have h2 := C13_lake_fluxes .localLake _ st.locLake hp hb.1
    have h3 := C14_lake_bounds .localLake _ st.locLake hp (Or.inl rfl) hb.1 hb.2
    simp only [reduceCtorEq, if_false] at h2
    refine ⟨⟨h1, h3.2.2, h2.1, h2.2.1⟩, ?_, ?_, fun _ => ⟨h3.1, h3.2.1⟩, h2.2.2.2.2.1, h2.2.2.2.2.2.1⟩
    · linarith [h2.2.2.1, h2.2.2.2.1, h2.2.2.2.2.2.2.1]
    · intro hh
      apply h2.2.2.2.2.2.2.2.2
      simp only [CellIn.lakeIn]
      cases ha : c.arid <;> cases hk : c.sink <;> simp_all
  · exact ⟨⟨by simp [CellIn.lakeIn], (split_facts c st h).2.1, le_rfl, le_rfl⟩, rfl, fun _ => rfl, fun h' => absurd h' hf, le_rfl,
      h.locLake.frac⟩

theorem locWet_facts (h : c.Physical) (hs : st.Ok c) :
    BodyFacts st.locWet (cellLocLake c st).outflow c.precip
      (if c.locWet.frac > 0 then lakeArea .localWetland (c.lakeIn c.locWet 0 0 0) st.locWet else 0)
      (cellLocWet c st) ∧ (cellLocWet c st).use = 0 ∧ (¬(c.arid = true ∧ c.sink = false) → (cellLocWet c st).gwr = 0) ∧
      (0 < c.locWet.frac → 0 ≤ (cellLocWet c st).storage ∧ (cellLocWet c st).storage ≤ c.locWet.maxStorage) ∧
      0 ≤ (cellLocWet c st).newFrac ∧ (cellLocWet c st).newFrac ≤ c.locWet.frac := by
  have hin := (locLake_facts c st h hs).1.out
  unfold cellLocWet bodyDay
  split_ifs with hf
  · have hp := lakeIn_physical c h c.locWet h.locWet hf _ 0 0 hin le_rfl
    have hb := hs.locWet hf
    have h1 := C13_lake_balance .localWetland _ st.locWet hp hb.1
    have h2 := C13_lake_fluxes .localWetland _ st.locWet hp hb.1
    have h3 := C14_local_wetland_bounds _ st.locWet hp hb.1
    simp only [reduceCtorEq, if_false] at h2
    refine ⟨⟨h1, h3.2.2, h2.1, h2.2.1⟩, ?_, ?_, fun _ => ⟨h3.1, h3.2.1⟩, h2.2.2.2.2.1, h2.2.2.2.2.2.1⟩
    · linarith [h2.2.2.1, h2.2.2.2.1, h2.2.2.2.2.2.2.1]
    · intro hh
      apply h2.2.2.2.2.2.2.2.2
      simp only [CellIn.lakeIn]
      cases ha : c.arid <;> cases hk : c.sink <;> simp_all
  · exact ⟨⟨by simp [CellIn.lakeIn], hin, le_rfl, le_rfl⟩, rfl, fun _ => rfl, fun h' => absurd h' hf, le_rfl, h.locWet.frac⟩

theorem gloLake_facts (h : c.Physical) (hs : st.Ok c) (hup : 0 ≤ up) (hd : 0 < c.glolakeArea → 0 ≤ demand) :
    BodyFacts st.gloLake ((cellLocWet c st).outflow + up) c.precip (if c.glolakeArea > 0 then c.glolakeArea else 0)
      (cellGloLake c st up demand) ∧
      (0 < c.glolakeArea → (cellGloLake c st up demand).use + (cellGloLake c st up demand).unsat =
        if 0 < c.resArea then demand / 2 else demand) ∧
      (¬ 0 < c.glolakeArea → (cellGloLake c st up demand).use = 0) ∧
      (¬(c.arid = true ∧ c.sink = false) → (cellGloLake c st up demand).gwr = 0) ∧
      (0 < c.glolakeArea → -c.maxGlolake ≤ (cellGloLake c st up demand).storage ∧
        (cellGloLake c st up demand).storage ≤ c.maxGlolake) := by
  have hin := (locWet_facts c st h hs).1.out
  have hin' : 0 ≤ (cellLocWet c st).outflow + up := by linarith
  unfold cellGloLake bodyDay
  by_cases hf : c.glolakeArea > 0
  · simp only [if_pos hf]
    have hp : (c.lakeIn ⟨0, c.glolakeArea, c.maxGlolake⟩ ((cellLocWet c st).outflow + up) c.resArea demand).Physical :=
      { precip := h.precip, openPet := h.openPet, inflow := hin', k := h.swbK, gw := h.gwConst, redExp := h.redExp,
        maxStorage := h.maxGlolake hf, maxArea := le_of_lt hf, frac := le_rfl, demand := hd hf }
    have hb := hs.gloLake hf
    have h1 := C13_lake_balance .globalLake _ st.gloLake hp hb.1
    have h2 := C13_lake_fluxes .globalLake _ st.gloLake hp hb.1
    have h3 := C14_lake_bounds .globalLake _ st.gloLake hp (Or.inr rfl) hb.1 hb.2
    simp only [if_true] at h2
    refine ⟨⟨?_, h3.2.2, h2.1, h2.2.1⟩, fun _ => ?_, fun h' => absurd hf h', ?_, fun _ => ⟨h3.1, h3.2.1⟩⟩
    · simpa [lakeArea, CellIn.lakeIn] using h1
    · exact h2.2.2.2.2.2.2.1
    · intro hh
      apply h2.2.2.2.2.2.2.2.2
      simp only [CellIn.lakeIn]
      cases ha : c.arid <;> cases hk : c.sink <;> simp_all
  · simp only [if_neg hf]
    exact ⟨⟨by simp [CellIn.lakeIn], hin', le_rfl, le_rfl⟩, fun h' => absurd h' hf, fun _ => trivial, fun _ => trivial, fun h' => absurd h' hf⟩

theorem resIn_physical (h : c.Physical) (hs : st.Ok c) (hup : 0 ≤ up) (hd : 0 < c.glolakeArea → 0 ≤ demand)
    (hr : 0 < c.resArea) : (cellResIn c st up demand).Physical :=
  { precip := h.precip, openPet := h.openPet, inflow := (gloLake_facts c st up demand h hs hup hd).1.out,
    gwConst := h.gwConst, area := le_of_lt hr, cap := h.cap hr }

theorem resGwr_zero (i : ResIn) (s : ℝ) (h : (i.arid && i.drainageOk) = false) : (resBalance i s).gwr = 0 := by
  simp only [resBalance, resGwr, h, Bool.false_eq_true, if_false, zero_mul]

/-- The reservoir's tolerance in the balance: the volume that may be flushed. -/
noncomputable def cellTol : ℝ := if 0 < c.resArea then c.minV else 0

theorem res_facts (h : c.Physical) (hs : st.Ok c) (hup : 0 ≤ up) (hd : 0 < c.glolakeArea → 0 ≤ demand) :
    (let o := cellRes c st up demand
     |(st.res + (cellGloLake c st up demand).outflow + c.precip * (if c.resArea > 0 then c.resArea else 0))
       - (o.storage + o.outflow + o.gwr + o.evapKm3 + o.use)| ≤ cellTol c ∧ 0 ≤ o.outflow ∧
     (0 < c.resArea → o.use + o.unsat = if 0 < c.glolakeArea then demand / 2 + (cellGloLake c st up demand).unsat
        else demand) ∧
     (¬ 0 < c.resArea → o.use = 0) ∧
     (¬(c.arid = true ∧ c.sink = false) → o.gwr = 0) ∧
     (0 < c.resArea → 0 ≤ o.storage ∧ o.storage ≤ c.han.cap) ∧ 0 ≤ o.gwr ∧ 0 ≤ o.evapKm3) := by
  have hin := (gloLake_facts c st up demand h hs hup hd).1.out
  unfold cellRes cellTol
  by_cases hr : c.resArea > 0
  · simp only [if_pos hr]
    have hp := resIn_physical c st up demand h hs hup hd hr
    have hb := (hs.res hr).1
    have h1 := C17_balance _ st.res hp hb h.minV
    have h2 := C17_bounds _ st.res hp hb
    have h3 := C17_abstraction _ st.res hp hb
    refine ⟨h1, h2.2.2.1, fun _ => h3.1, fun h' => absurd hr h', fun hh => ?_, fun _ => ⟨h2.1, h2.2.1⟩, h2.2.2.2.1, h2.2.2.2.2.1⟩
    apply resGwr_zero
    simp only [cellResIn]
    cases ha : c.arid <;> cases hk : c.sink <;> simp_all
  · simp only [if_neg hr]
    refine ⟨?_, hin, fun h' => absurd h' hr, fun _ => trivial, fun _ => trivial, fun h' => absurd h' hr, le_rfl, le_rfl⟩
    simp

theorem gloWet_facts (h : c.Physical) (hs : st.Ok c) (hup : 0 ≤ up) (hd : 0 < c.glolakeArea → 0 ≤ demand) :
    BodyFacts st.gloWet (cellRes c st up demand).outflow c.precip
      (if c.gloWet.frac > 0 then lakeArea .globalWetland (c.lakeIn c.gloWet 0 0 0) st.gloWet else 0)
      (cellGloWet c st up demand) ∧ (cellGloWet c st up demand).use = 0 ∧
      (¬(c.arid = true ∧ c.sink = false) → (cellGloWet c st up demand).gwr = 0) ∧
      (0 < c.gloWet.frac → (cellGloWet c st up demand).storage ≤ c.gloWet.maxStorage) ∧
      0 ≤ (cellGloWet c st up demand).newFrac ∧ (cellGloWet c st up demand).newFrac ≤ c.gloWet.frac := by
  have hin := (res_facts c st up demand h hs hup hd).2.1
  unfold cellGloWet bodyDay
  split_ifs with hf
  · have hp := lakeIn_physical c h c.gloWet h.gloWet hf _ 0 0 hin le_rfl
    have hb := hs.gloWet hf
    have h1 := C13_lake_balance .globalWetland _ st.gloWet hp hb.1
    have h2 := C13_lake_fluxes .globalWetland _ st.gloWet hp hb.1
    have h3 := C14_global_wetland_bounds _ st.gloWet hp hb.1
    simp only [reduceCtorEq, if_false] at h2
    refine ⟨⟨h1, h3.2.1, h2.1, h2.2.1⟩, ?_, ?_, fun _ => h3.1, h2.2.2.2.2.1, h2.2.2.2.2.2.1⟩
    · linarith [h2.2.2.1, h2.2.2.2.1, h2.2.2.2.2.2.2.1]
    · intro hh
      apply h2.2.2.2.2.2.2.2.2
      simp only [CellIn.lakeIn]
      cases ha : c.arid <;> cases hk : c.sink <;> simp_all
  · exact ⟨⟨by simp [CellIn.lakeIn], hin, le_rfl, le_rfl⟩, rfl, fun _ => rfl, fun h' => absurd h' hf, le_rfl, h.gloWet.frac⟩

theorem gwKind_arid : c.gwKind = .arid ↔ c.arid = true ∧ c.sink = false := by
  unfold CellIn.gwKind; cases c.arid <;> cases c.sink <;> simp

theorem cellPoint_zero (h : c.Physical) (hs : st.Ok c) (hup : 0 ≤ up) (hd : 0 < c.glolakeArea → 0 ≤ demand)
    (ha : c.gwKind ≠ .arid) : cellPoint c st up demand = 0 := by
  have hn : ¬(c.arid = true ∧ c.sink = false) := fun h' => ha ((gwKind_arid c).2 h')
  unfold cellPoint
  rw [(locLake_facts c st h hs).2.2.1 hn, (locWet_facts c st h hs).2.2.1 hn,
    (gloLake_facts c st up demand h hs hup hd).2.2.2.1 hn, (gloWet_facts c st up demand h hs hup hd).2.2.1 hn,
    (res_facts c st up demand h hs hup hd).2.2.2.2.1 hn]
  ring

/-- Groundwater, the split and the inflow of the river: no drop is lost between them. -/
theorem riverIn_facts (h : c.Physical) (hs : st.Ok c) (hup : 0 ≤ up) (hd : 0 < c.glolakeArea → 0 ≤ demand) :
    st.gw + c.recharge + c.runoff + cellPoint c st up demand + (cellGloWet c st up demand).outflow =
      (cellGwFinal c st up demand).storage + (cellGwFinal c st up demand).nag + (cellSplit c st).1
      + cellRiverIn c st up demand ∧
    0 ≤ cellRiverIn c st up demand := by
  have hsp := split_facts c st h
  have hgw := C10_groundwater_balance c.gwKind st.gw c.recharge c.potNag c.unsatNas c.gwK c.withdrawal c.consumptive
    c.fracReturn (cellPoint c st up demand)
  have hout := (gloWet_facts c st up demand h hs hup hd).1.out
  have hz := cellPoint_zero c st up demand h hs hup hd
  have hdis := cellGw_discharge_nonneg c st (cellPoint c st up demand)
  change _ + _ + (if c.gwKind = .arid then cellPoint c st up demand else 0) - (cellGwFinal c st up demand).nag
    = (cellGwFinal c st up demand).storage + (cellGwFinal c st up demand).discharge ∧ _ at hgw
  change 0 ≤ (cellGwFinal c st up demand).discharge at hdis
  unfold cellRiverIn
  by_cases ha : c.gwKind = .arid
  · have hk := ((gwKind_arid c).1 ha).2
    have he : cellEarlyDischarge c st = 0 := by unfold cellEarlyDischarge; rw [if_pos ha]
    rw [if_pos ha] at hgw ⊢
    rw [he] at hsp
    simp only [hk, Bool.false_eq_true, if_false]
    exact ⟨by linarith [hgw.1, hsp.1], by linarith [hsp.2.2.1]⟩
  · have he : cellEarlyDischarge c st = (cellGwFinal c st up demand).discharge := by
      unfold cellEarlyDischarge cellGwFinal; rw [if_neg ha, hz ha]
    rw [if_neg ha] at hgw ⊢
    rw [he] at hsp
    have hz' := hz ha
    cases hk : c.sink
    · simp only [Bool.false_eq_true, if_false]
      exact ⟨by linarith [hgw.1, hsp.1], by linarith [hsp.2.2.1]⟩
    · have := hsp.2.2.2 hk
      simp only [if_true]
      exact ⟨by linarith [hgw.1, hsp.1], hout⟩

theorem river_k_pos (h : c.Physical) : 0 < outflowConstant st.river c.len c.width c.rough c.mult c.slope := by
  unfold outflowConstant riverVelocity
  have := h.len
  simp only
  split_ifs with hv
  · positivity
  · exact div_pos (by linarith) this

theorem tapped_facts (h : c.Physical) (hs : st.Ok c) :
    (let t := cellTapped c st up demand keep
     t.1 + t.2.2.2 = (cellLocLake c st).storage ∧ t.2.2.2 + t.2.1 = (cellRiver c st up demand keep).unsat ∧
     (0 < c.locLake.frac → -c.locLake.maxStorage ≤ t.1 ∧ t.1 ≤ c.locLake.maxStorage)) := by
  have hb := (locLake_facts c st h hs).2.2.2.1
  unfold cellTapped
  split_ifs with ht
  · obtain ⟨-, hf, hu, -⟩ := ht
    have := C22_local_lake (cellLocLake c st).storage c.locLake.maxStorage c.locLake.frac c.redExp
      (cellRiver c st up demand keep).unsat hu.le (hb hf).1 (hb hf).2
    exact ⟨by linarith [this.2.1], this.2.2.1, fun _ => ⟨this.2.2.2.2.1, this.2.2.2.2.2.1⟩⟩
  · exact ⟨by simp, by simp, hb⟩

/-- C25: the daily water balance of a cell closes. What enters the cell — runoff and recharge from land, and
precipitation on its open water — is what its storages gain, plus the cell's net runoff (streamflow minus inflow from
upstream; in an inland sink minus the inflow), plus evaporation from open water (in an inland sink including the
streamflow) and consumptive use. A reservoir may lose at most the volume below which it is emptied. -/
theorem C25_cell_balance (h : c.Physical) (hs : st.Ok c) (hup : 0 ≤ up) (hcorr : c.corr = 1)
    (hd : 0 < c.glolakeArea → 0 ≤ demand) :
    let o := cellDay c st up demand keep
    |(c.runoff + c.recharge + o.precipSwb) - (o.state.total - st.total + o.cellRunoff + o.evapTotal)| ≤
      (if 0 < c.resArea then c.minV else 0) := by
  obtain ⟨⟨l1, -, -, -⟩, l2, -⟩ := locLake_facts c st h hs
  obtain ⟨⟨w1, -, -, -⟩, w2, -⟩ := locWet_facts c st h hs
  obtain ⟨⟨g1, -, -, -⟩, g2, g3, -⟩ := gloLake_facts c st up demand h hs hup hd
  obtain ⟨r1, -, r2, r3, -⟩ := res_facts c st up demand h hs hup hd
  obtain ⟨⟨e1, -, -, -⟩, e2, -⟩ := gloWet_facts c st up demand h hs hup hd
  obtain ⟨q1, q2⟩ := riverIn_facts c st up demand h hs hup hd
  obtain ⟨t1, t2, -⟩ := tapped_facts c st up demand keep h hs
  have v1 := (C15_river_balance c.minV _ st.river _ (cellUnsat2 c st up demand keep) (river_k_pos c st h) hs.river
    q2).1
  have hv : riverBalance c.minV 1 (outflowConstant st.river c.len c.width c.rough c.mult c.slope) st.river
    (cellRiverIn c st up demand) (cellUnsat2 c st up demand keep) = cellRiver c st up demand keep := by
    unfold cellRiver; rw [hcorr]
  rw [hv] at v1
  have hgu : (if c.glolakeArea > 0 then (cellGloLake c st up demand).use else 0) = (cellGloLake c st up demand).use := by
    split_ifs with hh
    · rfl
    · exact (g3 hh).symm
  have hru : (if c.resArea > 0 then (cellRes c st up demand).use else 0) = (cellRes c st up demand).use := by
    split_ifs with hh
    · rfl
    · exact (r3 hh).symm
  have hp : cellPoint c st up demand = (cellLocLake c st).gwr + (cellLocWet c st).gwr + (cellGloLake c st up demand).gwr
    + (cellGloWet c st up demand).gwr + (cellRes c st up demand).gwr := rfl
  intro o
  have hcr : o.cellRunoff + (if c.sink then (cellRiver c st up demand keep).streamflow else 0) =
      (cellRiver c st up demand keep).streamflow - up := by
    simp only [o, cellDay]; cases c.sink <;> (simp; try ring)
  have key : (c.runoff + c.recharge + o.precipSwb) - (o.state.total - st.total + o.cellRunoff + o.evapTotal) =
      (st.res + (cellGloLake c st up demand).outflow + c.precip * (if c.resArea > 0 then c.resArea else 0))
       - ((cellRes c st up demand).storage + (cellRes c st up demand).outflow + (cellRes c st up demand).gwr
        + (cellRes c st up demand).evapKm3 + (cellRes c st up demand).use) := by
    have hev : o.evapTotal = (cellGwFinal c st up demand).nag
        + ((cellGloLake c st up demand).use + (cellRes c st up demand).use + (cellRiver c st up demand keep).use
          + (cellTapped c st up demand keep).2.2.2)
        + ((cellLocLake c st).evapKm3 + (cellLocWet c st).evapKm3 + (cellGloLake c st up demand).evapKm3
          + (cellRes c st up demand).evapKm3 + (cellGloWet c st up demand).evapKm3
          + (if c.sink then (cellRiver c st up demand keep).streamflow else 0)) := by
      simp only [o, cellDay]; rw [hgu, hru]
    have hto : o.state.total = (cellGwFinal c st up demand).storage + (cellTapped c st up demand keep).1
      + (cellLocWet c st).storage + (cellGloLake c st up demand).storage + (cellRes c st up demand).storage
      + (cellGloWet c st up demand).storage + (cellRiver c st up demand keep).storage := rfl
    have hpr : o.precipSwb = c.precip *
      ((if c.locLake.frac > 0 then lakeArea .localLake (c.lakeIn c.locLake 0 0 0) st.locLake else 0)
       + (if c.locWet.frac > 0 then lakeArea .localWetland (c.lakeIn c.locWet 0 0 0) st.locWet else 0)
       + (if c.gloWet.frac > 0 then lakeArea .globalWetland (c.lakeIn c.gloWet 0 0 0) st.gloWet else 0)
       + (if c.glolakeArea > 0 then c.glolakeArea else 0) + (if c.resArea > 0 then c.resArea else 0)) := rfl
    have hst : st.total = st.gw + st.locLake + st.locWet + st.gloLake + st.res + st.gloWet + st.river := rfl
    rw [hev, hto, hpr, hst]
    linarith
  rw [key]
  exact r1

/-- The station correction changes the streamflow and what depends on it, and nothing else in the cell. -/
theorem cellDay_corr (cf : ℝ) :
    let o := cellDay { c with corr := cf } st up demand keep
    let o1 := cellDay { c with corr := 1 } st up demand keep
    o.streamflow = cf * o1.streamflow ∧ o.state = o1.state ∧ o.nas = o1.nas ∧ o.nag = o1.nag ∧
    o.precipSwb = o1.precipSwb ∧ o.unsat = o1.unsat ∧ o.handed = o1.handed ∧
    o.cellRunoff + o.evapTotal - o.streamflow = o1.cellRunoff + o1.evapTotal - o1.streamflow := by
  have key := C15_station_correction c.minV cf (outflowConstant st.river c.len c.width c.rough c.mult c.slope) st.river
    (cellRiverIn c st up demand) (cellUnsat2 c st up demand keep)
  have e1 : (cellRiver { c with corr := cf } st up demand keep).streamflow
      = cf * (cellRiver { c with corr := 1 } st up demand keep).streamflow := key.1
  have e2 : (cellRiver { c with corr := cf } st up demand keep).storage
      = (cellRiver { c with corr := 1 } st up demand keep).storage := key.2.1
  have e3 : (cellRiver { c with corr := cf } st up demand keep).use
      = (cellRiver { c with corr := 1 } st up demand keep).use := key.2.2.1
  have e4 : (cellRiver { c with corr := cf } st up demand keep).unsat
      = (cellRiver { c with corr := 1 } st up demand keep).unsat := key.2.2.2
  refine ⟨e1, rfl, rfl, rfl, rfl, rfl, rfl, ?_⟩
  simp only [cellDay]
  change (if c.sink then -1 * up else _ - up) + (_ + _ + (_ + if c.sink then _ else 0)) - _
    = (if c.sink then -1 * up else _ - up) + (_ + _ + (_ + if c.sink then _ else 0)) - _
  have ec : cellTapped { c with corr := cf } st up demand keep = cellTapped { c with corr := 1 } st up demand keep := rfl
  have l1 : cellLocLake { c with corr := cf } st = cellLocLake { c with corr := 1 } st := rfl
  have l2 : cellLocWet { c with corr := cf } st = cellLocWet { c with corr := 1 } st := rfl
  have l3 : cellGloLake { c with corr := cf } st up demand = cellGloLake { c with corr := 1 } st up demand := rfl
  have l4 : cellRes { c with corr := cf } st up demand = cellRes { c with corr := 1 } st up demand := rfl
  have l5 : cellGloWet { c with corr := cf } st up demand = cellGloWet { c with corr := 1 } st up demand := rfl
  have l6 : cellGwFinal { c with corr := cf } st up demand = cellGwFinal { c with corr := 1 } st up demand := rfl
  rw [ec, l1, l2, l3, l4, l5, l6, e1, e3]
  cases c.sink
  · simp only [Bool.false_eq_true, if_false]; ring
  · simp only [if_true]; ring

/-- C25 with a station correction: the balance closes up to the water the correction adds or removes, which is the
difference between the streamflow and the streamflow divided by the factor. -/
theorem C25_cell_balance_corrected (h : c.Physical) (hs : st.Ok c) (hup : 0 ≤ up) (hcorr : c.corr ≠ 0)
    (hd : 0 < c.glolakeArea → 0 ≤ demand) :
    let o := cellDay c st up demand keep
    |(c.runoff + c.recharge + o.precipSwb)
      - (o.state.total - st.total + o.cellRunoff + o.evapTotal + (o.streamflow / c.corr - o.streamflow))| ≤
      (if 0 < c.resArea then c.minV else 0) := by
  have hp : CellIn.Physical { c with corr := 1 } :=
    { precip := h.precip, openPet := h.openPet, runoff := h.runoff, minV := h.minV, factor := h.factor,
      swbK := h.swbK, gwConst := h.gwConst, redExp := h.redExp, len := h.len, locLake := h.locLake,
      locWet := h.locWet, gloWet := h.gloWet, maxGlolake := h.maxGlolake, cap := h.cap }
  have hs' : st.Ok { c with corr := 1 } :=
    { locLake := hs.locLake, locWet := hs.locWet, gloLake := hs.gloLake, res := hs.res, gloWet := hs.gloWet,
      river := hs.river }
  have b := C25_cell_balance { c with corr := 1 } st up demand keep hp hs' hup rfl hd
  obtain ⟨k1, k2, -, -, k5, -, -, k8⟩ := cellDay_corr c st up demand keep c.corr
  simp only at b k1 k2 k5 k8 ⊢
  change (cellDay c st up demand keep).streamflow = _ at k1
  change (cellDay c st up demand keep).state = _ at k2
  change (cellDay c st up demand keep).precipSwb = _ at k5
  change (cellDay c st up demand keep).cellRunoff + (cellDay c st up demand keep).evapTotal - (cellDay c st up demand keep).streamflow = _ at k8
  have e : (cellDay c st up demand keep).streamflow / c.corr
      = (cellDay { c with corr := 1 } st up demand keep).streamflow := by
    rw [k1]; field_simp
  rw [e, k2, k5]
  refine le_trans (le_of_eq ?_) b
  congr 1
  linarith

/-- C25: the demand on surface water of a cell is accounted for: it is abstracted, still unsatisfied in the cell, or
handed to riparian cells. -/
theorem C25_demand (h : c.Physical) (hs : st.Ok c) (hup : 0 ≤ up) (hd : 0 < c.glolakeArea → 0 ≤ demand) :
    let o := cellDay c st up demand keep
    o.nas + o.unsat + o.handed = demand := by
  obtain ⟨-, g2, -⟩ := gloLake_facts c st up demand h hs hup hd
  obtain ⟨-, -, r2, -⟩ := res_facts c st up demand h hs hup hd
  obtain ⟨-, q2⟩ := riverIn_facts c st up demand h hs hup hd
  obtain ⟨-, t2, -⟩ := tapped_facts c st up demand keep h hs
  have v : (cellRiver c st up demand keep).use + (cellRiver c st up demand keep).unsat = cellUnsat2 c st up demand keep :=
    (C15_abstraction c.minV c.corr _ st.river _ (cellUnsat2 c st up demand keep) (river_k_pos c st h) hs.river q2).2.1
  have hu : (if c.glolakeArea > 0 then (cellGloLake c st up demand).use else 0)
      + (if c.resArea > 0 then (cellRes c st up demand).use else 0) + cellUnsat1 c st up demand = demand := by
    unfold cellUnsat1
    by_cases hg : 0 < c.glolakeArea
    · have g2 := g2 hg
      by_cases hr : 0 < c.resArea
      · have r2 := r2 hr
        rw [if_pos hg] at r2 ⊢
        rw [if_pos hr] at g2 ⊢
        rw [if_pos hr]; linarith
      · rw [if_neg hr] at g2 ⊢
        rw [if_neg hr, if_pos hg, if_pos hg]; linarith
    · by_cases hr : 0 < c.resArea
      · have r2 := r2 hr
        rw [if_neg hg] at r2 ⊢
        rw [if_pos hr, if_pos hr]; linarith
      · rw [if_neg hg, if_neg hr, if_neg hr, if_neg hg]; ring
  simp only [cellDay]
  linarith

/-- C25: the unsatisfied demand left in the cell is never negative when the redistribution keeps nothing negative,
and what is abstracted from a cell without global lake and reservoir is never more than the demand. -/
theorem C25_unsat_nonneg (h : c.Physical) (hs : st.Ok c) (hup : 0 ≤ up) (hd : 0 < c.glolakeArea → 0 ≤ demand) :
    let o := cellDay c st up demand keep
    0 ≤ o.unsat ∧ (¬ 0 < c.glolakeArea → ¬ 0 < c.resArea → o.nas ≤ demand ∧ o.handed = 0) := by
  obtain ⟨-, q2⟩ := riverIn_facts c st up demand h hs hup hd
  have v := C15_abstraction c.minV c.corr _ st.river _ (cellUnsat2 c st up demand keep) (river_k_pos c st h) hs.river q2
  have hru : 0 ≤ (cellRiver c st up demand keep).unsat := v.2.2.1
  have hbal := C25_demand c st up demand keep h hs hup hd
  have h0 : 0 ≤ (cellDay c st up demand keep).unsat := by
    change 0 ≤ (cellTapped c st up demand keep).2.1
    have hb := (locLake_facts c st h hs).2.2.2.1
    unfold cellTapped
    split_ifs with ht
    · obtain ⟨-, hf, hu, -⟩ := ht
      exact (C22_local_lake (cellLocLake c st).storage c.locLake.maxStorage c.locLake.frac c.redExp
        (cellRiver c st up demand keep).unsat hu.le (hb hf).1 (hb hf).2).2.2.2.1
    · exact hru
  refine ⟨h0, fun hg hr => ?_⟩
  have hh : (cellDay c st up demand keep).handed = 0 := by
    change cellUnsat1 c st up demand - cellUnsat2 c st up demand keep = 0
    unfold cellUnsat2
    rw [if_neg (by rintro ⟨-, h' | h'⟩ <;> contradiction)]
    ring
  simp only at hbal
  exact ⟨by linarith, hh⟩

/-- C25: demand is left unsatisfied only when nothing is left to take: then the river of the cell is empty and, where
water use is simulated, its local lake is at the lowest level. The local lake is tapped only when the river
is empty. -/
theorem C25_exhausted (h : c.Physical) (hs : st.Ok c) (hup : 0 ≤ up) (hd : 0 < c.glolakeArea → 0 ≤ demand) :
    let o := cellDay c st up demand keep
    (0 < o.unsat → o.state.river = 0 ∧ (c.useOpt = true → 0 < c.locLake.frac → o.state.locLake = -c.locLake.maxStorage)) ∧
    (o.state.locLake ≠ (cellLocLake c st).storage → o.state.river = 0) := by
  obtain ⟨-, q2⟩ := riverIn_facts c st up demand h hs hup hd
  have v := C15_abstraction c.minV c.corr _ st.river _ (cellUnsat2 c st up demand keep) (river_k_pos c st h) hs.river q2
  have hru : 0 ≤ (cellRiver c st up demand keep).unsat := v.2.2.1
  have hre : 0 < (cellRiver c st up demand keep).unsat → (cellRiver c st up demand keep).storage = 0 := v.2.2.2
  have hb := (locLake_facts c st h hs).2.2.2.1
  intro o
  change (0 < (cellTapped c st up demand keep).2.1 → (cellRiver c st up demand keep).storage = 0 ∧ (_ → _ →
    (cellTapped c st up demand keep).1 = -c.locLake.maxStorage)) ∧ ((cellTapped c st up demand keep).1 ≠ _ →
    (cellRiver c st up demand keep).storage = 0)
  by_cases ht : cellTap c st up demand keep
  · obtain ⟨-, hf, hu, -⟩ := id ht
    have h22 := C22_local_lake (cellLocLake c st).storage c.locLake.maxStorage c.locLake.frac c.redExp
      (cellRiver c st up demand keep).unsat hu.le (hb hf).1 (hb hf).2
    unfold cellTapped
    rw [if_pos ht]
    refine ⟨fun hun => ⟨hre hu, fun _ _ => ?_⟩, fun _ => hre hu⟩
    obtain ⟨e1, e2, e3, -, -, -, e4⟩ := h22
    have hlt : (cellLocLake c st).storage + c.locLake.maxStorage ≤ (cellRiver c st up demand keep).unsat := by
      by_contra hn
      rw [e4 (by linarith)] at hun
      exact lt_irrefl _ hun
    rw [min_eq_right hlt] at e1
    rw [e2, e1]; ring
  · unfold cellTapped
    rw [if_neg ht]
    refine ⟨fun hun => ⟨hre hun, fun h1 h2 => ?_⟩, fun hne => absurd rfl hne⟩
    have : ¬ (cellLocLake c st).storage > -1 * c.locLake.maxStorage := fun hh => ht ⟨h1, h2, hun, hh⟩
    have := (hb h2).1
    simp only
    linarith

/-- C25: the release coefficient of the reservoir is carried on to the next day: it changes on the first day of the
reservoir's start month only, and then follows from the reservoir's filling before the release. -/
theorem C25_coefficient (h : c.Physical) (hs : st.Ok c) (hup : 0 ≤ up) (hd : 0 < c.glolakeArea → 0 ≤ demand) :
    let o := cellDay c st up demand keep
    (¬ (0 < c.resArea ∧ c.han.month = c.han.startMonth ∧ c.han.day = 1) → o.state.k = st.k) ∧
    (0 < c.resArea → c.han.month = c.han.startMonth → c.han.day = 1 →
      let before := o.state.res + (cellRes c st up demand).outflow
      o.state.k = if before < c.han.cap / 10 then 1 / 10 else before / (85 / 100 * c.han.cap)) := by
  intro o
  have hk : o.state.k = (cellRes c st up demand).kRelease := rfl
  have hres : o.state.res = (cellRes c st up demand).storage := rfl
  rw [hk, hres]
  by_cases hr : 0 < c.resArea
  · have hp := resIn_physical c st up demand h hs hup hd hr
    have hcap : 0 < c.han.cap := hp.cap
    have e : cellRes c st up demand = resBalance (cellResIn c st up demand) st.res := by
      unfold cellRes; rw [if_pos hr]
    have h18 := C18_coefficient (cellResIn c st up demand).han (resBeforeRelease (cellResIn c st up demand) st.res)
    rw [e]
    refine ⟨fun hn => h18.1 fun hh => hn ⟨hr, hh⟩, fun _ hm hdy => ?_⟩
    obtain ⟨k1, k2, -⟩ := h18.2 hm hdy hcap
    obtain ⟨-, a2, -, -⟩ := resAbstract_facts (resDemand (cellResIn c st up demand)) (resStorage1 (cellResIn c st up demand) st.res)
      (cellResIn c st up demand).han.cap hcap (resStorage1_nonneg _ _ hp (hs.res hr).1)
    have hbf : 0 ≤ resBeforeRelease (cellResIn c st up demand) st.res := flush_nonneg' _ _ a2
    obtain ⟨r1, -⟩ := resRelease_facts (resBeforeRelease (cellResIn c st up demand) st.res)
      (hanasaki (cellResIn c st up demand).han (resBeforeRelease (cellResIn c st up demand) st.res)).1 _ hcap hbf
    have hb : (resBalance (cellResIn c st up demand) st.res).storage + (resBalance (cellResIn c st up demand) st.res).outflow
        = resBeforeRelease (cellResIn c st up demand) st.res := r1.symm
    simp only
    rw [hb]
    by_cases hlow : resBeforeRelease (cellResIn c st up demand) st.res < c.han.cap / 10
    · rw [if_pos hlow]; exact k1 hlow
    · rw [if_neg hlow]; exact (k2 (not_lt.mp hlow)).1
  · refine ⟨fun _ => ?_, fun h' => absurd h' hr⟩
    unfold cellRes; rw [if_neg hr]

/-- C37/C25: a reservoir storage without area stays as it is, whatever happens in the cell. -/
theorem C37_stranded (hr : ¬ 0 < c.resArea) : (cellDay c st up demand keep).state.res = st.res := by
  change (cellRes c st up demand).storage = st.res
  unfold cellRes; rw [if_neg hr]

/-- When a global wetland is deep enough not to run dry within a day: a day's evaporation and recharge at full area
are small compared with its capacity. -/
def CellIn.WetDeep : Prop :=
  0 < c.gloWet.frac → 1 ≤ c.redExp ∧
    c.redExp * c.gloWet.maxArea * (max 0 ((1 - c.cfa) * c.precip + c.cfa * c.openPet) + c.gwConst * 0.001) ≤
      c.gloWet.maxStorage * (c.swbK / (Real.exp c.swbK - 1))

/-- C25: a day keeps every storage of the cell within its limits. -/
theorem C25_state (h : c.Physical) (hs : st.Ok c) (hup : 0 ≤ up) (hd : 0 < c.glolakeArea → 0 ≤ demand)
    (hwet : c.WetDeep) :
    (cellDay c st up demand keep).state.Ok c := by
  have hl := (tapped_facts c st up demand keep h hs).2.2
  have hw := (locWet_facts c st h hs).2.2.2.1
  have hg := (gloLake_facts c st up demand h hs hup hd).2.2.2.2
  have hr := (res_facts c st up demand h hs hup hd).2.2.2.2.2.1
  have hrin := (res_facts c st up demand h hs hup hd).2.1
  obtain ⟨-, q2⟩ := riverIn_facts c st up demand h hs hup hd
  refine ⟨hl, hw, hg, hr, fun hf => ?_, ?_⟩
  · have hp := lakeIn_physical c h c.gloWet h.gloWet hf _ 0 0 hrin le_rfl
    have hb := hs.gloWet hf
    obtain ⟨he, hdeep⟩ := hwet hf
    have hev : lakeEvap .globalWetland (c.lakeIn c.gloWet (cellRes c st up demand).outflow 0 0) st.gloWet
        = max 0 ((1 - c.cfa) * c.precip + c.cfa * c.openPet) := by
      simp only [lakeEvap, CellIn.lakeIn, reduceCtorEq, if_false]
      split_ifs with hn
      · rw [max_eq_left hn.le]
      · rw [max_eq_right (not_lt.mp hn)]
    have := C14_global_wetland_deep _ st.gloWet hp he hb.1 hb.2 (by rw [hev]; exact hdeep)
    change 0 ≤ (cellGloWet c st up demand).storage ∧ (cellGloWet c st up demand).storage ≤ _
    unfold cellGloWet bodyDay
    rw [if_pos hf]
    exact ⟨this.1, this.2.1⟩
  · have := (C15_river_balance c.minV _ st.river _ (cellUnsat2 c st up demand keep) (river_k_pos c st h) hs.river q2).2.1
    have e := (C15_station_correction c.minV c.corr (outflowConstant st.river c.len c.width c.rough c.mult c.slope)
      st.river (cellRiverIn c st up demand) (cellUnsat2 c st up demand keep)).2.1
    change 0 ≤ (cellRiver c st up demand keep).storage
    unfold cellRiver
    rw [e]; exact this

/-- C25: what a cell passes downstream, evaporates and recharges is never negative, and its lakes and wetlands never
cover more than their share of the cell. -/
theorem C25_fluxes (h : c.Physical) (hs : st.Ok c) (hup : 0 ≤ up) (hcorr : 0 ≤ c.corr)
    (hd : 0 < c.glolakeArea → 0 ≤ demand) :
    let o := cellDay c st up demand keep
    0 ≤ o.streamflow ∧ 0 ≤ o.evap ∧ 0 ≤ cellPoint c st up demand ∧
    0 ≤ o.locLakeFrac ∧ o.locLakeFrac ≤ c.locLake.frac ∧ 0 ≤ o.locWetFrac ∧ o.locWetFrac ≤ c.locWet.frac ∧ 0 ≤ o.gloWetFrac ∧
    o.gloWetFrac ≤ c.gloWet.frac := by
  have hw := (locWet_facts c st h hs).2.2.2.2
  have hgw := (gloWet_facts c st up demand h hs hup hd).2.2.2.2
  obtain ⟨-, q2⟩ := riverIn_facts c st up demand h hs hup hd
  have hq := (C15_river_balance c.minV _ st.river _ (cellUnsat2 c st up demand keep) (river_k_pos c st h) hs.river q2).2.2
  have e := (C15_station_correction c.minV c.corr (outflowConstant st.river c.len c.width c.rough c.mult c.slope)
      st.river (cellRiverIn c st up demand) (cellUnsat2 c st up demand keep)).1
  have h0 : 0 ≤ (cellRiver c st up demand keep).streamflow := by
    unfold cellRiver
    rw [e]; exact mul_nonneg hcorr hq
  have f1 := (locLake_facts c st h hs).1
  have f2 := (locWet_facts c st h hs).1
  have f3 := (gloLake_facts c st up demand h hs hup hd).1
  have f4 := (res_facts c st up demand h hs hup hd).2.2.2.2.2.2
  have f5 := (gloWet_facts c st up demand h hs hup hd).1
  have hll : 0 ≤ (cellTapped c st up demand keep).2.2.1 ∧ (cellTapped c st up demand keep).2.2.1 ≤ c.locLake.frac := by
    unfold cellTapped
    split_ifs
    · exact C22_fraction _ _ _ _ _ h.locLake.frac
    · exact (locLake_facts c st h hs).2.2.2.2
  refine ⟨h0, ?_, ?_, hll.1, hll.2, hw.1, hw.2, hgw.1, hgw.2⟩
  · simp only [cellDay]
    have : 0 ≤ (if c.sink = true then (cellRiver c st up demand keep).streamflow else 0) := by
      split_ifs <;> first | exact h0 | exact le_rfl
    linarith [f1.evap, f2.evap, f3.evap, f4.2, f5.evap]
  · unfold cellPoint
    linarith [f1.gwr, f2.gwr, f3.gwr, f4.1, f5.gwr]

end

/-! ### Histories of a cell -/

/-- What a cell sees on one day: its inputs, inflow from upstream, demand, and how demand is redistributed. -/
structure CellDay where
  c : CellIn
  up : ℝ
  demand : ℝ
  keep : ℝ → ℝ

/-- The storages of a cell after consecutive days, and the sums of net runoff, evaporation with use, and precipitation
on open water. -/
noncomputable def cellRun : CellState → List CellDay → CellState × ℝ × ℝ × ℝ
  | s, [] => (s, 0, 0, 0)
  | s, d :: ds =>
    let o := cellDay d.c s d.up d.demand d.keep
    let r := cellRun o.state ds
    (r.1, o.cellRunoff + r.2.1, o.evapTotal + r.2.2.1, o.precipSwb + r.2.2.2)

/-- The water bodies of the cell are the same. -/
structure SameBodies (c c' : CellIn) : Prop where
  locLake : c.locLake = c'.locLake
  locWet : c.locWet = c'.locWet
  gloWet : c.gloWet = c'.gloWet
  area : c.glolakeArea = c'.glolakeArea
  max : c.maxGlolake = c'.maxGlolake
  resArea : c.resArea = c'.resArea
  cap : c.han.cap = c'.han.cap

theorem Ok_same {c c' : CellIn} {s : CellState} (hc : SameBodies c c') (h : s.Ok c) : s.Ok c' where
  locLake := by rw [← hc.locLake]; exact h.locLake
  locWet := by rw [← hc.locWet]; exact h.locWet
  gloLake := by rw [← hc.area, ← hc.max]; exact h.gloLake
  res := by rw [← hc.resArea, ← hc.cap]; exact h.res
  gloWet := by rw [← hc.gloWet]; exact h.gloWet
  river := h.river

/-- A sensible day for the cell `c0`. -/
structure CellDay.Good (c0 : CellIn) (d : CellDay) : Prop where
  same : SameBodies c0 d.c
  physical : d.c.Physical
  up : 0 ≤ d.up
  demand : 0 < d.c.glolakeArea → 0 ≤ d.demand
  wet : d.c.WetDeep

theorem SameBodies.symm {c c' : CellIn} (h : SameBodies c c') : SameBodies c' c :=
  ⟨h.1.symm, h.2.symm, h.3.symm, h.4.symm, h.5.symm, h.6.symm, h.7.symm⟩

/-- C25: over any sequence of days, of any length, the storages of the cell stay within their limits. -/
theorem C25_history (c0 : CellIn) (days : List CellDay) (hd : ∀ d ∈ days, d.Good c0) (s : CellState) (hs : s.Ok c0) :
    (cellRun s days).1.Ok c0 := by
  induction days generalizing s with
  | nil => exact hs
  | cons d ds ih =>
    have g := hd d (by simp)
    exact ih (fun x hx => hd x (by simp [hx])) _
      (Ok_same g.same.symm (C25_state d.c s d.up d.demand d.keep g.physical (Ok_same g.same hs) g.up g.demand g.wet))

/-- C25: over any sequence of days without station correction the long-term balance of the cell closes: the water
that entered is in the storages, ran off, evaporated or was used, up to one flushed volume per day with a
reservoir. -/
theorem C25_longterm_balance (c0 : CellIn) (minV : ℝ) (days : List CellDay)
    (hd : ∀ d ∈ days, d.Good c0 ∧ d.c.corr = 1 ∧ d.c.minV = minV) (s : CellState) (hs : s.Ok c0) :
    let r := cellRun s days
    |(s.total + (days.map fun d => d.c.runoff + d.c.recharge).sum + r.2.2.2) - (r.1.total + r.2.1 + r.2.2.1)| ≤
      days.length * (if 0 < c0.resArea then minV else 0) := by
  induction days generalizing s with
  | nil => simp [cellRun]
  | cons d ds ih =>
    obtain ⟨g, gc, gm⟩ := hd d (by simp)
    have hs' := Ok_same g.same hs
    have hst := Ok_same g.same.symm (C25_state d.c s d.up d.demand d.keep g.physical hs' g.up g.demand g.wet)
    have h1 := ih (fun x hx => hd x (by simp [hx])) _ hst
    have h2 := C25_cell_balance d.c s d.up d.demand d.keep g.physical hs' g.up gc g.demand
    rw [gm, ← g.same.resArea] at h2
    simp only [cellRun, List.map_cons, List.sum_cons, List.length_cons, Nat.cast_add, Nat.cast_one] at h1 h2 ⊢
    rw [abs_le] at h1 h2 ⊢
    constructor <;> nlinarith [h1.1, h1.2, h2.1, h2.2]

/-! ### A cell that meets the hypotheses -/

/-- An arid cell with a local lake, a global lake, a reservoir and a global wetland. -/
noncomputable def exCell : CellIn :=
  { arid := true, sink := false, useOpt := true, precip := 1e-6, openPet := 3e-6, runoff := 0.001, recharge := 0.0005,
    cfa := 1, corr := 1, minV := 1e-12, gwK := 0.01, potNag := 0.0001, unsatNas := 0, withdrawal := 0, consumptive := 0,
    fracReturn := 0.5, factor := 20, swbK := 0.01, gwConst := 0, redExp := 3, resRedExp := 2.8, lakeExp := 1.5,
    wetExp := 2.5, locLake := ⟨0.02, 40, 0.2⟩, locWet := ⟨0, 0, 0⟩, gloWet := ⟨0.01, 30, 0.06⟩, glolakeArea := 100,
    maxGlolake := 0.5, resArea := 50, resFirstDay := false,
    han := ⟨2, 4, 4, 1, 0.8, .irrigation, 0.01, 1e8, 20, 0, 30⟩, len := 55, width := 0.05, rough := 0.03, mult := 3,
    slope := 0.001 }

/-- Its storages on some day: the local lake has fallen below its outlet. -/
noncomputable def exState : CellState :=
  { gw := -0.3, locLake := -0.05, locWet := 0, gloLake := 0.2, res := 1.1, k := 0.8, gloWet := 0.03, river := 0.004 }

theorem exCell_physical : exCell.Physical := by
  constructor <;> (try unfold exCell) <;> (try constructor) <;> norm_num

theorem exState_ok : exState.Ok exCell := by
  constructor <;> (try unfold exCell) <;> (try unfold exState) <;> norm_num

theorem exCell_deep : exCell.WetDeep := by
  intro _
  have he : Real.exp (0.01 : ℝ) - 1 ≤ 0.02 := by
    have := Real.exp_bound_div_one_sub_of_interval (x := (0.01 : ℝ)) (by norm_num) (by norm_num)
    norm_num at this ⊢
    linarith
  have hp : 0 < Real.exp (0.01 : ℝ) - 1 := by
    have := Real.add_one_lt_exp (x := (0.01 : ℝ)) (by norm_num)
    linarith
  unfold exCell
  refine ⟨by norm_num, ?_⟩
  simp only
  have h2 : (0.5 : ℝ) ≤ 0.01 / (Real.exp 0.01 - 1) := by
    rw [le_div_iff₀ hp]; linarith
  have h3 : max (0 : ℝ) ((1 - 1) * 1e-6 + 1 * 3e-6) = 3e-6 := by rw [max_eq_right] <;> norm_num
  rw [h3]
  norm_num at h2 ⊢
  linarith

example := C25_cell_balance exCell exState 0.02 0.3 (fun d => d / 2) exCell_physical exState_ok (by norm_num) rfl
  (fun _ => by norm_num)
example := C25_cell_balance_corrected { exCell with corr := 1.2 } exState 0.02 0.3 id
example := C25_demand exCell exState 0.02 0.3 (fun d => d / 2) exCell_physical exState_ok (by norm_num)
  (fun _ => by norm_num)
example := C25_state exCell exState 0.02 0.3 (fun d => d / 2) exCell_physical exState_ok (by norm_num)
  (fun _ => by norm_num) exCell_deep
example : ∃ days : List CellDay, days.length = 2 ∧ (cellRun exState days).1.Ok exCell :=
  ⟨[⟨exCell, 0.02, 0.3, id⟩, ⟨exCell, 0, 0.1, id⟩], rfl,
    C25_history exCell _ (by
      intro d hd
      simp only [List.mem_cons, List.not_mem_nil, or_false] at hd
      rcases hd with rfl | rfl
      · exact ⟨⟨rfl, rfl, rfl, rfl, rfl, rfl, rfl⟩, exCell_physical, by norm_num, fun _ => by norm_num, exCell_deep⟩
      · exact ⟨⟨rfl, rfl, rfl, rfl, rfl, rfl, rfl⟩, exCell_physical, by norm_num, fun _ => by norm_num, exCell_deep⟩)
      exState exState_ok⟩

example := C25_exhausted exCell exState 0.02 30 (fun d => d / 2) exCell_physical exState_ok (by norm_num)
  (fun _ => by norm_num)
example := C25_coefficient exCell exState 0.02 0.3 (fun d => d / 2) exCell_physical exState_ok (by norm_num)
  (fun _ => by norm_num)

example := C37_stranded { exCell with resArea := 0 } exState 0.02 0.3 (fun d => d / 2) (by norm_num)

end WG
