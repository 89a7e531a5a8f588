import Verif.Model.Reservoir
import Verif.Props.Groundwater

/-! Properties C17, C18: reservoirs. -/

namespace WG

/-- Physical inputs of a reservoir day. Demand may have any sign, the correction factor any value. -/
structure ResIn.Physical (i : ResIn) : Prop where
  precip : 0 ≤ i.precip
  openPet : 0 ≤ i.openPet
  inflow : 0 ≤ i.han.inflow
  gwConst : 0 ≤ i.gwConst
  area : 0 ≤ i.area
  cap : 0 < i.han.cap

section
variable (i : ResIn) (s : ℝ)

theorem resRed_nonneg : 0 ≤ resRed i s := by
  unfold resRed; split_ifs
  · exact le_rfl
  · exact (C12_fraction _ _ _ _).1

theorem resEvap_nonneg : 0 ≤ resEvap i s := by
  unfold resEvap; simp only; split_ifs with h
  · exact le_rfl
  · exact not_lt.mp h

theorem resGwr_nonneg (h : i.Physical) : 0 ≤ resGwr i s := by
  have := resRed_nonneg i s
  have h1 := h.gwConst
  have h2 := h.area
  unfold resGwr; split_ifs
  · positivity
  · exact le_rfl

theorem resCut_mul : resPet i s * resCut i s =
    if resPet i s > 0 ∧ resPet i s > resPetMax i s then resPetMax i s else resPet i s := by
  unfold resCut
  split_ifs with h
  · have := h.1.ne'
    field_simp
  · ring

theorem resStorage1_eq : resStorage1 i s = s + resTotalIn i - resPet i s * resCut i s := by
  rw [resCut_mul]
  unfold resStorage1 resPetMax
  split_ifs <;> ring

theorem resPet_nonneg (h : i.Physical) : 0 ≤ resPet i s := by
  have := resEvap_nonneg i s
  have := resGwr_nonneg i s h
  have := h.area
  unfold resPet; positivity

theorem resStorage1_nonneg (h : i.Physical) (hs : 0 ≤ s) : 0 ≤ resStorage1 i s := by
  have hp := resPet_nonneg i s h
  have h1 := h.precip
  have h2 := h.area
  have h3 := h.inflow
  have ht : 0 ≤ resTotalIn i := by unfold resTotalIn; positivity
  unfold resStorage1
  split_ifs with hc
  · exact le_rfl
  · rw [not_and_or] at hc
    rcases hc with hc | hc
    · linarith [not_lt.mp hc]
    · have := not_lt.mp hc
      unfold resPetMax at this; linarith

end

theorem resAbstract_facts (d st cap : ℝ) (hcap : 0 < cap) (hst : 0 ≤ st) :
    (resAbstract d st cap).1 = st - (d - (resAbstract d st cap).2) ∧
    0 ≤ (resAbstract d st cap).1 ∧
    (0 ≤ d → d - (resAbstract d st cap).2 = min d (max 0 (st - cap / 10))) ∧
    (d < 0 → (resAbstract d st cap).2 = 0) := by
  unfold resAbstract
  have e : 0.1 * cap = cap / 10 := by ring
  rw [e]
  split_ifs with h1 h2 h3
  · exact ⟨by ring, by simp only; linarith, fun h => absurd h1 (not_lt.mpr h), fun _ => rfl⟩
  · refine ⟨by ring, by simp only; linarith, fun _ => ?_, fun h => absurd h h1⟩
    rw [max_eq_right (by linarith), min_eq_left h3.le]; ring
  · refine ⟨by ring, by simp only; linarith, fun _ => ?_, fun h => absurd h h1⟩
    rw [max_eq_right (by linarith), min_eq_right (not_lt.mp h3)]; ring
  · refine ⟨by ring, by simp only; linarith, fun h => ?_, fun h => absurd h h1⟩
    rw [max_eq_left (by linarith [not_lt.mp h2]), min_eq_right h]; ring

theorem resRelease_facts (st r cap : ℝ) (hcap : 0 < cap) (hst : 0 ≤ st) :
    st = (resRelease st r cap).1 + (resRelease st r cap).2 ∧ 0 ≤ (resRelease st r cap).1 ∧
    (resRelease st r cap).1 ≤ cap ∧ 0 ≤ (resRelease st r cap).2 := by
  unfold resRelease
  simp only
  generalize ho : (if st ≥ cap * 0.1 then r * (86400 / 1e9) else 0.1 * r * (86400 / 1e9)) = o
  have h1 : 0 ≤ (if o < 0 then 0 else o) := by
    split_ifs with h
    · exact le_rfl
    · exact not_lt.mp h
  generalize (if o < 0 then 0 else o) = o1 at *
  by_cases h2 : st - o1 > cap
  · simp only [if_pos h2]
    rw [if_neg (not_lt.mpr hcap.le)]
    exact ⟨by ring, hcap.le, le_rfl, by simp only; linarith⟩
  · simp only [if_neg h2]
    split_ifs with h3
    · exact ⟨by ring, le_rfl, hcap.le, by simp only; linarith⟩
    · exact ⟨by ring, not_lt.mp h3, not_lt.mp h2, h1⟩

theorem flush_abs (minV x : ℝ) (h : 0 ≤ minV) : |x - flush minV x| ≤ minV := by
  unfold flush; split_ifs with hx
  · simpa using hx
  · simpa using h

theorem flush_nonneg' (minV x : ℝ) (h : 0 ≤ x) : 0 ≤ flush minV x := by
  unfold flush; split_ifs
  · exact le_rfl
  · exact h

/-! ### C17 -/

/-- C17: the balance of the day closes up to the volume below which a storage is set to zero (exactly when that
volume is zero). -/
theorem C17_balance (i : ResIn) (s : ℝ) (h : i.Physical) (hs : 0 ≤ s) (hm : 0 ≤ i.minV) :
    let o := resBalance i s
    |(s + i.han.inflow + i.precip * i.area) - (o.storage + o.outflow + o.gwr + o.evapKm3 + o.use)| ≤ i.minV := by
  obtain ⟨a1, a2, -, -⟩ := resAbstract_facts (resDemand i) (resStorage1 i s) i.han.cap h.cap
    (resStorage1_nonneg i s h hs)
  have hb : 0 ≤ resBeforeRelease i s := flush_nonneg' _ _ a2
  obtain ⟨r1, -⟩ := resRelease_facts (resBeforeRelease i s) (hanasaki i.han (resBeforeRelease i s)).1 i.han.cap h.cap hb
  have hf := flush_abs i.minV (resAbstract (resDemand i) (resStorage1 i s) i.han.cap).1 hm
  have hcut := resStorage1_eq i s
  have key : (s + i.han.inflow + i.precip * i.area) - ((resBalance i s).storage + (resBalance i s).outflow
      + (resBalance i s).gwr + (resBalance i s).evapKm3 + (resBalance i s).use)
      = (resAbstract (resDemand i) (resStorage1 i s) i.han.cap).1 - resBeforeRelease i s := by
    simp only [resBalance]
    rw [a1, hcut]
    unfold resTotalIn resPet
    linarith
  simp only
  rw [key]
  exact hf

/-- C17: storage stays within empty and full, and no flux is negative. -/
theorem C17_bounds (i : ResIn) (s : ℝ) (h : i.Physical) (hs : 0 ≤ s) :
    let o := resBalance i s
    0 ≤ o.storage ∧ o.storage ≤ i.han.cap ∧ 0 ≤ o.outflow ∧ 0 ≤ o.gwr ∧ 0 ≤ o.evapKm3 ∧
    o.evapKm3 + o.gwr ≤ s + i.han.inflow + i.precip * i.area := by
  have s1 := resStorage1_nonneg i s h hs
  obtain ⟨a1, a2, -, -⟩ := resAbstract_facts (resDemand i) (resStorage1 i s) i.han.cap h.cap s1
  have hb : 0 ≤ resBeforeRelease i s := flush_nonneg' _ _ a2
  obtain ⟨-, r2, r3, r4⟩ := resRelease_facts (resBeforeRelease i s)
    (hanasaki i.han (resBeforeRelease i s)).1 i.han.cap h.cap hb
  have hc : 0 ≤ resCut i s := by
    have h1 := h.precip
    have h2 := h.area
    have h3 := h.inflow
    have : 0 ≤ resPetMax i s := by unfold resPetMax resTotalIn; positivity
    unfold resCut; split_ifs with hc
    · exact div_nonneg this hc.1.le
    · exact zero_le_one
  have he := resEvap_nonneg i s
  have hg := resGwr_nonneg i s h
  have ha := h.area
  refine ⟨r2, r3, r4, mul_nonneg hg hc, mul_nonneg (mul_nonneg he hc) ha, ?_⟩
  rw [resStorage1_eq] at s1
  simp only [resBalance]
  unfold resPet resTotalIn at s1
  linarith

/-- C17: the demand is split exactly into what is supplied and what is left. Supply takes no more than the water
above 10 % of the capacity that is left after evaporation and recharge; return flow (negative demand) is always
taken in. -/
theorem C17_abstraction (i : ResIn) (s : ℝ) (h : i.Physical) (hs : 0 ≤ s) :
    let o := resBalance i s
    let d := if i.glolakeArea > 0 then i.demandSw / 2 + i.unsatGlolake else i.demandSw
    o.use + o.unsat = d ∧
    (0 ≤ d → 0 ≤ o.unsat ∧ o.use = min d (max 0
      (s + i.han.inflow + i.precip * i.area - o.evapKm3 - o.gwr - i.han.cap / 10))) ∧
    (d < 0 → o.use = d) := by
  have s1 := resStorage1_nonneg i s h hs
  obtain ⟨a1, a2, a3, a4⟩ := resAbstract_facts (resDemand i) (resStorage1 i s) i.han.cap h.cap s1
  have hd : (if i.glolakeArea > 0 then i.demandSw / 2 + i.unsatGlolake else i.demandSw) = resDemand i := by
    unfold resDemand; split_ifs <;> ring
  simp only
  rw [hd]
  have hst : s + i.han.inflow + i.precip * i.area - (resBalance i s).evapKm3 - (resBalance i s).gwr
      = resStorage1 i s := by
    rw [resStorage1_eq]
    simp only [resBalance]
    unfold resPet resTotalIn
    ring
  rw [hst]
  simp only [resBalance]
  refine ⟨by ring, fun h0 => ⟨?_, a3 h0⟩, fun h0 => by rw [a4 h0]; ring⟩
  have := a3 h0
  have h2 : min (resDemand i) (max 0 (resStorage1 i s - i.han.cap / 10)) ≤ resDemand i := min_le_left _ _
  linarith

/-- C17: the evaporation of the first day of a regulated lake is not computed from the storage and the recharge of
that day is zero; in general neither is larger than its potential value. -/
theorem C17_evaporation_potential (i : ResIn) (s : ℝ) (h : i.Physical) (hs : 0 ≤ s) (hcfa : 0 ≤ i.cfa) :
    let o := resBalance i s
    o.evapKm3 ≤ max 0 ((1 - i.cfa) * i.precip + i.cfa * i.openPet) * i.area ∧
    o.gwr ≤ i.gwConst / 1000 * i.area ∧
    (i.arid = false ∨ i.drainageOk = false ∨ i.firstDay = true → o.gwr = 0) := by
  have h1 := h.precip
  have h2 := h.area
  have h3 := h.inflow
  have hr0 := resRed_nonneg i s
  have hr1 : resRed i s ≤ 1 := by
    unfold resRed; split_ifs
    · exact zero_le_one
    · exact (C12_fraction _ _ _ _).2
  have hc1 : resCut i s ≤ 1 := by
    unfold resCut; split_ifs with hc
    · rw [div_le_one hc.1]; exact hc.2.le
    · exact le_rfl
  have hc0 : 0 ≤ resCut i s := by
    have : 0 ≤ resPetMax i s := by unfold resPetMax resTotalIn; positivity
    unfold resCut; split_ifs with hc
    · exact div_nonneg this hc.1.le
    · exact zero_le_one
  have hp := h.openPet
  have hg := h.gwConst
  have he := resEvap_nonneg i s
  have he1 : resEvap i s ≤ max 0 ((1 - i.cfa) * i.precip + i.cfa * i.openPet) := by
    unfold resEvap; simp only
    split_ifs with hn
    · exact le_max_left _ _
    · refine le_trans ?_ (le_max_right _ _)
      have : i.openPet * resRed i s ≤ i.openPet * 1 := mul_le_mul_of_nonneg_left hr1 hp
      nlinarith
  have hg0 := resGwr_nonneg i s h
  have hg1 : resGwr i s ≤ i.gwConst / 1000 * i.area := by
    have hx : 0 ≤ i.gwConst / 1000 * i.area := by positivity
    unfold resGwr; split_ifs
    · have : i.gwConst * 0.001 * i.area * resRed i s = i.gwConst / 1000 * i.area * resRed i s := by ring
      rw [this]; nlinarith
    · exact hx
  refine ⟨?_, ?_, ?_⟩
  · simp only [resBalance]
    apply mul_le_mul_of_nonneg_right _ h2
    nlinarith
  · simp only [resBalance]; nlinarith
  · intro hz
    simp only [resBalance]
    have : resGwr i s = 0 := by
      unfold resGwr resRed
      rcases hz with hz | hz | hz <;> simp [hz]
    rw [this, zero_mul]

/-- C17: a reservoir below 10 % of its capacity passes on at most a tenth of the release of the operating rule. -/
theorem C17_environmental_flow (st r cap : ℝ) (hr : 0 ≤ r) (hst : 0 ≤ st) (hlow : st < cap / 10) :
    (resRelease st r cap).2 = min st (r * 86400 / 1e9 / 10) := by
  have hcap : 0 < cap := by linarith
  unfold resRelease
  have e : ¬ st ≥ cap * 0.1 := by rw [not_le]; linarith
  simp only [if_neg e]
  have h1 : ¬ 0.1 * r * (86400 / 1e9) < 0 := by rw [not_lt]; positivity
  simp only [if_neg h1]
  have h0 : 0 ≤ 0.1 * r * (86400 / 1e9) := not_lt.mp h1
  have h2 : ¬ st - 0.1 * r * (86400 / 1e9) > cap := by rw [not_lt]; linarith
  simp only [if_neg h2]
  have e2 : r * 86400 / 1e9 / 10 = 0.1 * r * (86400 / 1e9) := by ring
  rw [e2]
  split_ifs with h3
  · rw [min_eq_left (by linarith)]; ring
  · rw [min_eq_right (by linarith)]

/-- C17: whatever happens day after day (any demand, any operating rule data) the storage is never
negative and never above the capacity. -/
theorem C17_history (days : List ResIn) (hd : ∀ i ∈ days, i.Physical) (cap : ℝ) (hcap : ∀ i ∈ days, i.han.cap = cap) :
    ∀ s k, 0 ≤ s → s ≤ cap → 0 ≤ (resRun s k days).1 ∧ (resRun s k days).1 ≤ cap := by
  induction days with
  | nil => intro s k h0 h1; exact ⟨h0, h1⟩
  | cons i is ih =>
    intro s k h0 h1
    have hi := hd i (List.mem_cons_self ..)
    have hp : ({ i with han := { i.han with kRelease := k } } : ResIn).Physical :=
      ⟨hi.precip, hi.openPet, hi.inflow, hi.gwConst, hi.area, hi.cap⟩
    obtain ⟨b0, b1, -⟩ := C17_bounds _ s hp h0
    have b1' := le_of_le_of_eq b1 (hcap i (List.mem_cons_self ..))
    simp only [resRun]
    exact ih (fun j hj => hd j (List.mem_cons_of_mem _ hj)) (fun j hj => hcap j (List.mem_cons_of_mem _ hj)) _ _ b0 b1'

/-! ### C18 -/

/-- C18: the release coefficient is recomputed on the first day of the first month of the operational year and on
no other day. -/
theorem C18_coefficient (h : HanIn) (st : ℝ) :
    (¬ (h.month = h.startMonth ∧ h.day = 1) → (hanasaki h st).2 = h.kRelease) ∧
    (h.month = h.startMonth → h.day = 1 → 0 < h.cap →
      (st < h.cap / 10 → (hanasaki h st).2 = 1 / 10) ∧
      (h.cap / 10 ≤ st → (hanasaki h st).2 = st / (85 / 100 * h.cap) ∧ 1 / 10 ≤ (hanasaki h st).2) ∧
      (st ≤ h.cap → (hanasaki h st).2 ≤ 100 / 85)) := by
  simp only [hanasaki, hanK]
  refine ⟨fun hn => ?_, fun hm hd hc => ?_⟩
  · rw [not_and_or] at hn
    rcases hn with hn | hn
    · rw [if_neg hn]
    · rw [if_neg hn]; simp
  · rw [if_pos hm, if_pos hd]
    have e : h.cap * 0.1 = h.cap / 10 := by ring
    have e2 : h.cap * 0.85 = 85 / 100 * h.cap := by ring
    rw [e, e2]
    have hpos : 0 < 85 / 100 * h.cap := by positivity
    refine ⟨fun hl => ?_, fun hl => ?_, fun hl => ?_⟩
    · rw [if_pos hl]; norm_num
    · rw [if_neg (not_lt.mpr hl)]
      refine ⟨rfl, ?_⟩
      rw [le_div_iff₀ hpos]; linarith
    · split_ifs
      · norm_num
      · rw [div_le_div_iff₀ hpos (by norm_num)]; linarith

/-- C18: the coefficient never falls below 0.1 over any history that starts with at least 0.1. -/
theorem C18_coefficient_history (days : List ResIn) (hd : ∀ i ∈ days, i.Physical) :
    ∀ s k, 0 ≤ s → 1 / 10 ≤ k → 1 / 10 ≤ (resRun s k days).2 := by
  induction days with
  | nil => intro s k _ hk; exact hk
  | cons i is ih =>
    intro s k h0 hk
    have hi := hd i (List.mem_cons_self ..)
    have hp : ({ i with han := { i.han with kRelease := k } } : ResIn).Physical :=
      ⟨hi.precip, hi.openPet, hi.inflow, hi.gwConst, hi.area, hi.cap⟩
    obtain ⟨b0, -⟩ := C17_bounds _ s hp h0
    simp only [resRun]
    refine ih (fun j hj => hd j (List.mem_cons_of_mem _ hj)) _ _ b0 ?_
    simp only [resBalance]
    obtain ⟨c1, c2⟩ := C18_coefficient { i.han with kRelease := k }
      (resBeforeRelease { i with han := { i.han with kRelease := k } } s)
    by_cases hc : i.han.month = i.han.startMonth ∧ i.han.day = 1
    · obtain ⟨d1, d2, -⟩ := c2 hc.1 hc.2 hi.cap
      rcases lt_or_ge (resBeforeRelease { i with han := { i.han with kRelease := k } } s) (i.han.cap / 10) with hl | hl
      · rw [d1 hl]
      · exact (d2 hl).2
    · rw [c1 hc]; exact hk

/-- C18: with a known mean inflow and demands that are not negative the provisional release of an irrigation
reservoir is at least half of the mean inflow, otherwise it is the mean inflow. -/
theorem C18_provisional (h : HanIn) (hi : 0 < h.meanInflow) (hm : 0 ≤ h.monthlyDemand) (ha : 0 ≤ h.annualDemand)
    (hd : 0 < h.daysInMonth) :
    (h.rtype = .irrigation → h.meanInflow / 2 ≤ provRelease h) ∧
    (h.rtype = .nonIrrigation → provRelease h = h.meanInflow) := by
  refine ⟨fun ht => ?_, fun ht => by simp [provRelease, ht]⟩
  simp only [provRelease, ht]
  have h1 : 0 ≤ h.monthlyDemand * (1e9 * 1 / (86400 * h.daysInMonth)) := by positivity
  generalize h.monthlyDemand * (1e9 * 1 / (86400 * h.daysInMonth)) = m at *
  split_ifs with hc
  · have : 0 ≤ m / (h.annualDemand / 31536000) := by positivity
    nlinarith
  · have := not_le.mp hc; linarith

/-- C18: the operating rule is neutral over a year: if the monthly demands (m³/s) average to the mean annual demand
then the provisional releases average to the mean inflow, for any number of periods. -/
theorem C18_yearly_mean (hs : List HanIn) (inflow annual : ℝ) (hne : hs ≠ []) (ha : 0 < annual)
    (hh : ∀ h ∈ hs, h.rtype = .irrigation ∧ h.meanInflow = inflow ∧ h.annualDemand = annual)
    (hmean : (hs.map fun h => h.monthlyDemand * 1e9 / (86400 * h.daysInMonth)).sum / hs.length = annual / 31536000) :
    (hs.map provRelease).sum / hs.length = inflow := by
  have hlen : (0:ℝ) < hs.length := by
    have := List.length_pos_iff.mpr hne
    exact_mod_cast this
  have ha' : 0 < annual / 31536000 := by positivity
  have key : ∀ l : List HanIn, (∀ h ∈ l, h.rtype = .irrigation ∧ h.meanInflow = inflow ∧ h.annualDemand = annual) →
      (l.map provRelease).sum =
        if annual / 31536000 ≥ 0.5 * inflow then
          inflow / 2 * (l.length + (l.map fun h => h.monthlyDemand * 1e9 / (86400 * h.daysInMonth)).sum
            / (annual / 31536000))
        else l.length * inflow + (l.map fun h => h.monthlyDemand * 1e9 / (86400 * h.daysInMonth)).sum
          - l.length * (annual / 31536000) := by
    intro l hl
    induction l with
    | nil => simp
    | cons x xs ih =>
      have hx := hl x (List.mem_cons_self ..)
      have ih' := ih (fun y hy => hl y (List.mem_cons_of_mem _ hy))
      simp only [List.map_cons, List.sum_cons, List.length_cons]
      rw [ih']
      simp only [provRelease, hx.1, hx.2.1, hx.2.2]
      have e : x.monthlyDemand * (1e9 * 1 / (86400 * x.daysInMonth))
        = x.monthlyDemand * 1e9 / (86400 * x.daysInMonth) := by ring
      rw [e]
      generalize x.monthlyDemand * 1e9 / (86400 * x.daysInMonth) = m
      push_cast
      split_ifs
      · ring
      · ring
  rw [key hs hh]
  rw [div_eq_iff hlen.ne'] at hmean
  rw [hmean]
  split_ifs
  · rw [mul_div_assoc, ← sub_eq_zero]
    field_simp
    ring
  · field_simp; ring

/-- C18: a reservoir that holds at least half of the mean annual inflow releases the scaled provisional release, a
smaller one something between that and the inflow of the day (all in m³/s). -/
theorem C18_release (h : HanIn) (st : ℝ) (hcap : 0 ≤ h.cap) (hi : 0 ≤ h.meanInflow) :
    let target := (hanasaki h st).2 * provRelease h
    let today := h.inflow * 1e9 / 86400
    (1 / 2 * (h.meanInflow * 365 * 86400 / 1e9) ≤ h.cap → (hanasaki h st).1 = target) ∧
    (min target today ≤ (hanasaki h st).1 ∧ (hanasaki h st).1 ≤ max target today ∨ (hanasaki h st).1 = target) := by
  have et : h.inflow * 1e9 / 86400 = h.inflow * (1e9 / 86400) := by ring
  simp only [hanasaki]
  rw [et]
  constructor
  · intro hbig
    rw [if_neg]
    rintro ⟨h0, hc⟩
    have hpos : 0 < h.meanInflow := lt_of_le_of_ne hi (Ne.symm h0)
    rw [div_lt_iff₀ (by positivity)] at hc
    norm_num at hc hbig
    linarith
  · by_cases hsm : smallRes h
    · left
      rw [if_pos hsm]
      obtain ⟨h0, hc⟩ := hsm
      have hpos : 0 < h.meanInflow := lt_of_le_of_ne hi (Ne.symm h0)
      have hc0 : 0 ≤ h.cap / (h.meanInflow * (31536000 / 1e9)) := by positivity
      generalize h.cap / (h.meanInflow * (31536000 / 1e9)) = c at *
      have hw0 : 0 ≤ 4 * c ^ 2 := by positivity
      have hw1 : 4 * c ^ 2 ≤ 1 := by norm_num at hc; nlinarith
      generalize 4 * c ^ 2 = w at *
      rw [mul_assoc w]
      generalize hanK h st * provRelease h = a
      generalize h.inflow * (1e9 / 86400) = b
      constructor
      · rcases le_total a b with hab | hab
        · rw [min_eq_left hab]; nlinarith
        · rw [min_eq_right hab]; nlinarith
      · rcases le_total a b with hab | hab
        · rw [max_eq_right hab]; nlinarith
        · rw [max_eq_left hab]; nlinarith
    · right; rw [if_neg hsm]

/-- C18: with physical data the release is not negative. -/
theorem C18_release_nonneg (h : HanIn) (st : ℝ) (hcap : 0 < h.cap) (hi : 0 < h.meanInflow) (hq : 0 ≤ h.inflow)
    (hm : 0 ≤ h.monthlyDemand) (ha : 0 ≤ h.annualDemand) (hd : 0 < h.daysInMonth) (hk : 0 ≤ h.kRelease)
    (hst : 0 ≤ st) : 0 ≤ (hanasaki h st).1 := by
  have hp : 0 ≤ provRelease h := by
    obtain ⟨p1, p2⟩ := C18_provisional h hi hm ha hd
    cases ht : h.rtype
    · linarith [p1 ht]
    · rw [p2 ht]; exact hi.le
    · simp [provRelease, ht]
  have hk' : 0 ≤ (hanasaki h st).2 := by
    simp only [hanasaki, hanK]
    split_ifs
    · norm_num
    · positivity
    · exact hk
    · exact hk
  have ht : 0 ≤ (hanasaki h st).2 * provRelease h := mul_nonneg hk' hp
  have hb : 0 ≤ h.inflow * 1e9 / 86400 := by positivity
  rcases (C18_release h st hcap.le hi.le).2 with ⟨h1, -⟩ | h1
  · exact le_trans (le_min ht hb) h1
  · rw [h1]; exact ht

/-- The `j`-th cell downstream of `x` can be supplied by the reservoir in `x`: it exists and has no active
reservoir of its own. -/
def DemandGrid.open_ (g : DemandGrid) (x : Cell) (j : ℕ) : Prop :=
  g.resArea (g.down^[j + 1] x) ≤ 0 ∧ (g.down^[j + 1] x).1 > 0 ∧ (g.down^[j + 1] x).2 > 0

theorem demandWalk_spec (g : DemandGrid) (x : Cell) :
    ∀ fuel dsc stop mon ann, ∃ n m, n ≤ fuel ∧ m ≤ n ∧
    (∀ j < n, g.open_ x (dsc + j)) ∧ (n < fuel → ¬ g.open_ x (dsc + n)) ∧
    (∀ j < m, g.allResArea (g.down^[dsc + j + 1] x) ≤ 0) ∧
    (stop = true → m = 0) ∧
    (stop = false → m < n → ¬ g.allResArea (g.down^[dsc + m + 1] x) ≤ 0) ∧
    demandWalk g x fuel dsc (g.down^[dsc + 1] x) stop mon ann =
      (mon + ∑ j ∈ Finset.range n, g.monthly (g.down^[dsc + j + 1] x) * g.alloc x (dsc + j),
       ann + ∑ j ∈ Finset.range m, g.annual (g.down^[dsc + j + 1] x) * g.alloc x (dsc + j)) := by
  intro fuel
  induction fuel with
  | zero =>
    intro dsc stop mon ann
    exact ⟨0, 0, le_rfl, le_rfl, by simp, by simp, by simp, by simp, by simp, by simp [demandWalk]⟩
  | succ fuel ih =>
    intro dsc stop mon ann
    by_cases ho : g.open_ x dsc
    · have hstep : demandWalk g x (fuel + 1) dsc (g.down^[dsc + 1] x) stop mon ann =
          demandWalk g x fuel (dsc + 1) (g.down^[dsc + 1 + 1] x)
            (stop || decide (¬ g.allResArea (g.down^[dsc + 1] x) ≤ 0))
            (mon + g.monthly (g.down^[dsc + 1] x) * g.alloc x dsc)
            (if !stop ∧ g.allResArea (g.down^[dsc + 1] x) ≤ 0 then
              ann + g.annual (g.down^[dsc + 1] x) * g.alloc x dsc else ann) := by
        have h' : g.resArea (g.down^[dsc + 1] x) ≤ 0 ∧ (g.down^[dsc + 1] x).1 > 0 ∧ (g.down^[dsc + 1] x).2 > 0 := ho
        rw [demandWalk, if_pos h']
        simp only [← Function.iterate_succ_apply' g.down (dsc + 1) x, Nat.succ_eq_add_one]
      obtain ⟨n, m, h1, h2, h3, h4, h5, h6, h7, h8⟩ := ih (dsc + 1)
        (stop || decide (¬ g.allResArea (g.down^[dsc + 1] x) ≤ 0))
        (mon + g.monthly (g.down^[dsc + 1] x) * g.alloc x dsc)
        (if !stop ∧ g.allResArea (g.down^[dsc + 1] x) ≤ 0 then
              ann + g.annual (g.down^[dsc + 1] x) * g.alloc x dsc else ann)
      rw [hstep, h8]
      have shift : ∀ j, dsc + 1 + j = dsc + (j + 1) := fun j => by omega
      by_cases hs : stop = false ∧ g.allResArea (g.down^[dsc + 1] x) ≤ 0
      · refine ⟨n + 1, m + 1, by omega, by omega, ?_, ?_, ?_, ?_, ?_, ?_⟩
        · intro j hj
          cases j with
          | zero => simpa using ho
          | succ j => have := h3 j (by omega); rwa [shift] at this
        · intro hn; have := h4 (by omega); rwa [shift] at this
        · intro j hj
          cases j with
          | zero => simpa using hs.2
          | succ j => have := h5 j (by omega); rwa [shift] at this
        · intro hst; rw [hs.1] at hst; exact absurd hst (by decide)
        · intro _ hmn
          have := h7 (by rw [hs.1, Bool.false_or, decide_eq_false_iff_not, not_not]; exact hs.2) (by omega)
          rwa [shift] at this
        · have hif : (if !stop ∧ g.allResArea (g.down^[dsc + 1] x) ≤ 0 then
              ann + g.annual (g.down^[dsc + 1] x) * g.alloc x dsc else ann)
              = ann + g.annual (g.down^[dsc + 1] x) * g.alloc x dsc := by
            rw [if_pos]; exact ⟨by simp [hs.1], hs.2⟩
          rw [hif, Finset.sum_range_succ', Finset.sum_range_succ']
          simp only [shift, add_zero]
          ext <;> simp <;> ring
      · have hm0 : m = 0 := by
          apply h6
          rw [not_and_or] at hs
          rcases hs with hs | hs
          · simp at hs; simp [hs]
          · rw [Bool.or_eq_true, decide_eq_true_eq]; exact Or.inr hs
        subst hm0
        refine ⟨n + 1, 0, by omega, by omega, ?_, ?_, by simp, by simp, ?_, ?_⟩
        · intro j hj
          cases j with
          | zero => simpa using ho
          | succ j => have := h3 j (by omega); rwa [shift] at this
        · intro hn; have := h4 (by omega); rwa [shift] at this
        · intro hst _
          rw [not_and_or] at hs
          rcases hs with hs | hs
          · exact absurd hst hs
          · simpa using hs
        · have hif : (if !stop ∧ g.allResArea (g.down^[dsc + 1] x) ≤ 0 then
              ann + g.annual (g.down^[dsc + 1] x) * g.alloc x dsc else ann) = ann := by
            rw [if_neg]
            rintro ⟨a, b⟩
            exact hs ⟨by simpa using a, b⟩
          rw [hif, Finset.sum_range_succ']
          simp only [shift, add_zero]
          ext <;> simp; ring
    · refine ⟨0, 0, by omega, le_rfl, by simp, by simpa using ho, by simp, by simp, by simp, ?_⟩
      have h' : ¬ (g.resArea (g.down^[dsc + 1] x) ≤ 0 ∧ (g.down^[dsc + 1] x).1 > 0 ∧ (g.down^[dsc + 1] x).2 > 0) := ho
      rw [demandWalk, if_neg h']; simp

/-- C18: the demand a reservoir serves is that of its own cell plus the weighted demand of the next cells
downstream: at most five, as many as come before the next reservoir or the end of the river; the mean annual demand
stops before the next reservoir that exists in any year of the simulation. -/
theorem C18_downstream_demand (g : DemandGrid) (x : Cell) :
    ∃ n m, n ≤ 5 ∧ m ≤ n ∧
    (∀ j < n, g.open_ x j) ∧ (n < 5 → ¬ g.open_ x n) ∧
    (∀ j < m, g.allResArea (g.down^[j + 1] x) ≤ 0) ∧
    (m < n → ¬ g.allResArea (g.down^[m + 1] x) ≤ 0) ∧
    (downstreamDemand g x).1 =
      g.monthly x + ∑ j ∈ Finset.range n, g.monthly (g.down^[j + 1] x) * g.alloc x j ∧
    (downstreamDemand g x).2 =
      g.annual x + ∑ j ∈ Finset.range m, g.annual (g.down^[j + 1] x) * g.alloc x j := by
  obtain ⟨n, m, h1, h2, h3, h4, h5, -, h7, h8⟩ := demandWalk_spec g x 5 0 false (g.monthly x) (g.annual x)
  simp only [zero_add] at h3 h4 h5 h7 h8
  refine ⟨n, m, h1, h2, h3, h4, h5, h7 trivial, ?_, ?_⟩
  · have : downstreamDemand g x = demandWalk g x 5 0 (g.down^[1] x) false (g.monthly x) (g.annual x) := rfl
    rw [this, h8]
  · have : downstreamDemand g x = demandWalk g x 5 0 (g.down^[1] x) false (g.monthly x) (g.annual x) := rfl
    rw [this, h8]

/-! ### Cases that meet the hypotheses -/

/-- An irrigation reservoir of 1 km³ in an arid cell. -/
noncomputable def sampleHan : HanIn :=
  { cap := 1, startMonth := 5, month := 5, day := 1, kRelease := 0.5, rtype := .irrigation, monthlyDemand := 0.01,
    annualDemand := 3153600, meanInflow := 20, inflow := 0.002, daysInMonth := 31 }

/-- A reservoir day. -/
noncomputable def sampleRes : ResIn :=
  { precip := 1e-6, openPet := 5e-6, arid := true, drainageOk := true, gwConst := 0.01, area := 50, redExp := 2.81,
    cfa := 1, firstDay := false, glolakeArea := 3, demandSw := 0.004, unsatGlolake := 0.001, minV := 1e-15,
    han := sampleHan }

theorem sampleRes_physical : sampleRes.Physical := by
  constructor <;> norm_num [sampleRes, sampleHan]

example := C17_balance sampleRes 0.7 sampleRes_physical (by norm_num) (by norm_num [sampleRes])
example := C17_bounds sampleRes 0.7 sampleRes_physical (by norm_num)
example := C17_abstraction sampleRes 0.7 sampleRes_physical (by norm_num)
example := C17_evaporation_potential sampleRes 0.7 sampleRes_physical (by norm_num) (by norm_num [sampleRes])
example := C17_environmental_flow 0.05 3 1 (by norm_num) (by norm_num) (by norm_num)
example := C17_history [sampleRes, sampleRes] (by intro i hi; simp at hi; subst hi; exact sampleRes_physical) 1
  (by intro i hi; simp at hi; subst hi; rfl) 0.7 0.5 (by norm_num) (by norm_num)
example := (C18_coefficient sampleHan 0.7).2 rfl rfl (by norm_num [sampleHan])
example := C18_coefficient_history [sampleRes, sampleRes]
  (by intro i hi; simp at hi; subst hi; exact sampleRes_physical) 0.7 0.5 (by norm_num) (by norm_num)
example := C18_provisional sampleHan (by norm_num [sampleHan]) (by norm_num [sampleHan]) (by norm_num [sampleHan])
  (by norm_num [sampleHan])
example := C18_release_nonneg sampleHan 0.7 (by norm_num [sampleHan]) (by norm_num [sampleHan])
  (by norm_num [sampleHan]) (by norm_num [sampleHan]) (by norm_num [sampleHan]) (by norm_num [sampleHan])
  (by norm_num [sampleHan]) (by norm_num)
example : smallRes sampleHan ∨ 1 / 2 * (sampleHan.meanInflow * 365 * 86400 / 1e9) ≤ sampleHan.cap := by
  right; norm_num [sampleHan]
example := C18_yearly_mean
  [{ sampleHan with monthlyDemand := 86400 * 30 / 1e9, annualDemand := 63072000, daysInMonth := 30 },
   { sampleHan with monthlyDemand := 3 * 86400 * 31 / 1e9, annualDemand := 63072000, daysInMonth := 31 }] 20 63072000
  (by simp) (by norm_num)
  (by intro h hh; simp at hh; rcases hh with rfl | rfl <;> exact ⟨rfl, rfl, rfl⟩)
  (by norm_num)

/-- A small reservoir struck by a flood on the first day of its operational year. -/
noncomputable def floodRes : ResIn :=
  { sampleRes with area := 0, glolakeArea := 0, demandSw := 0, han := { sampleHan with inflow := 5 } }

/-- C18, finding: the release coefficient of the year is computed from the storage before the water above the
capacity is spilled, so that it can exceed the coefficient of a full reservoir, 1/0.85, by any factor: here a full
reservoir would give 1.18 and the flood gives 6.7, which then scales the releases of the whole year. -/
theorem C18_violated_coefficient_of_overfull_reservoir :
    floodRes.Physical ∧ (resBalance floodRes 0.7).storage ≤ floodRes.han.cap ∧
    (resBalance floodRes 0.7).kRelease > 6.7 := by
  have hp : floodRes.Physical := by constructor <;> norm_num [floodRes, sampleRes, sampleHan]
  refine ⟨hp, (C17_bounds floodRes 0.7 hp (by norm_num)).2.1, ?_⟩
  have hg : resGwr floodRes 0.7 = 0 := by simp [resGwr, floodRes, sampleRes]
  have hpet : resPet floodRes 0.7 = 0 := by unfold resPet; rw [hg]; simp [floodRes]
  have hst : resStorage1 floodRes 0.7 = 5.7 := by
    unfold resStorage1
    rw [hpet]
    simp only [lt_irrefl, gt_iff_lt, false_and, if_false]
    norm_num [resTotalIn, floodRes]
  have hb : resBeforeRelease floodRes 0.7 = 5.7 := by
    unfold resBeforeRelease
    rw [hst]
    have hd : resDemand floodRes = 0 := by norm_num [resDemand, floodRes]
    rw [hd]
    norm_num [resAbstract, flush, floodRes, sampleRes, sampleHan]
  simp only [resBalance]
  rw [hb]
  norm_num [hanasaki, hanK, floodRes, sampleHan]

end WG
