import Verif.Props.Routing
import Verif.Props.Whole

/-! Property C84: on any day, more water or less demand never lowers the streamflow. -/

namespace WG

/-! ## Water bodies -/

section
variable (kind : LakeKind) (i : LakeIn) (s a d r : ℝ)

/-- Sensible inputs of a lake or wetland; the demand may have any sign. -/
structure LakeIn.Sound (i : LakeIn) : Prop where
  precip : 0 ≤ i.precip
  inflow : 0 ≤ i.inflow
  k : 0 < i.k
  gw : 0 ≤ i.gwConst
  maxStorage : 0 < i.maxStorage
  maxArea : 0 ≤ i.maxArea
  cfa : 0 ≤ i.cfa

theorem lakeGwr_nonneg' (h : i.Sound) : 0 ≤ lakeGwr kind i s := by
  have ha := (C13_area kind i s h.maxArea).1
  have hr := (lakeRed_bounds kind i s).1
  have hg := h.gw
  unfold lakeGwr
  split_ifs <;> positivity

/-- The same body on the same day with another inflow, another demand and another precipitation. -/
def LakeIn.with (i : LakeIn) (a d r : ℝ) : LakeIn := { i with inflow := a, demand := d, precip := r }

/-- The conditions of the wetter day: more inflow, less demand, more precipitation. -/
structure LakeIn.Wetter (i : LakeIn) (a d r : ℝ) : Prop where
  inflow : i.inflow ≤ a
  demand : d ≤ i.demand
  precip : i.precip ≤ r

theorem lakeDemand_mono (h : d ≤ i.demand) : lakeDemand kind (i.with a d r) ≤ lakeDemand kind i := by
  unfold lakeDemand LakeIn.with
  dsimp only
  split_ifs <;> linarith

/-- The rain on open water less its evaporation grows with the rain, although the corrected evaporation may grow too. -/
theorem rain_less_evap_mono (f P r pet : ℝ) (hf : 0 ≤ f) (h : P ≤ r) :
    P - (if (1 - f) * P + f * pet < 0 then 0 else (1 - f) * P + f * pet) ≤
      r - (if (1 - f) * r + f * pet < 0 then 0 else (1 - f) * r + f * pet) := by
  have := mul_le_mul_of_nonneg_left h hf
  split_ifs <;> linarith

theorem lakeTotalIn_mono (h0 : i.Sound) (h : i.Wetter a d r) :
    lakeTotalIn kind i s ≤ lakeTotalIn kind (i.with a d r) s := by
  have e : lakeTotalIn kind (i.with a d r) s = a + r * lakeArea kind i s := rfl
  rw [e]
  have := mul_le_mul_of_nonneg_right h.precip (C13_area kind i s h0.maxArea).1
  have := h.inflow
  unfold lakeTotalIn
  linarith

theorem lakePetMax_mono (h0 : i.Sound) (h : i.Wetter a d r) :
    lakePetMax kind i s ≤ lakePetMax kind (i.with a d r) s := by
  rw [lakePetMax_eq, lakePetMax_eq]
  have : (i.with a d r).maxStorage = i.maxStorage := rfl
  rw [this]
  linarith [lakeTotalIn_mono kind i s a d r h0 h]

theorem lakeNetIn_mono (h0 : i.Sound) (h : i.Wetter a d r) :
    lakeNetIn kind i s ≤ lakeNetIn kind (i.with a d r) s := by
  have e1 : lakeTotalIn kind (i.with a d r) s = a + r * lakeArea kind i s := rfl
  have e2 : lakePet kind (i.with a d r) s = lakeEvap kind (i.with a d r) s * lakeArea kind i s + lakeGwr kind i s
    + lakeDemand kind (i.with a d r) := rfl
  have e3 : i.precip - lakeEvap kind i s ≤ r - lakeEvap kind (i.with a d r) s :=
    rain_less_evap_mono i.cfa i.precip r _ h0.cfa h.precip
  have := mul_le_mul_of_nonneg_right e3 (C13_area kind i s h0.maxArea).1
  have := h.inflow
  unfold lakeNetIn
  rw [e1, e2]
  unfold lakeTotalIn lakePet
  linarith [lakeDemand_mono kind i a d r h.demand]

/-- How far the losses stay below what is available. -/
theorem lakeSlack_mono (h0 : i.Sound) (h : i.Wetter a d r) :
    lakePetMax kind i s - lakePet kind i s ≤ lakePetMax kind (i.with a d r) s - lakePet kind (i.with a d r) s := by
  have := lakeNetIn_mono kind i s a d r h0 h
  have mm : (i.with a d r).maxStorage = i.maxStorage := rfl
  rw [lakePetMax_eq, lakePetMax_eq, mm]
  unfold lakeNetIn at this
  linarith

/-- Precipitation and inflow are not negative and the storage is above the lowest: the losses can take something. -/
theorem lakePetMax_nonneg_mono (h0 : i.Sound) (hs : lowest kind i.maxStorage ≤ s) : 0 ≤ lakePetMax kind i s := by
  rw [lakePetMax_eq]
  have := mul_nonneg h0.precip (C13_area kind i s h0.maxArea).1
  have := h0.inflow
  unfold lakeTotalIn
  linarith

/-- A share that is served grows with what is there and falls with what is missing. -/
theorem served_mono (M P M' P' : ℝ) (h0 : 0 ≤ M) (hP : P > M) (hP' : P' > M') (h : M ≤ M') (hd : M - P ≤ M' - P') :
    M / P ≤ M' / P' := by
  rw [div_le_div_iff₀ (by linarith) (by linarith)]
  nlinarith [mul_nonneg h0 (by linarith : 0 ≤ (P - M) - (P' - M')),
    mul_nonneg (by linarith : 0 ≤ M' - M) (by linarith : 0 ≤ P - M)]

theorem lakeRatio_mono (h0 : i.Sound) (hs : lowest kind i.maxStorage ≤ s) (h : i.Wetter a d r) :
    0 ≤ lakeRatio kind i s ∧ lakeRatio kind i s ≤ lakeRatio kind (i.with a d r) s ∧ lakeRatio kind i s ≤ 1 := by
  have m0 := lakePetMax_nonneg_mono kind i s h0 hs
  have m1 := lakePetMax_mono kind i s a d r h0 h
  have p1 := lakeSlack_mono kind i s a d r h0 h
  have le1 : lakeRatio kind i s ≤ 1 := by
    unfold lakeRatio
    split_ifs with q
    · exact (div_le_one (by linarith)).mpr (by linarith)
    · exact le_rfl
  refine ⟨?_, ?_, le1⟩
  · unfold lakeRatio
    split_ifs with q
    · exact div_nonneg m0 (by linarith)
    · norm_num
  · by_cases q' : lakePet kind (i.with a d r) s > lakePetMax kind (i.with a d r) s
    · have q : lakePet kind i s > lakePetMax kind i s := by linarith
      unfold lakeRatio
      rw [if_pos q, if_pos q']
      exact served_mono _ _ _ _ m0 q q' m1 p1
    · have : lakeRatio kind (i.with a d r) s = 1 := by unfold lakeRatio; rw [if_neg q']
      rw [this]; exact le1

/-- What a lake or wetland loses to the groundwater does not fall. -/
theorem lakeGwrOut_mono (h0 : i.Sound) (hs : lowest kind i.maxStorage ≤ s) (h : i.Wetter a d r) :
    0 ≤ (lakeBalance kind i s).gwr ∧ (lakeBalance kind i s).gwr ≤ (lakeBalance kind (i.with a d r) s).gwr := by
  obtain ⟨r0, r1, -⟩ := lakeRatio_mono kind i s a d r h0 hs h
  have g := lakeGwr_nonneg' kind i s h0
  exact ⟨mul_nonneg g r0, mul_le_mul_of_nonneg_left r1 g⟩

/-- The demand a global lake cannot serve does not rise. -/
theorem lakeUnsat_mono (h0 : i.Sound) (hs : lowest kind i.maxStorage ≤ s) (h : i.Wetter a d r) :
    lakeUnsat kind (i.with a d r) s ≤ lakeUnsat kind i s ∧ 0 ≤ lakeUnsat kind (i.with a d r) s ∧
      0 ≤ lakeUnsat kind i s := by
  have m0 := lakePetMax_nonneg_mono kind i s h0 hs
  have m1 := lakePetMax_mono kind i s a d r h0 h
  have p1 := lakeSlack_mono kind i s a d r h0 h
  have d1 := lakeDemand_mono kind i a d r h.demand
  have nn : ∀ D P M : ℝ, 0 < D → P > M → 0 ≤ M → 0 ≤ D - D * (M / P) := by
    intro D P M hD hP hM
    have : M / P ≤ 1 := (div_le_one (by linarith)).mpr (by linarith)
    nlinarith
  have z0 : 0 ≤ lakeUnsat kind i s := by
    unfold lakeUnsat
    split_ifs with _ q q2
    · exact nn _ _ _ q2 q m0
    all_goals exact le_rfl
  have z1 : 0 ≤ lakeUnsat kind (i.with a d r) s := by
    unfold lakeUnsat
    split_ifs with _ q q2
    · exact nn _ _ _ q2 q (by linarith)
    all_goals exact le_rfl
  refine ⟨?_, z1, z0⟩
  by_cases hk : kind = .globalLake
  · by_cases q' : lakePet kind (i.with a d r) s > lakePetMax kind (i.with a d r) s
    · by_cases q2' : lakeDemand kind (i.with a d r) > 0
      · have q : lakePet kind i s > lakePetMax kind i s := by linarith
        have q2 : lakeDemand kind i > 0 := by linarith
        have rr : lakePetMax kind i s / lakePet kind i s
            ≤ lakePetMax kind (i.with a d r) s / lakePet kind (i.with a d r) s :=
          served_mono _ _ _ _ m0 q q' m1 p1
        have r1 : lakePetMax kind (i.with a d r) s / lakePet kind (i.with a d r) s ≤ 1 :=
          (div_le_one (by linarith)).mpr (by linarith)
        unfold lakeUnsat
        rw [if_pos hk, if_pos hk, if_pos q, if_pos q', if_pos q2, if_pos q2']
        nlinarith
      · have : lakeUnsat kind (i.with a d r) s = 0 := by
          unfold lakeUnsat; rw [if_pos hk, if_pos q', if_neg q2']
        rw [this]; exact z0
    · have : lakeUnsat kind (i.with a d r) s = 0 := by unfold lakeUnsat; rw [if_pos hk, if_neg q']
      rw [this]; exact z0
  · unfold lakeUnsat; rw [if_neg hk, if_neg hk]

theorem analytic_rest (net k : ℝ) :
    net + s - (s * Real.exp (-1 * k) + (net / k) * (1 - Real.exp (-1 * k)))
      = net * (1 - (1 - Real.exp (-1 * k)) / k) + s * (1 - Real.exp (-1 * k)) := by ring

theorem globalLake_out :
    (globalLakeSO .globalLake i s).2 =
      if lakePet .globalLake i s > lakePetMax .globalLake i s then 0
      else max 0 (max (lakeNetIn .globalLake i s * (1 - (1 - Real.exp (-1 * i.k)) / i.k)
          + s * (1 - Real.exp (-1 * i.k)))
        (lakeNetIn .globalLake i s + s - i.maxStorage)) := by
  rw [← analytic_rest]
  unfold globalLakeSO lakeAnalytic
  split_ifs with q
  · rfl
  · dsimp only
    set A := s * Real.exp (-1 * i.k) + (lakeNetIn .globalLake i s / i.k) * (1 - Real.exp (-1 * i.k))
    by_cases m : A > i.maxStorage
    · rw [if_pos m, if_pos m, max_eq_right (by linarith : lakeNetIn .globalLake i s + s - A ≤ _)]
      split_ifs with z
      · exact (max_eq_left (by linarith)).symm
      · rw [max_eq_right (by linarith)]; ring
    · rw [if_neg m, if_neg m,
        max_eq_left (by linarith : lakeNetIn .globalLake i s + s - i.maxStorage ≤ lakeNetIn .globalLake i s + s - A)]
      split_ifs with z
      · exact (max_eq_left (by linarith)).symm
      · rw [max_eq_right (by linarith)]

theorem globalWetland_out (hm : 0 ≤ i.maxStorage) :
    (globalWetlandSO .globalWetland i s).2 =
      if lakePet .globalWetland i s > lakePetMax .globalWetland i s then 0
      else max (lakeNetIn .globalWetland i s * (1 - (1 - Real.exp (-1 * i.k)) / i.k)
          + s * (1 - Real.exp (-1 * i.k)))
        (lakeNetIn .globalWetland i s + s - i.maxStorage) := by
  rw [← analytic_rest]
  unfold globalWetlandSO
  by_cases q : lakePet .globalWetland i s > lakePetMax .globalWetland i s
  · have l : lakeLimit .globalWetland i = 0 := rfl
    simp only [if_pos q, l]
    rw [if_neg (by linarith)]
  · simp only [if_neg q]
    unfold lakeAnalytic
    set A := s * Real.exp (-1 * i.k) + (lakeNetIn .globalWetland i s / i.k) * (1 - Real.exp (-1 * i.k))
    by_cases m : A > i.maxStorage
    · rw [if_pos m, max_eq_right (by linarith)]; ring
    · rw [if_neg m, max_eq_left (by linarith)]

/-- Outflow of a local lake or wetland from the water `w` that is there and the uncapped outflow `o`. -/
theorem local_out_mono (w w' o o' cap : ℝ) (hw : w ≤ w') (ho : o ≤ o') (p : ℝ → Prop) [DecidablePred p]
    (h0 : 0 ≤ o) (hpp : p w → p w') :
    (let x := if p w then (if w ≤ 0 then 0 else if o > w then w else o) else 0;
      if w - x > cap then x + (w - x - cap) else x) ≤
    (let x := if p w' then (if w' ≤ 0 then 0 else if o' > w' then w' else o') else 0;
      if w' - x > cap then x + (w' - x - cap) else x) := by
  have key : ∀ x x' : ℝ, x ≤ x' →
      (if w - x > cap then x + (w - x - cap) else x) ≤ (if w' - x' > cap then x' + (w' - x' - cap) else x') := by
    intro x x' hx
    split_ifs <;> linarith
  apply key
  by_cases h : p w
  · rw [if_pos h, if_pos (hpp h)]
    split_ifs <;> linarith
  · rw [if_neg h]
    split_ifs <;> linarith

/-- C84 for a lake or wetland: with more inflow, less demand and more rain on it, the same storage at the start of the day gives no less
outflow, no less recharge and no more unsatisfied demand. -/
theorem C84_lake_wetland (h0 : i.Sound) (hs : lowest kind i.maxStorage ≤ s)
    (hex : 0 ≤ i.wetlandExp) (hi : i.inflow ≤ a) (hd : d ≤ i.demand) (hr : i.precip ≤ r) :
    let o := lakeBalance kind i s
    let o' := lakeBalance kind { i with inflow := a, demand := d, precip := r } s
    o.outflow ≤ o'.outflow ∧ o.gwr ≤ o'.gwr ∧ o'.unsat ≤ o.unsat := by
  have h : i.Wetter a d r := ⟨hi, hd, hr⟩
  refine ⟨?_, (lakeGwrOut_mono kind i s a d r h0 hs h).2, (lakeUnsat_mono kind i s a d r h0 hs h).1⟩
  change (lakeSO kind i s).2 ≤ (lakeSO kind (i.with a d r) s).2
  have m1 := lakePetMax_mono kind i s a d r h0 h
  have p1 := lakeSlack_mono kind i s a d r h0 h
  have n1 := lakeNetIn_mono kind i s a d r h0 h
  obtain ⟨e0, e1, -, c0, c1, c2, -⟩ := release_facts i.k h0.k
  have kk : (i.with a d r).k = i.k := rfl
  have mm : (i.with a d r).maxStorage = i.maxStorage := rfl
  have loc : ∀ kind', kind' = kind → (kind' = .localLake ∨ kind' = .localWetland) →
      (localSO kind' i s).2 ≤ (localSO kind' (i.with a d r) s).2 := by
    intro kind' e hk; subst e
    have w1 : (if lakePet kind' i s > lakePetMax kind' i s then lakeLimit kind' i
        else s + lakeTotalIn kind' i s - lakePet kind' i s) ≤
        (if lakePet kind' (i.with a d r) s > lakePetMax kind' (i.with a d r) s then lakeLimit kind' (i.with a d r)
        else s + lakeTotalIn kind' (i.with a d r) s - lakePet kind' (i.with a d r) s) := by
      have t1 := lakeNetIn_mono kind' i s a d r h0 h
      unfold lakeNetIn at t1
      have l1 : lakeLimit kind' (i.with a d r) = lakeLimit kind' i := rfl
      rw [l1]
      by_cases q' : lakePet kind' (i.with a d r) s > lakePetMax kind' (i.with a d r) s
      · rw [if_pos q', if_pos (by linarith)]
      · rw [if_neg q']
        rw [lakePetMax_eq, mm] at q'
        rw [lakeLimit_eq]
        split_ifs <;> linarith
    rcases hk with rfl | rfl
    · have := local_out_mono _ _ (i.k * s * (s / i.maxStorage) ^ i.lakeExp)
        (i.k * s * (s / i.maxStorage) ^ i.lakeExp) i.maxStorage w1 le_rfl (fun _ => s > 0)
      by_cases sp : s > 0
      · have pos : 0 ≤ i.k * s * (s / i.maxStorage) ^ i.lakeExp :=
          mul_nonneg (mul_nonneg h0.k.le sp.le) (Real.rpow_nonneg (div_nonneg sp.le h0.maxStorage.le) _)
        have := this pos (fun x => x)
        unfold localSO
        dsimp only at this ⊢
        rw [if_pos rfl, if_pos rfl, if_pos rfl, if_pos rfl, kk, mm]
        have l1 : (i.with a d r).lakeExp = i.lakeExp := rfl
        rw [l1]
        simp only [apply_ite Prod.snd]
        exact this
      · unfold localSO
        dsimp only
        rw [if_pos rfl, if_pos rfl, if_pos rfl, if_pos rfl, if_neg sp, if_neg sp, mm]
        simp only [apply_ite Prod.snd]
        clear this
        revert w1
        generalize (if lakePet .localLake i s > lakePetMax .localLake i s then lakeLimit .localLake i
          else s + lakeTotalIn .localLake i s - lakePet .localLake i s) = w
        generalize (if lakePet .localLake (i.with a d r) s > lakePetMax .localLake (i.with a d r) s
          then lakeLimit .localLake (i.with a d r)
          else s + lakeTotalIn .localLake (i.with a d r) s - lakePet .localLake (i.with a d r) s) = w'
        intro w1
        split_ifs <;> linarith
    · unfold localSO
      dsimp only
      have ne : ¬ (LakeKind.localWetland = LakeKind.localLake) := by decide
      simp only [if_neg ne]
      rw [kk, mm]
      have l1 : (i.with a d r).wetlandExp = i.wetlandExp := rfl
      rw [l1]
      simp only [apply_ite Prod.snd]
      revert w1
      generalize (if lakePet .localWetland i s > lakePetMax .localWetland i s then lakeLimit .localWetland i
        else s + lakeTotalIn .localWetland i s - lakePet .localWetland i s) = w
      generalize (if lakePet .localWetland (i.with a d r) s > lakePetMax .localWetland (i.with a d r) s
        then lakeLimit .localWetland (i.with a d r)
        else s + lakeTotalIn .localWetland (i.with a d r) s - lakePet .localWetland (i.with a d r) s) = w'
      intro w1
      by_cases wp : w > 0
      · have ho : i.k * w * (w / i.maxStorage) ^ i.wetlandExp ≤ i.k * w' * (w' / i.maxStorage) ^ i.wetlandExp := by
          apply mul_le_mul (mul_le_mul_of_nonneg_left w1 h0.k.le)
          · exact Real.rpow_le_rpow (div_nonneg wp.le h0.maxStorage.le)
              (div_le_div_of_nonneg_right w1 h0.maxStorage.le) hex
          · exact Real.rpow_nonneg (div_nonneg wp.le h0.maxStorage.le) _
          · exact mul_nonneg h0.k.le (by linarith)
        exact local_out_mono w w' _ _ i.maxStorage w1 ho (fun x => x > 0)
          (mul_nonneg (mul_nonneg h0.k.le wp.le) (Real.rpow_nonneg (div_nonneg wp.le h0.maxStorage.le) _))
          (fun x => lt_of_lt_of_le x w1)
      · rw [if_neg wp]
        have z : ¬ w - 0 > i.maxStorage := by have := h0.maxStorage; linarith
        rw [if_neg z]
        have pos : 0 < w' → 0 ≤ i.k * w' * (w' / i.maxStorage) ^ i.wetlandExp := fun hw =>
          mul_nonneg (mul_nonneg h0.k.le hw.le) (Real.rpow_nonneg (div_nonneg hw.le h0.maxStorage.le) _)
        by_cases wp' : w' > 0
        · have := pos wp'
          rw [if_pos wp']
          split_ifs <;> linarith
        · rw [if_neg wp']
          split_ifs <;> linarith
  cases hk : kind
  · rw [← hk]; subst hk; exact loc _ rfl (Or.inl rfl)
  · subst hk
    change (globalLakeSO .globalLake i s).2 ≤ (globalLakeSO .globalLake (i.with a d r) s).2
    rw [globalLake_out i s, globalLake_out (i.with a d r) s, kk, mm]
    by_cases q : lakePet .globalLake i s > lakePetMax .globalLake i s
    · rw [if_pos q]
      split_ifs
      · exact le_rfl
      · exact le_max_left _ _
    · rw [if_neg q, if_neg (by linarith)]
      refine max_le_max le_rfl (max_le_max ?_ (by linarith))
      have := mul_le_mul_of_nonneg_right n1 (by linarith : 0 ≤ 1 - (1 - Real.exp (-1 * i.k)) / i.k)
      linarith
  · rw [← hk]; subst hk; exact loc _ rfl (Or.inr rfl)
  · subst hk
    change (globalWetlandSO .globalWetland i s).2 ≤ (globalWetlandSO .globalWetland (i.with a d r) s).2
    rw [globalWetland_out i s h0.maxStorage.le, globalWetland_out (i.with a d r) s h0.maxStorage.le, kk, mm]
    by_cases q' : lakePet .globalWetland (i.with a d r) s > lakePetMax .globalWetland (i.with a d r) s
    · rw [if_pos q', if_pos (by linarith)]
    · rw [if_neg q']
      have s0 : 0 ≤ s := hs
      split_ifs with q
      · refine le_max_of_le_left ?_
        rw [lakePetMax_eq] at q'
        have : -s ≤ lakeNetIn .globalWetland (i.with a d r) s := by
          unfold lakeNetIn
          have : lowest .globalWetland (i.with a d r).maxStorage = 0 := rfl
          linarith
        nlinarith
      · refine max_le_max ?_ (by linarith)
        have := mul_le_mul_of_nonneg_right n1 (by linarith : 0 ≤ 1 - (1 - Real.exp (-1 * i.k)) / i.k)
        linarith

end

/-! ## Reservoirs -/

theorem flush_mono (minV : ℝ) {x y : ℝ} (h : x ≤ y) : flush minV x ≤ flush minV y := by
  unfold flush
  split_ifs with hx hy hy
  · exact le_rfl
  · rw [abs_le] at hx
    rw [abs_le] at hy
    push Not at hy
    by_contra c
    have := hy (by linarith)
    linarith
  · rw [abs_le] at hy
    rw [abs_le] at hx
    push Not at hx
    by_contra c
    have : -minV ≤ x := by linarith
    have := hx this
    linarith
  · exact h

theorem resAbstract_mono (d d' st st' cap : ℝ) (hd : d' ≤ d) (hst : st ≤ st') :
    (resAbstract d st cap).1 ≤ (resAbstract d' st' cap).1 ∧ (resAbstract d' st' cap).2 ≤ (resAbstract d st cap).2 ∧
      0 ≤ (resAbstract d' st' cap).2 := by
  unfold resAbstract
  split_ifs <;> refine ⟨?_, ?_, ?_⟩ <;> dsimp only <;> linarith

/-- The outflow rises with the storage and with the release asked for. -/
theorem resRelease_mono (st st' r r' cap : ℝ) (hst : st ≤ st') (hr : r ≤ r') :
    (resRelease st r cap).2 ≤ (resRelease st' r' cap).2 := by
  have key : ∀ (x o : ℝ), (let st1 := x - o
      let o2 := if st1 > cap then o + (st1 - cap) else o
      let st2 := if st1 > cap then cap else st1
      if st2 < 0 then ((0 : ℝ), o2 + st2) else (st2, o2)).2 = 
        if x - o > cap then (if cap < 0 then x else x - cap) else if x - o < 0 then x else o := by
    intro x o
    dsimp only
    split_ifs <;> dsimp only <;> linarith
  have step : ∀ (x x' o o' : ℝ), x ≤ x' → o ≤ o' → 
      (if x - o > cap then (if cap < 0 then x else x - cap) else if x - o < 0 then x else o) ≤
        (if x' - o' > cap then (if cap < 0 then x' else x' - cap) else if x' - o' < 0 then x' else o') := by
    intro x x' o o' h1 h2
    split_ifs <;> linarith
  unfold resRelease
  have a := key st (if (if st ≥ cap * 0.1 then r * (86400 / 1e9) else 0.1 * r * (86400 / 1e9)) < 0 then 0
    else (if st ≥ cap * 0.1 then r * (86400 / 1e9) else 0.1 * r * (86400 / 1e9)))
  have b := key st' (if (if st' ≥ cap * 0.1 then r' * (86400 / 1e9) else 0.1 * r' * (86400 / 1e9)) < 0 then 0
    else (if st' ≥ cap * 0.1 then r' * (86400 / 1e9) else 0.1 * r' * (86400 / 1e9)))
  dsimp only at a b ⊢
  rw [a, b]
  apply step _ _ _ _ hst
  norm_num
  split_ifs <;> linarith

/-- The release coefficient is not fixed on this day, or the provisional release is not negative. -/
def HanIn.Forward (h : HanIn) : Prop :=
  0 ≤ h.meanInflow ∧ (h.month = h.startMonth ∧ h.day = 1 → 0 ≤ provRelease h)

theorem hanK_mono (h : HanIn) (a st st' : ℝ) (hc : 0 < h.cap) (hst : st ≤ st') :
    hanK h st ≤ hanK { h with inflow := a } st' ∧
      (¬ (h.month = h.startMonth ∧ h.day = 1) → hanK { h with inflow := a } st' = hanK h st) := by
  unfold hanK
  dsimp only
  by_cases m : h.month = h.startMonth
  · by_cases d : h.day = 1
    · rw [if_pos m, if_pos m, if_pos d, if_pos d]
      refine ⟨?_, fun q => absurd ⟨m, d⟩ q⟩
      have c8 : 0 < h.cap * 0.85 := by linarith
      split_ifs with x y y
      · exact le_rfl
      · rw [le_div_iff₀ c8]; linarith
      · linarith
      · exact div_le_div_of_nonneg_right hst c8.le
    · rw [if_pos m, if_pos m, if_neg d, if_neg d]
      exact ⟨le_rfl, fun _ => rfl⟩
  · rw [if_neg m, if_neg m]
    exact ⟨le_rfl, fun _ => rfl⟩

theorem hanasaki_mono (h : HanIn) (a st st' : ℝ) (hf : h.Forward) (hc : 0 < h.cap) (ha : h.inflow ≤ a)
    (hst : st ≤ st') : (hanasaki h st).1 ≤ (hanasaki { h with inflow := a } st').1 := by
  obtain ⟨k1, k2⟩ := hanK_mono h a st st' hc hst
  have kp : hanK h st * provRelease h ≤ hanK { h with inflow := a } st' * provRelease h := by
    by_cases q : h.month = h.startMonth ∧ h.day = 1
    · exact mul_le_mul_of_nonneg_right k1 (hf.2 q)
    · rw [k2 q]
  have pr : provRelease { h with inflow := a } = provRelease h := rfl
  have sm : smallRes { h with inflow := a } = smallRes h := rfl
  unfold hanasaki
  dsimp only
  rw [pr]
  by_cases q : smallRes h
  · rw [if_pos q, if_pos (sm ▸ q)]
    obtain ⟨m0, m1⟩ := q
    set c := h.cap / (h.meanInflow * (31536000 / 1e9))
    have c0 : 0 ≤ c := div_nonneg hc.le (mul_nonneg hf.1 (by norm_num))
    have c4 : 4 * c ^ 2 ≤ 1 := by nlinarith
    have u := mul_le_mul_of_nonneg_left kp (by positivity : 0 ≤ 4 * c ^ 2)
    have v := mul_le_mul_of_nonneg_left (mul_le_mul_of_nonneg_right ha (by norm_num : (0 : ℝ) ≤ 1e9 / 86400))
      (by linarith : 0 ≤ 1 - 4 * c ^ 2)
    nlinarith
  · rw [if_neg q, if_neg (sm ▸ q)]
    exact kp

section
variable (i : ResIn) (s a sw un r : ℝ)

/-- The same reservoir on the same day with another inflow, another demand and another precipitation. -/
def ResIn.with (i : ResIn) (a sw un r : ℝ) : ResIn :=
  { i with precip := r, demandSw := sw, unsatGlolake := un, han := { i.han with inflow := a } }

/-- C84 for a reservoir: with more inflow, less demand and more rain on it, the same storage at the start of the day gives
no less outflow, no less recharge and no more unsatisfied demand. -/
theorem C84_reservoir (h0 : i.Physical) (hcf : 0 ≤ i.cfa) (hs : 0 ≤ s) (hf : i.han.Forward) (ha : i.han.inflow ≤ a)
    (hsw : sw ≤ i.demandSw) (hun : un ≤ i.unsatGlolake) (hr : i.precip ≤ r) :
    let o := resBalance i s
    let o' := resBalance { i with precip := r, demandSw := sw, unsatGlolake := un, han := { i.han with inflow := a } } s
    o.outflow ≤ o'.outflow ∧ o.gwr ≤ o'.gwr ∧ o'.unsat ≤ o.unsat ∧ 0 ≤ o.gwr ∧ 0 ≤ o'.unsat := by
  have ti : resTotalIn i ≤ resTotalIn (i.with a sw un r) := by
    have : resTotalIn (i.with a sw un r) = a + r * i.area := rfl
    have := mul_le_mul_of_nonneg_right hr h0.area
    rw [‹resTotalIn (i.with a sw un r) = _›]; unfold resTotalIn; linarith
  have sl : resTotalIn i - resPet i s ≤ resTotalIn (i.with a sw un r) - resPet (i.with a sw un r) s := by
    have e1 : resTotalIn (i.with a sw un r) = a + r * i.area := rfl
    have e2 : resPet (i.with a sw un r) s = resEvap (i.with a sw un r) s * i.area + resGwr i s := rfl
    have e3 : i.precip - resEvap i s ≤ r - resEvap (i.with a sw un r) s := rain_less_evap_mono i.cfa i.precip r _ hcf hr
    have := mul_le_mul_of_nonneg_right e3 h0.area
    rw [e1, e2]
    unfold resTotalIn resPet
    linarith
  have t0 : 0 ≤ resTotalIn i := by
    have := mul_nonneg h0.precip h0.area
    have := h0.inflow
    unfold resTotalIn; linarith
  have mx : resPetMax i s ≤ resPetMax (i.with a sw un r) s := by unfold resPetMax; linarith
  have m0 : 0 ≤ resPetMax i s := by unfold resPetMax; linarith
  have ms : resPetMax i s - resPet i s ≤ resPetMax (i.with a sw un r) s - resPet (i.with a sw un r) s := by
    unfold resPetMax; linarith
  have de : resDemand (i.with a sw un r) ≤ resDemand i := by
    unfold resDemand ResIn.with
    dsimp only
    split_ifs <;> linarith
  have st1 : resStorage1 i s ≤ resStorage1 (i.with a sw un r) s := by
    unfold resStorage1
    by_cases q' : resPet (i.with a sw un r) s > 0 ∧ resPet (i.with a sw un r) s > resPetMax (i.with a sw un r) s
    · rw [if_pos q', if_pos ⟨by linarith [q'.2], by linarith [q'.2]⟩]
    · rw [if_neg q']
      have n' : ¬ resPet (i.with a sw un r) s > resPetMax (i.with a sw un r) s := fun z => q' ⟨by linarith, z⟩
      unfold resPetMax at n'
      split_ifs <;> linarith
  obtain ⟨ab1, ab2, ab3⟩ := resAbstract_mono (resDemand i) (resDemand (i.with a sw un r)) (resStorage1 i s)
    (resStorage1 (i.with a sw un r) s) i.han.cap de st1
  have bf : resBeforeRelease i s ≤ resBeforeRelease (i.with a sw un r) s := flush_mono _ ab1
  have rl := hanasaki_mono i.han a _ _ hf h0.cap ha bf
  have cut : 0 ≤ resCut i s ∧ resCut i s ≤ resCut (i.with a sw un r) s := by
    unfold resCut
    refine ⟨by split_ifs with q; exacts [div_nonneg m0 q.1.le, by norm_num], ?_⟩
    by_cases q' : resPet (i.with a sw un r) s > 0 ∧ resPet (i.with a sw un r) s > resPetMax (i.with a sw un r) s
    · rw [if_pos q', if_pos ⟨by linarith [q'.2], by linarith [q'.2]⟩]
      exact served_mono _ _ _ _ m0 (by linarith [q'.2]) q'.2 mx ms
    · rw [if_neg q']
      split_ifs with q
      · exact (div_le_one q.1).mpr q.2.le
      · exact le_rfl
  have g := resGwr_nonneg i s h0
  exact ⟨resRelease_mono _ _ _ _ _ bf rl, mul_le_mul_of_nonneg_left cut.2 g, ab2, mul_nonneg g cut.1, ab3⟩

end

/-! ## The river and the groundwater -/

/-- The guard on small volumes changes nothing in the river on this day: either the demand takes all that is there, or
the storage solved for is not small. -/
def guardIdle (minV k s q d : ℝ) : Prop :=
  riverAvail s q k < d ∨ flush minV (s * Real.exp (-1 * k) + ((q - d) / k) * (1 - Real.exp (-1 * k)))
    = s * Real.exp (-1 * k) + ((q - d) / k) * (1 - Real.exp (-1 * k))

/-- C84 for the river: with more inflow and less demand, the same storage at the start of the day gives no less streamflow
(up to the volume the guard of the drier river may have flushed out) and no more unsatisfied demand. -/
theorem C84_river (minV corr k s q q' d d' : ℝ) (hv : 0 ≤ minV) (hc : 0 ≤ corr) (hk : 0 < k) (hs : 0 ≤ s) (hq : 0 ≤ q)
    (h : q ≤ q') (hd : d' ≤ d) :
    let o := riverBalance minV corr k s q d
    let o' := riverBalance minV corr k s q' d'
    o.streamflow ≤ o'.streamflow + corr * minV ∧ (guardIdle minV k s q d → o.streamflow ≤ o'.streamflow) ∧
      o'.unsat ≤ o.unsat ∧ 0 ≤ o'.unsat := by
  obtain ⟨e0, e1, -, c0, c1, c2, -⟩ := release_facts k hk
  obtain ⟨r0, r1⟩ := river_release_ratio k hk
  have he : 0 < 1 - Real.exp (-1 * k) := by linarith
  have av : ∀ q, riverAvail s q k = q + s * (k * Real.exp (-1 * k) / (1 - Real.exp (-1 * k))) :=
    fun q => riverAvail_eq s q k
  set r := k * Real.exp (-1 * k) / (1 - Real.exp (-1 * k)) with hr
  have rg : r * ((1 - Real.exp (-1 * k)) / k) = Real.exp (-1 * k) := by
    have := he.ne'
    rw [hr, div_mul_div_comm, mul_comm (1 - Real.exp (-1 * k)) k, mul_div_mul_right _ _ this,
      mul_div_cancel_left₀ _ hk.ne']
  set g := (1 - Real.exp (-1 * k)) / k with hg
  have fle : ∀ x, 0 ≤ x → flush minV x ≤ x ∧ x - minV ≤ flush minV x := by
    intro x hx
    unfold flush
    split_ifs with z
    · rw [abs_of_nonneg hx] at z; constructor <;> linarith
    · constructor <;> linarith
  have rest : ∀ q d : ℝ, d ≤ riverAvail s q k →
      (q - d) * (1 - g) + s * (1 - Real.exp (-1 * k)) ≤ q + s - riverNewStorage minV s q k d - d ∧
      q + s - riverNewStorage minV s q k d - d ≤ (q - d) * (1 - g) + s * (1 - Real.exp (-1 * k)) + minV ∧
      (guardIdle minV k s q d →
        q + s - riverNewStorage minV s q k d - d = (q - d) * (1 - g) + s * (1 - Real.exp (-1 * k))) := by
    intro q d hd
    have A := river_analytic_nonneg s q k d hk hd
    have f := fle _ A
    have e : (q - d) / k * (1 - Real.exp (-1 * k)) = (q - d) * g := by rw [hg]; ring
    unfold guardIdle riverNewStorage
    rw [e] at f ⊢
    refine ⟨by nlinarith [f.1], by nlinarith [f.2], fun z => ?_⟩
    rcases z with z | z
    · exact absurd hd (not_le.mpr z)
    · rw [z]; ring
  have low : ∀ q d : ℝ, d ≤ riverAvail s q k → s * (1 - r) ≤ (q - d) * (1 - g) + s * (1 - Real.exp (-1 * k)) := by
    intro q d hd
    rw [av] at hd
    have : -(s * r) ≤ q - d := by linarith
    have := mul_le_mul_of_nonneg_right this (by linarith : 0 ≤ 1 - g)
    have : -(s * r) * (1 - g) = -(s * r) + s * Real.exp (-1 * k) := by rw [← rg]; ring
    linarith
  have up : ∀ x y : ℝ, x ≤ y → (if x < 0 then 0 else x) ≤ (if y < 0 then 0 else y) := by
    intro x y h; split_ifs <;> linarith
  have sf : ∀ q d : ℝ, (riverBalance minV corr k s q d).streamflow =
      (if d > riverAvail s q k then (if q + s - riverAvail s q k < 0 then 0 else q + s - riverAvail s q k)
        else (if q + s - riverNewStorage minV s q k d - d < 0 then 0 else q + s - riverNewStorage minV s q k d - d))
        * corr := by
    intro q d; unfold riverBalance; dsimp only; split_ifs <;> rfl
  have us : ∀ q d : ℝ, 0 ≤ q → (riverBalance minV corr k s q d).unsat = max 0 (d - riverAvail s q k) := by
    intro q d hq
    have a0 : 0 ≤ riverAvail s q k := by rw [av]; positivity
    unfold riverBalance
    dsimp only
    by_cases z : d > riverAvail s q k
    · have dp : d > 0 := by linarith
      rw [if_pos z, if_pos dp, max_eq_right (by linarith)]
      dsimp only
      rw [mul_div_cancel₀ _ dp.ne']
    · rw [if_neg z, max_eq_left (by linarith)]
  have body : ∀ t : ℝ, (d ≤ riverAvail s q k → q + s - riverNewStorage minV s q k d - d
        ≤ (q - d) * (1 - g) + s * (1 - Real.exp (-1 * k)) + t) → 0 ≤ t →
      (riverBalance minV corr k s q d).streamflow ≤ (riverBalance minV corr k s q' d').streamflow + corr * t := by
    intro t ht t0
    rw [sf, sf]
    have avle : riverAvail s q k ≤ riverAvail s q' k := by rw [av, av]; linarith
    have flat : ∀ q, q + s - riverAvail s q k = s * (1 - r) := by intro q; rw [av]; ring
    rw [flat, flat]
    have main : (if d > riverAvail s q k then (if s * (1 - r) < 0 then 0 else s * (1 - r))
        else (if q + s - riverNewStorage minV s q k d - d < 0 then 0 else q + s - riverNewStorage minV s q k d - d)) ≤
      (if d' > riverAvail s q' k then (if s * (1 - r) < 0 then 0 else s * (1 - r))
        else (if q' + s - riverNewStorage minV s q' k d' - d' < 0 then 0
          else q' + s - riverNewStorage minV s q' k d' - d')) + t := by
      by_cases z' : d' > riverAvail s q' k
      · rw [if_pos z', if_pos (by linarith)]; linarith
      · rw [if_neg z']
        have l' := low q' d' (not_lt.mp z')
        have b' := (rest q' d' (not_lt.mp z')).1
        by_cases z : d > riverAvail s q k
        · rw [if_pos z]
          have := up (s * (1 - r)) (q' + s - riverNewStorage minV s q' k d' - d') (by linarith)
          linarith
        · rw [if_neg z]
          have b := ht (not_lt.mp z)
          have mono := mul_le_mul_of_nonneg_right (by linarith : q - d ≤ q' - d') (by linarith : 0 ≤ 1 - g)
          have : q + s - riverNewStorage minV s q k d - d
              ≤ q' + s - riverNewStorage minV s q' k d' - d' + t := by linarith
          split_ifs <;> linarith
    have := mul_le_mul_of_nonneg_right main hc
    linarith
  refine ⟨?_, ?_, ?_, ?_⟩
  · exact body minV (fun z => (rest q d z).2.1) hv
  · intro idle
    have := body 0 (fun z => by rw [(rest q d z).2.2 idle]; simp) le_rfl
    simpa using this
  · rw [us q d hq, us q' d' (by linarith), av, av]
    exact max_le_max le_rfl (by linarith)
  · rw [us q' d' (by linarith)]
    exact le_max_left _ _

/-- The discharge of the groundwater does not fall when more flows into it. -/
theorem gwStorage_mono (prev net net' k : ℝ) (hk : 0 < k) (h : net ≤ net') :
    (gwStorage prev net k).2 ≤ (gwStorage prev net' k).2 := by
  obtain ⟨e0, e1, -, c0, c1, -⟩ := release_facts k hk
  have : prev - (prev * Real.exp (-1 * k) + net / k * (1 - Real.exp (-1 * k))) + net
      ≤ prev - (prev * Real.exp (-1 * k) + net' / k * (1 - Real.exp (-1 * k))) + net' := by
    have h1 := mul_le_mul_of_nonneg_right h (by linarith : 0 ≤ 1 - (1 - Real.exp (-1 * k)) / k)
    have h2 : ∀ x, x / k * (1 - Real.exp (-1 * k)) = x * ((1 - Real.exp (-1 * k)) / k) := fun x => by ring
    rw [h2, h2]
    linarith
  unfold gwStorage
  dsimp only
  split_ifs <;> linarith

/-! ## One cell -/

/-- The storage of a local lake at the end of the day rises with its inflow and its rain. -/
theorem localLake_storage_mono (i : LakeIn) (s a r : ℝ) (h0 : i.Sound) (h : i.inflow ≤ a) (hr : i.precip ≤ r) :
    (lakeBalance .localLake i s).storage ≤ (lakeBalance .localLake { i with inflow := a, precip := r } s).storage := by
  change (localSO .localLake i s).1 ≤ (localSO .localLake (i.with a i.demand r) s).1
  have hw : i.Wetter a i.demand r := ⟨h, le_rfl, hr⟩
  have m1 := lakePetMax_mono .localLake i s a i.demand r h0 hw
  have p1 := lakeSlack_mono .localLake i s a i.demand r h0 hw
  have kk : (i.with a i.demand r).k = i.k := rfl
  have mm : (i.with a i.demand r).maxStorage = i.maxStorage := rfl
  have ll : (i.with a i.demand r).lakeExp = i.lakeExp := rfl
  have w1 : (if lakePet .localLake i s > lakePetMax .localLake i s then lakeLimit .localLake i
      else s + lakeTotalIn .localLake i s - lakePet .localLake i s) ≤
      (if lakePet .localLake (i.with a i.demand r) s > lakePetMax .localLake (i.with a i.demand r) s
        then lakeLimit .localLake (i.with a i.demand r)
      else s + lakeTotalIn .localLake (i.with a i.demand r) s - lakePet .localLake (i.with a i.demand r) s) := by
    have t1 := lakeNetIn_mono .localLake i s a i.demand r h0 hw
    unfold lakeNetIn at t1
    have l1 : lakeLimit .localLake (i.with a i.demand r) = lakeLimit .localLake i := rfl
    rw [l1]
    by_cases q' : lakePet .localLake (i.with a i.demand r) s > lakePetMax .localLake (i.with a i.demand r) s
    · rw [if_pos q', if_pos (by linarith)]
    · rw [if_neg q']
      rw [lakePetMax_eq, mm] at q'
      rw [lakeLimit_eq]
      split_ifs <;> linarith
  unfold localSO
  dsimp only
  rw [if_pos rfl, if_pos rfl, if_pos rfl, if_pos rfl, kk, mm, ll]
  revert w1
  generalize (if lakePet .localLake i s > lakePetMax .localLake i s then lakeLimit .localLake i
    else s + lakeTotalIn .localLake i s - lakePet .localLake i s) = w
  generalize (if lakePet .localLake (i.with a i.demand r) s > lakePetMax .localLake (i.with a i.demand r) s
    then lakeLimit .localLake (i.with a i.demand r)
    else s + lakeTotalIn .localLake (i.with a i.demand r) s - lakePet .localLake (i.with a i.demand r) s) = w'
  intro w1
  by_cases sp : s > 0
  · have pos : 0 ≤ i.k * s * (s / i.maxStorage) ^ i.lakeExp :=
      mul_nonneg (mul_nonneg h0.k.le sp.le) (Real.rpow_nonneg (div_nonneg sp.le h0.maxStorage.le) _)
    revert pos
    generalize i.k * s * (s / i.maxStorage) ^ i.lakeExp = o
    intro pos
    rw [if_pos sp, if_pos sp]
    simp only [apply_ite Prod.fst]
    split_ifs <;> linarith
  · rw [if_neg sp, if_neg sp]
    simp only [apply_ite Prod.fst]
    split_ifs <;> linarith

/-- The cell with rain, runoff, recharge and groundwater use of another input, and everything else as it is. -/
def CellIn.alter (c o : CellIn) : CellIn :=
  { c with precip := o.precip, runoff := o.runoff, recharge := o.recharge, potNag := o.potNag, unsatNas := o.unsatNas,
           withdrawal := o.withdrawal, consumptive := o.consumptive, fracReturn := o.fracReturn, useOpt := o.useOpt }

/-- What is taken from the groundwater of a cell on a day, net (`groundwater.py:103-112`). -/
noncomputable def CellIn.netGroundwaterUse (c : CellIn) : ℝ :=
  if c.unsatNas ≠ 0 then updateNetabsGw c.potNag c.withdrawal c.consumptive c.unsatNas c.fracReturn else c.potNag

/-- The cell gets no less rain on its open water, runoff and recharge, and no more is taken from its groundwater; all else is the same. -/
structure Wetter (c c' : CellIn) : Prop where
  same : c' = c.alter c'
  precip : c.precip ≤ c'.precip
  runoff : c.runoff ≤ c'.runoff
  recharge : c.recharge ≤ c'.recharge
  gwUse : c'.netGroundwaterUse ≤ c.netGroundwaterUse

/-- Sensible parameters of the routines of the cell. -/
structure CellIn.Regular (c : CellIn) : Prop where
  gwK : 0 < c.gwK
  wetExp : 0 ≤ c.wetExp
  corr : 0 ≤ c.corr
  cfa : 0 ≤ c.cfa
  han : 0 < c.resArea → c.han.Forward

section
variable (c o : CellIn) (st : CellState) (up up' demand demand' : ℝ) (keep keep' : ℝ → ℝ)

theorem alter_gwKind : (c.alter o).gwKind = c.gwKind := rfl

theorem cellGw_mono (hk : 0 < c.gwK) (hr : c.recharge ≤ o.recharge) (hu : o.netGroundwaterUse ≤ c.netGroundwaterUse)
    (p p' : ℝ) (hp : p ≤ p') : (cellGw c st p).discharge ≤ (cellGw (c.alter o) st p').discharge := by
  unfold cellGw groundwaterBalance
  dsimp only
  have e1 : (c.alter o).gwK = c.gwK := rfl
  rw [alter_gwKind, e1]
  apply gwStorage_mono _ _ _ _ hk
  have e2 : (if (c.alter o).unsatNas ≠ 0 then updateNetabsGw (c.alter o).potNag (c.alter o).withdrawal
    (c.alter o).consumptive (c.alter o).unsatNas (c.alter o).fracReturn else (c.alter o).potNag)
      = o.netGroundwaterUse := rfl
  have e3 : (if c.unsatNas ≠ 0 then updateNetabsGw c.potNag c.withdrawal c.consumptive c.unsatNas c.fracReturn
    else c.potNag) = c.netGroundwaterUse := rfl
  have e4 : (c.alter o).recharge = o.recharge := rfl
  rw [e2, e3, e4]
  cases c.gwKind <;> dsimp only <;> linarith

theorem cellEarly_mono (hk : 0 < c.gwK) (hr : c.recharge ≤ o.recharge)
    (hu : o.netGroundwaterUse ≤ c.netGroundwaterUse) :
    cellEarlyDischarge c st ≤ cellEarlyDischarge (c.alter o) st := by
  unfold cellEarlyDischarge
  rw [alter_gwKind]
  split_ifs
  · exact le_rfl
  · exact cellGw_mono c o st hk hr hu 0 0 le_rfl

theorem cellSplit_mono (h : c.Physical) (hk : 0 < c.gwK) (hro : c.runoff ≤ o.runoff) (hr : c.recharge ≤ o.recharge)
    (hu : o.netGroundwaterUse ≤ c.netGroundwaterUse) :
    (cellSplit c st).1 ≤ (cellSplit (c.alter o) st).1 ∧ (cellSplit c st).2 ≤ (cellSplit (c.alter o) st).2 := by
  have e := cellEarly_mono c o st hk hr hu
  have f0 : 0 ≤ swbShare c.locLake.frac c.locWet.frac c.gloWet.frac c.factor := by
    have := h.locLake.frac
    have := h.locWet.frac
    have := h.gloWet.frac
    have := h.factor
    unfold swbShare
    dsimp only
    split_ifs
    · norm_num
    · positivity
  have f1 : swbShare c.locLake.frac c.locWet.frac c.gloWet.frac c.factor ≤ 1 := by
    unfold swbShare
    dsimp only
    split_ifs <;> linarith
  have e2 : cellSplit (c.alter o) st = fracRouting o.runoff (cellEarlyDischarge (c.alter o) st) c.locLake.frac
    c.locWet.frac c.gloWet.frac c.factor c.sink := rfl
  rw [e2]
  unfold cellSplit fracRouting
  dsimp only
  have a1 := mul_le_mul_of_nonneg_left hro f0
  have a2 := mul_le_mul_of_nonneg_left e f0
  have a3 := mul_le_mul_of_nonneg_left hro (by linarith : 0 ≤ 1 - swbShare c.locLake.frac c.locWet.frac
    c.gloWet.frac c.factor)
  have a4 := mul_le_mul_of_nonneg_left e (by linarith : 0 ≤ 1 - swbShare c.locLake.frac c.locWet.frac
    c.gloWet.frac c.factor)
  split_ifs <;> constructor <;> linarith

theorem lakeIn_sound (h : c.Physical) (b : Body) (hb : b.Physical) (hf : 0 < b.frac) (inflow a d : ℝ)
    (hi : 0 ≤ inflow) (hcf : 0 ≤ c.cfa) : (c.lakeIn b inflow a d).Sound :=
  { precip := h.precip, inflow := hi, k := h.swbK, gw := h.gwConst,
    maxStorage := hb.storage hf, maxArea := hb.area hf, cfa := hcf }

open Classical in
/-- A body that may be absent. -/
theorem bodyDay_mono (kind : LakeKind) (i : LakeIn) (s a d r : ℝ) (present : Prop)
    (hp : present → i.Sound ∧ lowest kind i.maxStorage ≤ s) (hex : 0 ≤ i.wetlandExp) (h : i.inflow ≤ a)
    (hd : d ≤ i.demand) (hr : i.precip ≤ r) :
    let x := bodyDay kind i s present
    let x' := bodyDay kind { i with inflow := a, demand := d, precip := r } s present
    x.outflow ≤ x'.outflow ∧ x.gwr ≤ x'.gwr ∧ x'.unsat ≤ x.unsat := by
  unfold bodyDay
  by_cases q : present
  · simp only [if_pos q]
    exact C84_lake_wetland kind i s a d r (hp q).1 (hp q).2 hex h hd hr
  · simp only [if_neg q]
    exact ⟨h, le_rfl, le_rfl⟩

theorem cellLocLake_mono (h : c.Physical) (hs : st.Ok c) (hg : c.Regular) (hpr : c.precip ≤ o.precip) (hro : c.runoff ≤ o.runoff)
    (hr : c.recharge ≤ o.recharge) (hu : o.netGroundwaterUse ≤ c.netGroundwaterUse) :
    (cellLocLake c st).outflow ≤ (cellLocLake (c.alter o) st).outflow ∧
      (cellLocLake c st).gwr ≤ (cellLocLake (c.alter o) st).gwr ∧
      (cellLocLake c st).storage ≤ (cellLocLake (c.alter o) st).storage := by
  have sp := (cellSplit_mono c o st h hg.gwK hro hr hu).1
  have s0 := (split_facts c st h).2.1
  have snd : 0 < c.locLake.frac → (c.lakeIn c.locLake (cellSplit c st).1 0 0).Sound ∧
      lowest .localLake (c.lakeIn c.locLake (cellSplit c st).1 0 0).maxStorage ≤ st.locLake := fun q =>
    ⟨lakeIn_sound c h _ h.locLake q _ _ _ s0 hg.cfa, (hs.locLake q).1⟩
  have b := bodyDay_mono .localLake (c.lakeIn c.locLake (cellSplit c st).1 0 0) st.locLake
    (cellSplit (c.alter o) st).1 0 o.precip (c.locLake.frac > 0) snd hg.wetExp sp le_rfl hpr
  refine ⟨b.1, b.2.1, ?_⟩
  change (bodyDay .localLake (c.lakeIn c.locLake (cellSplit c st).1 0 0) st.locLake (c.locLake.frac > 0)).storage ≤
    (bodyDay .localLake { c.lakeIn c.locLake (cellSplit c st).1 0 0 with
        inflow := (cellSplit (c.alter o) st).1, precip := o.precip }
      st.locLake (c.locLake.frac > 0)).storage
  unfold bodyDay
  by_cases q : c.locLake.frac > 0
  · simp only [if_pos q]
    exact localLake_storage_mono _ _ _ _ (snd q).1 sp hpr
  · simp only [if_neg q]
    exact le_rfl

theorem cellLocWet_mono (h : c.Physical) (hs : st.Ok c) (hg : c.Regular) (hpr : c.precip ≤ o.precip) (hro : c.runoff ≤ o.runoff)
    (hr : c.recharge ≤ o.recharge) (hu : o.netGroundwaterUse ≤ c.netGroundwaterUse) :
    (cellLocWet c st).outflow ≤ (cellLocWet (c.alter o) st).outflow ∧
      (cellLocWet c st).gwr ≤ (cellLocWet (c.alter o) st).gwr := by
  have b := bodyDay_mono .localWetland (c.lakeIn c.locWet (cellLocLake c st).outflow 0 0) st.locWet
    (cellLocLake (c.alter o) st).outflow 0 o.precip (c.locWet.frac > 0)
    (fun q => ⟨lakeIn_sound c h _ h.locWet q _ _ _ (locLake_facts c st h hs).1.out hg.cfa, (hs.locWet q).1⟩) hg.wetExp
    (cellLocLake_mono c o st h hs hg hpr hro hr hu).1 le_rfl hpr
  exact ⟨b.1, b.2.1⟩

theorem cellGloLake_nonneg (h : c.Physical) (hs : st.Ok c) (hup : 0 ≤ up) : 0 ≤ (cellGloLake c st up demand).outflow := by
  have hin := (locWet_facts c st h hs).1.out
  unfold cellGloLake bodyDay
  by_cases q : c.glolakeArea > 0
  · rw [if_pos q]
    change 0 ≤ (globalLakeSO .globalLake _ _).2
    rw [globalLake_out]
    split_ifs
    · exact le_rfl
    · exact le_max_left _ _
  · rw [if_neg q]
    change 0 ≤ (cellLocWet c st).outflow + up
    linarith

theorem cellGloLake_mono (h : c.Physical) (hs : st.Ok c) (hg : c.Regular) (hpr : c.precip ≤ o.precip) (hro : c.runoff ≤ o.runoff)
    (hr : c.recharge ≤ o.recharge) (hu : o.netGroundwaterUse ≤ c.netGroundwaterUse) (hup : 0 ≤ up) (hle : up ≤ up')
    (hd : demand' ≤ demand) :
    (cellGloLake c st up demand).outflow ≤ (cellGloLake (c.alter o) st up' demand').outflow ∧
      (cellGloLake c st up demand).gwr ≤ (cellGloLake (c.alter o) st up' demand').gwr ∧
      (cellGloLake (c.alter o) st up' demand').unsat ≤ (cellGloLake c st up demand).unsat := by
  have w := (cellLocWet_mono c o st h hs hg hpr hro hr hu).1
  have w0 := (locWet_facts c st h hs).1.out
  exact bodyDay_mono .globalLake
    (c.lakeIn ⟨0, c.glolakeArea, c.maxGlolake⟩ ((cellLocWet c st).outflow + up) c.resArea demand) st.gloLake
    ((cellLocWet (c.alter o) st).outflow + up') demand' o.precip (c.glolakeArea > 0)
    (fun q => ⟨{ precip := h.precip, inflow := by show 0 ≤ (cellLocWet c st).outflow + up; linarith, k := h.swbK,
                 gw := h.gwConst, maxStorage := h.maxGlolake q, maxArea := le_of_lt q, cfa := hg.cfa }, (hs.gloLake q).1⟩)
    hg.wetExp (by show (cellLocWet c st).outflow + up ≤ _; linarith) hd hpr

theorem resIn_sound (h : c.Physical) (hs : st.Ok c) (hup : 0 ≤ up) (q : 0 < c.resArea) :
    (cellResIn c st up demand).Physical :=
  { precip := h.precip, openPet := h.openPet, inflow := cellGloLake_nonneg c st up demand h hs hup,
    gwConst := h.gwConst, area := q.le, cap := h.cap q }

theorem cellRes_mono (h : c.Physical) (hs : st.Ok c) (hg : c.Regular) (hpr : c.precip ≤ o.precip) (hro : c.runoff ≤ o.runoff)
    (hr : c.recharge ≤ o.recharge) (hu : o.netGroundwaterUse ≤ c.netGroundwaterUse) (hup : 0 ≤ up) (hle : up ≤ up')
    (hd : demand' ≤ demand) :
    (cellRes c st up demand).outflow ≤ (cellRes (c.alter o) st up' demand').outflow ∧
      (cellRes c st up demand).gwr ≤ (cellRes (c.alter o) st up' demand').gwr ∧
      (cellRes (c.alter o) st up' demand').unsat ≤ (cellRes c st up demand).unsat ∧
      0 ≤ (cellRes (c.alter o) st up' demand').unsat := by
  obtain ⟨g1, -, g3⟩ := cellGloLake_mono c o st up up' demand demand' h hs hg hpr hro hr hu hup hle hd
  have e : cellRes (c.alter o) st up' demand' =
      if c.resArea > 0 then resBalance { cellResIn c st up demand with
          precip := o.precip, demandSw := demand', unsatGlolake := (cellGloLake (c.alter o) st up' demand').unsat,
          han := { (cellResIn c st up demand).han with inflow := (cellGloLake (c.alter o) st up' demand').outflow } } st.res
      else { storage := st.res, outflow := (cellGloLake (c.alter o) st up' demand').outflow, gwr := 0, kRelease := st.k,
             unsat := 0, use := 0, evapKm3 := 0 } := rfl
  rw [e]
  unfold cellRes
  by_cases q : c.resArea > 0
  · rw [if_pos q, if_pos q]
    obtain ⟨r1, r2, r3, -, r5⟩ := C84_reservoir (cellResIn c st up demand) st.res _ _ _ o.precip
      (resIn_sound c st up demand h hs hup q) hg.cfa (hs.res q).1 (hg.han q) g1 hd g3 hpr
    exact ⟨r1, r2, r3, r5⟩
  · rw [if_neg q, if_neg q]
    exact ⟨g1, le_rfl, le_rfl, le_rfl⟩

theorem cellRes_nonneg (h : c.Physical) (hs : st.Ok c) (hup : 0 ≤ up) : 0 ≤ (cellRes c st up demand).outflow := by
  have g := cellGloLake_nonneg c st up demand h hs hup
  unfold cellRes
  by_cases q : c.resArea > 0
  · rw [if_pos q]
    have hp := resIn_sound c st up demand h hs hup q
    have s0 := (hs.res q).1
    have cp := hp.cap
    have t0 : 0 ≤ resTotalIn (cellResIn c st up demand) := by
      have := mul_nonneg hp.precip hp.area
      have := hp.inflow
      unfold resTotalIn; linarith
    have s1 : 0 ≤ resStorage1 (cellResIn c st up demand) st.res := by
      unfold resStorage1
      split_ifs with z
      · exact le_rfl
      · by_cases zp : resPet (cellResIn c st up demand) st.res > 0
        · have : ¬ resPet (cellResIn c st up demand) st.res > resPetMax (cellResIn c st up demand) st.res :=
            fun w => z ⟨zp, w⟩
          unfold resPetMax at this; linarith
        · linarith
    have b0 : 0 ≤ resBeforeRelease (cellResIn c st up demand) st.res := by
      have : 0 ≤ (resAbstract (resDemand (cellResIn c st up demand)) (resStorage1 (cellResIn c st up demand) st.res)
          (cellResIn c st up demand).han.cap).1 := by
        unfold resAbstract; split_ifs <;> dsimp only <;> linarith
      have := flush_mono (cellResIn c st up demand).minV this
      have z : flush (cellResIn c st up demand).minV 0 = 0 := by unfold flush; split_ifs <;> rfl
      rw [z] at this
      exact this
    change 0 ≤ (resRelease _ _ _).2
    unfold resRelease
    dsimp only
    split_ifs <;> dsimp only <;> linarith
  · rw [if_neg q]; exact g

theorem cellGloWet_nonneg (h : c.Physical) (hs : st.Ok c) (hup : 0 ≤ up) : 0 ≤ (cellGloWet c st up demand).outflow := by
  have g := cellRes_nonneg c st up demand h hs hup
  unfold cellGloWet bodyDay
  by_cases q : c.gloWet.frac > 0
  · rw [if_pos q]
    change 0 ≤ (globalWetlandSO .globalWetland _ _).2
    have cp := h.gloWet.storage q
    rw [globalWetland_out _ _ (by exact cp.le)]
    split_ifs with z
    · exact le_rfl
    · refine le_max_of_le_left ?_
      obtain ⟨e0, e1, -, c0, c1, c2, -⟩ := release_facts c.swbK h.swbK
      have s0 := (hs.gloWet q).1
      rw [lakePetMax_eq] at z
      have : -st.gloWet ≤ lakeNetIn .globalWetland (c.lakeIn c.gloWet (cellRes c st up demand).outflow 0 0) st.gloWet := by
        unfold lakeNetIn
        have : lowest .globalWetland (c.lakeIn c.gloWet (cellRes c st up demand).outflow 0 0).maxStorage = 0 := rfl
        linarith
      have k1 : (c.lakeIn c.gloWet (cellRes c st up demand).outflow 0 0).k = c.swbK := rfl
      rw [k1]
      nlinarith
  · rw [if_neg q]; exact g

theorem cellGloWet_mono (h : c.Physical) (hs : st.Ok c) (hg : c.Regular) (hpr : c.precip ≤ o.precip) (hro : c.runoff ≤ o.runoff)
    (hr : c.recharge ≤ o.recharge) (hu : o.netGroundwaterUse ≤ c.netGroundwaterUse) (hup : 0 ≤ up) (hle : up ≤ up')
    (hd : demand' ≤ demand) :
    (cellGloWet c st up demand).outflow ≤ (cellGloWet (c.alter o) st up' demand').outflow ∧
      (cellGloWet c st up demand).gwr ≤ (cellGloWet (c.alter o) st up' demand').gwr := by
  have b := bodyDay_mono .globalWetland (c.lakeIn c.gloWet (cellRes c st up demand).outflow 0 0) st.gloWet
    (cellRes (c.alter o) st up' demand').outflow 0 o.precip (c.gloWet.frac > 0)
    (fun q => ⟨lakeIn_sound c h _ h.gloWet q _ _ _ (cellRes_nonneg c st up demand h hs hup) hg.cfa, (hs.gloWet q).1⟩) hg.wetExp
    (cellRes_mono c o st up up' demand demand' h hs hg hpr hro hr hu hup hle hd).1 le_rfl hpr
  exact ⟨b.1, b.2.1⟩

theorem cellRiverIn_mono (h : c.Physical) (hs : st.Ok c) (hg : c.Regular) (hpr : c.precip ≤ o.precip) (hro : c.runoff ≤ o.runoff)
    (hr : c.recharge ≤ o.recharge) (hu : o.netGroundwaterUse ≤ c.netGroundwaterUse) (hup : 0 ≤ up) (hle : up ≤ up')
    (hd : demand' ≤ demand) :
    0 ≤ cellRiverIn c st up demand ∧ cellRiverIn c st up demand ≤ cellRiverIn (c.alter o) st up' demand' := by
  have b := (cellGloWet_mono c o st up up' demand demand' h hs hg hpr hro hr hu hup hle hd)
  have b0 := cellGloWet_nonneg c st up demand h hs hup
  have s0 := (split_facts c st h).2.2.1
  have s1 := (cellSplit_mono c o st h hg.gwK hro hr hu).2
  have p : cellPoint c st up demand ≤ cellPoint (c.alter o) st up' demand' := by
    have a1 := (cellLocLake_mono c o st h hs hg hpr hro hr hu).2.1
    have a2 := (cellLocWet_mono c o st h hs hg hpr hro hr hu).2
    have a3 := (cellGloLake_mono c o st up up' demand demand' h hs hg hpr hro hr hu hup hle hd).2.1
    have a4 := (cellRes_mono c o st up up' demand demand' h hs hg hpr hro hr hu hup hle hd).2.1
    unfold cellPoint
    linarith [b.2]
  have g0 := cellGw_discharge_nonneg c st (cellPoint c st up demand)
  have g1 : (cellGwFinal c st up demand).discharge ≤ (cellGwFinal (c.alter o) st up' demand').discharge :=
    cellGw_mono c o st hg.gwK hr hu _ _ p
  have ek : (c.alter o).sink = c.sink := rfl
  unfold cellRiverIn
  rw [alter_gwKind, ek]
  have g0' : 0 ≤ (cellGwFinal c st up demand).discharge := g0
  dsimp only
  split_ifs <;> constructor <;> linarith [b.1]

theorem cellUnsat1_mono (h : c.Physical) (hs : st.Ok c) (hg : c.Regular) (hpr : c.precip ≤ o.precip) (hro : c.runoff ≤ o.runoff)
    (hr : c.recharge ≤ o.recharge) (hu : o.netGroundwaterUse ≤ c.netGroundwaterUse) (hup : 0 ≤ up) (hle : up ≤ up')
    (hd : demand' ≤ demand) : cellUnsat1 (c.alter o) st up' demand' ≤ cellUnsat1 c st up demand := by
  have a := (cellGloLake_mono c o st up up' demand demand' h hs hg hpr hro hr hu hup hle hd).2.2
  have b := (cellRes_mono c o st up up' demand demand' h hs hg hpr hro hr hu hup hle hd).2.2.1
  have e1 : (c.alter o).resArea = c.resArea := rfl
  have e2 : (c.alter o).glolakeArea = c.glolakeArea := rfl
  unfold cellUnsat1
  rw [e1, e2]
  split_ifs
  · exact b
  · exact a
  · exact hd

end

/-- The guard on small volumes does not act on the river of a cell. -/
def riverGuardIdle (c : CellIn) (st : CellState) (up demand : ℝ) (keep : ℝ → ℝ) : Prop :=
  guardIdle c.minV (outflowConstant st.river c.len c.width c.rough c.mult c.slope) st.river (cellRiverIn c st up demand)
    (cellUnsat2 c st up demand keep)

section
variable (c o : CellIn) (st : CellState) (up up' demand demand' : ℝ) (keep keep' : ℝ → ℝ)

/-- The river of the cell, given what is asked of it. -/
theorem cellRiver_mono (h : c.Physical) (hs : st.Ok c) (hg : c.Regular) (hpr : c.precip ≤ o.precip) (hro : c.runoff ≤ o.runoff)
    (hr : c.recharge ≤ o.recharge) (hu : o.netGroundwaterUse ≤ c.netGroundwaterUse) (hup : 0 ≤ up) (hle : up ≤ up')
    (hd : demand' ≤ demand) (h2 : cellUnsat2 (c.alter o) st up' demand' keep' ≤ cellUnsat2 c st up demand keep) :
    (cellRiver c st up demand keep).streamflow ≤ (cellRiver (c.alter o) st up' demand' keep').streamflow + c.corr * c.minV ∧
    (riverGuardIdle c st up demand keep →
      (cellRiver c st up demand keep).streamflow ≤ (cellRiver (c.alter o) st up' demand' keep').streamflow) ∧
    (cellRiver (c.alter o) st up' demand' keep').unsat ≤ (cellRiver c st up demand keep).unsat ∧
    0 ≤ (cellRiver (c.alter o) st up' demand' keep').unsat := by
  have q := cellRiverIn_mono c o st up up' demand demand' h hs hg hpr hro hr hu hup hle hd
  have k : 0 < outflowConstant st.river c.len c.width c.rough c.mult c.slope := by
    unfold outflowConstant
    refine div_pos ?_ h.len
    unfold riverVelocity
    dsimp only
    split_ifs with z
    · norm_num
    · linarith
  exact C84_river c.minV c.corr _ st.river _ _ _ _ h.minV hg.corr k hs.river q.1 q.2 h2

theorem cell_alter_mono (h : c.Physical) (hs : st.Ok c) (hg : c.Regular) (hpr : c.precip ≤ o.precip) (hro : c.runoff ≤ o.runoff)
    (hr : c.recharge ≤ o.recharge) (hu : o.netGroundwaterUse ≤ c.netGroundwaterUse) (hup : 0 ≤ up) (hle : up ≤ up')
    (hd : demand' ≤ demand) (huse : o.useOpt = c.useOpt) (hkeep : ∀ u u', u' ≤ u → keep' u' ≤ keep u) :
    (cellDay c st up demand keep).streamflow
      ≤ (cellDay (c.alter o) st up' demand' keep').streamflow + c.corr * c.minV ∧
    (riverGuardIdle c st up demand keep →
      (cellDay c st up demand keep).streamflow ≤ (cellDay (c.alter o) st up' demand' keep').streamflow) ∧
    (cellDay (c.alter o) st up' demand' keep').lakeUnsat ≤ (cellDay c st up demand keep).lakeUnsat ∧
    (cellDay (c.alter o) st up' demand' keep').unsat ≤ (cellDay c st up demand keep).unsat ∧
    0 ≤ (cellDay (c.alter o) st up' demand' keep').unsat := by
  have u1 := cellUnsat1_mono c o st up up' demand demand' h hs hg hpr hro hr hu hup hle hd
  have e1 : (c.alter o).resArea = c.resArea := rfl
  have e2 : (c.alter o).glolakeArea = c.glolakeArea := rfl
  have e3 : (c.alter o).useOpt = c.useOpt := huse
  have u2 : cellUnsat2 (c.alter o) st up' demand' keep' ≤ cellUnsat2 c st up demand keep := by
    unfold cellUnsat2
    rw [e1, e2, e3]
    split_ifs
    · exact hkeep _ _ u1
    · exact u1
  obtain ⟨r1, r2, r3, r4⟩ := cellRiver_mono c o st up up' demand demand' keep keep' h hs hg hpr hro hr hu hup hle hd u2
  have ls := (cellLocLake_mono c o st h hs hg hpr hro hr hu).2.2
  have tp : (cellTapped (c.alter o) st up' demand' keep').2.1 ≤ (cellTapped c st up demand keep).2.1 ∧
      0 ≤ (cellTapped (c.alter o) st up' demand' keep').2.1 := by
    have t1 : cellTap (c.alter o) st up' demand' keep' ↔ c.useOpt = true ∧ c.locLake.frac > 0 ∧
        (cellRiver (c.alter o) st up' demand' keep').unsat > 0 ∧
        (cellLocLake (c.alter o) st).storage > -1 * c.locLake.maxStorage := by
      unfold cellTap; rw [e3]; exact Iff.rfl
    have e4 : (c.alter o).locLake.maxStorage = c.locLake.maxStorage := rfl
    unfold cellTapped
    by_cases q' : cellTap (c.alter o) st up' demand' keep'
    · rw [if_pos q']
      obtain ⟨q1, q2, q3, q4⟩ := t1.mp q'
      by_cases q : cellTap c st up demand keep
      · rw [if_pos q]
        unfold localLakeAbstract
        dsimp only
        rw [e4]
        split_ifs <;> dsimp only <;> constructor <;> linarith
      · rw [if_neg q]
        unfold localLakeAbstract
        dsimp only
        rw [e4]
        split_ifs <;> dsimp only <;> constructor <;> linarith
    · rw [if_neg q']
      dsimp only
      refine ⟨?_, r4⟩
      by_cases q : cellTap c st up demand keep
      · obtain ⟨q1, q2, q3, q4⟩ := q
        have z : (cellRiver (c.alter o) st up' demand' keep').unsat = 0 := by
          by_contra ne
          exact q' (t1.mpr ⟨q1, q2, lt_of_le_of_ne r4 (Ne.symm ne), by linarith⟩)
        rw [z, if_pos ⟨q1, q2, q3, q4⟩]
        unfold localLakeAbstract
        dsimp only
        split_ifs <;> dsimp only <;> linarith
      · rw [if_neg q]; exact r3
  exact ⟨r1, r2, u1, tp.1, tp.2⟩

end

/-- C84 for a cell: the same storages at the start of the day, no less rain, runoff, recharge and inflow from upstream, no more
demand and no more groundwater use give no less streamflow (up to what the guard may flush out of the drier river) and no
more unsatisfied demand.  `keep` is what is kept of an unsatisfied demand of lake and reservoir. -/
theorem C84_cell (c c' : CellIn) (st : CellState) (up up' demand demand' : ℝ) (keep keep' : ℝ → ℝ)
    (h : c.Physical) (hs : st.Ok c) (hg : c.Regular) (hw : Wetter c c')
    (hup : 0 ≤ up) (hle : up ≤ up') (hd : demand' ≤ demand) (huse : c'.useOpt = c.useOpt)
    (hkeep : ∀ u u', u' ≤ u → keep' u' ≤ keep u) :
    let x := cellDay c st up demand keep
    let x' := cellDay c' st up' demand' keep'
    x.streamflow ≤ x'.streamflow + c.corr * c.minV ∧
    (riverGuardIdle c st up demand keep → x.streamflow ≤ x'.streamflow) ∧
    x'.lakeUnsat ≤ x.lakeUnsat ∧ x'.unsat ≤ x.unsat ∧ 0 ≤ x'.unsat := by
  have := cell_alter_mono c c' st up up' demand demand' keep keep' h hs hg hw.precip hw.runoff hw.recharge hw.gwUse hup hle hd huse
    hkeep
  rw [← hw.same] at this
  exact this

/-! ## The network -/

section
variable {δ δ' : Type}

/-- Two loops over the same cells, the first drier than the second, as long as what each cell of the first does satisfies
`Idle`. -/
theorem basinDay_mono (R : δ → δ' → Prop) (Idle : Cell → CellOut → Prop) (cin cin' : Cell → CellIn)
    (get : δ → Cell → ℝ × (ℝ → ℝ)) (upd : δ → Cell → CellOut → δ) (get' : δ' → Cell → ℝ × (ℝ → ℝ))
    (upd' : δ' → Cell → CellOut → δ') (order : List (Cell × Cell)) (hnd : (order.map Prod.fst).Nodup) (l : δ) (l' : δ')
    (state : Cell → CellState) (hl : R l l')
    (hstep : ∀ x ∈ order.map Prod.fst, ∀ l l' up up', R l l' → 0 ≤ up → up ≤ up' →
      0 ≤ cellRiverIn (cin x) (state x) up (get l x).1 ∧
      cellRiverIn (cin x) (state x) up (get l x).1 ≤ cellRiverIn (cin' x) (state x) up' (get' l' x).1 ∧
      0 ≤ (cellDay (cin x) (state x) up (get l x).1 (get l x).2).streamflow ∧
      (Idle x (cellDay (cin x) (state x) up (get l x).1 (get l x).2) →
        (cellDay (cin x) (state x) up (get l x).1 (get l x).2).streamflow
          ≤ (cellDay (cin' x) (state x) up' (get' l' x).1 (get' l' x).2).streamflow) ∧
      R (upd l x (cellDay (cin x) (state x) up (get l x).1 (get l x).2))
        (upd' l' x (cellDay (cin' x) (state x) up' (get' l' x).1 (get' l' x).2)))
    (hidle : ∀ x ∈ order.map Prod.fst, ∀ o, (basinDay cin get upd order l state).ledger.out x = some o → Idle x o) :
    (∀ x, (basinDay cin get upd order l state).flow x ≤ (basinDay cin' get' upd' order l' state).flow x) ∧
      R (basinDay cin get upd order l state).ledger.demand (basinDay cin' get' upd' order l' state).ledger.demand := by
  -- what a cell did stays on record
  have keepOut : ∀ (w : List (Cell × Cell)) (x : Cell), x ∉ w.map Prod.fst → ∀ s : NetState (Basin δ),
      (w.foldl (routeStep (basinNode cin get upd)) s).ledger.out x = s.ledger.out x := by
    intro w
    induction w with
    | nil => intro x _ s; rfl
    | cons e w ih =>
      intro x hx s
      simp only [List.map_cons, List.mem_cons, not_or] at hx
      rw [List.foldl_cons, ih x hx.2]
      simp only [routeStep, basinNode]
      exact Function.update_of_ne hx.1 _ _
  have main : ∀ (w : List (Cell × Cell)), (w.map Prod.fst).Nodup → (∀ x ∈ w.map Prod.fst, x ∈ order.map Prod.fst) →
      ∀ (s : NetState (Basin δ)) (t : NetState (Basin δ')), R s.ledger.demand t.ledger.demand →
      (∀ x ∈ w.map Prod.fst, s.ledger.state x = state x ∧ t.ledger.state x = state x) →
      (∀ x, 0 ≤ s.inflow x ∧ s.inflow x ≤ t.inflow x) → (∀ x, s.flow x ≤ t.flow x) →
      (∀ x ∈ w.map Prod.fst, ∀ o, (w.foldl (routeStep (basinNode cin get upd)) s).ledger.out x = some o → Idle x o) →
      (∀ x, (w.foldl (routeStep (basinNode cin get upd)) s).flow x
        ≤ (w.foldl (routeStep (basinNode cin' get' upd')) t).flow x) ∧
      R (w.foldl (routeStep (basinNode cin get upd)) s).ledger.demand
        (w.foldl (routeStep (basinNode cin' get' upd')) t).ledger.demand := by
    intro w
    induction w with
    | nil => intro _ _ s t hR _ _ hf _; exact ⟨hf, hR⟩
    | cons e w ih =>
      intro hn hsub s t hR hst hin hf hid
      simp only [List.map_cons, List.nodup_cons] at hn
      obtain ⟨s1, t1⟩ := hst e.1 (by simp)
      have he := hsub e.1 (by simp)
      obtain ⟨k1, k2, k3, k4, k5⟩ := hstep e.1 he s.ledger.demand t.ledger.demand (s.inflow e.1) (t.inflow e.1) hR
        (hin e.1).1 (hin e.1).2
      have idle : Idle e.1 (cellDay (cin e.1) (state e.1) (s.inflow e.1) (get s.ledger.demand e.1).1
          (get s.ledger.demand e.1).2) := by
        apply hid e.1 (by simp)
        rw [List.foldl_cons, keepOut w e.1 hn.1]
        simp only [routeStep, basinNode]
        rw [Function.update_self, s1]
      have k4 := k4 idle
      rw [List.foldl_cons, List.foldl_cons]
      refine ih hn.2 (fun x hx => hsub x (by simp only [List.map_cons, List.mem_cons]; exact Or.inr hx)) _ _ ?_ ?_ ?_ ?_ ?_
      · simp only [routeStep, basinNode]
        rw [s1, t1]
        exact k5
      · intro x hx
        have hne : x ≠ e.1 := fun h => hn.1 (h ▸ hx)
        have := hst x (by simp only [List.map_cons, List.mem_cons]; exact Or.inr hx)
        simp only [routeStep, basinNode]
        rw [Function.update_of_ne hne, Function.update_of_ne hne]
        exact this
      · intro x
        simp only [routeStep, basinNode]
        rw [s1, t1]
        have base : ∀ x, 0 ≤ Function.update s.inflow e.1
              (cellRiverIn (cin e.1) (state e.1) (s.inflow e.1) (get s.ledger.demand e.1).1) x ∧
            Function.update s.inflow e.1
              (cellRiverIn (cin e.1) (state e.1) (s.inflow e.1) (get s.ledger.demand e.1).1) x ≤
            Function.update t.inflow e.1
              (cellRiverIn (cin' e.1) (state e.1) (t.inflow e.1) (get' t.ledger.demand e.1).1) x := by
          intro x
          by_cases hx : x = e.1
          · subst hx; rw [Function.update_self, Function.update_self]; exact ⟨k1, k2⟩
          · rw [Function.update_of_ne hx, Function.update_of_ne hx]; exact hin x
        split_ifs
        · by_cases hx : x = e.2
          · subst hx
            rw [Function.update_self, Function.update_self]
            have := base e.2
            constructor <;> linarith
          · rw [Function.update_of_ne hx, Function.update_of_ne hx]; exact base x
        · exact base x
      · intro x
        simp only [routeStep, basinNode]
        rw [s1, t1]
        by_cases hx : x = e.1
        · subst hx; rw [Function.update_self, Function.update_self]; exact k4
        · rw [Function.update_of_ne hx, Function.update_of_ne hx]; exact hf x
      · intro x hx o ho
        apply hid x (by simp only [List.map_cons, List.mem_cons]; exact Or.inr hx)
        rw [List.foldl_cons]
        exact ho
  exact main order hnd (fun x hx => hx) _ _ hl (fun x _ => ⟨rfl, rfl⟩) (fun x => ⟨le_rfl, le_rfl⟩) (fun x => le_rfl) hidle

end

/-- Sharing an unsatisfied demand with the shore cells: less to share leaves less with everyone. -/
theorem redistribute_mono (q : DemandDay) (x : Cell) (u u' : ℝ) (rip rip' : Cell → ℝ) (hu : u' ≤ u)
    (hr : ∀ y, 0 ≤ rip' y ∧ rip' y ≤ rip y) :
    (redistribute (q.redist x u') rip').1 ≤ (redistribute (q.redist x u) rip).1 ∧
      ∀ y, 0 ≤ (redistribute (q.redist x u') rip').2 y ∧
        (redistribute (q.redist x u') rip').2 y ≤ (redistribute (q.redist x u) rip).2 y := by
  have key : ∀ (w : List Cell) (st st' : ℝ × (Cell → ℝ)), st'.1 ≤ st.1 → (∀ y, 0 ≤ st'.2 y ∧ st'.2 y ≤ st.2 y) →
      (w.foldl (redistStep (q.redist x u')) st').1 ≤ (w.foldl (redistStep (q.redist x u)) st).1 ∧
      ∀ y, 0 ≤ (w.foldl (redistStep (q.redist x u')) st').2 y ∧
        (w.foldl (redistStep (q.redist x u')) st').2 y ≤ (w.foldl (redistStep (q.redist x u)) st).2 y := by
    intro w
    induction w with
    | nil => intro st st' h1 h2; exact ⟨h1, h2⟩
    | cons r w ih =>
      intro st st' h1 h2
      rw [List.foldl_cons, List.foldl_cons]
      have up : ∀ (y : Cell) (f f' : Cell → ℝ) (v v' : ℝ), (∀ y, 0 ≤ f' y ∧ f' y ≤ f y) → 0 ≤ v' → v' ≤ v →
          ∀ z, 0 ≤ Function.update f' y v' z ∧ Function.update f' y v' z ≤ Function.update f y v z := by
        intro y f f' v v' hf h0 hv z
        by_cases hz : z = y
        · subst hz; rw [Function.update_self, Function.update_self]; exact ⟨h0, hv⟩
        · rw [Function.update_of_ne hz, Function.update_of_ne hz]; exact hf z
      have left : ∀ (y : Cell) (f f' : Cell → ℝ), (∀ y, 0 ≤ f' y ∧ f' y ≤ f y) →
          ∀ z, 0 ≤ Function.update f' y 0 z ∧ Function.update f' y 0 z ≤ f z := by
        intro y f f' hf z
        by_cases hz : z = y
        · subst hz; rw [Function.update_self]; exact ⟨le_rfl, (hf z).1.trans (hf z).2⟩
        · rw [Function.update_of_ne hz]; exact hf z
      have step : (redistStep (q.redist x u') st' r).1 ≤ (redistStep (q.redist x u) st r).1 ∧
          ∀ y, 0 ≤ (redistStep (q.redist x u') st' r).2 y ∧
            (redistStep (q.redist x u') st' r).2 y ≤ (redistStep (q.redist x u) st r).2 y := by
        have c1 : (q.redist x u').carried = (q.redist x u).carried := rfl
        have c2 : (q.redist x u').acc = u' := rfl
        have c3 : (q.redist x u).acc = u := rfl
        have c4 : (q.redist x u').unagg = (q.redist x u).unagg := rfl
        have c5 : (q.redist x u').pot = (q.redist x u).pot := rfl
        have c6 : (q.redist x u').unit = (q.redist x u).unit := rfl
        have c7 : (q.redist x u').x = (q.redist x u).x := rfl
        unfold redistStep
        rw [c1, c2, c3, c4, c5, c6, c7]
        generalize (q.redist x u).carried = k
        generalize (q.redist x u).unagg = ua
        generalize (q.redist x u).pot = pt
        generalize (q.redist x u).unit = un
        generalize (q.redist x u).x = z
        by_cases m : un z = un r ∧ z ≠ r
        · rw [if_pos m, if_pos m]
          by_cases g' : u' - k > 0
          · rw [if_pos g', if_pos (by linarith : u - k > 0)]
            by_cases n : ua z ≤ 0
            · rw [if_pos n, if_pos n]
              refine ⟨le_rfl, up r _ _ _ _ h2 ?_ ?_⟩
              · split_ifs with a b
                · exact le_rfl
                · exact mul_nonneg (div_nonneg (by linarith) b.le) g'.le
                · exact le_rfl
              · split_ifs with a b
                · exact le_rfl
                · exact mul_le_mul_of_nonneg_left (by linarith) (div_nonneg (by linarith) b.le)
                · exact le_rfl
            · rw [if_neg n, if_neg n]
              refine ⟨?_, up r _ _ _ _ h2 ?_ ?_⟩
              · dsimp only
                split_ifs with b
                · have := mul_le_mul_of_nonneg_left (by linarith : u' - k ≤ u - k)
                    (div_nonneg (by linarith : 0 ≤ ua z) b.le)
                  linarith
                · exact le_rfl
              · split_ifs with a b
                · exact le_rfl
                · exact mul_nonneg (div_nonneg (by linarith) b.le) g'.le
                · exact le_rfl
              · split_ifs with a b
                · exact le_rfl
                · exact mul_le_mul_of_nonneg_left (by linarith) (div_nonneg (by linarith) b.le)
                · exact le_rfl
          · rw [if_neg g']
            by_cases g : u - k > 0
            · rw [if_pos g]
              by_cases n : ua z ≤ 0
              · rw [if_pos n]
                refine ⟨by dsimp only; linarith, ?_⟩
                refine left z _ _ (up r _ _ _ _ h2 le_rfl ?_)
                split_ifs with a b
                · exact le_rfl
                · exact mul_nonneg (div_nonneg (by linarith) b.le) g.le
                · exact le_rfl
              · rw [if_neg n]
                refine ⟨?_, left z _ _ (up r _ _ _ _ h2 le_rfl ?_)⟩
                · dsimp only
                  split_ifs with b
                  · have := mul_nonneg (div_nonneg (by linarith : 0 ≤ ua z) b.le) g.le
                    linarith
                  · linarith
                · split_ifs with a b
                  · exact le_rfl
                  · exact mul_nonneg (div_nonneg (by linarith) b.le) g.le
                  · exact le_rfl
            · rw [if_neg g]
              exact ⟨hu, up z _ _ _ _ (up r _ _ _ _ h2 le_rfl le_rfl) le_rfl le_rfl⟩
        · rw [if_neg m, if_neg m]
          exact ⟨h1, h2⟩
      exact ih _ _ step.1 step.2
  exact key _ _ _ hu hr

/-- Either the guard on small volumes cannot have acted on the river of the cell, or it does not matter: water is left in
the river, or nothing flows out, or demand is left, or there is no guard. -/
def RiverGuardIrrelevant (c : CellIn) (o : CellOut) : Prop :=
  o.state.river ≠ 0 ∨ o.streamflow = 0 ∨ 0 < o.unsat ∨ c.minV = 0

theorem irrelevant_mono (c c' : CellIn) (st : CellState) (up up' demand demand' : ℝ) (keep keep' : ℝ → ℝ)
    (h : c.Physical) (hs : st.Ok c) (hg : c.Regular) (hw : Wetter c c')
    (hup : 0 ≤ up) (hle : up ≤ up') (hd : demand' ≤ demand) (huse : c'.useOpt = c.useOpt)
    (hkeep : ∀ u u', u' ≤ u → keep' u' ≤ keep u)
    (hi : RiverGuardIrrelevant c (cellDay c st up demand keep)) :
    (cellDay c st up demand keep).streamflow ≤ (cellDay c' st up' demand' keep').streamflow := by
  obtain ⟨m1, m2, -⟩ := C84_cell c c' st up up' demand demand' keep keep' h hs hg hw hup hle hd huse hkeep
  have corr' : c'.corr = c.corr := by rw [hw.same]; rfl
  rcases hi with hi | hi | hi | hi
  · apply m2
    change (cellRiver c st up demand keep).storage ≠ 0 at hi
    unfold riverGuardIdle guardIdle
    unfold cellRiver riverBalance at hi
    dsimp only at hi
    by_cases z : cellUnsat2 c st up demand keep
        > riverAvail st.river (cellRiverIn c st up demand) (outflowConstant st.river c.len c.width c.rough c.mult c.slope)
    · exact Or.inl z
    · rw [if_neg z] at hi
      right
      unfold riverNewStorage at hi
      dsimp only at hi
      unfold flush at hi ⊢
      split_ifs at hi ⊢ with w
      · exact absurd rfl hi
      · rfl
  · rw [hi]
    have := hg.corr
    change 0 ≤ (cellRiver c' st up' demand' keep').streamflow
    unfold cellRiver riverBalance
    dsimp only
    rw [corr']
    refine mul_nonneg ?_ this
    split_ifs <;> dsimp only <;> linarith
  · apply m2
    left
    by_contra z
    have u0 : (cellRiver c st up demand keep).unsat = 0 := by
      unfold cellRiver riverBalance
      dsimp only
      rw [if_neg z]
    change 0 < (cellTapped c st up demand keep).2.1 at hi
    unfold cellTapped at hi
    have nt : ¬ cellTap c st up demand keep := fun q => by
      have := q.2.2.1
      rw [u0] at this
      exact lt_irrefl _ this
    rw [if_neg nt] at hi
    dsimp only at hi
    rw [u0] at hi
    exact lt_irrefl _ hi
  · rw [hi, mul_zero, add_zero] at m1
    exact m1

/-- C84 for the river network: one day simulated twice from the same storages.  In the second simulation no cell has less
rain, runoff or recharge, no more is taken from groundwater anywhere, and no cell starts the day with more demand.  Then no cell
has less streamflow, and no cell ends the day with more unsatisfied demand. -/
theorem C84_network (cin cin' : Cell → CellIn) (q : DemandDay) (order : List (Cell × Cell)) (l l' : Ledger)
    (state : Cell → CellState) (hnd : (order.map Prod.fst).Nodup)
    (hp : ∀ x ∈ order.map Prod.fst, (cin x).Physical ∧ (state x).Ok (cin x) ∧ (cin x).Regular)
    (hw : ∀ x ∈ order.map Prod.fst, Wetter (cin x) (cin' x) ∧ (cin' x).useOpt = (cin x).useOpt)
    (hacc : ∀ x, l'.acc x ≤ l.acc x) (hrip : ∀ x, 0 ≤ l'.rip x ∧ l'.rip x ≤ l.rip x)
    (hguard : ∀ x ∈ order.map Prod.fst, ∀ o, (demandDayRun cin q order l state).ledger.out x = some o →
      RiverGuardIrrelevant (cin x) o) :
    let dry := demandDayRun cin q order l state
    let wet := demandDayRun cin' q order l' state
    (∀ x, dry.flow x ≤ wet.flow x) ∧ (∀ x, wet.ledger.demand.acc x ≤ dry.ledger.demand.acc x) := by
  have := basinDay_mono
    (fun a b : Ledger => (∀ x, b.acc x ≤ a.acc x) ∧ ∀ x, 0 ≤ b.rip x ∧ b.rip x ≤ a.rip x)
    (fun x o => RiverGuardIrrelevant (cin x) o) cin cin' (ledgerGet cin q) (ledgerUpd cin q) (ledgerGet cin' q)
    (ledgerUpd cin' q) order hnd l l' state ⟨hacc, hrip⟩ ?_ hguard
  · exact ⟨this.1, this.2.1⟩
  · intro x hx a b up up' hR hup hle
    obtain ⟨ph, ok, rg⟩ := hp x hx
    obtain ⟨w, us⟩ := hw x hx
    have hd : (ledgerGet cin' q b x).1 ≤ (ledgerGet cin q a x).1 := by
      unfold ledgerGet
      dsimp only
      rw [us]
      have := hR.1 x
      have := (hR.2 x).2
      split_ifs <;> linarith
    have hk : ∀ u u', u' ≤ u → (ledgerGet cin' q b x).2 u' ≤ (ledgerGet cin q a x).2 u := fun u u' hu =>
      (redistribute_mono q x u u' a.rip b.rip hu hR.2).1
    have ri := cellRiverIn_mono (cin x) (cin' x) (state x) up up' _ _ ph ok rg w.precip w.runoff w.recharge w.gwUse hup hle hd
    rw [← w.same] at ri
    obtain ⟨-, -, m3, m4, -⟩ := C84_cell (cin x) (cin' x) (state x) up up' _ _ _ _ ph ok rg w hup hle hd us hk
    refine ⟨ri.1, ri.2, ?_, ?_, ?_, ?_⟩
    · change 0 ≤ (cellRiver _ _ _ _ _).streamflow
      have := rg.corr
      unfold cellRiver riverBalance
      dsimp only
      refine mul_nonneg ?_ this
      split_ifs <;> dsimp only <;> linarith
    · exact irrelevant_mono (cin x) (cin' x) (state x) up up' _ _ _ _ ph ok rg w hup hle hd us hk
    · intro y
      unfold ledgerUpd
      dsimp only
      by_cases hy : y = x
      · subst hy; rw [Function.update_self, Function.update_self]; exact m4
      · rw [Function.update_of_ne hy, Function.update_of_ne hy]; exact hR.1 y
    · intro y
      have hl : (cin' x).hasLake ↔ (cin x).hasLake := by rw [w.same]; exact Iff.rfl
      unfold ledgerUpd
      dsimp only
      rw [us]
      by_cases z : (cin x).useOpt = true ∧ (cin x).hasLake
      · rw [if_pos z, if_pos ⟨z.1, hl.mpr z.2⟩]
        exact (redistribute_mono q x _ _ a.rip b.rip m3 hR.2).2 y
      · rw [if_neg z, if_neg (fun w => z ⟨w.1, hl.mp w.2⟩)]
        exact hR.2 y

/-! ### Cases that meet the hypotheses -/

/-- A lake on a day with more inflow and less demand. -/
example : exCell.Physical ∧ exState.Ok exCell ∧ exCell.Regular ∧ Wetter exCell { exCell with runoff := 0.002, precip := 0.00001 } := by
  refine ⟨exCell_physical, exState_ok, ⟨by norm_num [exCell], by norm_num [exCell], by norm_num [exCell], by norm_num [exCell], fun _ => ?_⟩,
    ⟨rfl, by norm_num [exCell], by norm_num [exCell], le_rfl, le_rfl⟩⟩
  refine ⟨by norm_num [exCell], fun _ => ?_⟩
  unfold provRelease exCell
  norm_num

/-- A humid cell with a slow river and nothing else. -/
noncomputable def slowCell : CellIn :=
  { exCell with arid := false, locLake := ⟨0, 0, 0⟩, gloWet := ⟨0, 0, 0⟩, glolakeArea := 0, resArea := 0, slope := 0 }

theorem slowCell_physical : slowCell.Physical := by
  constructor <;> (try unfold slowCell exCell) <;> (try constructor) <;> norm_num

theorem slowCell_ok : exState.Ok slowCell := by
  constructor <;> (try unfold slowCell exCell) <;> (try unfold exState) <;> norm_num

theorem slowCell_regular : slowCell.Regular :=
  ⟨by norm_num [slowCell, exCell], by norm_num [slowCell, exCell], by norm_num [slowCell, exCell],
    by norm_num [slowCell, exCell],
    fun h => by norm_num [slowCell] at h⟩

/-- The river of a cell like `slowCell` is not emptied by the guard, and serves a small demand. -/
theorem slow_river (c : CellIn) (up d : ℝ) (keep : ℝ → ℝ) (hsl : c.slope = 0) (hlen : c.len = 55) (hmin : c.minV = 1e-12)
    (hres : c.resArea = 0) (hglo : c.glolakeArea = 0) (d0 : 0 ≤ d) (d1 : d ≤ 0.001)
    (q0 : 0 ≤ cellRiverIn c exState up d) :
    (cellDay c exState up d keep).state.river ≠ 0 ∧
    (cellDay c exState up d keep).streamflow
      = ((cellRiverIn c exState up d - d) * (1 - (1 - Real.exp (-1 * (0.00001 / 55))) / (0.00001 / 55))
        + 0.004 * (1 - Real.exp (-1 * (0.00001 / 55)))) * c.corr := by
  have hd : cellUnsat2 c exState up d keep = d := by
    unfold cellUnsat2 cellUnsat1
    rw [hres, hglo, if_neg (by norm_num), if_neg (by norm_num), if_neg (by norm_num)]
  have k : outflowConstant exState.river c.len c.width c.rough c.mult c.slope = 0.00001 / 55 := by
    unfold outflowConstant riverVelocity
    rw [hsl, Real.sqrt_zero, hlen]
    norm_num
  change (cellRiver c exState up d keep).storage ≠ 0 ∧ (cellRiver c exState up d keep).streamflow = _
  unfold cellRiver riverBalance
  rw [hd, k]
  generalize cellRiverIn c exState up d = q at *
  have hk : (0 : ℝ) < 0.00001 / 55 := by norm_num
  obtain ⟨e0, e1, -, c0, c1, -⟩ := release_facts (0.00001 / 55) hk
  have e2 : 1 - (0.00001 / 55 : ℝ) ≤ Real.exp (-1 * (0.00001 / 55)) := by
    have := Real.add_one_le_exp (-1 * (0.00001 / 55 : ℝ))
    linarith
  have e2 : (0.9 : ℝ) ≤ Real.exp (-1 * (0.00001 / 55)) := by norm_num at e2 ⊢; linarith
  have r : exState.river = 0.004 := rfl
  have av : d ≤ riverAvail exState.river q (0.00001 / 55) := by
    rw [riverAvail_eq, r]
    have : Real.exp (-1 * (0.00001 / 55)) ≤
        0.00001 / 55 * Real.exp (-1 * (0.00001 / 55)) / (1 - Real.exp (-1 * (0.00001 / 55))) := by
      rw [le_div_iff₀ (by linarith)]
      rw [div_lt_one hk] at c1
      nlinarith
    nlinarith
  dsimp only
  rw [if_neg (not_lt.mpr av)]
  dsimp only
  have eq : (q - d) / (0.00001 / 55) * (1 - Real.exp (-1 * (0.00001 / 55)))
        = (q - d) * ((1 - Real.exp (-1 * (0.00001 / 55))) / (0.00001 / 55)) := by ring
  have A : 0.001 ≤ exState.river * Real.exp (-1 * (0.00001 / 55))
      + (q - d) / (0.00001 / 55) * (1 - Real.exp (-1 * (0.00001 / 55))) := by
    rw [eq, r]
    nlinarith
  unfold riverNewStorage flush
  rw [hmin, if_neg (by rw [abs_of_nonneg (by linarith)]; push Not; linarith)]
  refine ⟨by linarith, ?_⟩
  rw [eq, r]
  have B : q + 0.004 - (0.004 * Real.exp (-1 * (0.00001 / 55))
        + (q - d) * ((1 - Real.exp (-1 * (0.00001 / 55))) / (0.00001 / 55))) - d
      = (q - d) * (1 - (1 - Real.exp (-1 * (0.00001 / 55))) / (0.00001 / 55))
        + 0.004 * (1 - Real.exp (-1 * (0.00001 / 55))) := by ring
  rw [B]
  have pos : 0 ≤ (q - d) * (1 - (1 - Real.exp (-1 * (0.00001 / 55))) / (0.00001 / 55))
        + 0.004 * (1 - Real.exp (-1 * (0.00001 / 55))) := by
    have g2 : Real.exp (-1 * (0.00001 / 55)) ≤ (1 - Real.exp (-1 * (0.00001 / 55))) / (0.00001 / 55) :=
      (release_facts (0.00001 / 55) hk).2.2.2.2.2.1.le
    nlinarith
  rw [if_neg (not_lt.mpr pos)]

/-- Its river is not emptied by the guard. -/
theorem slowCell_river (up : ℝ) (hup : 0 ≤ up) (keep : ℝ → ℝ) :
    (cellDay slowCell exState up 0.001 keep).state.river ≠ 0 :=
  (slow_river slowCell up 0.001 keep rfl rfl rfl rfl rfl (by norm_num) le_rfl
    (cellRiverIn_mono slowCell slowCell exState up up 0.001 0.001 slowCell_physical slowCell_ok slowCell_regular
      le_rfl le_rfl le_rfl le_rfl hup le_rfl le_rfl).1).1

/-- Two such cells, the first draining into the second; the second simulation has more runoff. -/
example : ((([((1, 1), (1, 2)), ((1, 2), (0, 0))] : List (Cell × Cell))).map Prod.fst).Nodup ∧
    (∀ _ : Cell, Wetter slowCell { slowCell with runoff := 0.002 }) ∧
    (∀ x ∈ ([((1, 1), (1, 2)), ((1, 2), (0, 0))] : List (Cell × Cell)).map Prod.fst, ∀ o,
      (demandDayRun (fun _ => slowCell) ⟨fun _ => 0.001, fun _ => 0.001, fun _ => 0, fun _ => 0, [(1, 1), (1, 2)]⟩
        [((1, 1), (1, 2)), ((1, 2), (0, 0))] ⟨fun _ => 0.001, fun _ => 0⟩ fun _ => exState).ledger.out x = some o →
      RiverGuardIrrelevant slowCell o) := by
  refine ⟨by decide, fun _ => ⟨rfl, le_rfl, by norm_num [slowCell, exCell], le_rfl, le_rfl⟩, ?_⟩
  have nn : ∀ up d keep, 0 ≤ (cellDay slowCell exState up d keep).streamflow := by
    intro up d keep
    change 0 ≤ (cellRiver _ _ _ _ _).streamflow
    unfold cellRiver riverBalance
    dsimp only
    refine mul_nonneg ?_ (by norm_num [slowCell, exCell])
    split_ifs <;> dsimp only <;> linarith
  intro x hx o ho
  left
  simp only [List.map_cons, List.map_nil, List.mem_cons, List.not_mem_nil, or_false] at hx
  have ne : ((1, 2) : Cell) ≠ (1, 1) := by decide
  have ne' : ((1, 1) : Cell) ≠ (1, 2) := by decide
  have dr : drains (1, 2) := by decide
  have dr' : ¬ drains (0, 0) := by decide
  have lk : ¬ slowCell.hasLake := by unfold CellIn.hasLake slowCell; norm_num
  rcases hx with rfl | rfl
  · simp [demandDayRun, basinDay, route, routeStep, routeStart, basinNode, ledgerGet, ledgerUpd, dr, dr', ne, ne', lk] at ho
    rw [← ho]
    exact slowCell_river _ le_rfl _
  · simp [demandDayRun, basinDay, route, routeStep, routeStart, basinNode, ledgerGet, ledgerUpd, dr, dr', ne, lk] at ho
    rw [← ho]
    exact slowCell_river _ (nn _ _ _) _

/-! ### Where the plain statement fails -/

/-- Whatever the small volume of the guard: a dry river that receives a little more has less streamflow on that day. -/
theorem C84_violated_guard (minV k : ℝ) (hv : 0 < minV) (hk : 0 < k) :
    ∃ q q', 0 ≤ q ∧ q < q' ∧
      (riverBalance minV 1 k 0 q' 0).streamflow < (riverBalance minV 1 k 0 q 0).streamflow := by
  obtain ⟨e0, e1, -, c0, c1, c2, -⟩ := release_facts k hk
  set g := (1 - Real.exp (-1 * k)) / k with hg
  have solved : ∀ q : ℝ, 0 * Real.exp (-1 * k) + ((q - 0) / k) * (1 - Real.exp (-1 * k)) = q * g := by
    intro q; rw [hg]; ring
  have q0 : 0 < minV / g := div_pos hv c0
  have qg : minV / g * g = minV := div_mul_cancel₀ _ c0.ne'
  have sf : ∀ q : ℝ, 0 ≤ q → (riverBalance minV 1 k 0 q 0).streamflow = q - flush minV (q * g) := by
    intro q hq
    have av : ¬ (0 : ℝ) > riverAvail 0 q k := by unfold riverAvail; simp; exact hq
    unfold riverBalance
    dsimp only
    rw [if_neg av]
    dsimp only
    unfold riverNewStorage
    rw [solved]
    have : flush minV (q * g) ≤ q := by
      unfold flush
      split_ifs
      · exact hq
      · nlinarith
    rw [if_neg (by linarith)]
    ring
  refine ⟨minV / g, minV / g * (1 + g / 2), q0.le, by nlinarith [mul_pos q0 c0], ?_⟩
  rw [sf _ q0.le, sf _ (by positivity)]
  have f1 : flush minV (minV / g * g) = 0 := by
    rw [qg]; unfold flush; rw [if_pos (by rw [abs_of_pos hv])]
  have e3 : minV / g * (1 + g / 2) * g = minV * (1 + g / 2) := by
    have : minV / g * (1 + g / 2) * g = minV / g * g * (1 + g / 2) := by ring
    rw [this, qg]
  have f2 : flush minV (minV / g * (1 + g / 2) * g) = minV * (1 + g / 2) := by
    rw [e3]
    have : minV < minV * (1 + g / 2) := by nlinarith [mul_pos hv c0]
    unfold flush
    rw [if_neg (by rw [abs_of_pos (by linarith)]; linarith)]
  rw [f1, f2]
  have : minV / g * (1 + g / 2) = minV / g + minV / 2 := by
    have : minV / g * (1 + g / 2) = minV / g + minV / g * g / 2 := by ring
    rw [this, qg]
  rw [this]
  nlinarith [mul_pos hv c0]

/-- A reservoir just below a tenth of its capacity, without rain, evaporation and demand. -/
noncomputable def lowRes (inflow : ℝ) : ResIn :=
  { precip := 0, openPet := 0, arid := false, drainageOk := true, gwConst := 0, area := 50, redExp := 2.8, cfa := 1,
    firstDay := false, glolakeArea := 0, demandSw := 0, unsatGlolake := 0, minV := 1e-12,
    han := ⟨100, 4, 5, 1, 1, .nonIrrigation, 0, 0, 2000, inflow, 31⟩ }

theorem lowRes_day (a s : ℝ) (ha : 0 ≤ a) (hs : 1 ≤ s) :
    (resBalance (lowRes a) s).storage = (resRelease (s + a) 2000 100).1 ∧
    (resBalance (lowRes a) s).outflow = (resRelease (s + a) 2000 100).2 := by
  have ev : resEvap (lowRes a) s = 0 := by unfold resEvap lowRes; norm_num
  have gw : resGwr (lowRes a) s = 0 := by unfold resGwr lowRes; norm_num
  have pe : resPet (lowRes a) s = 0 := by unfold resPet; rw [ev, gw]; ring
  have st1 : resStorage1 (lowRes a) s = s + a := by
    unfold resStorage1
    rw [pe, if_neg (by norm_num)]
    unfold resTotalIn lowRes; norm_num
  have de : resDemand (lowRes a) = 0 := by unfold resDemand lowRes; norm_num
  have bf : resBeforeRelease (lowRes a) s = s + a := by
    unfold resBeforeRelease
    rw [de, st1]
    have : (resAbstract 0 (s + a) (lowRes a).han.cap).1 = s + a := by
      unfold resAbstract; split_ifs <;> dsimp only <;> linarith
    rw [this]
    unfold flush
    have : (lowRes a).minV = 1e-12 := rfl
    rw [this, if_neg (by rw [abs_of_nonneg (by linarith)]; push Not; linarith)]
  have rl : (hanasaki (lowRes a).han (s + a)).1 = 2000 := by
    unfold hanasaki hanK provRelease smallRes lowRes
    norm_num
  unfold resBalance
  dsimp only
  rw [bf, rl]
  exact ⟨rfl, rfl⟩

/-- The next day is another matter: a reservoir that received more on the first day releases more, ends the day lower, and
releases a tenth of what it would have released on the second day. -/
theorem C84_violated_next_day :
    let dry := resBalance (lowRes 0.09) 9.9
    let wet := resBalance (lowRes 0.11) 9.9
    dry.outflow < wet.outflow ∧ wet.storage < dry.storage ∧
      (resBalance (lowRes 0.1) wet.storage).outflow < (resBalance (lowRes 0.1) dry.storage).outflow := by
  have d := lowRes_day 0.09 9.9 (by norm_num) (by norm_num)
  have w := lowRes_day 0.11 9.9 (by norm_num) (by norm_num)
  have d1 : (resBalance (lowRes 0.09) 9.9).storage = 9.97272 := by rw [d.1]; unfold resRelease; norm_num
  have w1 : (resBalance (lowRes 0.11) 9.9).storage = 9.8372 := by rw [w.1]; unfold resRelease; norm_num
  dsimp only
  refine ⟨?_, by rw [d1, w1]; norm_num, ?_⟩
  · rw [d.2, w.2]; unfold resRelease; norm_num
  · rw [(lowRes_day 0.1 _ (by norm_num) (by rw [w1]; norm_num)).2, (lowRes_day 0.1 _ (by norm_num) (by rw [d1]; norm_num)).2,
      d1, w1]
    unfold resRelease
    norm_num

end WG
