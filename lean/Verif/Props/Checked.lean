import Verif.Model.Checked
import Verif.Props.GlobalBalance
import Verif.Model.Activation

/-!
# C78: a simulation day never divides by zero and never takes a power or root without a result
-/

namespace WG

/-! ### The operations -/

theorem obind {α β : Type} {x : Option α} {f : α → Option β} {a : α} {r : Option β} (h : x = some a) (hf : f a = r) :
    (x >>= f) = r := by rw [h]; exact hf

theorem cdiv_ok {a b : ℝ} (h : b ≠ 0) : cdiv a b = some (a / b) := by simp [cdiv, h]

theorem cpow_ok {a e : ℝ} (h : 0 ≤ a) (he : 0 ≤ e) : cpow a e = some (a ^ e) := by
  simp [cpow, not_lt.2 h, not_lt.2 he]

theorem cpow_pos {a e : ℝ} (h : 0 < a) : cpow a e = some (a ^ e) := by
  simp [cpow, not_lt.2 h.le, h.ne']

theorem csqrt_ok {a : ℝ} (h : 0 ≤ a) : csqrt a = some (Real.sqrt a) := by
  simp [csqrt, not_lt.2 h]

theorem swbRedfactorC_ok {s m e : ℝ} {k : Swb} (hm : 0 < m) (he : 0 ≤ e) :
    swbRedfactorC s m e k = some (swbRedfactor s m e k) := by
  have h := mul_pos (nFactor_pos k) hm
  simp [swbRedfactorC, swbRedfactor, cdiv_ok h.ne', cpow_ok (div_nonneg (abs_nonneg (s - m)) h.le) he]

/-! ### Groundwater -/

/-- The divisor of `groundwater_adapt_net_abstraction.py:122-124,172-174`: the part of the water withdrawn for irrigation
that is used up or returned to groundwater. -/
noncomputable def irrigationFactor (withdrawal consumptive fracReturn : ℝ) : ℝ :=
  1 - (1 - fracReturn) * (1 - consumptive / withdrawal)

theorem groundwaterBalanceC_ok (kind : GwKind) (s d p u k w co f pt : ℝ) (hk : k ≠ 0)
    (hi : u ≠ 0 → 0 < w → irrigationFactor w co f ≠ 0) :
    groundwaterBalanceC kind s d p u k w co f pt = some (groundwaterBalance kind s d p u k w co f pt) := by
  have hn : updateNetabsGwC p w co u f = some (updateNetabsGw p w co u f) := by
    unfold updateNetabsGwC updateNetabsGw
    unfold irrigationFactor at hi
    by_cases h1 : u > 0
    · by_cases h2 : w > 0
      · simp [h1, h2, cdiv_ok h2.ne', cdiv_ok (hi h1.ne' h2)]
      · simp [h1, h2]
    · by_cases h3 : u < 0
      · by_cases h2 : w > 0
        · simp [h1, h2, h3, cdiv_ok h2.ne', cdiv_ok (hi h3.ne h2)]
        · simp [h1, h2, h3]
      · simp [h1, h3]
  unfold groundwaterBalanceC groundwaterBalance gwStorage
  cases kind <;> by_cases hu : u ≠ 0 <;> simp [hu, hn, cdiv_ok hk]

/-! ### Lakes and wetlands -/

theorem lakePetMax_nonneg (kind : LakeKind) (i : LakeIn) (s : ℝ) (h : i.Physical) (hs : lowest kind i.maxStorage ≤ s) :
    0 ≤ lakePetMax kind i s := by
  rw [lakePetMax_eq]
  have := lakeTotalIn_nonneg kind i s h
  linarith

theorem lakeBalanceC_ok (kind : LakeKind) (i : LakeIn) (s : ℝ) (h : i.Physical) (hs : lowest kind i.maxStorage ≤ s) :
    lakeBalanceC kind i s = some (lakeBalance kind i s) := by
  have hm := lakePetMax_nonneg kind i s h hs
  have hred : ∀ x, swbRedfactorC x i.maxStorage i.redExp kind.swb = some (lakeRed kind i x) := fun x =>
    swbRedfactorC_ok h.maxStorage h.redExp.le
  have hp : lakePet kind i s > lakePetMax kind i s → lakePet kind i s ≠ 0 := fun hh => by
    have := lt_of_le_of_lt hm hh; exact this.ne'
  have hk := h.k.ne'
  have hmx : ∀ x, cdiv x i.maxStorage = some (x / i.maxStorage) := fun x => cdiv_ok h.maxStorage.ne'
  have hpw : ∀ x e, 0 < x → cpow (x / i.maxStorage) e = some ((x / i.maxStorage) ^ e) := fun x e hx =>
    cpow_pos (div_pos hx h.maxStorage)
  have hcd : ∀ a, cdiv a i.k = some (a / i.k) := fun a => cdiv_ok hk
  by_cases hsh : lakePet kind i s > lakePetMax kind i s
  · have hpd : cdiv (lakePetMax kind i s) (lakePet kind i s) = some (lakePetMax kind i s / lakePet kind i s) :=
      cdiv_ok (hp hsh)
    cases kind <;>
    simp only [lakeBalanceC, hred, lakeBalance, lakeSO, globalLakeSO, globalWetlandSO, localSO, lakePet, lakePetMax,
      lakeEvap, lakeArea, lakeGwr, lakeTotalIn, lakeDemand, lakeLimit, lakeNetIn, lakeAnalytic, lakeRatio, lakeUnsat,
      Option.bind_eq_bind, Option.bind_some, reduceIte, reduceCtorEq, or_self, or_true, true_or, true_and, false_and] at hsh hpd ⊢ <;>
    simp only [hsh, hpd, hcd, Option.map_some, Option.bind_some, reduceIte, true_and]
    · by_cases hw : s > 0
      · simp only [hw, hmx, hpw s _ hw, Option.map_some, Option.bind_some, reduceIte]
      · simp only [hw, Option.map_some, Option.bind_some, reduceIte]
    · split_ifs <;> simp
    · simp
  · cases kind <;>
    simp only [lakeBalanceC, hred, lakeBalance, lakeSO, globalLakeSO, globalWetlandSO, localSO, lakePet, lakePetMax,
      lakeEvap, lakeArea, lakeGwr, lakeTotalIn, lakeDemand, lakeLimit, lakeNetIn, lakeAnalytic, lakeRatio, lakeUnsat,
      Option.bind_eq_bind, Option.bind_some, reduceIte, reduceCtorEq, or_self, or_true, true_or, true_and, false_and] at hsh ⊢ <;>
    simp only [hsh, hcd, Option.map_some, Option.bind_some, reduceIte, false_and]
    · by_cases hw : s > 0
      · simp only [hw, hmx, hpw s _ hw, Option.map_some, Option.bind_some, reduceIte]
      · simp only [hw, Option.map_some, Option.bind_some, reduceIte]
    · generalize hst : s + (i.inflow + i.precip * (lakeRed LakeKind.localWetland i s * i.maxArea)) - _ = st
      by_cases hw : st > 0
      · simp only [hw, hmx, hpw st _ hw, Option.map_some, Option.bind_some, reduceIte]
      · simp only [hw, Option.map_some, Option.bind_some, reduceIte]

/-! ### Reservoirs -/

/-- When the release rule has a result: an irrigation reservoir has a mean inflow or a mean annual demand downstream. -/
structure HanIn.Divisible (h : HanIn) : Prop where
  cap : 0 < h.cap
  days : h.rtype = .irrigation → h.daysInMonth ≠ 0
  inflow : h.rtype = .irrigation → 0 < h.meanInflow ∨ h.annualDemand ≠ 0

theorem hanasakiC_ok (h : HanIn) (s : ℝ) (hd : h.Divisible) : hanasakiC h s = some (hanasaki h s) := by
  have hcap : h.cap * 0.85 ≠ 0 := by have := hd.cap; positivity
  have hk : (if h.month = h.startMonth ∧ h.day = 1 then
      (if s < h.cap * 0.1 then some 0.1 else cdiv s (h.cap * 0.85))
    else some h.kRelease) = some (hanK h s) := by
    unfold hanK
    rw [cdiv_ok hcap]
    by_cases h1 : h.month = h.startMonth <;> by_cases h2 : h.day = 1 <;> simp [h1, h2]
    split_ifs <;> simp
  have hprov : provReleaseC h = some (provRelease h) := by
    unfold provReleaseC provRelease
    rcases ht : h.rtype
    · have h1 : (86400 : ℝ) * h.daysInMonth ≠ 0 := mul_ne_zero (by norm_num) (hd.days ht)
      simp only [cdiv_ok h1, Option.bind_eq_bind, Option.bind_some]
      by_cases ha : h.annualDemand / 31536000 ≥ 0.5 * h.meanInflow
      · have h2 : h.annualDemand / 31536000 ≠ 0 := by
          rcases hd.inflow ht with h3 | h3
          · exact (lt_of_lt_of_le (by positivity) ha).ne'
          · positivity
        simp only [ha, if_true, cdiv_ok h2, Option.map_some]
      · simp only [ha, if_false]
    · rfl
    · rfl
  unfold hanasakiC
  simp only [Option.bind_eq_bind]
  rw [hk, Option.bind_some, hprov, Option.bind_some]
  unfold hanasaki smallRes
  by_cases hm : h.meanInflow = 0
  · simp [hm]
  · have h1 : h.meanInflow * (31536000 / 1e9) ≠ 0 := mul_ne_zero hm (by norm_num)
    by_cases hc : h.cap / (h.meanInflow * (31536000 / 1e9)) < 0.5
    · simp only [hm, ne_eq, not_false_eq_true, if_true, cdiv_ok h1, Option.map_some, Option.bind_some, hc, true_and]
    · simp only [hm, ne_eq, not_false_eq_true, if_true, cdiv_ok h1, Option.map_some, Option.bind_some, hc, and_false,
        if_false]

theorem resBalanceC_ok (i : ResIn) (s : ℝ) (hd : i.han.Divisible) (he : i.firstDay = false → 0 ≤ i.redExp) :
    resBalanceC i s = some (resBalance i s) := by
  have hr : (if i.firstDay then some 0 else swbRedfactorC s i.han.cap i.redExp .reservoir) = some (resRed i s) := by
    unfold resRed
    cases hf : i.firstDay
    · simp [swbRedfactorC_ok hd.cap (he hf)]
    · simp
  by_cases hc : resPet i s > 0 ∧ resPet i s > resPetMax i s
  · have hcut : cdiv (resPetMax i s) (resPet i s) = some (resPetMax i s / resPet i s) := cdiv_ok hc.1.ne'
    simp only [resPet, resPetMax, resEvap, resGwr, resTotalIn] at hcut hc
    simp only [resBalanceC, Option.bind_eq_bind, hr, Option.bind_some, hcut, hc, and_self, if_true,
      hanasakiC_ok _ _ hd, resBalance, resBeforeRelease, resStorage1, resPet, resPetMax, resEvap, resGwr, resTotalIn,
      resCut, resDemand]
    try rfl
  · simp only [resPet, resPetMax, resEvap, resGwr, resTotalIn] at hc
    simp only [resBalanceC, Option.bind_eq_bind, hr, Option.bind_some, hc, if_false,
      hanasakiC_ok _ _ hd, resBalance, resBeforeRelease, resStorage1, resPet, resPetMax, resEvap, resGwr, resTotalIn,
      resCut, resDemand]
    try rfl

/-! ### River -/

theorem outflowConstantC_ok (st len width rough mult slope : ℝ) (hs : 0 ≤ st) (hl : 0 < len) (hw : 0 < width)
    (hr : mult * rough ≠ 0) (hsl : 0 ≤ slope) :
    outflowConstantC st len width rough mult slope = some (outflowConstant st len width rough mult slope) := by
  have hA : 0 ≤ crossSection st len := by unfold crossSection; positivity
  have hD := (C16_depth st len width hs hl hw.le).1
  have hsq : 0 ≤ (width * 1000) ^ 2 / 16 + 0.5 * crossSection st len := by positivity
  have hper : 0 < wettedPerimeter st len width := by unfold wettedPerimeter; positivity
  have hrad : 0 ≤ hydraulicRadius st len width := div_nonneg hA hper.le
  unfold crossSection at hsq
  have h1 : cdiv (crossSection st len) (wettedPerimeter st len width) = some (hydraulicRadius st len width) :=
    cdiv_ok hper.ne'
  have h2 : cpow (hydraulicRadius st len width) (2 / 3) = some (hydraulicRadius st len width ^ ((2 : ℝ) / 3)) :=
    cpow_ok hrad (by norm_num)
  simp only [crossSection, wettedPerimeter, riverDepth] at h1
  simp only [outflowConstantC, Option.bind_eq_bind, cdiv_ok hl.ne', Option.bind_some, csqrt_ok hsq, h1, cdiv_ok hr, h2,
    csqrt_ok hsl, outflowConstant, riverVelocity]

theorem riverBalanceC_ok (minV corr k s q d : ℝ) (hk : 0 < k) :
    riverBalanceC minV corr k s q d = some (riverBalance minV corr k s q d) := by
  have he : (1 : ℝ) - Real.exp (-1 * k) ≠ 0 := by
    have : Real.exp (-1 * k) < 1 := by rw [Real.exp_lt_one_iff]; linarith
    exact (sub_pos.2 this).ne'
  simp only [riverBalanceC, Option.bind_eq_bind, cdiv_ok he, Option.bind_some, riverBalance, riverAvail,
    riverNewStorage, cdiv_ok hk.ne']
  by_cases h1 : d > q + k * s * Real.exp (-1 * k) / (1 - Real.exp (-1 * k))
  · by_cases h2 : d > 0
    · simp only [h1, h2, if_true, cdiv_ok h2.ne', Option.map_some, Option.bind_some]
      try rfl
    · simp only [h1, h2, if_true, if_false]
      try rfl
  · simp only [h1, if_false, Option.bind_some]
    try rfl

/-! ### One cell in the lateral water balance -/

/-- What `CellIn.Physical` does not say and the divisions of a day need: static data and parameters that are divisors, and
the two combinations of water use data on which the code has no result (see `C78_violated_irrigation` and
`C78_violated_regulated_lake`). -/
structure CellIn.Divisible (c : CellIn) : Prop where
  gwK : c.gwK ≠ 0
  irrigation : c.unsatNas ≠ 0 → 0 < c.withdrawal → irrigationFactor c.withdrawal c.consumptive c.fracReturn ≠ 0
  resExp : 0 < c.resArea → c.resFirstDay = false → 0 ≤ c.resRedExp
  days : 0 < c.resArea → c.han.rtype = .irrigation → c.han.daysInMonth ≠ 0
  inflow : 0 < c.resArea → c.han.rtype = .irrigation → 0 < c.han.meanInflow ∨ c.han.annualDemand ≠ 0
  width : 0 < c.width
  rough : c.mult * c.rough ≠ 0
  slope : 0 ≤ c.slope

section
variable (c : CellIn) (st : CellState) (up demand : ℝ) (keep : ℝ → ℝ)

theorem bodyDayC_ok (kind : LakeKind) (i : LakeIn) (s size : ℝ) [Decidable (size > 0)]
    (h : 0 < size → i.Physical ∧ lowest kind i.maxStorage ≤ s) :
    bodyDayC kind i s size = some (bodyDay kind i s (size > 0)) := by
  unfold bodyDayC bodyDay
  by_cases hp : size > 0
  · simp only [hp, if_true]
    exact lakeBalanceC_ok kind i s (h hp).1 (h hp).2
  · simp only [hp, if_false]

theorem localLakeAbstractC_ok (s m f e d : ℝ) (hm : 0 < m) (he : 0 ≤ e) :
    localLakeAbstractC s m f e d = some (localLakeAbstract s m f e d) := by
  unfold localLakeAbstractC localLakeAbstract
  by_cases h : d < s + m <;>
    simp only [h, if_true, if_false, swbRedfactorC_ok hm he, Option.bind_eq_bind, Option.bind_some]

theorem cellDayC_ok (h : c.Physical) (hd : c.Divisible) (hs : st.Ok c) (hup : 0 ≤ up)
    (hdem : 0 < c.glolakeArea → 0 ≤ demand) :
    cellDayC c st up demand keep = some (cellRiverIn c st up demand, cellDay c st up demand keep) := by
  classical
  have hgw : ∀ pt, groundwaterBalanceC c.gwKind st.gw c.recharge c.potNag c.unsatNas c.gwK c.withdrawal
      c.consumptive c.fracReturn pt = some (cellGw c st pt) := fun pt =>
    groundwaterBalanceC_ok _ _ _ _ _ _ _ _ _ _ hd.gwK hd.irrigation
  have hearly : (if c.gwKind = .arid then some 0 else (some (cellGw c st 0)).map (·.discharge))
      = some (cellEarlyDischarge c st) := by
    unfold cellEarlyDischarge
    split_ifs <;> simp
  have hll : bodyDayC .localLake (c.lakeIn c.locLake (cellSplit c st).1 0 0) st.locLake c.locLake.frac
      = some (cellLocLake c st) :=
    bodyDayC_ok _ _ _ _ fun hf => ⟨lakeIn_physical c h c.locLake h.locLake hf _ 0 0 (split_facts c st h).2.1 le_rfl,
      (hs.locLake hf).1⟩
  have hlw : bodyDayC .localWetland (c.lakeIn c.locWet (cellLocLake c st).outflow 0 0) st.locWet c.locWet.frac
      = some (cellLocWet c st) :=
    bodyDayC_ok _ _ _ _ fun hf => ⟨lakeIn_physical c h c.locWet h.locWet hf _ 0 0 (locLake_facts c st h hs).1.out le_rfl,
      (hs.locWet hf).1⟩
  have hgl : bodyDayC .globalLake
      (c.lakeIn ⟨0, c.glolakeArea, c.maxGlolake⟩ ((cellLocWet c st).outflow + up) c.resArea demand) st.gloLake
      c.glolakeArea = some (cellGloLake c st up demand) :=
    bodyDayC_ok _ _ _ _ fun hf =>
      ⟨{ precip := h.precip, openPet := h.openPet, inflow := by
            have := (locWet_facts c st h hs).1.out; show 0 ≤ _ + up; linarith
         k := h.swbK, gw := h.gwConst, redExp := h.redExp, maxStorage := h.maxGlolake hf, maxArea := le_of_lt hf,
         frac := le_rfl, demand := hdem hf }, (hs.gloLake hf).1⟩
  have hrs : (if c.resArea > 0 then
      resBalanceC
        { precip := c.precip, openPet := c.openPet, arid := c.arid, drainageOk := !c.sink, gwConst := c.gwConst,
          area := c.resArea, redExp := c.resRedExp, cfa := c.cfa, firstDay := c.resFirstDay,
          glolakeArea := c.glolakeArea, demandSw := demand, unsatGlolake := (cellGloLake c st up demand).unsat,
          minV := c.minV,
          han := { c.han with inflow := (cellGloLake c st up demand).outflow, kRelease := st.k } } st.res
    else some { storage := st.res, outflow := (cellGloLake c st up demand).outflow, gwr := 0, kRelease := st.k,
                unsat := 0, use := 0, evapKm3 := 0 }) = some (cellRes c st up demand) := by
    unfold cellRes
    by_cases hr : c.resArea > 0
    · simp only [hr, if_true]
      exact resBalanceC_ok (cellResIn c st up demand) st.res
        ⟨h.cap hr, fun ht => hd.days hr ht, fun ht => hd.inflow hr ht⟩ (hd.resExp hr)
    · simp only [hr, if_false]
  have hgwt : bodyDayC .globalWetland (c.lakeIn c.gloWet (cellRes c st up demand).outflow 0 0) st.gloWet c.gloWet.frac
      = some (cellGloWet c st up demand) :=
    bodyDayC_ok _ _ _ _ fun hf =>
      ⟨lakeIn_physical c h c.gloWet h.gloWet hf _ 0 0 (res_facts c st up demand h hs hup hdem).2.1 le_rfl,
        (hs.gloWet hf).1⟩
  have hk := outflowConstantC_ok st.river c.len c.width c.rough c.mult c.slope hs.river h.len hd.width hd.rough hd.slope
  have hkp := river_k_pos c st h
  have harea : ∀ (b : Body) (kind : LakeKind) (s : ℝ), kind ≠ .globalLake → b.Physical →
      (if b.frac > 0 then (swbRedfactorC s b.maxStorage c.redExp kind.swb).map (· * b.maxArea) else some 0)
      = some (if b.frac > 0 then lakeArea kind (c.lakeIn b 0 0 0) s else 0) := by
    intro b kind s hne hb
    by_cases hf : b.frac > 0
    · simp only [hf, if_true, swbRedfactorC_ok (hb.storage hf) h.redExp.le, Option.map_some, lakeArea, hne, if_false,
        lakeRed]
      rfl
    · simp only [hf, if_false]
  have hall := harea c.locLake .localLake st.locLake (by decide) h.locLake
  have halw := harea c.locWet .localWetland st.locWet (by decide) h.locWet
  have hagw := harea c.gloWet .globalWetland st.gloWet (by decide) h.gloWet
  have htp : (if c.useOpt = true ∧ c.locLake.frac > 0 ∧ (cellRiver c st up demand keep).unsat > 0 ∧
        (cellLocLake c st).storage > -1 * c.locLake.maxStorage then
      localLakeAbstractC (cellLocLake c st).storage c.locLake.maxStorage c.locLake.frac c.redExp
        (cellRiver c st up demand keep).unsat
    else some ((cellLocLake c st).storage, (cellRiver c st up demand keep).unsat, (cellLocLake c st).newFrac, 0))
      = some (cellTapped c st up demand keep) := by
    unfold cellTapped cellTap
    split_ifs with ht
    · exact localLakeAbstractC_ok _ _ _ _ _ (h.locLake.storage ht.2.1) h.redExp.le
    · rfl
  have hearly' : (if c.gwKind = .arid then some 0 else (groundwaterBalanceC c.gwKind st.gw c.recharge c.potNag c.unsatNas
      c.gwK c.withdrawal c.consumptive c.fracReturn 0).map (·.discharge)) = some (cellEarlyDischarge c st) := by
    rw [hgw]; exact hearly
  unfold cellDayC
  refine obind hearly' ?_
  refine obind hll ?_
  refine obind hlw ?_
  refine obind hgl ?_
  refine obind hrs ?_
  refine obind hgwt ?_
  refine obind (hgw (cellPoint c st up demand)) ?_
  refine obind hk ?_
  refine obind (a := cellRiver c st up demand keep) (riverBalanceC_ok _ _ _ _ _ _ hkp) ?_
  refine obind htp ?_
  refine obind hall ?_
  refine obind halw ?_
  refine obind hagw ?_
  rfl
end

/-! ### One cell in the vertical water balance -/

theorem priestleyTaylorC_ok (t al n1 n2 : ℝ) (ht : PhysicalTemp t) :
    priestleyTaylorC t al n1 n2 = some (priestleyTaylor t al n1 n2) := by
  have h1 : t - 273.15 + 237.3 ≠ 0 := by have := ht.1; norm_num; intro h; linarith
  have h2 : (t - 273.15 + 237.3) ^ 2 ≠ 0 := pow_ne_zero 2 h1
  have hl : latentHeat t ≠ 0 := (latentHeat_pos t ht).ne'
  have hs : slopeOfSat t + psyConst t ≠ 0 := (add_pos (slopeOfSat_pos t ht) (psyConst_pos t ht)).ne'
  refine obind (cdiv_ok h1) (obind (a := slopeOfSat t) (cdiv_ok h2) (obind (a := psyConst t) (cdiv_ok hl)
    (obind (cdiv_ok hl) (obind (cdiv_ok hs) (obind (cdiv_ok hl) (obind (cdiv_ok hs) ?_))))))
  rfl

theorem canopyWaterBalanceC_ok (s l pet pr f r co mv : ℝ) (hs : 0 ≤ s) (hr : 0 ≤ r) (hp : 0 ≤ pr) (hc : 0 ≤ co) :
    canopyWaterBalanceC s l pet pr f r co mv = some (canopyWaterBalance s l pet pr f r co mv) := by
  unfold canopyWaterBalanceC canopyWaterBalance
  by_cases hf : f > 0
  · by_cases hl : l > 0
    · simp only [hf, hl, if_true]
      set s0 := if |s * r| ≤ mv then 0 else s * r with hs0
      have h0 : 0 ≤ s0 := by rw [hs0]; split_ifs; exacts [le_rfl, mul_nonneg hs hr]
      have h1 : 0 ≤ (if pr < co * l - s0 then s0 + pr else co * l) := by
        split_ifs
        · linarith
        · positivity
      by_cases hm : co * l > 0
      · simp only [hm, if_true, cdiv_ok hm.ne', cpow_ok (div_nonneg h1 hm.le) (by norm_num : (0 : ℝ) ≤ 2 / 3),
          Option.bind_eq_bind, Option.bind_some]
      · simp only [hm, if_false, Option.bind_eq_bind, Option.bind_some]
    · simp only [hf, hl, if_true, if_false]
  · simp only [hf, if_false]

theorem snowWaterBalanceC_ok (p : SnowPar) (bands : List (ℝ × ℝ)) (lsc f r t mv : ℝ) (hb : bands ≠ []) :
    snowWaterBalanceC p bands lsc f r t mv = some (snowWaterBalance p bands lsc f r t mv) := by
  have hn : ((bands.length : ℕ) : ℝ) ≠ 0 := by
    rw [Nat.cast_ne_zero]; simpa [List.length_eq_zero_iff] using hb
  unfold snowWaterBalanceC snowWaterBalance
  by_cases hf : f > 0
  · simp only [hf, if_true, cdiv_ok hn, Option.bind_eq_bind, Option.bind_some, mean, List.length_map, bandLoop_length]
  · simp only [hf, if_false, cdiv_ok hn, Option.bind_eq_bind, Option.bind_some, mean, List.length_map]

theorem soilWaterBalanceC_ok (i : SoilIn) (s : ℝ) (hs : 0 ≤ s) (hr : 0 ≤ i.ratio) (hg : 0 ≤ i.gamma) (hc : 0 < i.cfa) :
    soilWaterBalanceC i s = some (soilWaterBalance i s) := by
  have hl : soilLandC i s = some (soilLand i s) := by
    unfold soilLandC soilLand
    by_cases h1 : i.maxTempElev > i.freezeTemp
    · by_cases h2 : i.maxSoil > 0
      · simp only [h1, h2, if_true]
        have h0 : 0 ≤ (if s * i.ratio > i.maxSoil then i.maxSoil else s * i.ratio) := by
          split_ifs
          · exact h2.le
          · exact mul_nonneg hs hr
        generalize (if s * i.ratio > i.maxSoil then i.maxSoil else s * i.ratio) = s0 at h0
        simp only [soilActiveC, soilActive, cdiv_ok h2.ne', cpow_ok (div_nonneg h0 h2.le) hg, cdiv_ok hc.ne',
          Option.bind_eq_bind, Option.bind_some]
      · simp only [h1, h2, if_true, if_false]
    · simp only [h1, if_false]
  unfold soilWaterBalanceC soilWaterBalance
  by_cases hf : i.frac > 0
  · simp only [hf, if_true, hl, Option.bind_eq_bind, Option.bind_some]
  · simp only [hf, if_false]

theorem vertCellC_ok (p : VertPar) (f : VertForcing) (s : VertState) (hp : p.Ok) (hs : s.Ok p)
    (ht : PhysicalTemp f.temperature) (hpr : 0 ≤ f.precip) (hr : 0 ≤ f.ratio) :
    vertCellC p f s = some (vertCell p f s) := by
  have hb : p.elevs.zip s.bands ≠ [] := by
    obtain ⟨e, es, he, -⟩ := hp.lowest
    have := hs.len
    intro h
    have h2 := congrArg List.length h
    rw [List.length_zip, this, he] at h2
    simp at h2
  unfold vertCellC
  refine obind (priestleyTaylorC_ok _ _ _ _ ht) ?_
  refine obind (canopyWaterBalanceC_ok _ _ _ _ _ _ _ _ hs.canopy hr hpr hp.coef) ?_
  refine obind (snowWaterBalanceC_ok _ _ _ _ _ _ _ hb) ?_
  refine obind (soilWaterBalanceC_ok _ _ hs.soil0 hr hp.gamma hp.cfa) ?_
  rfl

/-! ### The simulation -/

theorem foldlM_some {α β : Type} (f : β → α → Option β) (g : β → α → β) (l : List α) (b : β)
    (h : ∀ p a q, l = p ++ a :: q → f (p.foldl g b) a = some (g (p.foldl g b) a)) :
    l.foldlM f b = some (l.foldl g b) := by
  induction l generalizing b with
  | nil => rfl
  | cons a l ih =>
    have h0 := h [] a l rfl
    simp only [List.foldl_nil] at h0
    rw [List.foldlM_cons, h0]
    exact ih (g b a) fun p x q hl => h (a :: p) x q (by rw [hl]; rfl)

section sim
variable {δ : Type} (par : Cell → FullPar) (lat0 : Cell → CellIn) (order : List (Cell × Cell)) (I : δ → Prop)

/-- The data of the day are divisible in all cells. -/
def DivDay (d : SimDay δ) (s : Sim δ) : Prop := ∀ x ∈ order.map Prod.fst, (d.lateral s.demand x).Divisible

/-- The data of all days are divisible. -/
def DivDays : Sim δ → List (SimDay δ) → Prop
  | _, [] => True
  | s, d :: ds => DivDay order d s ∧ DivDays (simDay par order d s).1 ds

theorem vertDayC_ok (cells : List Cell) (weather : Cell → Weather) (state : Cell → FullState)
    (h : ∀ x ∈ cells, vertCellC (par x).vert (fullForcing (weather x) (state x).land) (state x).vert
      = some (fullVert (par x) (weather x) (state x))) :
    ∃ vs, vertDayC par cells weather state = some vs ∧ ∀ x ∈ cells, vs x = some (fullVert (par x) (weather x) (state x)) := by
  refine ⟨_, foldlM_some _ (fun vs x => Function.update vs x (some (fullVert (par x) (weather x) (state x)))) cells _
    fun p a q hl => ?_, ?_⟩
  · refine obind (h a (by rw [hl]; simp)) rfl
  · have key : ∀ (l : List Cell) (vs : Cell → Option VertOut) (x : Cell),
        (x ∈ l ∨ vs x = some (fullVert (par x) (weather x) (state x))) →
        l.foldl (fun vs x => Function.update vs x (some (fullVert (par x) (weather x) (state x)))) vs x
          = some (fullVert (par x) (weather x) (state x)) := by
      intro l
      induction l with
      | nil => intro vs x hx; simpa using hx
      | cons a l ih =>
        intro vs x hx
        rw [List.foldl_cons]
        refine ih _ x ?_
        by_cases ha : x = a
        · right; subst ha; rw [Function.update_self]
        · rcases hx with hx | hx
          · left; simpa [ha] using hx
          · right; rw [Function.update_of_ne ha]; exact hx
    intro x hx
    exact key cells _ x (Or.inl hx)

theorem route_out_none (cin : Cell → CellIn) (get : δ → Cell → ℝ × (ℝ → ℝ)) (upd : δ → Cell → CellOut → δ)
    (order : List (Cell × Cell)) (b : Basin δ) (x : Cell) (hx : x ∉ order.map Prod.fst) :
    (route (basinNode cin get upd) order b).ledger.out x = b.out x := by
  induction order using List.reverseRecOn with
  | nil => rfl
  | append_singleton p e ih =>
    rw [List.map_append, List.mem_append, not_or] at hx
    have hxe : x ≠ e.1 := fun h' => hx.2 (by simp [h'])
    rw [route_append]
    simp only [routeStep, basinNode, Function.update_of_ne hxe]
    exact ih hx.1

theorem sound_left (p q : List (Cell × Cell)) (h : Sound (p ++ q)) : Sound p := by
  induction q using List.reverseRecOn with
  | nil => simpa using h
  | append_singleton q e ih =>
    rw [← List.append_assoc] at h
    exact ih h.prefix.1

/-- `simDayC_ok` for a state that is only known to be sensible for today: nothing is assumed about the land of
yesterday. -/
theorem simDayC_today (h : Sound order) (d : SimDay δ) (s : Sim δ) (hI : I s.demand)
    (hc : ∀ x ∈ order.map Prod.fst, (simIn par d s x).Physical ∧ (s.state x).lat.Ok (simIn par d s x) ∧
      0 ≤ (simIn par d s x).corr)
    (hs : ∀ x ∈ order.map Prod.fst, (s.state x).vert.Ok (par x).vert ∧ 0 ≤ (s.state x).land.ratio)
    (hd : d.Ok par lat0 order I s) (hv : DivDay order d s) :
    simDayC par order d s = some (simDay par order d s).1 := by
  have hdiv : ∀ x ∈ order.map Prod.fst, (simIn par d s x).Divisible := by
    intro x hx
    have := hv x hx
    exact ⟨this.gwK, this.irrigation, this.resExp, this.days, this.inflow, this.width, this.rough, this.slope⟩
  obtain ⟨vs, hvs, hvx⟩ := vertDayC_ok par (order.map Prod.fst) d.weather s.state (by
    intro x hx
    obtain ⟨g1, g2, g3, -⟩ := hd.cells x hx
    exact vertCellC_ok _ _ _ g1.vert (hs x hx).1 g3.1 g3.2.1 (hs x hx).2)
  have hnet : routeC (basinNodeC (fun x => (vs x).map fun v =>
      latInC (par x) (d.lateral s.demand x) (d.weather x) (s.state x).land v) d.get d.upd) order
      ⟨d.start s.demand, fun x => (s.state x).lat, fun _ => none⟩ = some (simNet par order d s) := by
    refine foldlM_some _ (routeStep (basinNode (simIn par d s) d.get d.upd)) order _ fun p e q hl => ?_
    have hpre : Sound (p ++ [e]) := by
      refine sound_left (p ++ [e]) q ?_
      rw [List.append_assoc]; rw [hl] at h; exact h
    obtain ⟨hp, hn, -⟩ := hpre.prefix
    have hmem : ∀ x ∈ p.map Prod.fst, x ∈ order.map Prod.fst := by
      intro x hx; rw [hl, List.map_append]; exact List.mem_append_left _ hx
    have he : e.1 ∈ order.map Prod.fst := by rw [hl]; simp
    obtain ⟨i1, i2, i3, -⟩ := basin_inv (simIn par d s) d.get d.upd I hd.ledger p hp (d.start s.demand)
      (hd.start _ hI) (fun x => (s.state x).lat) fun x hx => hc x (hmem x hx)
    have i3 := i3 _ hn
    unfold basinDay route at i1 i2 i3
    generalize List.foldl (routeStep (basinNode (simIn par d s) d.get d.upd))
      (routeStart { demand := d.start s.demand, state := fun x => (s.state x).lat, out := fun _ => none }) p = n at *
    obtain ⟨c1, c2, -⟩ := hc e.1 he
    refine obind (a := basinNode (simIn par d s) d.get d.upd n.ledger e.1 (n.inflow e.1)) ?_ rfl
    refine obind (a := simIn par d s e.1) (by show Option.map _ (vs e.1) = _; rw [hvx _ he]; rfl) ?_
    refine obind (cellDayC_ok _ _ _ _ _ c1 (hdiv _ he) (by rw [i3]; exact c2) (i2 e.1) (hd.ledger.sign _ _ i1)) ?_
    rfl
  unfold simDayC
  refine obind hvs (obind hnet ?_)
  have hst : ∀ x, (match (simNet par order d s).ledger.out x, vs x with
      | some o, some v => ({ vert := v.next
                             land := landUpdate (o.locLakeFrac + o.locWetFrac + o.gloWetFrac) (s.state x).land
                             lat := o.state } : FullState)
      | _, _ => s.state x) = (simDay par order d s).1.state x := by
    intro x
    unfold simDay
    simp only
    by_cases hx : x ∈ order.map Prod.fst
    · rw [hvx x hx]
      cases (simNet par order d s).ledger.out x <;> rfl
    · have : (simNet par order d s).ledger.out x = none := route_out_none _ _ _ _ _ _ hx
      rw [this]
  exact congrArg some (congrArg (Sim.mk _) (funext hst))

theorem simDayC_ok (h : Sound order) (hcorr : ∀ x ∈ order.map Prod.fst, 0 < (lat0 x).corr) (d : SimDay δ) (s : Sim δ)
    (hs : s.Ok par lat0 order I) (hd : d.Ok par lat0 order I s) (hv : DivDay order d s) :
    simDayC par order d s = some (simDay par order d s).1 := by
  have hc : ∀ x ∈ order.map Prod.fst, (simIn par d s x).Physical ∧ (s.state x).lat.Ok (simIn par d s x) ∧
      0 ≤ (simIn par d s x).corr := by
    intro x hx
    obtain ⟨g1, g2, g3, -⟩ := hd.cells x hx
    have hf := FullOk_same g2 (hs.2 x hx)
    refine ⟨fullIn_physical _ _ _ _ g1 hf g3,
      ⟨hf.lat.locLake, hf.lat.locWet, hf.lat.gloLake, hf.lat.res, hf.lat.gloWet, hf.lat.river⟩, ?_⟩
    change 0 ≤ (d.lateral s.demand x).corr
    rw [← g2.corr]; exact (hcorr x hx).le
  exact simDayC_today par lat0 order I h d s hs.1 hc (fun x hx => ⟨(hs.2 x hx).vert, (hs.2 x hx).ratio0⟩) hd hv

/-- C78: over any number of days, every division, every power and every root of the water balances of every cell has a
result, and the results are those of the model used for all other properties. -/
theorem C78_simulation (h : Sound order) (hcorr : ∀ x ∈ order.map Prod.fst, 0 < (lat0 x).corr)
    (days : List (SimDay δ)) (s : Sim δ) (hs : s.Ok par lat0 order I) (hd : SimDaysOk par lat0 order I s days)
    (hv : DivDays par order s days) :
    simRunC par order s days = some (simRun par order s days).1 := by
  induction days generalizing s with
  | nil => rfl
  | cons d ds ih =>
    unfold simRunC at ih ⊢
    rw [List.foldlM_cons, simDayC_ok par lat0 order I h hcorr d s hs hd.1 hv.1]
    exact ih _ (simDay_ok par lat0 order I h hcorr d s hs hd.1) hd.2 hv.2

end sim

/-! ### When there is no result -/

/-- C78: the groundwater balance has no result exactly if there is unsatisfied demand on irrigation water of which nothing
is used up and nothing returned. -/
theorem C78_irrigation_iff (kind : GwKind) (s d p u k w co f pt : ℝ) (hk : k ≠ 0) :
    groundwaterBalanceC kind s d p u k w co f pt = none ↔ u ≠ 0 ∧ 0 < w ∧ irrigationFactor w co f = 0 := by
  constructor
  · intro h
    by_contra hc
    rw [groundwaterBalanceC_ok kind s d p u k w co f pt hk fun h1 h2 h3 => hc ⟨h1, h2, h3⟩] at h
    cases h
  · rintro ⟨h1, h2, h3⟩
    have h0 : updateNetabsGwC p w co u f = none := by
      unfold updateNetabsGwC
      unfold irrigationFactor at h3
      rcases lt_or_gt_of_ne h1 with hu | hu
      · have hu' : ¬ u > 0 := not_lt.2 hu.le
        simp [hu, hu', h2, cdiv, h2.ne', h3]
      · simp [hu, h2, cdiv, h2.ne', h3]
    unfold groundwaterBalanceC
    simp [h1, h0]

/-- C78: with a consumptive use between 0 and the withdrawal and a return fraction between 0 and 1 this is the case only
if the consumptive use and the return fraction are both zero. -/
theorem C78_irrigation_data (w co f : ℝ) (hw : 0 < w) (h0 : 0 ≤ co) (h1 : co ≤ w) (f0 : 0 ≤ f) (f1 : f ≤ 1) :
    0 ≤ irrigationFactor w co f ∧ (irrigationFactor w co f = 0 ↔ co = 0 ∧ f = 0) := by
  have e0 : 0 ≤ co / w := div_nonneg h0 hw.le
  have e1 : co / w ≤ 1 := (div_le_one hw).2 h1
  have key : irrigationFactor w co f = f + co / w * (1 - f) := by unfold irrigationFactor; ring
  rw [key]
  refine ⟨by nlinarith, ⟨fun h => ?_, fun h => ?_⟩⟩
  · have hp : 0 ≤ co / w * (1 - f) := mul_nonneg e0 (by linarith)
    have hf : f = 0 := by linarith
    rw [hf] at h
    refine ⟨?_, hf⟩
    have : co / w = 0 := by linarith
    rcases div_eq_zero_iff.1 this with h' | h'
    · exact h'
    · exact absurd h' hw.ne'
  · rw [h.1, h.2]; simp

/-- C78: the release rule has no result exactly for an irrigation reservoir without mean inflow and without mean annual
demand downstream. -/
theorem C78_release_iff (h : HanIn) (s : ℝ) (hcap : 0 < h.cap) (hdays : h.daysInMonth ≠ 0) :
    hanasakiC h s = none ↔ h.rtype = .irrigation ∧ h.meanInflow ≤ 0 ∧ h.annualDemand = 0 := by
  constructor
  · intro hn
    by_contra hc
    rw [hanasakiC_ok h s ⟨hcap, fun _ => hdays, fun ht => by
      by_contra h2
      rw [not_or, not_lt, not_not] at h2
      exact hc ⟨ht, h2⟩⟩] at hn
    cases hn
  · rintro ⟨h1, h2, h3⟩
    have hp : provReleaseC h = none := by
      have h4 : (86400 : ℝ) * h.daysInMonth ≠ 0 := mul_ne_zero (by norm_num) hdays
      unfold provReleaseC
      rw [h1]
      simp only [cdiv_ok h4, Option.bind_eq_bind, Option.bind_some, h3, zero_div]
      rw [if_pos (by linarith)]
      simp [cdiv]
    have hk : ∃ k, (if h.month = h.startMonth ∧ h.day = 1 then
        (if s < h.cap * 0.1 then some 0.1 else cdiv s (h.cap * 0.85)) else some h.kRelease) = some k := by
      rw [cdiv_ok (by positivity)]
      split_ifs <;> exact ⟨_, rfl⟩
    obtain ⟨k, hk⟩ := hk
    unfold hanasakiC
    refine obind hk ?_
    rw [hp]
    rfl

/-- C78: a reservoir that is in operation in the year of an activation and has an area has a mean inflow; only a regulated
lake before its first year of operation may be without. -/
theorem C78_activated (s : ResStatic) (year : ℕ) (c : ResCell) (ha : 0 < (activateArea s year c).area)
    (hy : s.startYear ≤ year) : s.meanInflow ≠ 0 := by
  intro h0
  unfold activateArea at ha
  simp only [hy, if_true, h0, true_and, and_true] at ha
  split_ifs at ha with h1
  · exact lt_irrefl _ ha
  · exact h1 ha

/-- C78, finding: the code treats a regulated lake as a reservoir before its first year of operation and does not ask
for a mean inflow then: a regulated lake for irrigation without mean inflow and without mean annual demand downstream stops
the simulation (`waterbalance_lateral.py:403-412,436-447`, `reservoir_release_hanasaki.py:155-159`). -/
theorem C78_violated_regulated_lake (s : ResStatic) (year : ℕ) (hr : s.regulated = true) (hy : year < s.startYear)
    (ha : 0 < s.area) (hm : s.meanInflow = 0) (h : HanIn) (hcap : h.cap = (activateArea s year (.fresh s)).cap)
    (hc : 0 < s.storCap) (hi : h.meanInflow = s.meanInflow) (ht : h.rtype = .irrigation) (hd : h.annualDemand = 0)
    (hdays : h.daysInMonth ≠ 0) (storage : ℝ) :
    0 < (activateArea s year (.fresh s)).area ∧ hanasakiC h storage = none := by
  have hn : ¬ s.startYear ≤ year := not_le.2 hy
  have e1 : (activateArea s year (.fresh s)).cap = s.storCap := by
    simp [activateArea, hr, hn]
  refine ⟨by simp [activateArea, hr, hn, ResCell.fresh, ha], ?_⟩
  exact (C78_release_iff h storage (by rw [hcap, e1]; exact hc) hdays).2 ⟨ht, by rw [hi, hm], hd⟩

/-- C78, finding: in a cell whose return fraction is zero, irrigation water that is withdrawn but not used up stops the
simulation on the first day with demand left from the day before. -/
theorem C78_violated_irrigation (c : CellIn) (st : CellState) (up demand : ℝ) (keep : ℝ → ℝ) (hk : c.gwK ≠ 0)
    (hu : c.unsatNas ≠ 0) (hw : 0 < c.withdrawal) (hc : c.consumptive = 0) (hf : c.fracReturn = 0)
    (ha : c.gwKind ≠ .arid) : cellDayC c st up demand keep = none := by
  have h0 : groundwaterBalanceC c.gwKind st.gw c.recharge c.potNag c.unsatNas c.gwK c.withdrawal c.consumptive
      c.fracReturn 0 = none :=
    (C78_irrigation_iff _ _ _ _ _ _ _ _ _ _ hk).2 ⟨hu, hw, by simp [irrigationFactor, hc, hf]⟩
  unfold cellDayC
  simp only [ha, if_false, h0]
  rfl

/-! ### Non-vacuity -/

theorem exCell_divisible : exCell.Divisible := by
  constructor <;> (try unfold exCell) <;> norm_num

theorem exLat_divisible : exLat.Divisible := by
  constructor <;> (try unfold exLat exCell) <;> norm_num

example : cellDayC exCell exState 0.02 0.001 id = some (cellRiverIn exCell exState 0.02 0.001, cellDay exCell exState 0.02 0.001 id) :=
  cellDayC_ok exCell exState 0.02 0.001 id exCell_physical exCell_divisible exState_ok (by norm_num) (fun _ => by norm_num)

example :=
  C78_simulation (fun _ => exFull) (fun _ => exLat) [((1, 1), (1, 2)), ((2, 2), (1, 2)), ((1, 2), (0, 0))]
    (fun _ : Unit => True) exOrder_sound (by intro x _; norm_num [exLat, exCell])
    [exDay] exSim ⟨trivial, fun _ _ => exFullState_ok⟩
    ⟨⟨fun _ _ => ⟨exLat_good, ⟨⟨rfl, rfl, rfl, rfl, rfl, rfl, rfl⟩, rfl, rfl, rfl, rfl⟩, exWeather_ok,
        fun hf => absurd hf (by norm_num [simIn, fullIn, exDay, exLat])⟩,
      ⟨fun _ _ _ _ _ _ _ _ => trivial, fun _ _ _ _ => by norm_num [exDay]⟩, fun _ _ => trivial, fun _ _ => trivial⟩, trivial⟩
    ⟨fun _ _ => exLat_divisible, trivial⟩

example := C78_irrigation_iff .humid 1 0.1 0.2 0.05 0.01 3 2 0.4 0 (by norm_num)
example := C78_irrigation_data 3 2 0.4 (by norm_num) (by norm_num) (by norm_num) (by norm_num) (by norm_num)
example := C78_release_iff exCell.han 1.1 (by norm_num [exCell]) (by norm_num [exCell])
example := C78_activated ⟨1980, false, 2, 5, 20, 50, 0⟩ 1990 (.fresh ⟨1980, false, 2, 5, 20, 50, 0⟩)
  (by norm_num [activateArea, ResCell.fresh]) (by norm_num)
example := C78_violated_regulated_lake ⟨1990, true, 2, 5, 0, 50, 0⟩ 1980 rfl (by norm_num) (by norm_num) rfl
  ⟨2, 4, 4, 1, 0.8, .irrigation, 0.01, 0, 0, 0, 30⟩ (by norm_num [activateArea]) (by norm_num) rfl rfl rfl (by norm_num) 1
example := C78_violated_irrigation { exCell with arid := false, unsatNas := 0.1, withdrawal := 0.2, fracReturn := 0 } exState
  0 0 id (by norm_num [exCell]) (by norm_num) (by norm_num) rfl rfl (by simp [CellIn.gwKind, exCell])

end WG
