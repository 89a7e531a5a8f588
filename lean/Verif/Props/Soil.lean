import Verif.Model.Soil

/-! Properties C05, C06 (soil storage range, runoff split) and the soil part of C07. -/

namespace WG

/-- Physical parameters and inputs of the soil routine. -/
structure SoilIn.Physical (i : SoilIn) : Prop where
  pet : 0 ≤ i.petToSoil
  ratio : 0 ≤ i.ratio
  canopyEvap : 0 ≤ i.canopyEvap
  /-- canopy evaporation does not use more than the maximum daily PET -/
  energy : i.canopyEvap ≤ i.maxDailyPet
  eff : 0 ≤ i.effPrecip
  imm : 0 ≤ i.immediate
  subl : 0 ≤ i.sublimation
  gamma : 0 ≤ i.gamma
  maxRecharge : 0 ≤ i.maxRecharge
  factor0 : 0 ≤ i.rechargeFactor
  factor1 : i.rechargeFactor ≤ 1
  maxSoil : 0 ≤ i.maxSoil
  cfa : 0 < i.cfa

/-- A humid-zone example that satisfies the conditions. -/
noncomputable def sampleSoil : SoilIn :=
  { petToSoil := 2, frac := 0.5, ratio := 1, maxTempElev := 280, canopyEvap := 1, effPrecip := 5,
    precip := 10, immediate := 1, landStorageChange := 2, sublimation := 1, transfer := 0,
    freezeTemp := 273.15, gamma := 1, maxDailyPet := 15, humidArid := 0, texture := 20, drainage := 1,
    maxRecharge := 3, rechargeFactor := 0.5, critPrecip := 12.5, maxSoil := 100, cfa := 1, minV := 0 }

theorem sampleSoil_physical : sampleSoil.Physical := by
  constructor <;> norm_num [sampleSoil]

/-- Facts about the active branch. -/
theorem soilActive_facts (i : SoilIn) (h : i.Physical) (s0 over0 : ℝ) (hm : 0 < i.maxSoil)
    (hs0 : 0 ≤ s0) (hs1 : s0 ≤ i.maxSoil) (ho : 0 ≤ over0) :
    let m := soilActive i s0 over0
    0 ≤ m.soil ∧ m.soil ≤ i.maxSoil ∧ 0 ≤ m.recharge ∧ m.recharge ≤ i.maxRecharge ∧ 0 ≤ m.aet ∧
    m.aet ≤ i.petToSoil ∧ 0 ≤ m.dailyRunoff ∧ 0 ≤ m.overflow ∧ 0 ≤ m.immediate ∧
    m.recharge ≤ m.dailyRunoff ∧ m.total = m.dailyRunoff + m.immediate + m.overflow ∧
    m.saturation = s0 / i.maxSoil ∧
    ((i.humidArid = 1 ∧ i.texture < 21 ∧ i.drainage ≥ 0) → i.precip ≤ i.critPrecip → m.recharge = 0) ∧
    ∃ e, |e| ≤ i.minV ⊔ 0 ∧ 0 ≤ m.aet + e ∧
      m.total = i.cfa * (i.effPrecip + i.immediate + over0 - m.aet - (m.soil - s0) - e) := by
  obtain ⟨hpet, _, hce, hen, heff, himm, _, hg, hmr, hf0, hf1, _, hcfa⟩ := h
  have hsat0 : 0 ≤ s0 / i.maxSoil := by positivity
  have hsat1 : s0 / i.maxSoil ≤ 1 := (div_le_one hm).mpr hs1
  have hpow0 : 0 ≤ (s0 / i.maxSoil) ^ i.gamma := by positivity
  have hpow1 : (s0 / i.maxSoil) ^ i.gamma ≤ 1 := Real.rpow_le_one hsat0 hsat1 hg
  have hr0 : 0 ≤ i.effPrecip * (s0 / i.maxSoil) ^ i.gamma := by positivity
  have hr1 : i.effPrecip * (s0 / i.maxSoil) ^ i.gamma ≤ i.effPrecip := by nlinarith
  have haet0 : 0 ≤ min i.petToSoil ((i.maxDailyPet - i.canopyEvap) * (s0 / i.maxSoil)) :=
    le_min hpet (mul_nonneg (by linarith) hsat0)
  have haet1 : min i.petToSoil ((i.maxDailyPet - i.canopyEvap) * (s0 / i.maxSoil)) ≤ i.petToSoil :=
    min_le_left _ _
  simp only [soilActive]
  generalize (s0 / i.maxSoil) ^ i.gamma = pw at *
  generalize i.effPrecip * pw = r at *
  generalize min i.petToSoil ((i.maxDailyPet - i.canopyEvap) * (s0 / i.maxSoil)) = a at *
  have hrc : 0 ≤ r * i.cfa := by positivity
  have hg0 : 0 ≤ min i.maxRecharge (i.rechargeFactor * (r * i.cfa)) := le_min hmr (by positivity)
  have hg1 : min i.maxRecharge (i.rechargeFactor * (r * i.cfa)) ≤ i.maxRecharge := min_le_left _ _
  have hg2 : min i.maxRecharge (i.rechargeFactor * (r * i.cfa)) ≤ r * i.cfa :=
    (min_le_right _ _).trans (by nlinarith)
  generalize min i.maxRecharge (i.rechargeFactor * (r * i.cfa)) = g at *
  -- the flushed content
  obtain ⟨s2, e, hs2, he, hs2e⟩ : ∃ s2 e, s2 = (if |s0 + (i.effPrecip - a - r)| ≤ i.minV then 0
      else s0 + (i.effPrecip - a - r)) ∧ |e| ≤ i.minV ⊔ 0 ∧
      s0 + (i.effPrecip - a - r) = s2 + e ∧ (s2 = 0 ∨ e = 0) := by
    by_cases hh : |s0 + (i.effPrecip - a - r)| ≤ i.minV
    · exact ⟨0, s0 + (i.effPrecip - a - r), by simp [hh], hh.trans (le_max_left _ _), by simp⟩
    · exact ⟨s0 + (i.effPrecip - a - r), 0, by simp [hh], by simp, by simp⟩
  rw [← hs2]
  have hge : 0 ≤ a + s2 := by
    rw [hs2]; split_ifs <;> linarith
  obtain ⟨hse, hz⟩ := hs2e
  -- after the negative-storage repair
  obtain ⟨s3, aet, h3, ha, h3n, h3a, hap, hsum⟩ : ∃ s3 aet, s3 = (if s2 < 0 then 0 else s2) ∧
      aet = (if s2 < 0 then a + s2 else a) ∧ 0 ≤ s3 ∧ 0 ≤ aet ∧ aet ≤ i.petToSoil ∧
      s3 + aet = s2 + a := by
    by_cases hh : s2 < 0
    · exact ⟨0, a + s2, by simp [hh], by simp [hh], le_rfl, hge, by linarith, by ring⟩
    · exact ⟨s2, a, by simp [hh], by simp [hh], by linarith, haet0, haet1, by ring⟩
  have hae : 0 ≤ aet + e := by
    rcases hz with hz | hz
    · rw [hz] at ha hse
      simp at ha
      rw [ha]
      linarith
    · rw [hz]; linarith
  rw [← h3, ← ha]
  -- the potential recharge
  by_cases hdry : (i.humidArid = 1 ∧ i.texture < 21 ∧ i.drainage ≥ 0) ∧ i.precip ≤ i.critPrecip
  · simp only [if_pos hdry]
    have hpg : 0 ≤ g / i.cfa := by positivity
    have hpgm : i.cfa * (g / i.cfa) = g := by field_simp
    generalize g / i.cfa = q at *
    by_cases hov : s3 + q > i.maxSoil
    · simp only [if_pos hov]
      refine ⟨hm.le, le_rfl, le_rfl, hmr, h3a, hap, by linarith,
        mul_nonneg (by linarith) hcfa.le, by positivity, by linarith, trivial, trivial, fun _ _ => trivial,
        e, he, hae, ?_⟩
      linear_combination hpgm + i.cfa * hsum - i.cfa * hse
    · simp only [if_neg hov]
      refine ⟨by linarith, by linarith, le_rfl, hmr, h3a, hap, by linarith,
        mul_nonneg ho hcfa.le, by positivity, by linarith, trivial, trivial, fun _ _ => trivial,
        e, he, hae, ?_⟩
      linear_combination hpgm + i.cfa * hsum - i.cfa * hse
  · simp only [if_neg hdry, zero_div, add_zero, sub_zero]
    by_cases hov : s3 > i.maxSoil
    · simp only [if_pos hov]
      refine ⟨hm.le, le_rfl, hg0, hg1, h3a, hap, by linarith,
        mul_nonneg (by linarith) hcfa.le, by positivity, by linarith, trivial, trivial,
        fun h1 h2 => absurd ⟨h1, h2⟩ hdry, e, he, hae, ?_⟩
      linear_combination i.cfa * hsum - i.cfa * hse
    · simp only [if_neg hov]
      refine ⟨by linarith, by linarith, hg0, hg1, h3a, hap, by linarith,
        mul_nonneg ho hcfa.le, by positivity, by linarith, trivial, trivial,
        fun h1 h2 => absurd ⟨h1, h2⟩ hdry, e, he, hae, ?_⟩
      linear_combination i.cfa * hsum - i.cfa * hse

/-- The content after the first overflow is within the capacity. -/
theorem soilLand_facts (i : SoilIn) (h : i.Physical) (soil : ℝ) (hs : 0 ≤ soil) :
    let m := soilLand i soil
    0 ≤ m.soil ∧ m.soil ≤ i.maxSoil ∧ 0 ≤ m.recharge ∧ m.recharge ≤ i.maxRecharge ∧ 0 ≤ m.aet ∧
    m.aet ≤ i.petToSoil ∧ m.recharge ≤ m.total ∧
    ((i.humidArid = 1 ∧ i.texture < 21 ∧ i.drainage ≥ 0) → i.precip ≤ i.critPrecip → m.recharge = 0) ∧
    (i.maxTempElev ≤ i.freezeTemp → m.recharge = 0 ∧ m.aet = 0) ∧
    (0 < i.maxSoil → (i.maxTempElev ≤ i.freezeTemp → i.effPrecip = 0 ∧ i.immediate = 0) →
      ∃ e, |e| ≤ i.minV ⊔ 0 ∧ 0 ≤ m.aet + e ∧
        m.total = i.cfa * (i.effPrecip + i.immediate - m.aet - (m.soil - soil * i.ratio) - e)) := by
  have hr : 0 ≤ soil * i.ratio := mul_nonneg hs h.ratio
  obtain ⟨s0, o0, hs0, ho0, h0, h1, h2, h3⟩ : ∃ s0 o0, s0 = (if soil * i.ratio > i.maxSoil then i.maxSoil
      else soil * i.ratio) ∧ o0 = (if soil * i.ratio > i.maxSoil then soil * i.ratio - i.maxSoil else 0) ∧
      0 ≤ s0 ∧ s0 ≤ i.maxSoil ∧ 0 ≤ o0 ∧ s0 + o0 = soil * i.ratio := by
    by_cases hh : soil * i.ratio > i.maxSoil
    · exact ⟨i.maxSoil, soil * i.ratio - i.maxSoil, by simp [hh], by simp [hh], h.maxSoil, le_rfl,
        by linarith, by ring⟩
    · exact ⟨soil * i.ratio, 0, by simp [hh], by simp [hh], hr, by linarith, le_rfl, by ring⟩
  have hcfa := h.cfa
  simp only [soilLand]
  rw [← hs0, ← ho0]
  by_cases hw : i.maxTempElev > i.freezeTemp
  · simp only [if_pos hw]
    by_cases hm : i.maxSoil > 0
    · simp only [if_pos hm]
      obtain ⟨a1, a2, a3, a4, a5, a6, a7, a8, a9, a10, a11, a12, a13, e, a14, a15, a16⟩ :=
        soilActive_facts i h s0 o0 hm h0 h1 h2
      refine ⟨a1, a2, a3, a4, a5, a6, by rw [a11]; linarith, a13, fun hf => absurd hw (not_lt.mpr hf),
        fun _ _ => ⟨e, a14, a15, ?_⟩⟩
      rw [a16]
      linear_combination i.cfa * h3
    · simp only [if_neg hm]
      exact ⟨h0, h1, le_rfl, h.maxRecharge, le_rfl, h.pet, le_rfl, fun _ _ => trivial,
        fun _ => ⟨trivial, trivial⟩, fun h => absurd h hm⟩
  · simp only [if_neg hw]
    refine ⟨h0, h1, le_rfl, h.maxRecharge, le_rfl, h.pet, mul_nonneg h2 hcfa.le, fun _ _ => trivial,
      fun _ => ⟨trivial, trivial⟩, fun _ hz => ?_⟩
    obtain ⟨z1, z2⟩ := hz (not_lt.mp hw)
    refine ⟨0, by simp, by simp, ?_⟩
    rw [z1, z2]
    linear_combination i.cfa * h3

private theorem soilFinish_facts (soil recharge total : ℝ) (hs : 0 ≤ soil) (hr : 0 ≤ recharge)
    (ht : 0 ≤ total) :
    let f := soilFinish soil recharge total
    0 ≤ f.1 ∧ f.1 ≤ soil ∧ 0 ≤ f.2.1 ∧ f.2.1 ≤ recharge ∧ 0 ≤ f.2.2 ∧ f.2.2 + f.2.1 = total ∧
    (recharge ≤ total → f.1 = soil ∧ f.2.1 = recharge) ∧
    soil - f.1 ≤ max 0 (recharge - total) := by
  simp only [soilFinish]
  by_cases h : total - recharge < 0
  · simp only [if_pos h]
    refine ⟨by split_ifs <;> linarith, by split_ifs <;> linarith, ht, by linarith, by simp, by ring,
      fun h' => absurd h (by linarith), ?_⟩
    refine le_trans ?_ (le_max_right _ _)
    split_ifs <;> linarith
  · simp only [if_neg h]
    exact ⟨hs, le_rfl, hr, le_rfl, by linarith, by ring, fun _ => ⟨trivial, trivial⟩, by simp⟩

private theorem soilTotal_nonneg (total aet0 : ℝ) : 0 ≤ soilTotal total aet0 := by
  simp only [soilTotal]; split_ifs <;> linarith

/-- C05, one day: the soil content returned lies between 0 and the capacity, with or without land, frozen or
not. -/
theorem C05_soil_bounds (i : SoilIn) (h : i.Physical) (soil : ℝ) (hs : 0 ≤ soil) :
    0 ≤ (soilWaterBalance i soil).soil ∧ (soilWaterBalance i soil).soil ≤ i.maxSoil := by
  by_cases hf : i.frac > 0
  · obtain ⟨a1, a2, a3, -⟩ := soilLand_facts i h soil hs
    simp only [soilWaterBalance, if_pos hf]
    have hf := soilFinish_facts (soilLand i soil).soil (soilLand i soil).recharge _ a1 a3
      (soilTotal_nonneg (soilLand i soil).total (corrAet i.cfa (i.landStorageChange +
        ((soilLand i soil).soil - soil * i.ratio)) i.precip
        ((soilLand i soil).aet + i.canopyEvap + i.sublimation)))
    exact ⟨hf.1, hf.2.1.trans a2⟩
  · simp only [soilWaterBalance, if_neg hf]
    exact ⟨le_rfl, h.maxSoil⟩

example : 0 ≤ (soilWaterBalance sampleSoil 50).soil ∧ (soilWaterBalance sampleSoil 50).soil ≤ 100 :=
  C05_soil_bounds sampleSoil sampleSoil_physical 50 (by norm_num)

/-- The soil content after a sequence of days. -/
noncomputable def soilRun (soil : ℝ) : List SoilIn → ℝ
  | [] => soil
  | i :: is => soilRun (soilWaterBalance i soil).soil is

/-- C05, all histories: whatever the weather of the days, the soil never holds less than nothing or more than
its capacity. -/
theorem C05_soil_history (cap soil : ℝ) (h0 : 0 ≤ soil) (h1 : soil ≤ cap) (days : List SoilIn)
    (hd : ∀ i ∈ days, i.Physical ∧ i.maxSoil = cap) :
    0 ≤ soilRun soil days ∧ soilRun soil days ≤ cap := by
  induction days generalizing soil with
  | nil => exact ⟨h0, h1⟩
  | cons i is ih =>
    obtain ⟨hp, hc⟩ := hd i (by simp)
    have hb := C05_soil_bounds i hp soil h0
    exact ih _ hb.1 (hc ▸ hb.2) fun x hx => hd x (by simp [hx])

example : 0 ≤ soilRun 50 [sampleSoil, sampleSoil] ∧ soilRun 50 [sampleSoil, sampleSoil] ≤ 100 :=
  C05_soil_history 100 50 (by norm_num) (by norm_num) _ (by
    intro i hi; simp at hi; subst hi; exact ⟨sampleSoil_physical, by norm_num [sampleSoil]⟩)

/-- C06: surface runoff and recharge are non-negative and add up to the total runoff; recharge respects the
daily maximum and is zero in an arid coarse-textured cell without enough precipitation, in a frozen cell and
without land. -/
theorem C06_runoff_split (i : SoilIn) (h : i.Physical) (soil : ℝ) (hs : 0 ≤ soil) :
    let o := soilWaterBalance i soil
    0 ≤ o.surfaceRunoff ∧ 0 ≤ o.recharge ∧ o.surfaceRunoff + o.recharge = o.total ∧
    o.recharge ≤ i.maxRecharge ∧
    ((i.humidArid = 1 ∧ i.texture < 21 ∧ i.drainage ≥ 0) → i.precip ≤ i.critPrecip → o.recharge = 0) ∧
    (i.maxTempElev ≤ i.freezeTemp → o.recharge = 0) ∧ (i.frac ≤ 0 → o.recharge = 0 ∧ o.total = 0) := by
  by_cases hf : i.frac > 0
  · obtain ⟨a1, a2, a3, a4, -, -, -, a8, a9, -⟩ := soilLand_facts i h soil hs
    simp only [soilWaterBalance, if_pos hf]
    obtain ⟨b1, b2, b3, b4, b5, b6, b7, b8⟩ := soilFinish_facts (soilLand i soil).soil
      (soilLand i soil).recharge _ a1 a3 (soilTotal_nonneg (soilLand i soil).total
        (corrAet i.cfa (i.landStorageChange + ((soilLand i soil).soil - soil * i.ratio)) i.precip
        ((soilLand i soil).aet + i.canopyEvap + i.sublimation)))
    exact ⟨b5, b3, b6, b4.trans a4,
      fun h1 h2 => le_antisymm (b4.trans (a8 h1 h2).le) b3,
      fun h1 => le_antisymm (b4.trans (a9 h1).1.le) b3, fun h1 => absurd hf (not_lt.mpr h1)⟩
  · simp only [soilWaterBalance, if_neg hf]
    exact ⟨le_rfl, le_rfl, by simp, h.maxRecharge, fun _ _ => trivial, fun _ => trivial,
      fun _ => ⟨trivial, trivial⟩⟩

example : (soilWaterBalance sampleSoil 50).surfaceRunoff + (soilWaterBalance sampleSoil 50).recharge
    = (soilWaterBalance sampleSoil 50).total :=
  (C06_runoff_split sampleSoil sampleSoil_physical 50 (by norm_num)).2.2.1

/-- C06: the equations of Müller Schmied et al. 2021 (Eq. 17-19) for a soil that is not frozen.  With the water
`S` in the soil at the start of the day (rescaled, at most the capacity) and the runoff
`R = Peff · (S / Smax) ^ γ`, the potential recharge is `min(Rgmax, fg · cfa · R)`, withheld in an arid coarse cell
with little precipitation; recharge is the potential recharge as long as the total runoff suffices.  The soil
evaporates `min(PET, (Emax − canopy) · S / Smax)` as long as there is water, up to the residue threshold. -/
theorem C06_soil_equations (i : SoilIn) (soil : ℝ) (hf : 0 < i.frac) (ht : i.freezeTemp < i.maxTempElev)
    (hm : 0 < i.maxSoil) :
    let o := soilWaterBalance i soil
    let S := min (soil * i.ratio) i.maxSoil
    let R := i.effPrecip * (S / i.maxSoil) ^ i.gamma
    let E := min i.petToSoil ((i.maxDailyPet - i.canopyEvap) * (S / i.maxSoil))
    o.saturation = S / i.maxSoil ∧
    |o.soilEvap - min E (S + i.effPrecip - R)| ≤ max i.minV 0 ∧
    ((i.humidArid = 1 ∧ i.texture < 21 ∧ 0 ≤ i.drainage ∧ i.precip ≤ i.critPrecip) →
      o.recharge = min 0 o.total) ∧
    (¬ (i.humidArid = 1 ∧ i.texture < 21 ∧ 0 ≤ i.drainage ∧ i.precip ≤ i.critPrecip) →
      o.recharge = min (min i.maxRecharge (i.rechargeFactor * i.cfa * R)) o.total) := by
  intro o S R E
  have hS : (if soil * i.ratio > i.maxSoil then i.maxSoil else soil * i.ratio) = S := by
    simp only [S]
    by_cases h : soil * i.ratio > i.maxSoil
    · rw [if_pos h, min_eq_right h.le]
    · rw [if_neg h, min_eq_left (not_lt.mp h)]
  have hfin : ∀ s r t, (soilFinish s r t).2.1 = min r t := by
    intro s r t
    unfold soilFinish
    by_cases h : t - r < 0
    · rw [if_pos h, min_eq_right (by linarith)]
    · rw [if_neg h, min_eq_left (by linarith [not_lt.mp h])]
  refine ⟨?_, ?_, ?_, ?_⟩
  · simp only [o, soilWaterBalance, gt_iff_lt, if_pos hf, soilLand, if_pos ht, if_pos hm, soilActive]
    simp only [gt_iff_lt] at hS
    rw [hS]
  · simp only [o, soilWaterBalance, gt_iff_lt, if_pos hf, soilLand, if_pos ht, if_pos hm, soilActive]
    simp only [gt_iff_lt] at hS
    rw [hS]
    change |(if (if |S + (i.effPrecip - E - R)| ≤ i.minV then 0 else S + (i.effPrecip - E - R)) < 0 then
      E + (if |S + (i.effPrecip - E - R)| ≤ i.minV then 0 else S + (i.effPrecip - E - R)) else E)
      - min E (S + i.effPrecip - R)| ≤ max i.minV 0
    by_cases h1 : |S + (i.effPrecip - E - R)| ≤ i.minV
    · rw [if_pos h1, if_neg (lt_irrefl _)]
      have h2 := abs_le.mp h1
      have h3 : 0 ≤ i.minV := (abs_nonneg _).trans h1
      rw [max_eq_left h3, abs_le]
      rcases le_total E (S + i.effPrecip - R) with h4 | h4
      · rw [min_eq_left h4]; constructor <;> linarith
      · rw [min_eq_right h4]; constructor <;> linarith
    · rw [if_neg h1]
      by_cases h2 : S + (i.effPrecip - E - R) < 0
      · rw [if_pos h2, min_eq_right (by linarith)]
        have : E + (S + (i.effPrecip - E - R)) - (S + i.effPrecip - R) = 0 := by ring
        rw [this, abs_zero]
        exact le_max_right _ _
      · rw [if_neg h2, min_eq_left (by linarith [not_lt.mp h2]), sub_self, abs_zero]
        exact le_max_right _ _
  · intro hd
    have hd' : (i.humidArid = 1 ∧ i.texture < 21 ∧ i.drainage ≥ 0) ∧ i.precip ≤ i.critPrecip :=
      ⟨⟨hd.1, hd.2.1, hd.2.2.1⟩, hd.2.2.2⟩
    simp only [o, soilWaterBalance, gt_iff_lt, if_pos hf, hfin]
    congr 1
    simp only [soilLand, gt_iff_lt, if_pos ht, if_pos hm, soilActive, if_pos hd']
  · intro hd
    have hd' : ¬ ((i.humidArid = 1 ∧ i.texture < 21 ∧ i.drainage ≥ 0) ∧ i.precip ≤ i.critPrecip) :=
      fun h => hd ⟨h.1.1, h.1.2.1, h.1.2.2, h.2⟩
    simp only [o, soilWaterBalance, gt_iff_lt, if_pos hf, hfin]
    congr 1
    simp only [soilLand, gt_iff_lt, if_pos ht, if_pos hm, soilActive, if_neg hd']
    simp only [gt_iff_lt] at hS
    rw [hS]
    congr 1
    simp only [R]
    ring

example : 0 < sampleSoil.frac ∧ sampleSoil.freezeTemp < sampleSoil.maxTempElev ∧ 0 < sampleSoil.maxSoil := by
  simp only [sampleSoil]; norm_num

/-- Immediate (urban) runoff takes its part from effective precipitation without loss, and both parts are
non-negative for fractions in `[0,1]`. -/
theorem C06_immediate_runoff (eff f b : ℝ) :
    (immediateRunoff eff f b).1 + (immediateRunoff eff f b).2 = eff ∧
    (0 ≤ b → (immediateRunoff eff f b).2 = f * b * eff) ∧
    (0 ≤ eff → 0 ≤ f → f ≤ 1 → b ≤ 1 →
      0 ≤ (immediateRunoff eff f b).1 ∧ 0 ≤ (immediateRunoff eff f b).2) := by
  simp only [immediateRunoff]
  by_cases hb : b > 0
  · simp only [if_pos hb]
    refine ⟨by ring, fun _ => by ring, fun h1 h2 h3 h4 => ⟨?_, by positivity⟩⟩
    have h5 : f * eff ≤ eff := by nlinarith
    have h6 : 0 ≤ f * eff := by positivity
    nlinarith
  · simp only [if_neg hb]
    exact ⟨by ring, fun h => by rw [le_antisymm (not_lt.mp hb) h]; ring, fun h _ _ _ => ⟨h, le_rfl⟩⟩

/-- C07 (soil part, all correction factors): if canopy, snow and the urban split have delivered their balance
(`hclose`), then precipitation equals total runoff plus corrected evapotranspiration plus the storage change,
up to the flushed numerical residue `e` and up to a `leak` of soil water that only the repair step for
recharge exceeding total runoff can cause; the leak is zero for correction factors up to 1. -/
theorem C07_soil_closure (i : SoilIn) (h : i.Physical) (soil : ℝ) (hs : 0 ≤ soil) (hfrac : 0 < i.frac)
    (hm : 0 < i.maxSoil)
    (hfrozen : i.maxTempElev ≤ i.freezeTemp → i.effPrecip = 0 ∧ i.immediate = 0)
    (hclose : i.precip = i.canopyEvap + i.sublimation + i.landStorageChange + i.effPrecip + i.immediate) :
    let o := soilWaterBalance i soil
    ∃ e leak, |e| ≤ i.cfa * (i.minV ⊔ 0) ∧ 0 ≤ leak ∧ (i.cfa ≤ 1 → leak = 0) ∧
      (o.landAet = 0 ∨ leak = 0) ∧
      0 ≤ o.landAet ∧ 0 ≤ o.total ∧
      i.precip = o.total + o.landAet +
        (i.landStorageChange + (o.soil - soil * i.ratio)) + leak + e := by
  obtain ⟨a1, a2, a3, a4, a5, a6, a7, a8, a9, a10⟩ := soilLand_facts i h soil hs
  obtain ⟨e, he, hae, htot⟩ := a10 hm hfrozen
  have hcfa := h.cfa
  have hce := h.canopyEvap
  have hsu := h.subl
  simp only [soilWaterBalance, gt_iff_lt, if_pos hfrac]
  generalize soilLand i soil = m at *
  set lsc := i.landStorageChange + (m.soil - soil * i.ratio) with hlsc
  set A := m.aet + i.canopyEvap + i.sublimation with hA
  have hT0 : 0 ≤ m.total := a3.trans a7
  have hPS : i.precip - lsc = A + m.total / i.cfa + e := by
    have : m.total / i.cfa = i.effPrecip + i.immediate - m.aet - (m.soil - soil * i.ratio) - e := by
      rw [htot]; field_simp
    rw [this, hlsc, hA]
    linarith
  have hAe : 0 ≤ A + e := by rw [hA]; linarith
  have hq : 0 ≤ m.total / i.cfa := by positivity
  have hcq : i.cfa * (m.total / i.cfa) = m.total := by field_simp
  have hA0 : 0 ≤ A := by rw [hA]; linarith
  have hcorr : corrAet i.cfa lsc i.precip A = (i.precip - lsc) * (1 - i.cfa) + A * i.cfa := by
    unfold corrAet; ring
  have hsumm : corrAet i.cfa lsc i.precip A + m.total = i.precip - lsc - i.cfa * e := by
    rw [hcorr]
    linear_combination (-i.cfa) * hPS - hcq
  have hcepos : |i.cfa * e| ≤ i.cfa * (i.minV ⊔ 0) := by
    rw [abs_mul, abs_of_pos hcfa]
    exact mul_le_mul_of_nonneg_left he hcfa.le
  by_cases hneg : corrAet i.cfa lsc i.precip A < 0
  · -- corrected evapotranspiration would be negative: only possible for factors above 1
    have hc1 : ¬ i.cfa ≤ 1 := by
      intro hc1
      rw [hcorr] at hneg
      nlinarith [mul_nonneg hA0 hcfa.le]
    simp only [if_pos hneg]
    obtain ⟨b1, b2, b3, b4, b5, b6, b7, b8⟩ := soilFinish_facts m.soil m.recharge _ a1 a3
      (soilTotal_nonneg m.total (corrAet i.cfa lsc i.precip A))
    refine ⟨i.precip - lsc - soilTotal m.total (corrAet i.cfa lsc i.precip A),
      m.soil - (soilFinish m.soil m.recharge (soilTotal m.total (corrAet i.cfa lsc i.precip A))).1,
      ?_, by linarith, fun h => absurd h hc1, Or.inl trivial, le_rfl, soilTotal_nonneg _ _,
      by rw [hlsc]; ring⟩
    simp only [soilTotal, if_pos hneg]
    by_cases ht : m.total + corrAet i.cfa lsc i.precip A < 0
    · simp only [if_pos ht, sub_zero]
      have h1 : 0 ≤ i.precip - lsc := by rw [hPS]; linarith
      have h2 : i.precip - lsc ≤ i.cfa * e := by linarith
      rw [abs_of_nonneg h1]
      exact h2.trans ((le_abs_self _).trans hcepos)
    · simp only [if_neg ht]
      have : i.precip - lsc - (m.total + corrAet i.cfa lsc i.precip A) = i.cfa * e := by linarith
      rw [this]
      exact hcepos
  · simp only [if_neg hneg]
    have ht : soilTotal m.total (corrAet i.cfa lsc i.precip A) = m.total := by
      simp [soilTotal, hneg, not_lt.mpr hT0]
    rw [ht]
    obtain ⟨b1, b2, b3, b4, b5, b6, b7, b8⟩ := soilFinish_facts m.soil m.recharge _ a1 a3 hT0
    have hsoil := (b7 a7).1
    refine ⟨i.cfa * e, 0, hcepos, le_rfl, fun _ => rfl, Or.inr rfl, not_lt.mp hneg, hT0, ?_⟩
    rw [hsoil, ← hlsc]
    linarith

example : sampleSoil.precip = sampleSoil.canopyEvap + sampleSoil.sublimation
    + sampleSoil.landStorageChange + sampleSoil.effPrecip + sampleSoil.immediate ∧
    sampleSoil.Physical ∧ 0 < sampleSoil.frac ∧ 0 < sampleSoil.maxSoil ∧ sampleSoil.cfa ≤ 1 :=
  ⟨by norm_num [sampleSoil], sampleSoil_physical, by norm_num [sampleSoil], by norm_num [sampleSoil],
    by norm_num [sampleSoil]⟩

/-- An example with correction factor 1.5: a wet soil on a day without evapotranspiration. -/
noncomputable def leakSoil : SoilIn :=
  { petToSoil := 0, frac := 0.5, ratio := 1, maxTempElev := 280, canopyEvap := 0, effPrecip := 10,
    precip := 10, immediate := 0, landStorageChange := 0, sublimation := 0, transfer := 0,
    freezeTemp := 273.15, gamma := 1, maxDailyPet := 15, humidArid := 0, texture := 20, drainage := 1,
    maxRecharge := 100, rechargeFactor := 1, critPrecip := 12.5, maxSoil := 100, cfa := 1.5, minV := 0 }

/-- C07 is violated for correction factors above 1: with factor 1.5 the repair step takes soil water that no
flux accounts for (`soil.py:420-430`): all hypotheses of `C07_soil_closure` hold, and yet precipitation
exceeds total runoff plus evapotranspiration plus storage change by 2.5 mm. -/
theorem C07_violated_cfa_above_one :
    leakSoil.Physical ∧
    leakSoil.precip = leakSoil.canopyEvap + leakSoil.sublimation + leakSoil.landStorageChange
      + leakSoil.effPrecip + leakSoil.immediate ∧
    let o := soilWaterBalance leakSoil 50
    leakSoil.precip = o.total + o.landAet + (leakSoil.landStorageChange + (o.soil - 50)) + 2.5 := by
  refine ⟨by constructor <;> norm_num [leakSoil], by norm_num [leakSoil], ?_⟩
  norm_num [leakSoil, soilWaterBalance, soilLand, soilActive, soilFinish, soilTotal, corrAet]

/-- C07 is violated in cells whose soil cannot store water (`max_soil_water_content ≤ 0`, `soil.py:345-347`):
on a warm day the effective precipitation vanishes: no runoff, no evapotranspiration, no storage. -/
theorem C07_violated_no_soil_capacity :
    let i := { sampleSoil with maxSoil := 0, precip := 9, canopyEvap := 0, sublimation := 0,
                               landStorageChange := 0, effPrecip := 9, immediate := 0 }
    i.Physical ∧ i.precip = i.effPrecip ∧
    let o := soilWaterBalance i 0
    o.total = 0 ∧ o.landAet = 0 ∧ o.soil = 0 := by
  refine ⟨?_, by norm_num, ?_⟩
  · constructor <;> norm_num [sampleSoil]
  · norm_num [sampleSoil, soilWaterBalance, soilLand, soilActive, soilFinish, soilTotal, corrAet]

/-- C29 (soil part): without land the soil water joins the transfer, which is scaled by the correction factor. -/
theorem C29_soil_no_land (i : SoilIn) (soil : ℝ) (hf : i.frac ≤ 0) :
    (soilWaterBalance i soil).transfer = (i.transfer + soil) * i.cfa ∧
    (soilWaterBalance i soil).soil = 0 ∧ (soilWaterBalance i soil).surfaceRunoff = 0 := by
  simp [soilWaterBalance, not_lt.mpr hf]

example : (soilWaterBalance { sampleSoil with frac := 0 } 50).transfer = 50 := by
  rw [(C29_soil_no_land { sampleSoil with frac := 0 } 50 (by norm_num)).1]
  norm_num [sampleSoil]

end WG
