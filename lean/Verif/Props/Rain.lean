import Verif.Props.Vertical

/-!
# C85: more rain on a day never gives less water on the land

Of two versions of a day of a cell that differ only in the precipitation, started from the same storages, the one with
more rain has at least as much throughfall, snow melt, groundwater recharge and total runoff from land, and leaves at least
as much water on the leaves and in the snow (`C85_land`).  The statement is about `vertCell`, the whole vertical column of
a cell, and needs three restrictions, each shown to be necessary by a concrete day of the model: the extra rain does not
start the growing season, the station correction factor does not exceed 1 and (for the surface runoff and the soil
alone) an arid cell with coarse soil does not cross the critical precipitation of recharge.
-/

namespace WG

/-! ## Canopy -/

theorem canopy_evap_mono (pet m x y : ℝ) (hp : 0 ≤ pet) (hm : 0 < m) (hx : 0 ≤ x) (h : x ≤ y) :
    pet * (x / m) ^ ((2 : ℝ) / 3) ≤ pet * (y / m) ^ ((2 : ℝ) / 3) := by
  apply mul_le_mul_of_nonneg_left _ hp
  apply Real.rpow_le_rpow (by positivity) _ (by norm_num)
  exact div_le_div_of_nonneg_right h hm.le

/-- The water left on the leaves after evaporation grows with the water before. -/
theorem canopy_rest_mono (pet m x y : ℝ) (hp : 0 ≤ pet) (hm : 0 < m) (hx : 0 < x) (h : x ≤ y)
    (hz : pet * (x / m) ^ ((2 : ℝ) / 3) ≤ x) :
    x - pet * (x / m) ^ ((2 : ℝ) / 3) ≤ y - pet * (y / m) ^ ((2 : ℝ) / 3) := by
  have hq : 1 ≤ y / x := (one_le_div hx).mpr h
  have e : (y / m) ^ ((2 : ℝ) / 3) = (x / m) ^ ((2 : ℝ) / 3) * (y / x) ^ ((2 : ℝ) / 3) := by
    rw [← Real.mul_rpow (by positivity) (by positivity)]
    congr 1
    field_simp
  have le : (y / x) ^ ((2 : ℝ) / 3) ≤ y / x := by
    calc (y / x) ^ ((2 : ℝ) / 3) ≤ (y / x) ^ (1 : ℝ) := Real.rpow_le_rpow_of_exponent_le hq (by norm_num)
      _ = y / x := Real.rpow_one _
  have k : pet * (y / m) ^ ((2 : ℝ) / 3) ≤ pet * (x / m) ^ ((2 : ℝ) / 3) * (y / x) := by
    rw [e, ← mul_assoc]
    exact mul_le_mul_of_nonneg_left le (by positivity)
  have y' : y = x * (y / x) := by field_simp
  generalize pet * (x / m) ^ ((2 : ℝ) / 3) = E at *
  generalize y / x = q at *
  have : (x - E) * 1 ≤ (x - E) * q := mul_le_mul_of_nonneg_left hq (by linarith)
  nlinarith

/-- C85, canopy: on the same day with more precipitation. -/
theorem canopy_rain_mono (s lai pet P P' frac ratio coef minV : ℝ) (hs : 0 ≤ s) (hr : 0 ≤ ratio) (hpet : 0 ≤ pet)
    (hc : 0 ≤ coef) (hP : 0 ≤ P) (h : P ≤ P') :
    let o := canopyWaterBalance s lai pet P frac ratio coef minV
    let o' := canopyWaterBalance s lai pet P' frac ratio coef minV
    o.throughfall ≤ o'.throughfall ∧ o.evap ≤ o'.evap ∧ o'.petToSoil ≤ o.petToSoil ∧ o.storage ≤ o'.storage := by
  intro o o'
  simp only [o, o']
  unfold canopyWaterBalance
  by_cases hf : frac > 0
  · rw [if_pos hf, if_pos hf]
    dsimp only
    have h0 : 0 ≤ s * ratio := mul_nonneg hs hr
    have z0 : 0 ≤ (if |s * ratio| ≤ minV then 0 else s * ratio) := by split_ifs <;> [exact le_rfl; exact h0]
    generalize (if |s * ratio| ≤ minV then 0 else s * ratio) = s0 at z0 ⊢
    by_cases hl : lai > 0
    · rw [if_pos hl, if_pos hl]
      dsimp only
      have hm : 0 ≤ coef * lai := mul_nonneg hc hl.le
      generalize coef * lai = m at hm ⊢
      have thr : (if P < m - s0 then (0 : ℝ) else P - (m - s0)) ≤ if P' < m - s0 then 0 else P' - (m - s0) := by
        split_ifs <;> linarith
      have st : (if P < m - s0 then s0 + P else m) ≤ if P' < m - s0 then s0 + P' else m := by
        split_ifs <;> linarith
      have st0 : 0 ≤ (if P < m - s0 then s0 + P else m) := by split_ifs <;> linarith
      generalize (if P < m - s0 then s0 + P else m) = x at st st0 ⊢
      generalize (if P' < m - s0 then s0 + P' else m) = y at st ⊢
      have em : (if m > 0 then pet * (x / m) ^ ((2 : ℝ) / 3) else 0)
          ≤ if m > 0 then pet * (y / m) ^ ((2 : ℝ) / 3) else 0 := by
        by_cases hm0 : m > 0
        · rw [if_pos hm0, if_pos hm0]; exact canopy_evap_mono pet m x y hpet hm0 st0 st
        · rw [if_neg hm0, if_neg hm0]
      have rest : 0 < x → (if m > 0 then pet * (x / m) ^ ((2 : ℝ) / 3) else 0) ≤ x →
          x - (if m > 0 then pet * (x / m) ^ ((2 : ℝ) / 3) else 0)
            ≤ y - (if m > 0 then pet * (y / m) ^ ((2 : ℝ) / 3) else 0) := by
        intro hx hz
        by_cases hm0 : m > 0
        · rw [if_pos hm0] at hz
          rw [if_pos hm0, if_pos hm0]; exact canopy_rest_mono pet m x y hpet hm0 hx st hz
        · rw [if_neg hm0, if_neg hm0]; linarith
      have e0 : 0 ≤ (if m > 0 then pet * (x / m) ^ ((2 : ℝ) / 3) else 0) := by
        split_ifs
        · positivity
        · exact le_rfl
      generalize (if m > 0 then pet * (x / m) ^ ((2 : ℝ) / 3) else 0) = E at em rest e0 ⊢
      generalize (if m > 0 then pet * (y / m) ^ ((2 : ℝ) / 3) else 0) = E' at em rest ⊢
      refine ⟨thr, ?_, ?_, ?_⟩
      · split_ifs <;> linarith
      · split_ifs <;> linarith
      · rcases st0.eq_or_lt with hx | hx
        · subst hx
          split_ifs <;> linarith
        · by_cases hE : E > x
          · rw [if_pos hE]
            split_ifs <;> linarith
          · rw [if_neg hE]
            have := rest hx (not_lt.mp hE)
            split_ifs <;> linarith
    · rw [if_neg hl, if_neg hl]
      exact ⟨h, le_rfl, le_rfl, le_rfl⟩
  · rw [if_neg hf, if_neg hf]
    exact ⟨le_rfl, le_rfl, le_rfl, le_rfl⟩

/-! ## Snow -/

theorem band_rain_mono (p p' : SnowPar) (temp s : ℝ) (hd : 0 ≤ p.degreeday)
    (same : p' = { p with precip := p'.precip, throughfall := p'.throughfall, petToSoil := p'.petToSoil })
    (ht : p.throughfall ≤ p'.throughfall) (hp : p'.petToSoil ≤ p.petToSoil) :
    let o := bandStep p temp s
    let o' := bandStep p' temp s
    o.storage ≤ o'.storage ∧ o.melt ≤ o'.melt ∧ o.rain ≤ o'.rain ∧ o'.temp = o.temp := by
  intro o o'
  simp only [o, o']
  have f1 : p'.freezeTemp = p.freezeTemp := by rw [same]
  have f2 : p'.meltTemp = p.meltTemp := by rw [same]
  have f3 : p'.degreeday = p.degreeday := by rw [same]
  unfold bandStep
  dsimp only
  rw [f1, f2, f3]
  have hm : temp > p.meltTemp → 0 ≤ p.degreeday * (temp - p.meltTemp) := fun h => mul_nonneg hd (by linarith)
  generalize p.degreeday * (temp - p.meltTemp) = D at hm ⊢
  have key : ∀ a b : ℝ, a ≤ b →
      (if temp > p.meltTemp then (if a > 0 then (if (if temp > p.meltTemp then if a > 0 then D else 0 else 0) > a then 0 else a - (if temp > p.meltTemp then if a > 0 then D else 0 else 0)) else a) else a)
       ≤ (if temp > p.meltTemp then (if b > 0 then (if (if temp > p.meltTemp then if b > 0 then D else 0 else 0) > b then 0 else b - (if temp > p.meltTemp then if b > 0 then D else 0 else 0)) else b) else b) ∧
      (if temp > p.meltTemp then (if a > 0 then (if (if temp > p.meltTemp then if a > 0 then D else 0 else 0) > a then a else (if temp > p.meltTemp then if a > 0 then D else 0 else 0)) else 0) else 0)
       ≤ (if temp > p.meltTemp then (if b > 0 then (if (if temp > p.meltTemp then if b > 0 then D else 0 else 0) > b then b else (if temp > p.meltTemp then if b > 0 then D else 0 else 0)) else 0) else 0) := by
    intro a b hab
    by_cases hw : temp > p.meltTemp
    · have := hm hw
      simp only [if_pos hw]
      constructor <;> split_ifs <;> linarith
    · simp only [if_neg hw]
      exact ⟨hab, le_rfl⟩
  by_cases hf : temp ≤ p.freezeTemp
  · simp only [if_pos hf]
    have := key (if s + p.throughfall > p.petToSoil then s + p.throughfall - p.petToSoil else 0)
      (if s + p'.throughfall > p'.petToSoil then s + p'.throughfall - p'.petToSoil else 0)
      (by split_ifs <;> linarith)
    exact ⟨this.1, this.2, le_rfl, trivial⟩
  · simp only [if_neg hf]
    exact ⟨le_rfl, le_rfl, ht, trivial⟩

theorem bandLoop_rain_mono (p p' : SnowPar) (hd : 0 ≤ p.degreeday)
    (same : p' = { p with precip := p'.precip, throughfall := p'.throughfall, petToSoil := p'.petToSoil })
    (ht : p.throughfall ≤ p'.throughfall) (hp : p'.petToSoil ≤ p.petToSoil) (bands : List (ℝ × ℝ)) :
    ∀ thresh, List.Forall₂ (fun o o' : BandOut => o.storage ≤ o'.storage ∧ o.melt ≤ o'.melt ∧ o.rain ≤ o'.rain ∧
      o'.temp = o.temp) (bandLoop p thresh bands) (bandLoop p' thresh bands) := by
  have lt : ∀ e, lapseTemp p' e = lapseTemp p e := by intro e; rw [same]; rfl
  induction bands with
  | nil => intro _; exact List.Forall₂.nil
  | cons b rest ih =>
    intro thresh
    obtain ⟨e, s⟩ := b
    have bt : bandTemp p' thresh e s = bandTemp p thresh e s := by
      unfold bandTemp
      rw [lt, lt]
    unfold bandLoop
    dsimp only
    rw [bt]
    exact List.Forall₂.cons (band_rain_mono p p' _ s hd same ht hp) (ih _)

theorem mean_mono₂ {α : Type} (f g : α → ℝ) (l l' : List α) (h : List.Forall₂ (fun a b => f a ≤ g b) l l') :
    mean (l.map f) ≤ mean (l'.map g) := by
  unfold mean
  have hl := h.length_eq
  rw [List.length_map, List.length_map, hl]
  apply div_le_div_of_nonneg_right _ (Nat.cast_nonneg _)
  clear hl
  induction h with
  | nil => exact le_rfl
  | cons a _ ih => simp only [List.map_cons, List.sum_cons]; linarith

/-- C85, snow: on the same day with more throughfall and less energy left for sublimation. -/
theorem snow_rain_mono (p p' : SnowPar) (bands : List (ℝ × ℝ)) (c c' frac ratio t t' minV : ℝ) (hd : 0 ≤ p.degreeday)
    (same : p' = { p with precip := p'.precip, throughfall := p'.throughfall, petToSoil := p'.petToSoil })
    (ht : p.throughfall ≤ p'.throughfall) (hp : p'.petToSoil ≤ p.petToSoil) :
    let o := snowWaterBalance p bands c frac ratio t minV
    let o' := snowWaterBalance p' bands c' frac ratio t' minV
    o.effPrecip ≤ o'.effPrecip ∧ o.melt ≤ o'.melt ∧ o.storage ≤ o'.storage ∧
      List.Forall₂ (· ≤ ·) o.bands o'.bands ∧ o'.maxTempElev = o.maxTempElev := by
  intro o o'
  simp only [o, o']
  unfold snowWaterBalance
  by_cases hf : frac > 0
  · rw [if_pos hf, if_pos hf]
    dsimp only
    have k := bandLoop_rain_mono p p' hd same ht hp (bands.map (rescaleBand ratio minV)) 0
    refine ⟨mean_mono₂ _ _ _ _ (k.imp fun _ _ h => add_le_add h.2.1 h.2.2.1), mean_mono₂ _ _ _ _ (k.imp fun _ _ h => h.2.1),
      mean_mono₂ _ _ _ _ (k.imp fun _ _ h => h.1), ?_, ?_⟩
    · rw [List.forall₂_map_left_iff, List.forall₂_map_right_iff]
      exact k.imp fun _ _ h => h.1
    · generalize bandLoop p 0 _ = l at k ⊢
      generalize bandLoop p' 0 _ = l' at k ⊢
      cases k with
      | nil => rfl
      | cons a _ => simp only [List.head?_cons, Option.map_some, Option.getD_some]; exact a.2.2.2
  · rw [if_neg hf, if_neg hf]
    exact ⟨le_rfl, le_rfl, le_rfl, List.forall₂_same.mpr fun _ _ => le_rfl, rfl⟩


/-! ## Soil -/

/-- The part of an arid cell whose soil is coarse and that is not a sink of the drainage network: recharge needs a
minimum precipitation there. -/
def SoilIn.thirsty (i : SoilIn) : Prop := i.humidArid = 1 ∧ i.texture < 21 ∧ i.drainage ≥ 0

/-- The same soil on the same day after more rain. -/
structure SoilIn.Wetter (i i' : SoilIn) : Prop where
  same : i' = { i with
    petToSoil := i'.petToSoil, canopyEvap := i'.canopyEvap, effPrecip := i'.effPrecip
    precip := i'.precip, immediate := i'.immediate, landStorageChange := i'.landStorageChange
    sublimation := i'.sublimation, transfer := i'.transfer }
  pet : i'.petToSoil ≤ i.petToSoil
  canopyEvap : i.canopyEvap ≤ i'.canopyEvap
  eff : i.effPrecip ≤ i'.effPrecip
  immediate : i.immediate ≤ i'.immediate
  precip : i.precip ≤ i'.precip

/-- The rain does not reach the minimum for recharge in one case and exceed it in the other. -/
def SoilIn.sameSide (i i' : SoilIn) : Prop := ¬ (i.thirsty ∧ i.precip ≤ i.critPrecip ∧ i.critPrecip < i'.precip)

theorem soilActive_rain_mono (i i' : SoilIn) (h : i.Physical) (hw : SoilIn.Wetter i i') (s0 over0 : ℝ) (hm : 0 < i.maxSoil)
    (hs0 : 0 ≤ s0) (hs1 : s0 ≤ i.maxSoil) :
    let m := soilActive i s0 over0
    let m' := soilActive i' s0 over0
    m.recharge ≤ m'.recharge ∧ m.total ≤ m'.total ∧ m.immediate ≤ m'.immediate ∧
      (i.sameSide i' → m.total - m.recharge ≤ m'.total - m'.recharge ∧ m.soil ≤ m'.soil) := by
  intro m m'
  have hsat0 : 0 ≤ s0 / i.maxSoil := by positivity
  have hsat1 : s0 / i.maxSoil ≤ 1 := (div_le_one hm).mpr hs1
  have hpow0 : 0 ≤ (s0 / i.maxSoil) ^ i.gamma := by positivity
  have hpow1 : (s0 / i.maxSoil) ^ i.gamma ≤ 1 := Real.rpow_le_one hsat0 hsat1 h.gamma
  have c0 := h.cfa
  have g1 : i'.maxSoil = i.maxSoil := by rw [hw.same]
  have g2 : i'.gamma = i.gamma := by rw [hw.same]
  have g3 : i'.maxDailyPet = i.maxDailyPet := by rw [hw.same]
  have g4 : i'.minV = i.minV := by rw [hw.same]
  have g5 : i'.cfa = i.cfa := by rw [hw.same]
  have g6 : i'.maxRecharge = i.maxRecharge := by rw [hw.same]
  have g7 : i'.rechargeFactor = i.rechargeFactor := by rw [hw.same]
  have g8 : i'.humidArid = i.humidArid := by rw [hw.same]
  have g9 : i'.texture = i.texture := by rw [hw.same]
  have g10 : i'.drainage = i.drainage := by rw [hw.same]
  have g11 : i'.critPrecip = i.critPrecip := by rw [hw.same]
  simp only [m, m']
  unfold SoilIn.sameSide SoilIn.thirsty
  unfold soilActive
  dsimp only
  rw [g1, g2, g3, g4, g5, g6, g7, g8, g9, g10, g11]
  have ae : min i'.petToSoil ((i.maxDailyPet - i'.canopyEvap) * (s0 / i.maxSoil))
      ≤ min i.petToSoil ((i.maxDailyPet - i.canopyEvap) * (s0 / i.maxSoil)) :=
    min_le_min hw.pet (mul_le_mul_of_nonneg_right (by linarith [hw.canopyEvap]) hsat0)
  generalize min i'.petToSoil ((i.maxDailyPet - i'.canopyEvap) * (s0 / i.maxSoil)) = a' at *
  generalize min i.petToSoil ((i.maxDailyPet - i.canopyEvap) * (s0 / i.maxSoil)) = a at *
  generalize (s0 / i.maxSoil) ^ i.gamma = pw at *
  have hr : i.effPrecip * pw ≤ i'.effPrecip * pw := mul_le_mul_of_nonneg_right hw.eff hpow0
  have hs : s0 + (i.effPrecip - a - i.effPrecip * pw) ≤ s0 + (i'.effPrecip - a' - i'.effPrecip * pw) := by
    have := mul_le_mul_of_nonneg_right hw.eff (sub_nonneg.mpr hpow1)
    linarith
  have hr0 : 0 ≤ i.effPrecip * pw := mul_nonneg h.eff hpow0
  generalize s0 + (i.effPrecip - a - i.effPrecip * pw) = x at *
  generalize s0 + (i'.effPrecip - a' - i'.effPrecip * pw) = y at *
  have c0' : 0 ≤ i.cfa := c0.le
  have hr3 : i.effPrecip * pw * i.cfa ≤ i'.effPrecip * pw * i.cfa := mul_le_mul_of_nonneg_right hr c0'
  have hr30 : 0 ≤ i.effPrecip * pw * i.cfa := mul_nonneg hr0 c0'
  have him : i.immediate * i.cfa ≤ i'.immediate * i.cfa := mul_le_mul_of_nonneg_right hw.immediate c0'
  generalize i.effPrecip * pw * i.cfa = R at *
  generalize i'.effPrecip * pw * i.cfa = R' at *
  have hst : (if (if |x| ≤ i.minV then 0 else x) < 0 then 0 else if |x| ≤ i.minV then 0 else x)
      ≤ (if (if |y| ≤ i.minV then 0 else y) < 0 then 0 else if |y| ≤ i.minV then 0 else y) := by
    have : ∀ z : ℝ, (if (if |z| ≤ i.minV then 0 else z) < 0 then 0 else if |z| ≤ i.minV then 0 else z)
        = if z ≤ i.minV ∨ z ≤ 0 then 0 else z := by
      intro z
      by_cases q : |z| ≤ i.minV
      · simp only [if_pos q, lt_irrefl, if_false]
        rw [if_pos (Or.inl ((le_abs_self z).trans q))]
      · simp only [if_neg q]
        by_cases w : z < 0
        · rw [if_pos w, if_pos (Or.inr w.le)]
        · rw [if_neg w]
          rw [abs_of_nonneg (not_lt.mp w)] at q
          split_ifs with v
          · rcases v with v | v
            · exact absurd v q
            · linarith
          · rfl
    rw [this, this]
    split_ifs with u v v
    · exact le_rfl
    · push Not at v; linarith [v.2]
    · push Not at u
      rcases v with v | v <;> linarith
    · exact hs
  generalize (if (if |x| ≤ i.minV then 0 else x) < 0 then 0 else if |x| ≤ i.minV then 0 else x) = S at *
  generalize (if (if |y| ≤ i.minV then 0 else y) < 0 then 0 else if |y| ≤ i.minV then 0 else y) = S' at *
  have f0 := h.factor0
  have f1 := h.factor1
  have m0 := h.maxRecharge
  have hG : min i.maxRecharge (i.rechargeFactor * R) ≤ min i.maxRecharge (i.rechargeFactor * R') :=
    min_le_min le_rfl (mul_le_mul_of_nonneg_left hr3 f0)
  have hG0 : 0 ≤ min i.maxRecharge (i.rechargeFactor * R) := le_min m0 (mul_nonneg f0 hr30)
  have hD : R - min i.maxRecharge (i.rechargeFactor * R) ≤ R' - min i.maxRecharge (i.rechargeFactor * R') := by
    have : i.rechargeFactor * (R' - R) ≤ 1 * (R' - R) := mul_le_mul_of_nonneg_right f1 (by linarith)
    rcases le_total i.maxRecharge (i.rechargeFactor * R) with q | q
    · rw [min_eq_left q]
      have := min_le_left i.maxRecharge (i.rechargeFactor * R')
      linarith
    · rw [min_eq_right q]
      have := min_le_right i.maxRecharge (i.rechargeFactor * R')
      linarith
  generalize min i.maxRecharge (i.rechargeFactor * R) = G at *
  generalize min i.maxRecharge (i.rechargeFactor * R') = G' at *
  have hGc : G / i.cfa ≤ G' / i.cfa := div_le_div_of_nonneg_right hG c0'
  have hGc0 : 0 ≤ G / i.cfa := by positivity
  have hGm : G / i.cfa * i.cfa = G := by field_simp
  have over : ∀ u v : ℝ, u ≤ v →
      (if u > i.maxSoil then over0 + (u - i.maxSoil) else over0) * i.cfa
        ≤ (if v > i.maxSoil then over0 + (v - i.maxSoil) else over0) * i.cfa := by
    intro u v huv
    apply mul_le_mul_of_nonneg_right _ c0'
    split_ifs <;> linarith
  have cap : ∀ u v : ℝ, u ≤ v → (if u > i.maxSoil then i.maxSoil else u) ≤ if v > i.maxSoil then i.maxSoil else v := by
    intro u v huv
    split_ifs <;> linarith
  have cross : (if S + G / i.cfa > i.maxSoil then over0 + (S + G / i.cfa - i.maxSoil) else over0) * i.cfa
      ≤ (if S' + 0 / i.cfa > i.maxSoil then over0 + (S' + 0 / i.cfa - i.maxSoil) else over0) * i.cfa + G := by
    rw [zero_div, add_zero]
    have : (if S + G / i.cfa > i.maxSoil then over0 + (S + G / i.cfa - i.maxSoil) else over0)
        ≤ (if S' > i.maxSoil then over0 + (S' - i.maxSoil) else over0) + G / i.cfa := by split_ifs <;> linarith
    have := mul_le_mul_of_nonneg_right this c0'
    linarith
  by_cases d : (i.humidArid = 1 ∧ i.texture < 21 ∧ i.drainage ≥ 0) ∧ i.precip ≤ i.critPrecip
  · by_cases d' : (i.humidArid = 1 ∧ i.texture < 21 ∧ i.drainage ≥ 0) ∧ i'.precip ≤ i.critPrecip
    · simp only [if_pos d, if_pos d']
      have := over _ _ (add_le_add hst hGc)
      refine ⟨le_rfl, by linarith, him, fun _ => ⟨by linarith, cap _ _ (add_le_add hst hGc)⟩⟩
    · simp only [if_pos d, if_neg d']
      refine ⟨by linarith, by linarith, him, fun q => ?_⟩
      exfalso
      refine q ⟨d.1, d.2, ?_⟩
      by_contra w
      exact d' ⟨d.1, not_lt.mp w⟩
  · have d' : ¬ ((i.humidArid = 1 ∧ i.texture < 21 ∧ i.drainage ≥ 0) ∧ i'.precip ≤ i.critPrecip) :=
      fun q => d ⟨q.1, hw.precip.trans q.2⟩
    simp only [if_neg d, if_neg d', zero_div, add_zero, sub_zero]
    have := over _ _ hst
    refine ⟨hG, by linarith, him, fun _ => ⟨by linarith, cap _ _ hst⟩⟩

theorem soilLand_rain_mono (i i' : SoilIn) (h : i.Physical) (hw : SoilIn.Wetter i i') (soil : ℝ) (hs : 0 ≤ soil) :
    let m := soilLand i soil
    let m' := soilLand i' soil
    m.recharge ≤ m'.recharge ∧ m.total ≤ m'.total ∧
      (i.sameSide i' → m.total - m.recharge ≤ m'.total - m'.recharge ∧ m.soil ≤ m'.soil) := by
  intro m m'
  have g1 : i'.maxSoil = i.maxSoil := by rw [hw.same]
  have g2 : i'.ratio = i.ratio := by rw [hw.same]
  have g3 : i'.maxTempElev = i.maxTempElev := by rw [hw.same]
  have g4 : i'.freezeTemp = i.freezeTemp := by rw [hw.same]
  have g5 : i'.cfa = i.cfa := by rw [hw.same]
  have hr : 0 ≤ soil * i.ratio := mul_nonneg hs h.ratio
  simp only [m, m']
  unfold soilLand
  dsimp only
  rw [g1, g2, g3, g4, g5]
  by_cases hwm : i.maxTempElev > i.freezeTemp
  · rw [if_pos hwm, if_pos hwm]
    by_cases hm : i.maxSoil > 0
    · rw [if_pos hm, if_pos hm]
      have z0 : 0 ≤ (if soil * i.ratio > i.maxSoil then i.maxSoil else soil * i.ratio) := by
        split_ifs <;> [exact h.maxSoil; exact hr]
      have z1 : (if soil * i.ratio > i.maxSoil then i.maxSoil else soil * i.ratio) ≤ i.maxSoil := by
        split_ifs <;> linarith
      have := soilActive_rain_mono i i' h hw (if soil * i.ratio > i.maxSoil then i.maxSoil else soil * i.ratio)
        (if soil * i.ratio > i.maxSoil then soil * i.ratio - i.maxSoil else 0) hm z0 z1
      exact ⟨this.1, this.2.1, this.2.2.2⟩
    · rw [if_neg hm, if_neg hm]
      exact ⟨le_rfl, le_rfl, fun _ => ⟨le_rfl, le_rfl⟩⟩
  · rw [if_neg hwm, if_neg hwm]
    exact ⟨le_rfl, le_rfl, fun _ => ⟨le_rfl, le_rfl⟩⟩


/-- With a correction factor of at most 1 nothing is taken from the runoff for a negative evapotranspiration. -/
theorem soil_unreduced (i : SoilIn) (h : i.Physical) (soil : ℝ) (hs : 0 ≤ soil) (hfrac : 0 < i.frac)
    (hm : 0 < i.maxSoil) (hc : i.cfa ≤ 1)
    (hfrozen : i.maxTempElev ≤ i.freezeTemp → i.effPrecip = 0 ∧ i.immediate = 0)
    (hclose : i.precip = i.canopyEvap + i.sublimation + i.landStorageChange + i.effPrecip + i.immediate) :
    let o := soilWaterBalance i soil
    let m := soilLand i soil
    o.soil = m.soil ∧ o.recharge = m.recharge ∧ o.surfaceRunoff = m.total - m.recharge := by
  obtain ⟨a1, a2, a3, a4, a5, a6, a7, a8, a9, a10⟩ := soilLand_facts i h soil hs
  obtain ⟨e, he, hae, htot⟩ := a10 hm hfrozen
  have hcfa := h.cfa
  have hce := h.canopyEvap
  have hsu := h.subl
  simp only [soilWaterBalance, gt_iff_lt, if_pos hfrac]
  generalize soilLand i soil = m at *
  set lsc := i.landStorageChange + (m.soil - soil * i.ratio) with hlsc
  set A := m.aet + i.canopyEvap + i.sublimation with hA
  have hT0 : 0 ≤ m.total := a3.trans a7
  have hPS : i.precip - lsc = A + m.total / i.cfa + e := by
    have : m.total / i.cfa = i.effPrecip + i.immediate - m.aet - (m.soil - soil * i.ratio) - e := by
      rw [htot]; field_simp
    rw [this, hlsc, hA]
    linarith
  have hq : 0 ≤ m.total / i.cfa := by positivity
  have hA0 : 0 ≤ A := by rw [hA]; linarith
  have hneg : ¬ corrAet i.cfa lsc i.precip A < 0 := by
    intro hneg
    have hcorr : corrAet i.cfa lsc i.precip A = (i.precip - lsc) * (1 - i.cfa) + A * i.cfa := by
      unfold corrAet; ring
    rw [hcorr] at hneg
    have : 0 ≤ i.precip - lsc := by rw [hPS, hA]; linarith
    nlinarith [mul_nonneg hA0 hcfa.le, mul_nonneg this (sub_nonneg.mpr hc)]
  have ht : soilTotal m.total (corrAet i.cfa lsc i.precip A) = m.total := by
    simp [soilTotal, hneg, not_lt.mpr hT0]
  rw [ht]
  have : ¬ m.total - m.recharge < 0 := by linarith
  simp only [soilFinish, if_neg this]
  exact ⟨trivial, trivial, trivial⟩

/-! ## The land column -/

/-- The weather of the day with another precipitation. -/
def VertForcing.rain (f : VertForcing) (P : ℝ) : VertForcing := { f with precip := P }

section
variable (p : VertPar) (f : VertForcing) (s : VertState) (P : ℝ)

theorem rain_ok (hf : f.Ok p s) (hP : f.precip ≤ P) : (f.rain P).Ok p s :=
  ⟨hf.temp, hf.precip.trans hP, hf.ratio, hf.petMax⟩

/-- The leaf area of a day depends on the rain of the day only through the start of the growing season, which needs 40 mm
of rain. -/
theorem lai_rain (q : LaiPar) (l : LaiState) (t P P' : ℝ) (h : P ≤ P')
    (hl : ¬ (l.grown = false ∧ l.cumPrecip + P ≤ 40 ∧ 40 < l.cumPrecip + P')) :
    (laiStep q l t P').lai = (laiStep q l t P).lai := by
  by_cases g : l.grown = false
  · have e : l.cumPrecip + P' > 40 ↔ l.cumPrecip + P > 40 := by
      constructor
      · intro a
        by_contra b
        exact hl ⟨g, not_lt.mp b, a⟩
      · intro a; linarith
    unfold laiStep
    cases q.landCover with
    | none => rfl
    | some lc =>
      dsimp only
      rw [if_pos g, if_pos g, if_pos g, if_pos g]
      simp only [e]
      have grow : ∀ c c' d, (laiGrow q d c).lai = (laiGrow q d c').lai := by
        intro c c' d
        unfold laiGrow
        split_ifs <;> rfl
      split_ifs <;> first | rfl | exact grow _ _ _
  · unfold laiStep
    cases q.landCover with
    | none => rfl
    | some lc =>
      dsimp only
      rw [if_neg g, if_neg g, if_neg g, if_neg g]
      split_ifs <;> rfl

/-- C85 for the land of a cell: the same day, from the same storages, with more precipitation, unless that starts the growing
season. -/
theorem C85_land (hp : p.Ok) (hf : f.Ok p s) (hs : s.Ok p) (hland : 0 < f.frac) (hsoil : 0 < p.maxSoil) (hc : p.cfa ≤ 1)
    (hP : f.precip ≤ P)
    (hlai : ¬ (s.lai.grown = false ∧ s.lai.cumPrecip + f.precip ≤ 40 ∧ 40 < s.lai.cumPrecip + P)) :
    let o := vertCell p f s
    let o' := vertCell p (f.rain P) s
    o.throughfall ≤ o'.throughfall ∧ o.canopyEvap ≤ o'.canopyEvap ∧ o.melt ≤ o'.melt ∧
    o.recharge ≤ o'.recharge ∧ o.surfaceRunoff + o.recharge ≤ o'.surfaceRunoff + o'.recharge ∧
    o.next.canopy ≤ o'.next.canopy ∧ o.next.snow ≤ o'.next.snow ∧
    List.Forall₂ (· ≤ ·) o.next.bands o'.next.bands ∧
    (¬ (p.lai.humidArid = 1 ∧ p.texture < 21 ∧ p.drainage ≥ 0 ∧ f.precip ≤ p.critPrecip ∧ p.critPrecip < P) →
      o.surfaceRunoff ≤ o'.surfaceRunoff ∧ o.next.soil ≤ o'.next.soil) := by
  have hf' := rain_ok p f s P hf hP
  have hcm := canopy_rain_mono s.canopy (laiStep p.lai { s.lai with lai := 0 } f.temperature f.precip).lai
    (vertCell p f s).pet f.precip P f.frac f.ratio p.coef p.minV hs.canopy hf.ratio (column_pet_nonneg p f s hp hf) hp.coef
    hf.precip hP
  have ec : colCanopy p (f.rain P) s = canopyWaterBalance s.canopy
      (laiStep p.lai { s.lai with lai := 0 } f.temperature f.precip).lai (vertCell p f s).pet P f.frac f.ratio p.coef
      p.minV := by
    have : (laiStep p.lai { s.lai with lai := 0 } f.temperature P).lai
      = (laiStep p.lai { s.lai with lai := 0 } f.temperature f.precip).lai :=
      lai_rain p.lai { s.lai with lai := 0 } f.temperature f.precip P hP hlai
    change canopyWaterBalance s.canopy (laiStep p.lai { s.lai with lai := 0 } f.temperature P).lai _ P f.frac f.ratio
      p.coef p.minV = _
    rw [this]
    rfl
  dsimp only at hcm
  rw [← ec] at hcm
  obtain ⟨c1, c2, c3, c4⟩ := hcm
  obtain ⟨n1, n2, n3, n4, n5⟩ := snow_rain_mono (colSnowPar p f s) (colSnowPar p (f.rain P) s) (p.elevs.zip s.bands)
    (colCanopy p f s).landStorageChange (colCanopy p (f.rain P) s).landStorageChange f.frac f.ratio
    (colCanopy p f s).transfer (colCanopy p (f.rain P) s).transfer p.minV hp.degreeday rfl c1 c3
  have split : ∀ e e' : ℝ, e ≤ e' → (immediateRunoff e p.fracBuiltup p.builtup).1 ≤ (immediateRunoff e' p.fracBuiltup p.builtup).1 ∧
      (immediateRunoff e p.fracBuiltup p.builtup).2 ≤ (immediateRunoff e' p.fracBuiltup p.builtup).2 := by
    intro e e' h
    unfold immediateRunoff
    by_cases hb : p.builtup > 0
    · rw [if_pos hb, if_pos hb]
      dsimp only
      have k0 : 0 ≤ p.fracBuiltup * p.builtup := mul_nonneg hp.fracBuiltup0 hb.le
      have k1 : p.fracBuiltup * p.builtup ≤ 1 := mul_le_one₀ hp.fracBuiltup1 hb.le hp.builtup
      have := mul_le_mul_of_nonneg_right h k0
      have := mul_le_mul_of_nonneg_right h (sub_nonneg.mpr k1)
      constructor <;> linarith
    · rw [if_neg hb, if_neg hb]
      exact ⟨h, le_rfl⟩
  obtain ⟨s1, s2⟩ := split _ _ n1
  have hw : SoilIn.Wetter (colSoilIn p f s) (colSoilIn p (f.rain P) s) := by
    refine ⟨?_, c3, c2, s1, s2, hP⟩
    have : (colSnow p (f.rain P) s).maxTempElev = (colSnow p f s).maxTempElev := n5
    change _ = ({ petToSoil := _, frac := _, ratio := _, maxTempElev := (colSnow p f s).maxTempElev, canopyEvap := _, effPrecip := _, precip := _, immediate := _, landStorageChange := _, sublimation := _, transfer := _, freezeTemp := _, gamma := _, maxDailyPet := _, humidArid := _, texture := _, drainage := _, maxRecharge := _, rechargeFactor := _, critPrecip := _, maxSoil := _, cfa := _, minV := _ } : SoilIn)
    rw [← this]
    rfl
  have hso := column_soil_ok p f s hp hf hs
  have hso' := column_soil_ok p (f.rain P) s hp hf' hs
  obtain ⟨z1, z2, -⟩ := column_close p f s hp hs hland
  obtain ⟨z1', z2', -⟩ := column_close p (f.rain P) s hp hs hland
  obtain ⟨m1, m2, m3⟩ := soilLand_rain_mono _ _ hso hw s.soil hs.soil0
  obtain ⟨u1, u2, u3⟩ := soil_unreduced _ hso s.soil hs.soil0 hland hsoil hc z1 z2
  obtain ⟨u1', u2', u3'⟩ := soil_unreduced _ hso' s.soil hs.soil0 hland hsoil hc z1' z2'
  have r : (vertCell p f s).recharge = (soilLand (colSoilIn p f s) s.soil).recharge := u2
  have r' : (vertCell p (f.rain P) s).recharge = (soilLand (colSoilIn p (f.rain P) s) s.soil).recharge := u2'
  have q : (vertCell p f s).surfaceRunoff = (soilLand (colSoilIn p f s) s.soil).total
    - (soilLand (colSoilIn p f s) s.soil).recharge := u3
  have q' : (vertCell p (f.rain P) s).surfaceRunoff = (soilLand (colSoilIn p (f.rain P) s) s.soil).total
    - (soilLand (colSoilIn p (f.rain P) s) s.soil).recharge := u3'
  have w : (vertCell p f s).next.soil = (soilLand (colSoilIn p f s) s.soil).soil := u1
  have w' : (vertCell p (f.rain P) s).next.soil = (soilLand (colSoilIn p (f.rain P) s) s.soil).soil := u1'
  dsimp only
  rw [r, r', q, q', w, w']
  refine ⟨c1, c2, n2, m1, by linarith, c4, n3, n4, fun h => ?_⟩
  have side : (colSoilIn p f s).sameSide (colSoilIn p (f.rain P) s) := by
    rintro ⟨⟨t1, t2, t3⟩, t4, t5⟩
    exact h ⟨t1, t2, t3, t4, t5⟩
  exact m3 side

end


/-! ### Cases that meet the hypotheses, and findings -/

example : ¬ (sampleVertState.lai.grown = false ∧ sampleVertState.lai.cumPrecip + sampleVertForcing.precip ≤ 40 ∧
    40 < sampleVertState.lai.cumPrecip + 20) ∧ sampleVert.Ok ∧ sampleVertForcing.Ok sampleVert sampleVertState ∧
    sampleVertState.Ok sampleVert ∧ 0 < sampleVertForcing.frac ∧ 0 < sampleVert.maxSoil ∧ sampleVert.cfa ≤ 1 ∧
    sampleVertForcing.precip ≤ 20 :=
  ⟨by norm_num [sampleVertState, laiInit], sampleVert_ok, sampleVertForcing_ok, sampleVertState_ok,
    by norm_num [sampleVertForcing], by norm_num [sampleVert], by norm_num [sampleVert], by norm_num [sampleVertForcing]⟩

/-- A cell with one elevation band, no buildings and saturated soil. -/
noncomputable def wetPar (arid : ℝ) (minLai maxLai : ℝ) : VertPar :=
  { sampleVert with
    lai := { initialDays := 0, minLai := minLai, maxLai := maxLai, landCover := some 3, humidArid := arid }
    elevs := [100], builtup := 0 }

/-- Its state; no snow, no water on the leaves. -/
noncomputable def wetState (l : LaiState) : VertState := { lai := l, canopy := 0, snow := 0, bands := [0], soil := 200 }

/-- A day without radiation. -/
noncomputable def darkDay (P : ℝ) : VertForcing :=
  { temperature := 280, swDown := 0, lwDown := 0, precip := P, frac := 1, ratio := 1 }

theorem wetPar_ok (a l l' : ℝ) (h0 : 0 ≤ l) (h : l ≤ l') : (wetPar a l l').Ok :=
  { sampleVert_ok with
    lai := ⟨h, le_rfl, by simp [wetPar]⟩
    minLai := h0
    builtup := by norm_num [wetPar]
    lowest := ⟨100, [], rfl, by simp⟩ }

theorem wetState_ok (a l l' : ℝ) (q : LaiState) (hq : 0 ≤ q.days) : (wetState q).Ok (wetPar a l l') :=
  ⟨hq, le_rfl, by simp [wetState], rfl, by norm_num [wetState], by norm_num [wetState, wetPar, sampleVert]⟩

theorem darkDay_pet (a l l' P : ℝ) (q : LaiState) : (vertCell (wetPar a l l') (darkDay P) (wetState q)).pet = 0 := by
  have ht : PhysicalTemp (darkDay P).temperature := by constructor <;> norm_num [darkDay]
  refine (C09_pet_sign _ _ _ ht (by norm_num [wetPar, sampleVert])).2.1.mpr ?_
  rw [(C09_net_radiation _ _ _ _ _).1]
  norm_num [sampleVert, wetPar, darkDay, wetState]

theorem darkDay_ok (a l l' P : ℝ) (q : LaiState) (hP : 0 ≤ P) : (darkDay P).Ok (wetPar a l l') (wetState q) := by
  refine ⟨by constructor <;> norm_num [darkDay], hP, by norm_num [darkDay], ?_⟩
  rw [darkDay_pet]
  norm_num [wetPar, sampleVert]

/-- The throughfall reaches the soil, which evaporates nothing. -/
theorem darkDay_soil (a l l' P : ℝ) (q : LaiState) :
    (colSoilIn (wetPar a l l') (darkDay P) (wetState q)).effPrecip
      = (colCanopy (wetPar a l l') (darkDay P) (wetState q)).throughfall ∧
    (colSoilIn (wetPar a l l') (darkDay P) (wetState q)).maxTempElev = 280 ∧
    (colSoilIn (wetPar a l l') (darkDay P) (wetState q)).immediate = 0 := by
  unfold colSoilIn colSplit colSnow colSnowPar
  generalize colCanopy (wetPar a l l') (darkDay P) (wetState q) = c
  norm_num [snowWaterBalance, bandLoop, bandTemp, bandStep, lapseTemp, rescaleBand, flush, mean, immediateRunoff,
    darkDay, wetState, wetPar, sampleVert]

theorem darkDay_canopy (a l l' P : ℝ) (q : LaiState) :
    (colCanopy (wetPar a l l') (darkDay P) (wetState q)).throughfall
      = (if (laiStep (wetPar a l l').lai { q with lai := 0 } 280 P).lai > 0 then
          max 0 (P - 0.3 * (laiStep (wetPar a l l').lai { q with lai := 0 } 280 P).lai) else P) := by
  unfold colCanopy
  rw [darkDay_pet]
  change (canopyWaterBalance 0 (laiStep (wetPar a l l').lai { q with lai := 0 } 280 P).lai 0 P 1 1 0.3 0).throughfall = _
  generalize (laiStep (wetPar a l l').lai { q with lai := 0 } 280 P).lai = x
  unfold canopyWaterBalance
  by_cases hx : x > 0
  · norm_num [hx]
    split_ifs with z
    · rw [max_eq_left (by linarith)]
    · rw [max_eq_right (by linarith)]
  · norm_num [hx]

/-- Surface runoff and recharge of the saturated soil. -/
theorem darkDay_runoff (a l l' P : ℝ) (q : LaiState) (h0 : 0 ≤ l) (h : l ≤ l') (hP : 0 ≤ P) (hq : 0 ≤ q.days) :
    let t := (colCanopy (wetPar a l l') (darkDay P) (wetState q)).throughfall
    (vertCell (wetPar a l l') (darkDay P) (wetState q)).recharge
      = (if a = 1 ∧ P ≤ 12.5 then 0 else min 3 (0.5 * t)) ∧
    (vertCell (wetPar a l l') (darkDay P) (wetState q)).surfaceRunoff
      = t - (if a = 1 ∧ P ≤ 12.5 then 0 else min 3 (0.5 * t)) := by
  intro t
  have ok := wetPar_ok a l l' h0 h
  have sok := wetState_ok a l l' q hq
  have dok := darkDay_ok a l l' P q hP
  obtain ⟨z1, z2, -⟩ := column_close _ (darkDay P) _ ok sok (by norm_num [darkDay])
  obtain ⟨u1, u2, u3⟩ := soil_unreduced _ (column_soil_ok _ _ _ ok dok sok) (wetState q).soil (by norm_num [wetState])
    (by norm_num [darkDay]) (by norm_num [wetPar, sampleVert]) (by norm_num [wetPar, sampleVert]) z1 z2
  obtain ⟨d1, d2, d3⟩ := darkDay_soil a l l' P q
  have t0 : 0 ≤ t := (column_canopy_ok _ _ _ ok dok sok).2.1
  have e0 := (column_canopy_ok _ _ _ ok dok sok).2.2.2.2.1
  have e1 := (column_canopy_ok _ _ _ ok dok sok).2.2.1
  have e2 := (column_canopy_ok _ _ _ ok dok sok).2.2.2.2.2 (by norm_num [darkDay])
  have e3 := (column_canopy_ok _ _ _ ok dok sok).2.2.2.1
  rw [darkDay_pet] at e0 e2
  have c1 : (colCanopy (wetPar a l l') (darkDay P) (wetState q)).petToSoil = 0 := by linarith
  have key : (soilLand (colSoilIn (wetPar a l l') (darkDay P) (wetState q)) (wetState q).soil).recharge
        = (if a = 1 ∧ P ≤ 12.5 then 0 else min 3 (0.5 * t)) ∧
      (soilLand (colSoilIn (wetPar a l l') (darkDay P) (wetState q)) (wetState q).soil).total = t := by
    have f1 : (colSoilIn (wetPar a l l') (darkDay P) (wetState q)).petToSoil = 0 := c1
    have f2 : (colSoilIn (wetPar a l l') (darkDay P) (wetState q)).canopyEvap = 0 := le_antisymm e0 e1
    have f3 : (colSoilIn (wetPar a l l') (darkDay P) (wetState q)).ratio = 1 := rfl
    have f4 : (colSoilIn (wetPar a l l') (darkDay P) (wetState q)).maxSoil = 200 := rfl
    have f5 : (colSoilIn (wetPar a l l') (darkDay P) (wetState q)).freezeTemp = 273.15 := rfl
    have f6 : (colSoilIn (wetPar a l l') (darkDay P) (wetState q)).gamma = 2 := rfl
    have f7 : (colSoilIn (wetPar a l l') (darkDay P) (wetState q)).maxDailyPet = 15 := rfl
    have f8 : (colSoilIn (wetPar a l l') (darkDay P) (wetState q)).minV = 0 := rfl
    have f9 : (colSoilIn (wetPar a l l') (darkDay P) (wetState q)).cfa = 1 := rfl
    have f10 : (colSoilIn (wetPar a l l') (darkDay P) (wetState q)).maxRecharge = 3 := rfl
    have f11 : (colSoilIn (wetPar a l l') (darkDay P) (wetState q)).rechargeFactor = 0.5 := rfl
    have f12 : (colSoilIn (wetPar a l l') (darkDay P) (wetState q)).humidArid = a := rfl
    have f13 : (colSoilIn (wetPar a l l') (darkDay P) (wetState q)).texture = 20 := rfl
    have f14 : (colSoilIn (wetPar a l l') (darkDay P) (wetState q)).drainage = 1 := rfl
    have f15 : (colSoilIn (wetPar a l l') (darkDay P) (wetState q)).precip = P := rfl
    have f16 : (colSoilIn (wetPar a l l') (darkDay P) (wetState q)).critPrecip = 12.5 := rfl
    have f17 : (wetState q).soil = 200 := rfl
    have f18 : (colSoilIn (wetPar a l l') (darkDay P) (wetState q)).effPrecip = t := d1
    generalize colSoilIn (wetPar a l l') (darkDay P) (wetState q) = i at *
    clear_value t
    rw [f17]
    unfold soilLand soilActive
    have m0 : (0 : ℝ) ≤ min 3 (1 / 2 * t) := le_min (by norm_num) (by positivity)
    have h1 : (20 : ℝ) < 21 := by norm_num
    have h2 : (1 : ℝ) ≥ 0 := by norm_num
    simp only [f1, f2, f3, f4, f5, f6, f7, f8, f9, f10, f11, f12, f13, f14, f15, f16, f18, d2, d3, h1, h2, and_true]
    norm_num
    by_cases g : a = 1 ∧ P ≤ 25 / 2
    · simp only [if_pos g]
      split_ifs <;> linarith
    · simp only [if_neg g]
      norm_num
  rw [key.1] at u2
  rw [key.1, key.2] at u3
  exact ⟨u2, u3⟩

/-- C85 violated for the surface runoff (and the soil) of arid cells: below 12.5 mm of rain the potential recharge is
returned to the soil (`soil.py:294-335`), and a wet soil sheds it as surface runoff; with 12.6 mm it recharges the
groundwater: surface runoff falls from 12.5 to 9.6 mm. -/
theorem C85_violated_critical_precipitation :
    let p := wetPar 1 0 0
    let s := wetState laiInit
    p.Ok ∧ s.Ok p ∧ (darkDay 12.5).Ok p s ∧ (darkDay 12.6).Ok p s ∧
    (vertCell p (darkDay 12.5) s).surfaceRunoff = 12.5 ∧ (vertCell p (darkDay 12.6) s).surfaceRunoff = 9.6 := by
  intro p s
  have ok := wetPar_ok 1 0 0 le_rfl le_rfl
  have sok := wetState_ok 1 0 0 laiInit le_rfl
  refine ⟨ok, sok, darkDay_ok _ _ _ _ _ (by norm_num), darkDay_ok _ _ _ _ _ (by norm_num), ?_, ?_⟩
  · rw [(darkDay_runoff 1 0 0 12.5 laiInit le_rfl le_rfl (by norm_num) le_rfl).2, darkDay_canopy]
    norm_num [laiStep, laiGrow, wetPar, laiInit]
  · rw [(darkDay_runoff 1 0 0 12.6 laiInit le_rfl le_rfl (by norm_num) le_rfl).2, darkDay_canopy]
    norm_num [laiStep, laiGrow, wetPar, laiInit]

/-- Rain on 1 day after 39.5 mm, with the leaves still at their minimum. -/
noncomputable def beforeSeason : LaiState := { lai := 1, days := 1, cumPrecip := 39.5, grown := false }

/-- C85 violated when the growing season starts: with 0.5 mm of rain 40 mm have fallen and the leaves stay at their minimum;
with 0.51 mm the leaves grow on the same day (`lai.py:198-217`) and hold more rain: total runoff falls from 0.2 mm to
0.11 mm. -/
theorem C85_violated_growing_season :
    let p := wetPar 0 1 6
    let s := wetState beforeSeason
    p.Ok ∧ s.Ok p ∧ (darkDay 0.5).Ok p s ∧ (darkDay 0.51).Ok p s ∧
    (vertCell p (darkDay 0.5) s).surfaceRunoff + (vertCell p (darkDay 0.5) s).recharge = 0.2 ∧
    (vertCell p (darkDay 0.51) s).surfaceRunoff + (vertCell p (darkDay 0.51) s).recharge = 0.11 := by
  intro p s
  have ok := wetPar_ok 0 1 6 (by norm_num) (by norm_num)
  have sok := wetState_ok 0 1 6 beforeSeason (by norm_num [beforeSeason])
  refine ⟨ok, sok, darkDay_ok _ _ _ _ _ (by norm_num), darkDay_ok _ _ _ _ _ (by norm_num), ?_, ?_⟩
  · obtain ⟨r1, r2⟩ := darkDay_runoff 0 1 6 0.5 beforeSeason (by norm_num) (by norm_num) (by norm_num)
      (by norm_num [beforeSeason])
    rw [r1, r2, darkDay_canopy]
    norm_num [laiStep, laiGrow, wetPar, beforeSeason]
  · obtain ⟨r1, r2⟩ := darkDay_runoff 0 1 6 0.51 beforeSeason (by norm_num) (by norm_num) (by norm_num)
      (by norm_num [beforeSeason])
    rw [r1, r2, darkDay_canopy]
    norm_num [laiStep, laiGrow, wetPar, beforeSeason]


/-- A mountain with leaves, a warm valley full of melting snow and a frozen summit, at a station whose correction factor is
1.5. -/
noncomputable def thawPar : VertPar :=
  { mountainVert with
    lai := { initialDays := 0, minLai := 1, maxLai := 1, landCover := some 3, humidArid := 0 }
    degreeday := 30, cfa := 1.5 }

noncomputable def thawState : VertState := { mountainState with bands := [200, 100] }

theorem thaw_pet (P : ℝ) :
    (vertCell thawPar (mountainForcing.rain P) thawState).pet = (vertCell mountainVert mountainForcing mountainState).pet := rfl

theorem thaw_total (P e : ℝ) (pet : ℝ) (hpet : (vertCell thawPar (mountainForcing.rain P) thawState).pet = pet)
    (h15 : pet ≤ 15) (he : 0 ≤ e) (hep : e ≤ pet)
    (hC : colCanopy thawPar (mountainForcing.rain P) thawState =
      { storage := P - e, throughfall := 0, evap := e, petToSoil := pet - e, landStorageChange := P - e, transfer := 0 }) :
    (vertCell thawPar (mountainForcing.rain P) thawState).surfaceRunoff
      + (vertCell thawPar (mountainForcing.rain P) thawState).recharge = 100 + 1.5 * pet - 0.5 * e := by
  have hS : (colSnow thawPar (mountainForcing.rain P) thawState).effPrecip = 100 ∧
      (colSnow thawPar (mountainForcing.rain P) thawState).maxTempElev = 280 ∧
      (colSnow thawPar (mountainForcing.rain P) thawState).sublimation = (pet - e) / 2 ∧
      (colSnow thawPar (mountainForcing.rain P) thawState).landStorageChange = P - e - 100 - (pet - e) / 2 := by
    unfold colSnow colSnowPar
    simp only [hC]
    have h1 : pet < 100 + e := by linarith
    have h2 : ¬ (200 : ℝ) < 0 := by norm_num
    norm_num [snowWaterBalance, bandLoop, bandTemp, bandStep, lapseTemp, rescaleBand, flush, mean,
      mountainForcing, sampleVertForcing, VertForcing.rain, thawState, mountainState, thawPar, mountainVert, sampleVert, h1]
    rw [if_pos (by linarith)]
    exact ⟨fun h => by linarith, by ring⟩
  have key : (soilWaterBalance (colSoilIn thawPar (mountainForcing.rain P) thawState) thawState.soil).surfaceRunoff
      + (soilWaterBalance (colSoilIn thawPar (mountainForcing.rain P) thawState) thawState.soil).recharge
      = 100 + 1.5 * pet - 0.5 * e := by
    obtain ⟨s1, s2, s3, s4⟩ := hS
    unfold colSoilIn colSplit
    simp only [hC, s1, s2, s3, s4]
    norm_num [soilWaterBalance, soilLand, soilActive, immediateRunoff, soilTotal, corrAet, soilFinish,
      mountainForcing, sampleVertForcing, VertForcing.rain, thawState, mountainState, thawPar, mountainVert, sampleVert]
    have m : min (pet - e) (15 - e) = pet - e := min_eq_left (by linarith)
    simp only [m]
    obtain ⟨d, hd⟩ : ∃ d, d = pet - e := ⟨_, rfl⟩
    rw [← hd]
    have d0 : 0 ≤ d := by linarith
    have d1 : d ≤ 15 := by linarith
    have n1 : ¬ 200 + -d = 0 := by intro h; linarith
    have n2 : ¬ 200 + -d < 0 := by linarith
    have n3 : ¬ 200 < 200 + -d := by linarith
    simp only [n1, n2, n3, if_false]
    have c : (P - e - 100 - d / 2 + (200 + -d - 200)) * (1 / 2) - P * (1 / 2) + (d + e + d / 2) * (3 / 2)
        = -50 + e + 3 / 2 * d := by ring
    rw [c]
    have n4 : -50 + e + 3 / 2 * d < 0 := by linarith
    have n5 : ¬ 150 + 0 + (-50 + e + 3 / 2 * d) < 0 := by linarith
    simp only [n4, n5, if_true, if_false]
    rw [hd]
    ring
  exact key


/-- C85 violated at stations whose correction factor exceeds 1: what evaporates from the leaves is missing twice in the
evaporation below them (as sublimation and in the soil, see C55), total evapotranspiration falls, and with it the part of the
runoff that the correction leaves (`soil.py:380-412`): with 0.3 mm of rain there is less runoff than without rain. -/
theorem C85_violated_correction_above_one :
    thawPar.Ok ∧ thawState.Ok thawPar ∧ mountainForcing.Ok thawPar thawState ∧
    let o := vertCell thawPar (mountainForcing.rain 0) thawState
    let o' := vertCell thawPar (mountainForcing.rain 0.3) thawState
    o'.surfaceRunoff + o'.recharge < o.surfaceRunoff + o.recharge := by
  obtain ⟨ok, sok, fok, pos, -⟩ := C55_violated_evaporation_exceeds_potential
  obtain ⟨pet, hp⟩ : ∃ pet, pet = (vertCell mountainVert mountainForcing mountainState).pet := ⟨_, rfl⟩
  have h15 : pet ≤ 15 := by rw [hp]; exact fok.petMax
  rw [← hp] at pos
  refine ⟨?_, ?_, ?_, ?_⟩
  · exact { ok with
      lai := ⟨by norm_num [thawPar], by norm_num [thawPar], by simp [thawPar]⟩
      minLai := by norm_num [thawPar]
      degreeday := by norm_num [thawPar]
      cfa := by norm_num [thawPar] }
  · exact { sok with
      bands := by intro x hx; simp [thawState] at hx; rcases hx with rfl | rfl <;> norm_num }
  · exact { fok with petMax := fok.petMax }
  · have lai1 : ∀ P, (laiStep thawPar.lai { thawState.lai with lai := 0 } mountainForcing.temperature P).lai = 1 := by
      intro P
      norm_num [laiStep, laiGrow, thawPar, thawState, mountainState, laiInit, mountainForcing, sampleVertForcing]
    have c : ∀ P, colCanopy thawPar (mountainForcing.rain P) thawState = canopyWaterBalance 0 1 pet P 0.8 1 0.3 0 := by
      intro P
      have e : colCanopy thawPar (mountainForcing.rain P) thawState
          = canopyWaterBalance 0 (laiStep thawPar.lai { thawState.lai with lai := 0 } mountainForcing.temperature P).lai pet P
            0.8 1 0.3 0 := by rw [hp]; rfl
      rw [e, lai1]
    have t0 := thaw_total 0 0 pet (by rw [hp]; rfl) h15 le_rfl pos.le (by
      rw [c]
      have : ¬ pet < 0 := not_lt.mpr pos.le
      norm_num [canopyWaterBalance, this])
    have t1 := thaw_total 0.3 (min pet 0.3) pet (by rw [hp]; rfl) h15 (le_min pos.le (by norm_num)) (min_le_left _ _) (by
      rw [c]
      by_cases q : pet > 0.3
      · rw [min_eq_right q.le]
        have q' : (3 / 10 : ℝ) < pet := by norm_num at q; exact q
        have q'' : ¬ pet < 3 / 10 := not_lt.mpr q'.le
        norm_num [canopyWaterBalance, q', q'']
      · rw [min_eq_left (not_lt.mp q)]
        have q' : ¬ (3 / 10 : ℝ) < pet := by norm_num at q; linarith
        norm_num [canopyWaterBalance, q'])
    have : (0 : ℝ) < min pet 0.3 := lt_min pos (by norm_num)
    dsimp only
    rw [t0, t1]
    linarith

end WG
