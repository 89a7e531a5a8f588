import Verif.Model.Canopy

/-! Properties C01 and C02: the canopy water balance. -/

namespace WG

/-- C01: on a cell with land, yesterday's storage (rescaled to today's land area, numerical residue flushed)
plus precipitation equals today's storage plus throughfall plus canopy evaporation.  No sign condition is
needed. -/
theorem C01_canopy_balance (storage lai pet precip frac ratio coef minV : ℝ) (hfrac : 0 < frac) :
    let o := canopyWaterBalance storage lai pet precip frac ratio coef minV
    flush minV (storage * ratio) + precip = o.storage + o.throughfall + o.evap ∧
    o.landStorageChange = o.storage - flush minV (storage * ratio) ∧ o.transfer = 0 := by
  simp only [canopyWaterBalance, flush, if_pos hfrac]
  split_ifs <;> simp <;> ring

example : flush 1e-15 (2 * 1) + 5 =
    (canopyWaterBalance 2 3 1 5 0.5 1 0.3 1e-15).storage
      + (canopyWaterBalance 2 3 1 5 0.5 1 0.3 1e-15).throughfall
      + (canopyWaterBalance 2 3 1 5 0.5 1 0.3 1e-15).evap :=
  (C01_canopy_balance 2 3 1 5 0.5 1 0.3 1e-15 (by norm_num)).1

/-- C01: without land everything that was stored is handed over, nothing else happens. -/
theorem C01_canopy_no_land (storage lai pet precip frac ratio coef minV : ℝ) (hfrac : frac ≤ 0) :
    let o := canopyWaterBalance storage lai pet precip frac ratio coef minV
    o.transfer = storage ∧ o.storage = 0 ∧ o.evap = 0 ∧ o.throughfall = 0 ∧ o.petToSoil = 0 := by
  simp [canopyWaterBalance, not_lt.mpr hfrac]

example : (canopyWaterBalance 2 3 1 5 0 1 0.3 1e-15).transfer = 2 :=
  (C01_canopy_no_land 2 3 1 5 0 1 0.3 1e-15 le_rfl).1

/-- C01 (specification of the partition, Eqs. 3-5 of Müller Schmied et al. 2021): with leaves, the water
intercepted is `min (stored + precipitation) (coef * LAI)`, throughfall is the rest, and evaporation is
`PET * (intercepted / max)^(2/3)` limited by the intercepted water. -/
theorem C01_canopy_partition (storage lai pet precip frac ratio coef minV : ℝ) (hfrac : 0 < frac)
    (hlai : 0 < lai) (hcoef : 0 < coef) :
    let o := canopyWaterBalance storage lai pet precip frac ratio coef minV
    let s := flush minV (storage * ratio)
    let m := coef * lai
    let i := min (s + precip) m
    o.throughfall = max 0 (s + precip - m) ∧
    o.evap = min i (pet * (i / m) ^ ((2 : ℝ) / 3)) ∧
    o.storage = i - o.evap ∧
    o.petToSoil = max 0 (pet - o.evap) := by
  have hm : 0 < coef * lai := mul_pos hcoef hlai
  simp only [canopyWaterBalance, if_pos hfrac, if_pos hlai, gt_iff_lt, if_pos hm]
  rw [← flush]
  set s := flush minV (storage * ratio)
  have key : ∀ i e : ℝ, (if i < e then i else e) = min i e ∧
      (if i < e then 0 else i - e) = i - (if i < e then i else e) ∧
      (if (if i < e then pet - i else pet - e) < 0 then 0 else (if i < e then pet - i else pet - e))
        = max 0 (pet - (if i < e then i else e)) := by
    intro i e
    by_cases h : i < e
    · simp only [if_pos h, min_eq_left h.le, sub_self, true_and, max_def]
      split_ifs <;> linarith
    · simp only [if_neg h, min_eq_right (not_lt.mp h), true_and, max_def]
      split_ifs <;> linarith
  by_cases h : precip < coef * lai - s
  · have h1 : s + precip ≤ coef * lai := by linarith
    simp only [if_pos h, min_eq_left h1]
    exact ⟨(max_eq_left (by linarith)).symm, key _ _⟩
  · have h1 : coef * lai ≤ s + precip := by linarith
    simp only [if_neg h, min_eq_right h1]
    exact ⟨by rw [max_eq_right (by linarith)]; ring, key _ _⟩

example : (canopyWaterBalance 0 1 1 5 0.5 1 2 0).throughfall = 3 := by
  rw [(C01_canopy_partition 0 1 1 5 0.5 1 2 0 (by norm_num) (by norm_num) (by norm_num)).1]
  norm_num [flush]

/-- C02: for physical inputs all canopy quantities stay in their physical range. -/
theorem C02_canopy_bounds (storage lai pet precip frac ratio coef minV : ℝ)
    (hs : 0 ≤ storage) (hpet : 0 ≤ pet) (hp : 0 ≤ precip) (hr : 0 ≤ ratio) (hcoef : 0 ≤ coef) :
    let o := canopyWaterBalance storage lai pet precip frac ratio coef minV
    0 ≤ o.storage ∧ 0 ≤ o.throughfall ∧ 0 ≤ o.evap ∧ 0 ≤ o.petToSoil ∧
    o.evap ≤ pet ∧ (0 < frac → o.evap + o.petToSoil = pet) ∧
    (0 < frac → 0 < lai → o.storage + o.evap ≤ coef * lai) ∧
    (0 < frac → lai ≤ 0 → o.storage = flush minV (storage * ratio)) := by
  have hf : 0 ≤ flush minV (storage * ratio) := by
    unfold flush; split_ifs <;> positivity
  by_cases hfrac : 0 < frac
  · by_cases hlai : 0 < lai
    · have hm : 0 ≤ coef * lai := by positivity
      simp only [canopyWaterBalance, if_pos hfrac, if_pos hlai, gt_iff_lt]
      rw [← flush]
      set s := flush minV (storage * ratio)
      set m := coef * lai
      -- the intercepted water
      have hi0 : 0 ≤ (if precip < m - s then s + precip else m) := by split_ifs <;> linarith
      have him : (if precip < m - s then s + precip else m) ≤ m := by split_ifs <;> linarith
      have ht : 0 ≤ (if precip < m - s then 0 else precip - (m - s)) := by split_ifs <;> linarith
      set i := (if precip < m - s then s + precip else m)
      have he0 : 0 ≤ (if 0 < m then pet * (i / m) ^ ((2 : ℝ) / 3) else 0) := by
        split_ifs <;> positivity
      have hep : (if 0 < m then pet * (i / m) ^ ((2 : ℝ) / 3) else 0) ≤ pet := by
        split_ifs with h
        · have : (i / m) ^ ((2 : ℝ) / 3) ≤ 1 :=
            Real.rpow_le_one (by positivity) ((div_le_one h).mpr him) (by norm_num)
          nlinarith
        · exact hpet
      set e := (if 0 < m then pet * (i / m) ^ ((2 : ℝ) / 3) else 0)
      by_cases hei : i < e
      · have : ¬ pet - i < 0 := by linarith
        simp only [if_pos hei, if_neg this]
        exact ⟨le_rfl, ht, hi0, by linarith, by linarith, fun _ => by ring,
          fun _ _ => by linarith, fun _ h => absurd hlai (not_lt.mpr h)⟩
      · have : ¬ pet - e < 0 := by linarith
        simp only [if_neg hei, if_neg this]
        exact ⟨by linarith, ht, he0, by linarith, by linarith, fun _ => by ring,
          fun _ _ => by linarith, fun _ h => absurd hlai (not_lt.mpr h)⟩
    · simp only [canopyWaterBalance, if_pos hfrac, if_neg hlai, gt_iff_lt, not_lt.mpr hpet, if_false]
      rw [← flush]
      exact ⟨hf, hp, le_rfl, hpet, hpet, fun _ => by ring, fun _ h => absurd h hlai, fun _ _ => rfl⟩
  · simp only [canopyWaterBalance, gt_iff_lt, if_neg hfrac]
    refine ⟨le_rfl, le_rfl, le_rfl, le_rfl, hpet, fun h => absurd h hfrac, fun h => absurd h hfrac,
      fun h => absurd h hfrac⟩

example : 0 ≤ (canopyWaterBalance 2 3 1 5 0.5 1 0.3 1e-15).storage :=
  (C02_canopy_bounds 2 3 1 5 0.5 1 0.3 1e-15 (by norm_num) (by norm_num) (by norm_num) (by norm_num)
    (by norm_num)).1

/-- A day with physical weather and leaves on the trees. -/
def CanopyDay.Physical (d : CanopyDay) : Prop :=
  0 < d.lai ∧ 0 ≤ d.pet ∧ 0 ≤ d.precip ∧ 0 ≤ d.ratio

/-- C02, all histories: whatever the weather, after any non-empty sequence of days the canopy holds between
nothing and the capacity belonging to the last day's leaf area. -/
theorem C02_canopy_history (coef minV s : ℝ) (hs : 0 ≤ s) (hcoef : 0 ≤ coef)
    (ds : List CanopyDay) (d : CanopyDay) (h : ∀ x ∈ ds ++ [d], x.Physical) :
    0 ≤ canopyRun coef minV s (ds ++ [d]) ∧
      canopyRun coef minV s (ds ++ [d]) ≤ coef * d.lai := by
  induction ds generalizing s with
  | nil =>
    obtain ⟨h1, h2, h3, h4⟩ := h d (by simp)
    have hb := C02_canopy_bounds s d.lai d.pet d.precip d.frac d.ratio coef minV hs h2 h3 h4 hcoef
    simp only [List.nil_append, canopyRun]
    refine ⟨hb.1, ?_⟩
    by_cases hfrac : 0 < d.frac
    · have := hb.2.2.2.2.2.2.1 hfrac h1
      have := hb.2.2.1
      linarith
    · have := (C01_canopy_no_land s d.lai d.pet d.precip d.frac d.ratio coef minV
        (not_lt.mp hfrac)).2.1
      rw [this]
      exact mul_nonneg hcoef h1.le
  | cons e es ih =>
    obtain ⟨h1, h2, h3, h4⟩ := h e (by simp)
    have hb := C02_canopy_bounds s e.lai e.pet e.precip e.frac e.ratio coef minV hs h2 h3 h4 hcoef
    exact ih _ hb.1 (fun x hx => h x (by simp at hx ⊢; tauto))

example : ∀ x ∈ [CanopyDay.mk 1 2 3 0.5 1] ++ [CanopyDay.mk 2 0 30 0.5 1], x.Physical := by
  intro x hx
  simp at hx
  rcases hx with rfl | rfl <;> norm_num [CanopyDay.Physical]

end WG
