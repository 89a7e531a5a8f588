import Verif.Model.Radiation
import Mathlib.Analysis.SpecialFunctions.ExpDeriv
import Mathlib.Analysis.Calculus.Deriv.Inv

/-! Property C09: radiation and potential evapotranspiration. -/

namespace WG

/-- Air temperatures (kelvin) for which the formulas are meant: above −237.3 °C and below the temperature
(about 1059 °C) at which the linear latent-heat formula reaches zero. -/
def PhysicalTemp (t : ℝ) : Prop := 35.85 < t ∧ t < 1332

theorem latentHeat_pos (t : ℝ) (h : PhysicalTemp t) : 0 < latentHeat t := by
  unfold latentHeat
  simp only
  split_ifs
  · have := h.2; norm_num; linarith
  · norm_num

theorem slopeOfSat_pos (t : ℝ) (h : PhysicalTemp t) : 0 < slopeOfSat t := by
  unfold slopeOfSat
  have h1 : 0 < t - 273.15 + 237.3 := by have := h.1; norm_num; linarith
  simp only
  positivity

theorem psyConst_pos (t : ℝ) (h : PhysicalTemp t) : 0 < psyConst t := by
  have := latentHeat_pos t h
  unfold psyConst
  positivity

/-- C09: potential evapotranspiration is zero exactly when the net radiation is not positive, never negative,
and never more than `alpha` times the water equivalent of the net radiation. -/
theorem C09_pet_sign (t alpha net : ℝ) (ht : PhysicalTemp t) (ha : 0 < alpha) :
    0 ≤ ptOne t alpha net ∧ (ptOne t alpha net = 0 ↔ net ≤ 0) ∧
    (0 < net → ptOne t alpha net < alpha * (net * 0.0864 / latentHeat t)) := by
  have hl := latentHeat_pos t ht
  have hs := slopeOfSat_pos t ht
  have hp := psyConst_pos t ht
  unfold ptOne
  simp only
  by_cases hn : net ≤ 0
  · have : net * 0.0864 / latentHeat t ≤ 0 := div_nonpos_of_nonpos_of_nonneg (by linarith) hl.le
    rw [if_pos this]
    exact ⟨le_rfl, by simp [hn], fun h => absurd h (not_lt.mpr hn)⟩
  · have hn' := not_le.mp hn
    have h1 : 0 < net * 0.0864 / latentHeat t := by positivity
    rw [if_neg (not_le.mpr h1)]
    generalize net * 0.0864 / latentHeat t = r at *
    have h2 : 0 < alpha * ((slopeOfSat t * r) / (slopeOfSat t + psyConst t)) := by positivity
    refine ⟨h2.le, ⟨fun h => absurd h h2.ne', fun h => absurd h hn⟩, fun _ => ?_⟩
    apply mul_lt_mul_of_pos_left _ ha
    rw [div_lt_iff₀ (by positivity)]
    nlinarith

example : PhysicalTemp 288 := by constructor <;> norm_num

/-- Saturation vapour pressure (kPa) at `t` °C (Tetens formula; specification only). -/
noncomputable def satPressure (t : ℝ) : ℝ := 0.6108 * Real.exp (17.27 * t / (t + 237.3))

/-- C09: the slope used by the code is the derivative of the saturation vapour pressure curve, to five parts in
a hundred thousand (the code rounds 17.27 · 237.3 = 4098.171 to 4098). -/
theorem C09_slope_is_derivative (t : ℝ) (h : PhysicalTemp t) :
    ∃ d, HasDerivAt satPressure d (t - 273.15) ∧ 0 < d ∧ |slopeOfSat t - d| ≤ 5e-5 * d := by
  have h1 : 0 < t - 273.15 + 237.3 := by have := h.1; norm_num; linarith
  have hd : HasDerivAt satPressure (0.6108 * (Real.exp (17.27 * (t - 273.15) / (t - 273.15 + 237.3)) *
      ((17.27 * (t - 273.15 + 237.3) - 17.27 * (t - 273.15) * 1) / (t - 273.15 + 237.3) ^ 2)))
      (t - 273.15) := by
    unfold satPressure
    apply HasDerivAt.const_mul
    apply HasDerivAt.exp
    apply HasDerivAt.div
    · simpa using (hasDerivAt_id (t - 273.15)).const_mul (17.27 : ℝ)
    · simpa using (hasDerivAt_id (t - 273.15)).add_const (237.3 : ℝ)
    · exact h1.ne'
  refine ⟨_, hd, ?_, ?_⟩
  · have : 17.27 * (t - 273.15 + 237.3) - 17.27 * (t - 273.15) * 1 = (17.27 * 237.3 : ℝ) := by ring
    rw [this]
    positivity
  · have e : 17.27 * (t - 273.15 + 237.3) - 17.27 * (t - 273.15) * 1 = (17.27 * 237.3 : ℝ) := by ring
    rw [e]
    unfold slopeOfSat
    simp only
    have hpos : 0 < 0.6108 * Real.exp (17.27 * (t - 273.15) / (t - 273.15 + 237.3)) /
        (t - 273.15 + 237.3) ^ 2 := by positivity
    have e1 : 4098 * (0.6108 * Real.exp (17.27 * (t - 273.15) / (t - 273.15 + 237.3))) /
          (t - 273.15 + 237.3) ^ 2 = 4098 * (0.6108 * Real.exp (17.27 * (t - 273.15) /
            (t - 273.15 + 237.3)) / (t - 273.15 + 237.3) ^ 2) := by ring
    have e2 : 0.6108 * (Real.exp (17.27 * (t - 273.15) / (t - 273.15 + 237.3)) *
        (17.27 * 237.3 / (t - 273.15 + 237.3) ^ 2)) = 17.27 * 237.3 * (0.6108 * Real.exp (17.27 *
          (t - 273.15) / (t - 273.15 + 237.3)) / (t - 273.15 + 237.3) ^ 2) := by ring
    rw [e1, e2]
    generalize 0.6108 * Real.exp (17.27 * (t - 273.15) / (t - 273.15 + 237.3)) /
      (t - 273.15 + 237.3) ^ 2 = x at hpos
    rw [abs_le]
    constructor <;> nlinarith

/-- C09: the Priestley-Taylor equation (Müller Schmied et al. 2016, Eq. 3-4), in mm per day: with latent heat
`l`, psychrometric constant `g = 0.0016286 · 101.3 / l` and slope `s`, the evapotranspiration is
`α · (s / (s + g)) · (0.0864 · net / l)` when the net radiation is positive.  Land evapotranspiration uses the
net radiation of the land, open-water evapotranspiration that of open water. -/
theorem C09_priestley_taylor (p : RadPar) (t alpha sw lw snow : ℝ) (ht : PhysicalTemp t) :
    let l : ℝ := if t ≤ 273.15 then 2.835 else 2.501 - 0.002361 * (t - 273.15)
    let g : ℝ := 0.0016286 * 101.3 / l
    let s : ℝ := 4098 * satPressure (t - 273.15) / (t - 273.15 + 237.3) ^ 2
    let a := if p.snowAlbedoThresh < snow then p.snowAlbedo else p.albedo
    let land := (1 - a) * sw + lw - p.emissivity * 5.67e-8 * t ^ 4
    let water := (1 - p.openwaterAlbedo) * sw + lw - p.emissivity * 5.67e-8 * t ^ 4
    let n := netRadiation p t sw lw snow
    let pet := priestleyTaylor t alpha n.1 n.2
    pet.1 = alpha * (s / (s + g)) * (0.0864 * max land 0 / l) ∧
    pet.2 = alpha * (s / (s + g)) * (0.0864 * max water 0 / l) := by
  intro l g s a land water n pet
  have hl := latentHeat_pos t ht
  have el : latentHeat t = l := by
    simp only [latentHeat, l]
    by_cases h : t ≤ 273.15
    · rw [if_pos h, if_neg (by linarith)]
    · rw [if_neg h, if_pos (by linarith [not_le.mp h])]
  have eg : psyConst t = g := by simp only [psyConst, g, el]
  have es : slopeOfSat t = s := by simp only [slopeOfSat, s, satPressure]
  have one : ∀ net, ptOne t alpha net = alpha * (s / (s + g)) * (0.0864 * max net 0 / l) := by
    intro net
    simp only [ptOne, el, eg, es]
    rw [el] at hl
    by_cases h : net ≤ 0
    · rw [if_pos (div_nonpos_of_nonpos_of_nonneg (by linarith) hl.le), max_eq_right h]
      simp
    · have h' := not_le.mp h
      have : 0 < net * 0.0864 / l := by positivity
      rw [if_neg (not_le.mpr this), max_eq_left h'.le]
      ring
  have e1 : n.1 = land := by simp only [n, land, a, netRadiation, gt_iff_lt]; ring
  have e2 : n.2 = water := by simp only [n, water, netRadiation]; ring
  exact ⟨by simp only [pet, priestleyTaylor, one, e1], by simp only [pet, priestleyTaylor, one, e2]⟩

/-- C09: more net radiation never means less evapotranspiration, and strictly more as long as it is positive. -/
theorem C09_pet_monotone (t alpha n1 n2 : ℝ) (ht : PhysicalTemp t) (ha : 0 < alpha) (h : n1 ≤ n2) :
    ptOne t alpha n1 ≤ ptOne t alpha n2 ∧ (0 < n2 → n1 < n2 → ptOne t alpha n1 < ptOne t alpha n2) := by
  have hl := latentHeat_pos t ht
  have hs := slopeOfSat_pos t ht
  have hp := psyConst_pos t ht
  have pos : ∀ n, 0 < n → ptOne t alpha n =
      alpha * (slopeOfSat t / (slopeOfSat t + psyConst t)) * 0.0864 / latentHeat t * n := by
    intro n hn
    have h1 : 0 < n * 0.0864 / latentHeat t := by positivity
    unfold ptOne
    simp only
    rw [if_neg (not_le.mpr h1)]
    ring
  have hc : 0 < alpha * (slopeOfSat t / (slopeOfSat t + psyConst t)) * 0.0864 / latentHeat t := by positivity
  have strict : 0 < n2 → n1 < n2 → ptOne t alpha n1 < ptOne t alpha n2 := by
    intro h2 h12
    by_cases h1 : 0 < n1
    · rw [pos n1 h1, pos n2 h2]; exact mul_lt_mul_of_pos_left h12 hc
    · rw [((C09_pet_sign t alpha n1 ht ha).2.1).mpr (not_lt.mp h1), pos n2 h2]; positivity
  refine ⟨?_, strict⟩
  rcases h.eq_or_lt with rfl | hlt
  · exact le_rfl
  · by_cases h2 : 0 < n2
    · exact (strict h2 hlt).le
    · rw [((C09_pet_sign t alpha n1 ht ha).2.1).mpr (by linarith),
        ((C09_pet_sign t alpha n2 ht ha).2.1).mpr (by linarith)]

/-- C09: net radiation is Eq. 5 of Müller Schmied et al. 2016: absorbed short-wave plus the long-wave balance of
a grey body with the Stefan-Boltzmann constant; land and open water differ in the albedo only. -/
theorem C09_net_radiation (p : RadPar) (t sw lw snow : ℝ) :
    let a := if p.snowAlbedoThresh < snow then p.snowAlbedo else p.albedo
    (netRadiation p t sw lw snow).1 = (1 - a) * sw + lw - p.emissivity * 5.67e-8 * t ^ 4 ∧
    (netRadiation p t sw lw snow).2 = (1 - p.openwaterAlbedo) * sw + lw - p.emissivity * 5.67e-8 * t ^ 4 := by
  unfold netRadiation
  simp only [gt_iff_lt]
  constructor <;> ring

/-- C09: with a snow albedo not smaller than the snow-free one (which is the case in the shipped table, see
`C08_shipped_table`) more snow never raises net radiation nor evapotranspiration. -/
theorem C09_snow_cools (p : RadPar) (t alpha sw lw s1 s2 : ℝ) (ht : PhysicalTemp t) (ha : 0 < alpha)
    (halb : p.albedo ≤ p.snowAlbedo) (hsw : 0 ≤ sw) (h : s1 ≤ s2) :
    (netRadiation p t sw lw s2).1 ≤ (netRadiation p t sw lw s1).1 ∧
    (priestleyTaylor t alpha (netRadiation p t sw lw s2).1 (netRadiation p t sw lw s2).2).1 ≤
      (priestleyTaylor t alpha (netRadiation p t sw lw s1).1 (netRadiation p t sw lw s1).2).1 := by
  have key : (netRadiation p t sw lw s2).1 ≤ (netRadiation p t sw lw s1).1 := by
    unfold netRadiation
    simp only
    split_ifs <;> nlinarith
  exact ⟨key, (C09_pet_monotone t alpha _ _ ht ha key).1⟩

/-- Outside of the physical range the sign can fail: above 1059 °C the latent heat turns negative and a positive
net radiation yields 0. -/
theorem C09_range_needed : ptOne 1400 1.26 100 = 0 := by
  unfold ptOne latentHeat
  norm_num

example : 0 < ptOne 288 1.26 100 := by
  have h := C09_pet_sign 288 1.26 100 (by constructor <;> norm_num) (by norm_num)
  rcases h.1.lt_or_eq with h1 | h1
  · exact h1
  · have := h.2.1.mp h1.symm; norm_num at this

end WG
