import Verif.Model.ShippedParams
import Verif.Model.ShippedSurface
import Verif.Props.ShippedSurface
import Verif.Props.StartMonth
import Verif.Props.ParamTables
import Verif.Props.ParamCheck1
import Verif.Props.ParamCheck2
import Verif.Props.ParamCheck3
import Verif.Props.ParamCheck4
import Verif.Props.LandCover
import Verif.Props.Years
import Verif.Props.Whole

/-!
# C91: the shipped fractions and parameters meet the assumptions of the other properties
-/

namespace WG

/-! ## From the checks to facts -/

theorem paramCheck_all (k : ℕ) (hk : k < shippedSize) : paramCheck k = true := by
  refine check_cover _ ?_ k hk
  simp only [pieces, List.forall_mem_cons]
  exact ⟨param_0, param_3371, param_6742, param_10113, param_13484, param_16855, param_20226, param_23597,
    param_26968, param_30339, param_33710, param_37081, param_40452, param_43823, param_47194, param_50565,
    param_53936, param_57307, param_60678, param_64049, by simp⟩

theorem ble_iff (a b : ℕ) : Nat.ble a b = true ↔ a ≤ b := by rw [Nat.ble_eq]

theorem and_cond (a b : Bool) : (bif a then b else false) = true ↔ a = true ∧ b = true := by cases a <;> simp

theorem or_cond (a b : Bool) : (bif a then true else b) = true ↔ a = true ∨ b = true := by cases a <;> simp

theorem ite_cond (a b c : Bool) : (bif a then b else c) = true ↔ (a = true ∧ b = true) ∨ (¬ a = true ∧ c = true) := by cases a <;> simp

theorem okb_iff (b : ℕ) : okb b = true ↔ b = 0 ∨ 838860800 ≤ b := by
  unfold okb
  rw [or_cond, Nat.beq_eq, ble_iff]

theorem fx_eq (b : ℕ) (h : okb b = true) : f32 b = fx b / 2 ^ 50 := by
  rw [okb_iff] at h
  by_cases h0 : b = 0
  · subst h0; simp [f32, fx]
  have hb : 838860800 ≤ b := by omega
  have e0 : Nat.beq b 0 = false := by rw [Bool.eq_false_iff, Ne, Nat.beq_eq]; exact h0
  have hfx : fx b = (2 ^ 23 + b % 2 ^ 23) * 2 ^ (b / 2 ^ 23 - 100) := by
    unfold fx
    rw [e0]
    rfl
  rw [hfx]
  unfold f32
  rw [if_neg (by norm_num; omega)]
  obtain ⟨j, hj⟩ : ∃ j, b / 2 ^ 23 = 100 + j := ⟨b / 2 ^ 23 - 100, by norm_num; omega⟩
  rw [hj, show 100 + j - 100 = j by omega]
  rw [Nat.cast_mul, Nat.cast_pow, mul_div_assoc]
  congr 1
  rw [show ((100 + j : ℕ) : ℤ) - 150 = (j : ℤ) - 50 by push_cast; ring, zpow_sub₀ (by norm_num)]
  norm_num

/-- The areal correction factor of row `k` times `2 ^ 59`. -/
noncomputable def cfaN (k : ℕ) : ℕ := cfaData.get (paramRow k / 10 ^ 33 % 10 ^ 3)

/-- The station correction factor of row `k` times `2 ^ 59`. -/
noncomputable def cfsN (k : ℕ) : ℕ := cfsData.get (paramRow k / 10 ^ 30 % 10 ^ 3)

theorem param_facts (k : ℕ) (hk : k < shippedSize) :
    fracCheck k (cfaN k) (fractionRow k) (rareRow k) = true ∧
    parCheck (dirR k) (paramRow k) (cfaN k) (cfsN k) (areaData.get (shippedCell k).1) = true := by
  have h : paramCheck1 k (fractionRow k) (paramRow k) (cfaN k) = true := paramCheck_all k hk
  unfold paramCheck1 at h
  rw [and_cond] at h
  exact h

theorem dirR_eq (k : ℕ) : dirR k = dirDigit k := by
  unfold dirDigit surfaceRow
  change surfaceData.get (k / 64) / 10 ^ (12 * (63 - k % 64) + 11) % 10 = _
  rw [pow_add, ← Nat.div_div_eq_div_mul, show (10 : ℕ) ^ 12 = 10 ^ 11 * 10 by norm_num, Nat.mod_mul_right_div_self]

theorem f32_nonneg (b : ℕ) : 0 ≤ f32 b := by
  have : f32 0 = 0 := by simp [f32]
  rw [← this]
  exact f32_mono.monotone (Nat.zero_le _)

theorem f32_one : f32 1065353216 = 1 := by norm_num [f32]

theorem f32_hundred : f32 1120403456 = 100 := by norm_num [f32]

/-- The reservoir fraction does not shrink and stays below that of the last entry. -/
theorem histOk_facts (f n : ℕ) (h : histOk n f = true) :
    (∀ y, resAt n y f ≤ n % 10 ^ 10) ∧ ∀ y y', y ≤ y' → resAt n y f ≤ resAt n y' f := by
  induction f generalizing n with
  | zero => exact ⟨fun y => Nat.zero_le _, fun y y' _ => le_rfl⟩
  | succ f ih =>
    have h' : (bif Nat.beq n 0 then true else bif Nat.blt (n / 10 ^ 13 % 10 ^ 13 / 10 ^ 10) (n % 10 ^ 13 / 10 ^ 10) then
      (bif Nat.blt (n / 10 ^ 13 % 10 ^ 10) (n % 10 ^ 10) then histOk (n / 10 ^ 13) f else false) else false) = true := h
    rw [or_cond, and_cond, and_cond, Nat.beq_eq, blt_iff, blt_iff] at h'
    rcases h' with h0 | ⟨-, hb, hr⟩
    · subst h0
      have z : ∀ y, resAt 0 y (f + 1) = 0 := fun y => by simp [resAt]
      exact ⟨fun y => by rw [z]; exact Nat.zero_le _, fun y y' _ => by rw [z, z]⟩
    · obtain ⟨i1, i2⟩ := ih _ hr
      constructor
      · intro y
        simp only [resAt]
        by_cases c : n % 10 ^ 13 / 10 ^ 10 ≤ y
        · rw [if_pos c]
        · rw [if_neg c]; exact (i1 y).trans hb.le
      · intro y y' hy
        simp only [resAt]
        by_cases c : n % 10 ^ 13 / 10 ^ 10 ≤ y
        · rw [if_pos c, if_pos (c.trans hy)]
        · rw [if_neg c]
          by_cases c' : n % 10 ^ 13 / 10 ^ 10 ≤ y'
          · rw [if_pos c']; exact (i1 y).trans hb.le
          · rw [if_neg c']; exact i2 y y' hy

/-- What the shares of a cell that is not left to the land add up to, in percent: without operated reservoirs regulated lakes count as global lakes
(`land_surfacewater_fraction_init.py:92,98-99`), with them local reservoirs count as local lakes (`land_surfacewater_fraction_init.py:107-111`). -/
noncomputable def waterShare (k : ℕ) : Option ℕ → ℝ
  | none => (shippedFrac k).glolake + (shippedFrac k).reglake + (shippedFrac k).glowet + (shippedFrac k).locwet + (shippedFrac k).loclake
  | some year => (shippedFrac k).glolake + shippedGlores k year + (shippedFrac k).glowet + (shippedFrac k).locwet
      + ((shippedFrac k).loclake + (shippedFrac k).locres)

/-- The checked facts about the fractions of row `k`. -/
theorem frac_facts (k : ℕ) (hk : k < shippedSize) :
    0 < (shippedFrac k).cont ∧ (shippedFrac k).cont ≤ 100 ∧
    (∀ y y', y ≤ y' → shippedGlores k y ≤ shippedGlores k y') ∧
    (∀ y, waterShare k (some y) ≤ (shippedFrac k).glolake + f32 (rareRow k / 10 ^ 30 % 10 ^ 10) + (shippedFrac k).glowet + (shippedFrac k).locwet
      + ((shippedFrac k).loclake + (shippedFrac k).locres)) ∧
    fitCheck k (cfaN k) (fx (fractionRow k / 10 ^ 24 % 10 ^ 10) + fx (fractionRow k / 10 ^ 14 % 10 ^ 10) + fx (fractionRow k / 10 ^ 4 % 10 ^ 10))
      (fx (rareRow k % 10 ^ 10)) (fx (rareRow k / 10 ^ 20 % 10 ^ 10)) (fx (rareRow k / 10 ^ 10 % 10 ^ 10)) (fx (rareRow k / 10 ^ 30 % 10 ^ 10))
      (fx (fractionRow k / 10 ^ 34)) = true ∧
    (shippedFrac k).cont = fx (fractionRow k / 10 ^ 34) / 2 ^ 50 ∧ (shippedFrac k).glowet = fx (fractionRow k / 10 ^ 24 % 10 ^ 10) / 2 ^ 50 ∧
    (shippedFrac k).locwet = fx (fractionRow k / 10 ^ 14 % 10 ^ 10) / 2 ^ 50 ∧ (shippedFrac k).loclake = fx (fractionRow k / 10 ^ 4 % 10 ^ 10) / 2 ^ 50 ∧
    (shippedFrac k).glolake = fx (rareRow k / 10 ^ 20 % 10 ^ 10) / 2 ^ 50 ∧ (shippedFrac k).reglake = fx (rareRow k / 10 ^ 10 % 10 ^ 10) / 2 ^ 50 ∧
    (shippedFrac k).locres = fx (rareRow k % 10 ^ 10) / 2 ^ 50 ∧ f32 (rareRow k / 10 ^ 30 % 10 ^ 10) = fx (rareRow k / 10 ^ 30 % 10 ^ 10) / 2 ^ 50 := by
  obtain ⟨h, -⟩ := param_facts k hk
  have h' : (bif bitsOk (fractionRow k / 10 ^ 34) (fractionRow k / 10 ^ 24 % 10 ^ 10) (fractionRow k / 10 ^ 14 % 10 ^ 10) (fractionRow k / 10 ^ 4 % 10 ^ 10)
      (rareRow k / 10 ^ 20 % 10 ^ 10) (rareRow k / 10 ^ 10 % 10 ^ 10) (rareRow k % 10 ^ 10) (rareRow k / 10 ^ 30) then
    fitCheck k (cfaN k) (fx (fractionRow k / 10 ^ 24 % 10 ^ 10) + fx (fractionRow k / 10 ^ 14 % 10 ^ 10) + fx (fractionRow k / 10 ^ 4 % 10 ^ 10))
      (fx (rareRow k % 10 ^ 10)) (fx (rareRow k / 10 ^ 20 % 10 ^ 10)) (fx (rareRow k / 10 ^ 10 % 10 ^ 10)) (fx (rareRow k / 10 ^ 30 % 10 ^ 10))
      (fx (fractionRow k / 10 ^ 34)) else false) = true := h
  rw [and_cond] at h'
  obtain ⟨hb, hf⟩ := h'
  unfold bitsOk at hb
  simp only [and_cond] at hb
  obtain ⟨b1, b2, b3, b4, b5, b6, b7, b8, b9, b10, b11⟩ := hb
  rw [blt_iff] at b2
  rw [ble_iff] at b3
  obtain ⟨m1, m2⟩ := histOk_facts 4 _ b11
  have gl : ∀ y, shippedGlores k y ≤ f32 (rareRow k / 10 ^ 30 % 10 ^ 10) := fun y => f32_mono.monotone (m1 _)
  refine ⟨?_, ?_, ?_, ?_, hf, fx_eq _ b1, fx_eq _ b4, fx_eq _ b5, fx_eq _ b6, fx_eq _ b7, fx_eq _ b8, fx_eq _ b9, fx_eq _ b10⟩
  · refine lt_of_le_of_ne (f32_nonneg _) fun e => ?_
    have := (f32_zero _).1 e.symm
    omega
  · rw [← f32_hundred]
    exact f32_mono.monotone b3
  · intro y y' hy
    exact f32_mono.monotone (m2 _ _ (by omega))
  · intro y
    have := gl y
    simp only [waterShare]
    linarith

theorem memR_tight (k : ℕ) : memR k tightRows = true ↔ k ∈ tightRows := memR_iff k _

/-- C91, fractions: in every cell of the shipped routing order all fractions are at least zero, the continent makes up more than nothing and at
most the cell, the fraction of reservoirs does not shrink from year to year, and but for 34 cells the water bodies fit into the continent,
with the reservoirs of any year and without. -/
theorem C91_fractions (k : ℕ) (hk : k < shippedSize) :
    0 < (shippedFrac k).cont ∧ (shippedFrac k).cont ≤ 100 ∧ 0 ≤ (shippedFrac k).glolake ∧ 0 ≤ (shippedFrac k).reglake ∧
    0 ≤ (shippedFrac k).glowet ∧ 0 ≤ (shippedFrac k).locwet ∧ 0 ≤ (shippedFrac k).loclake ∧ 0 ≤ (shippedFrac k).locres ∧
    (∀ y, 0 ≤ shippedGlores k y) ∧ (∀ y y', y ≤ y' → shippedGlores k y ≤ shippedGlores k y') ∧
    (k ∉ tightRows → ∀ res, waterShare k res ≤ (shippedFrac k).cont) ∧
    ∀ res, waterShare k res ≤ (shippedFrac k).cont + 3.2e-5 := by
  obtain ⟨p1, p2, p3, p4, hf, e1, e2, e3, e4, e5, e6, e7, e8⟩ := frac_facts k hk
  refine ⟨p1, p2, f32_nonneg _, f32_nonneg _, f32_nonneg _, f32_nonneg _, f32_nonneg _, f32_nonneg _, fun _ => f32_nonneg _, p3, ?_⟩
  rw [e8, e2, e3, e4, e5, e7] at p4
  have w : waterShare k none = fx (rareRow k / 10 ^ 20 % 10 ^ 10) / 2 ^ 50 + fx (rareRow k / 10 ^ 10 % 10 ^ 10) / 2 ^ 50
      + fx (fractionRow k / 10 ^ 24 % 10 ^ 10) / 2 ^ 50 + fx (fractionRow k / 10 ^ 14 % 10 ^ 10) / 2 ^ 50
      + fx (fractionRow k / 10 ^ 4 % 10 ^ 10) / 2 ^ 50 := by
    simp only [waterShare]
    rw [e2, e3, e4, e5, e6]
  rw [e1]
  generalize fx (fractionRow k / 10 ^ 34) = c at *
  generalize fx (fractionRow k / 10 ^ 24 % 10 ^ 10) = x1 at *
  generalize fx (fractionRow k / 10 ^ 14 % 10 ^ 10) = x2 at *
  generalize fx (fractionRow k / 10 ^ 4 % 10 ^ 10) = x3 at *
  generalize fx (rareRow k / 10 ^ 20 % 10 ^ 10) = x4 at *
  generalize fx (rareRow k / 10 ^ 10 % 10 ^ 10) = x5 at *
  generalize fx (rareRow k % 10 ^ 10) = x6 at *
  generalize fx (rareRow k / 10 ^ 30 % 10 ^ 10) = x7 at *
  unfold fitCheck at hf
  rw [ite_cond, and_cond, and_cond, ble_iff, ble_iff, memR_tight, and_cond, ble_iff, ble_iff] at hf
  have q1 : ∀ d : ℕ, x1 + x2 + x3 + x4 + x5 ≤ c + d → waterShare k none ≤ (c : ℝ) / 2 ^ 50 + d / 2 ^ 50 := by
    intro d hd
    have : ((x1 + x2 + x3 + x4 + x5 : ℕ) : ℝ) ≤ ((c + d : ℕ) : ℝ) := by exact_mod_cast hd
    push_cast at this
    rw [w]
    have := div_le_div_of_nonneg_right this (by positivity : (0 : ℝ) ≤ 2 ^ 50)
    simp only [add_div] at this
    linarith
  have q2 : ∀ d : ℕ, x1 + x2 + x3 + x6 + x4 + x7 ≤ c + d → ∀ y, waterShare k (some y) ≤ (c : ℝ) / 2 ^ 50 + d / 2 ^ 50 := by
    intro d hd y
    have : ((x1 + x2 + x3 + x6 + x4 + x7 : ℕ) : ℝ) ≤ ((c + d : ℕ) : ℝ) := by exact_mod_cast hd
    push_cast at this
    have := div_le_div_of_nonneg_right this (by positivity : (0 : ℝ) ≤ 2 ^ 50)
    simp only [add_div] at this
    linarith [p4 y]
  have z : ∀ a : ℝ, a + ((0 : ℕ) : ℝ) / 2 ^ 50 = a := fun a => by simp
  constructor
  · intro ht res
    rcases hf with ⟨⟨f1, f2⟩, -⟩ | ⟨-, f1, -⟩
    · have a := q1 0 f1
      have b := q2 0 f2
      rw [z] at a
      cases res with
      | none => exact a
      | some y => have := b y; rw [z] at this; exact this
    · exact absurd f1 ht
  · intro res
    have bd : ((36028797018 : ℕ) : ℝ) / 2 ^ 50 ≤ 3.2e-5 := by norm_num
    have r1 : x1 + x2 + x3 + x4 + x5 ≤ c + 36028797018 := by
      rcases hf with ⟨⟨f1, f2⟩, -⟩ | ⟨-, -, f1, f2⟩
      · exact le_trans f1 (Nat.le_add_right _ _)
      · exact f1
    have r2 : x1 + x2 + x3 + x6 + x4 + x7 ≤ c + 36028797018 := by
      rcases hf with ⟨⟨f1, f2⟩, -⟩ | ⟨-, -, f1, f2⟩
      · exact le_trans f2 (Nat.le_add_right _ _)
      · exact f2
    cases res with
    | none => linarith [q1 _ r1]
    | some y => linarith [q2 _ r2 y]

/-- C91 violated in 34 cells: the water bodies do not fit into the continent, neither without reservoirs nor with those of 2025. -/
theorem C91_violated_tight (k : ℕ) (ht : k ∈ tightRows) :
    k < shippedSize ∧ (shippedFrac k).cont < waterShare k none ∧ (shippedFrac k).cont < waterShare k (some 2025) := by
  have hk : k < shippedSize := by
    revert k
    decide
  refine ⟨hk, ?_⟩
  obtain ⟨-, -, -, -, -, e1, e2, e3, e4, e5, e6, e7, e8⟩ := frac_facts k hk
  have h0 := List.all_eq_true.1 tight_checked k ht
  have h : (bif Nat.ble (rareRow k / 10 ^ 30 % 10 ^ 13 / 10 ^ 10) 125 then
      (bif Nat.blt (fx (fractionRow k / 10 ^ 34)) (fx (fractionRow k / 10 ^ 24 % 10 ^ 10) + fx (fractionRow k / 10 ^ 14 % 10 ^ 10)
          + fx (fractionRow k / 10 ^ 4 % 10 ^ 10) + fx (rareRow k / 10 ^ 20 % 10 ^ 10) + fx (rareRow k / 10 ^ 10 % 10 ^ 10)) then
        Nat.blt (fx (fractionRow k / 10 ^ 34)) (fx (fractionRow k / 10 ^ 24 % 10 ^ 10) + fx (fractionRow k / 10 ^ 14 % 10 ^ 10)
          + fx (fractionRow k / 10 ^ 4 % 10 ^ 10) + fx (rareRow k % 10 ^ 10) + fx (rareRow k / 10 ^ 20 % 10 ^ 10)
          + fx (rareRow k / 10 ^ 30 % 10 ^ 10)) else false) else false) = true := h0
  rw [and_cond, and_cond, ble_iff, blt_iff, blt_iff] at h
  obtain ⟨hy, h1, h2⟩ := h
  have g : shippedGlores k 2025 = f32 (rareRow k / 10 ^ 30 % 10 ^ 10) := by
    unfold shippedGlores
    congr 1
    simp only [resAt]
    rw [if_pos hy]
  simp only [waterShare]
  rw [g, e1, e2, e3, e4, e5, e6, e7, e8]
  generalize fx (fractionRow k / 10 ^ 34) = c at *
  generalize fx (fractionRow k / 10 ^ 24 % 10 ^ 10) = x1 at *
  generalize fx (fractionRow k / 10 ^ 14 % 10 ^ 10) = x2 at *
  generalize fx (fractionRow k / 10 ^ 4 % 10 ^ 10) = x3 at *
  generalize fx (rareRow k / 10 ^ 20 % 10 ^ 10) = x4 at *
  generalize fx (rareRow k / 10 ^ 10 % 10 ^ 10) = x5 at *
  generalize fx (rareRow k % 10 ^ 10) = x6 at *
  generalize fx (rareRow k / 10 ^ 30 % 10 ^ 10) = x7 at *
  have a1 : ((c : ℕ) : ℝ) < ((x1 + x2 + x3 + x4 + x5 : ℕ) : ℝ) := by exact_mod_cast h1
  have a2 : ((c : ℕ) : ℝ) < ((x1 + x2 + x3 + x6 + x4 + x7 : ℕ) : ℝ) := by exact_mod_cast h2
  push_cast at a1 a2
  have p : (0 : ℝ) < 2 ^ 50 := by positivity
  have b1 := div_lt_div_of_pos_right a1 p
  have b2 := div_lt_div_of_pos_right a2 p
  simp only [add_div] at b1 b2
  exact ⟨by linarith, by linarith⟩

example : (54034 : ℕ) ∈ tightRows ∧ tightRows.length = 34 := by decide

/-! ## Parameters -/

theorem between_iff (a b n : ℕ) : between a b n = true ↔ a ≤ n ∧ n ≤ b := by
  unfold between
  rw [and_cond, ble_iff, ble_iff]

theorem table_range (a b : ℕ) (t : DTree) (h : allR (between a b) t = true) (i : ℕ) : a ≤ t.get i ∧ t.get i ≤ b :=
  (between_iff _ _ _).1 (allR_get _ _ h i)

/-- C91, parameters and soil data of every cell of the shipped routing order: ranges; the correction factors are used only where the runoff
coefficient gamma is at an end of its range, and there is no station correction in inland sinks. -/
theorem C91_parameters (k : ℕ) (hk : k < shippedSize) :
    (0.1 ≤ shippedGamma k ∧ shippedGamma k ≤ 5) ∧ (0.5 ≤ shippedCfa k ∧ shippedCfa k ≤ 1.5) ∧
    (0.0123 ≤ shippedCfs k ∧ shippedCfs k ≤ 11.77) ∧
    (shippedCfa k ≠ 1 ∨ shippedCfs k ≠ 1 → shippedGamma k < 0.1 + 1e-15 ∨ shippedGamma k = 5) ∧
    (shippedDirection k < 0 → shippedCfs k = 1) ∧
    (24 ≤ shippedTawc k ∧ shippedTawc k ≤ 438) ∧ (0 ≤ shippedBuiltup k ∧ shippedBuiltup k ≤ 0.5) ∧
    (0 ≤ shippedFactor k ∧ shippedFactor k ≤ 1) ∧ 0 ≤ shippedMaxRecharge k ∧
    (∃ r ∈ landCoverTable, r.number = shippedCover k) ∧ shippedArid k ≤ 1 ∧ 0 < shippedLength k ∧ 0 < shippedArea k := by
  obtain ⟨-, h⟩ := param_facts k hk
  have h' : (bif Nat.blt 0 (areaData.get (shippedCell k).1) then bif Nat.blt 0 (paramRow k % 10 ^ 10) then bif Nat.blt (shippedArid k) 2 then
    bif (bif Nat.ble (shippedCover k) 16 then bif Nat.beq (shippedCover k) 0 then false else bif Nat.beq (shippedCover k) 11 then false else
      !Nat.beq (shippedCover k) 13 else false) then
    bif (bif Nat.beq (dirR k) 0 then Nat.beq (cfsN k) 576460752303423488 else true) then
      (bif (bif Nat.beq (cfaN k) 576460752303423488 then Nat.beq (cfsN k) 576460752303423488 else false) then true else
        bif Nat.beq (gammaData.get (paramRow k / 10 ^ 36)) 57646075230342352 then true else
          Nat.beq (gammaData.get (paramRow k / 10 ^ 36)) 2882303761517117440) else false else false else false else false else false) = true := h
  simp only [and_cond, or_cond] at h'
  obtain ⟨h1, h2, h3, h4, h5, h6⟩ := h'
  rw [blt_iff] at h1 h2 h3
  have g := table_range _ _ _ gamma_checked (paramRow k / 10 ^ 36)
  have a := table_range _ _ _ cfa_checked (paramRow k / 10 ^ 33 % 10 ^ 3)
  have s := table_range _ _ _ cfs_checked (paramRow k / 10 ^ 30 % 10 ^ 3)
  have t := table_range _ _ _ tawc_checked (paramRow k / 10 ^ 26 % 10 ^ 4)
  have b := table_range _ _ _ built_checked (paramRow k / 10 ^ 22 % 10 ^ 4)
  have f := table_range _ _ _ factor_checked (paramRow k / 10 ^ 18 % 10 ^ 4)
  have low : ∀ (n m : ℕ) (x : ℝ), n ≤ m → x * 2 ^ 59 ≤ n → x ≤ m / 2 ^ 59 := by
    intro n m x h1 h2
    have : (n : ℝ) ≤ m := by exact_mod_cast h1
    rw [le_div_iff₀ (by positivity)]
    linarith
  have upp : ∀ (n m : ℕ) (x : ℝ), m ≤ n → (n : ℝ) ≤ x * 2 ^ 59 → (m : ℝ) / 2 ^ 59 ≤ x := by
    intro n m x h1 h2
    have : (m : ℝ) ≤ n := by exact_mod_cast h1
    rw [div_le_iff₀ (by positivity)]
    linarith
  have one : ∀ m : ℕ, (m : ℝ) / 2 ^ 59 = 1 ↔ m = 576460752303423488 := by
    intro m
    rw [div_eq_iff (by positivity)]
    constructor
    · intro h
      have : (m : ℝ) = ((576460752303423488 : ℕ) : ℝ) := by rw [h]; norm_num
      exact_mod_cast this
    · rintro rfl
      norm_num
  have fp : ∀ n, 0 < n → 0 < f32 n := fun n hn => by
    have : f32 0 < f32 n := f32_mono hn
    rwa [(f32_zero 0).2 rfl] at this
  refine ⟨⟨low _ _ _ g.1 (by norm_num), upp _ _ _ g.2 (by norm_num)⟩, ⟨low _ _ _ a.1 (by norm_num), upp _ _ _ a.2 (by norm_num)⟩,
    ⟨low _ _ _ s.1 (by norm_num), upp _ _ _ s.2 (by norm_num)⟩, ?_, ?_, ⟨?_, ?_⟩, ⟨f32_nonneg _, ?_⟩, ⟨f32_nonneg _, ?_⟩, ?_, ?_, by omega, fp _ h2, fp _ h1⟩
  · intro hne
    rcases h6 with ⟨q1, q2⟩ | q
    · rw [Nat.beq_eq] at q1 q2
      rcases hne with hne | hne
      · exact absurd ((one _).2 q1) hne
      · exact absurd ((one _).2 q2) hne
    · rcases q with q | q <;> rw [Nat.beq_eq] at q
      · left
        unfold shippedGamma
        rw [q]
        norm_num
      · right
        unfold shippedGamma
        rw [q]
        norm_num
  · intro hd
    have hz : Nat.beq (dirR k) 0 = true := by
      rw [Nat.beq_eq, dirR_eq]
      unfold shippedDirection at hd
      by_contra hne
      unfold dirDigit at hne
      rw [if_neg hne] at hd
      omega
    rw [hz, cond_true, Nat.beq_eq] at h5
    exact (one _).2 h5
  · have := f32_mono.monotone t.1
    have e : f32 1103101952 = 24 := by norm_num [f32]
    rw [e] at this
    exact this
  · have := f32_mono.monotone t.2
    have e : f32 1138425856 = 438 := by norm_num [f32]
    rw [e] at this
    exact this
  · have := f32_mono.monotone b.2
    have e : f32 1056964608 = 0.5 := by norm_num [f32]
    rw [e] at this
    exact this
  · have := f32_mono.monotone f.2
    rw [f32_one] at this
    exact this
  · unfold shippedMaxRecharge
    positivity
  · have c1 : shippedCover k ≤ 16 ∧ shippedCover k ≠ 0 ∧ shippedCover k ≠ 11 ∧ shippedCover k ≠ 13 := by
      rw [ble_iff, ite_cond, ite_cond, Nat.beq_eq, Nat.beq_eq, not_iff', Nat.beq_eq] at h4
      simpa using h4
    generalize shippedCover k = c at c1
    obtain ⟨c1, c2, c3, c4⟩ := c1
    interval_cases c <;> first | omega | (simp [landCoverTable])

/-! ## The assumptions of the water balance -/

/-- Specification: the parameters `p` of the column of row `k` come from the files.  The constants of the whole globe (not told apart by
`tools/gen_params.py`) and the elevations (not shipped) are only asked to be sensible. -/
structure VertPar.FromFiles (k : ℕ) (p : VertPar) : Prop where
  gamma : p.gamma = shippedGamma k
  cfa : p.cfa = shippedCfa k
  builtup : p.builtup = shippedBuiltup k
  factor : p.rechargeFactor = shippedFactor k
  maxRecharge : p.maxRecharge = shippedMaxRecharge k
  landCover : p.lai.landCover = some (shippedCover k : ℝ)
  cover : p.FromCover landCoverTable (shippedTawc k)
  alpha : 0 < p.alpha
  coef : 0 ≤ p.coef
  fracBuiltup0 : 0 ≤ p.fracBuiltup
  fracBuiltup1 : p.fracBuiltup ≤ 1
  lapse : 0 ≤ p.lapse
  freeze : p.freezeTemp ≤ p.meltTemp
  lowest : ∃ e es, p.elevs = e :: es ∧ ∀ x ∈ es, e ≤ x

/-- C91: the column of every shipped cell meets the assumptions of C53, C54 and C55, and its soil can store water. -/
theorem C91_column (k : ℕ) (hk : k < shippedSize) (p : VertPar) (h : p.FromFiles k) :
    p.Ok ∧ 0 < p.maxSoil ∧ p.maxSoil ≤ 438 * 4 ∧ 0 < p.degreeday := by
  obtain ⟨g, a, -, -, -, t, b, f, m, -⟩ := C91_parameters k hk
  have ho : p.OtherOk :=
    { alpha := h.alpha, coef := h.coef, fracBuiltup0 := h.fracBuiltup0, fracBuiltup1 := h.fracBuiltup1
      builtup := by rw [h.builtup]; linarith [b.2]
      gamma := by rw [h.gamma]; linarith [g.1]
      maxRecharge := by rw [h.maxRecharge]; exact m
      factor0 := by rw [h.factor]; exact f.1
      factor1 := by rw [h.factor]; exact f.2
      cfa := by rw [h.cfa]; linarith [a.1]
      lapse := h.lapse, freeze := h.freeze, lowest := h.lowest }
  obtain ⟨⟨r, hr, -, hs⟩, h1, h2, h3, -⟩ := C76_shipped p (shippedTawc k) h.cover ho
  refine ⟨h1, h2, ?_, h3⟩
  have hd : 0 < r.rootingDepth ∧ r.rootingDepth ≤ 4 := by
    simp only [landCoverTable, List.mem_cons, List.not_mem_nil, or_false] at hr
    rcases hr with rfl | rfl | rfl | rfl | rfl | rfl | rfl | rfl | rfl | rfl | rfl | rfl | rfl | rfl <;> norm_num
  have d0 : (0 : ℝ) < r.rootingDepth := by exact_mod_cast hd.1
  have d1 : (r.rootingDepth : ℝ) ≤ 4 := by exact_mod_cast hd.2
  rw [hs]
  nlinarith [t.1, t.2]

/-- Specification: a lake or wetland on the given percentage of a cell, `depth` metres deep at most,
`waterbalance_lateral.py:60-69,79-84,105-111`. -/
def Body.FromFiles (b : Body) (percent area depth : ℝ) : Prop :=
  b.frac = percent / 100 ∧ b.maxArea = area * b.frac ∧ b.maxStorage = b.maxArea * depth * 0.001

/-- The share of the cell that global lakes, regulated lakes and reservoirs leave to land, local lakes and wetlands,
`land_surfacewater_fraction.py:71-78,97-114`. -/
noncomputable def landPart (k : ℕ) : Option ℕ → ℝ
  | none => clampNeg (((shippedFrac k).cont - ((shippedFrac k).glolake + (shippedFrac k).reglake)) / 100)
  | some year => resLandWater (shippedFrac k) (shippedGlores k year)

/-- Local lakes in percent of the cell, with local reservoirs when reservoirs are operated, `land_surfacewater_fraction_init.py:107-111`. -/
noncomputable def lakePart (k : ℕ) : Option ℕ → ℝ
  | none => (shippedFrac k).loclake
  | some _ => (shippedFrac k).loclake + (shippedFrac k).locres

/-- Specification: what of the data `p`, `c` of row `k` comes from the files; `res` is the year whose reservoirs are operated, `none` without
reservoirs.  Weather, runoff and the constants of the whole globe are only asked to be sensible. -/
structure CellFromFiles (k : ℕ) (res : Option ℕ) (p : FullPar) (c : CellIn) : Prop where
  vert : p.vert.FromFiles k
  area : p.area = shippedArea k
  landWater : p.landWater = landPart k res
  locLake : ∃ d : ℝ, 0 < d ∧ c.locLake.FromFiles (lakePart k res) p.area d
  locWet : ∃ d : ℝ, 0 < d ∧ c.locWet.FromFiles (shippedFrac k).locwet p.area d
  gloWet : ∃ d : ℝ, 0 < d ∧ c.gloWet.FromFiles (shippedFrac k).glowet p.area d
  gloLake : ∃ d : ℝ, 0 < d ∧ c.maxGlolake = c.glolakeArea * d * 0.001
  resArea : 0 < c.resArea → HasRes k
  cap : HasCap k ↔ 0 < c.han.cap
  len : c.len = shippedLength k
  corr : c.corr = shippedCfs k
  sink : c.sink = true ↔ shippedDirection k < 0
  precip : 0 ≤ c.precip
  openPet : 0 ≤ c.openPet
  runoff : 0 ≤ c.runoff
  minV : 0 ≤ c.minV
  factor : 0 ≤ c.factor
  swbK : 0 < c.swbK
  gwConst : 0 ≤ c.gwConst
  redExp : 0 < c.redExp

theorem Body.FromFiles.physical {b : Body} {x a d : ℝ} (h : b.FromFiles x a d) (hx : 0 ≤ x) (ha : 0 < a) (hd : 0 < d) :
    b.Physical := by
  obtain ⟨h1, h2, h3⟩ := h
  have hf : 0 ≤ b.frac := by rw [h1]; positivity
  refine ⟨hf, fun h0 => ?_, fun h0 => ?_⟩
  · rw [h3, h2]; positivity
  · rw [h2]; positivity

/-- C91: every shipped cell but the 34 meets the assumptions of the water balance (C50, C54, C71) of any year, with and without reservoirs; so do
its factors. -/
theorem C91_cell (k : ℕ) (hk : k < shippedSize) (ht : k ∉ tightRows) (res : Option ℕ) (p : FullPar) (c : CellIn)
    (h : CellFromFiles k res p c) :
    GoodCell p c ∧ 0 < c.corr ∧ (c.sink = true → c.corr = 1) ∧ 0.5 ≤ p.vert.cfa ∧ p.vert.cfa ≤ 1.5 := by
  obtain ⟨v1, v2, -⟩ := C91_column k hk p.vert h.vert
  obtain ⟨f1, f2, f3, f4, f5, f6, f7, f8, f9, -, fit, -⟩ := C91_fractions k hk
  obtain ⟨-, a, s, -, hs, -, -, -, -, -, -, l, ar⟩ := C91_parameters k hk
  obtain ⟨r1, -⟩ := C81_reservoirs k hk
  have ha : 0 < p.area := by rw [h.area]; exact ar
  obtain ⟨d1, hd1, b1⟩ := h.locLake
  obtain ⟨d2, hd2, b2⟩ := h.locWet
  obtain ⟨d3, hd3, b3⟩ := h.gloWet
  obtain ⟨d4, hd4, b4⟩ := h.gloLake
  refine ⟨⟨v1, v2, ha.le, ?_, fun _ => by rw [b1.2.1, mul_comm], fun _ => by rw [b2.2.1, mul_comm], fun _ => by rw [b3.2.1, mul_comm], ?_⟩,
    by rw [h.corr]; linarith [s.1], fun hc => by rw [h.corr]; exact hs (h.sink.1 hc), by rw [h.vert.cfa]; exact a.1, by rw [h.vert.cfa]; exact a.2⟩
  · refine { precip := h.precip, openPet := h.openPet, runoff := h.runoff, minV := h.minV, factor := h.factor, swbK := h.swbK
             gwConst := h.gwConst, redExp := h.redExp, len := by rw [h.len]; exact l, locLake := b1.physical ?_ ha hd1
             locWet := b2.physical f6 ha hd2, gloWet := b3.physical f5 ha hd3, maxGlolake := fun h0 => by rw [b4]; positivity
             cap := fun h0 => h.cap.1 (r1.1 (h.resArea h0)) }
    cases res with
    | none => exact f7
    | some _ => exact _root_.add_nonneg f7 f8
  · rw [h.landWater, b1.1, b2.1, b3.1]
    have fr := fit ht res
    cases res with
    | none =>
      simp only [waterShare, landPart, lakePart] at fr ⊢
      rw [clampNeg_of_nonneg (by linarith)]
      linarith
    | some y =>
      simp only [waterShare, landPart, lakePart, resLandWater] at fr ⊢
      rw [clampNeg_of_nonneg (by linarith)]
      linarith

/-- C91: in every shipped cell but the 34 and the 11 the land does not create water, whatever the areal correction factor (C50, C71 `no_gain`). -/
theorem C91_land_stays (k : ℕ) (hk : k < shippedSize) (ht : k ∉ tightRows) (hfl : k ∉ floodedRows) (res : Option ℕ) (p : FullPar) (c : CellIn)
    (h : CellFromFiles k res p c) : LandStays p c := by
  obtain ⟨f1, f2, f3, f4, f5, f6, f7, f8, f9, -, fit, -⟩ := C91_fractions k hk
  obtain ⟨d1, hd1, b1⟩ := h.locLake
  obtain ⟨d2, hd2, b2⟩ := h.locWet
  obtain ⟨d3, hd3, b3⟩ := h.gloWet
  obtain ⟨-, -, -, p4, hf, e1, e2, e3, e4, e5, e6, e7, e8⟩ := frac_facts k hk
  unfold LandStays
  rw [h.vert.cfa, h.landWater, b1.1, b2.1, b3.1]
  by_cases hq : cfaN k ≤ 576460752303423488
  · left
    unfold shippedCfa
    have : ((cfaN k : ℕ) : ℝ) ≤ ((576460752303423488 : ℕ) : ℝ) := by exact_mod_cast hq
    rw [div_le_one (by positivity)]
    unfold cfaN at this
    refine this.trans (by norm_num)
  right
  have fr := fit ht res
  unfold fitCheck at hf
  rw [ite_cond, and_cond, and_cond, ble_iff, ble_iff, memR_tight] at hf
  obtain ⟨⟨q1, q2⟩, hf⟩ := hf.resolve_right (fun hh => ht hh.2.1)
  rw [or_cond, or_cond, ble_iff, and_cond, or_cond, or_cond, blt_iff, blt_iff, Nat.beq_eq, Nat.beq_eq, memR_iff] at hf
  have hf := (hf.resolve_left hq).resolve_right hfl
  simp only [waterShare] at p4
  rw [e8, e2, e3, e4, e5, e7] at p4
  rw [e2, e3]
  cases res with
  | none =>
    simp only [waterShare, landPart, lakePart] at fr ⊢
    rw [e1, e2, e3, e4, e5, e6] at fr
    rw [e1, e4, e5, e6, clampNeg_of_nonneg (by have := f7; have := f6; have := f5; rw [e4] at *; rw [e3] at *; rw [e2] at *; linarith)]
    generalize fx (fractionRow k / 10 ^ 34) = c at *
    generalize fx (fractionRow k / 10 ^ 24 % 10 ^ 10) = x1 at *
    generalize fx (fractionRow k / 10 ^ 14 % 10 ^ 10) = x2 at *
    generalize fx (fractionRow k / 10 ^ 4 % 10 ^ 10) = x3 at *
    generalize fx (rareRow k / 10 ^ 20 % 10 ^ 10) = x4 at *
    generalize fx (rareRow k / 10 ^ 10 % 10 ^ 10) = x5 at *
    generalize fx (rareRow k % 10 ^ 10) = x6 at *
    generalize fx (rareRow k / 10 ^ 30 % 10 ^ 10) = x7 at *
    rcases hf.1 with g | g
    · right
      have : ((x1 + x2 + x3 + x4 + x5 : ℕ) : ℝ) < (c : ℝ) := by exact_mod_cast g
      push_cast at this
      have := div_lt_div_of_pos_right this (by positivity : (0 : ℝ) < 2 ^ 50)
      simp only [add_div] at this
      linarith
    · left
      have : ((x4 + x5 : ℕ) : ℝ) = (c : ℝ) := by exact_mod_cast g
      push_cast at this
      rw [← this]
      ring
  | some y =>
    simp only [waterShare, landPart, lakePart, resLandWater] at fr ⊢
    have p5 := p4 y
    have g9 := f9 y
    rw [e1, e2, e3, e4, e5, e7] at fr
    rw [e1, e4, e5, e7, clampNeg_of_nonneg (by have := f7; have := f6; have := f5; have := f8; rw [e7] at *; rw [e4] at *; rw [e3] at *; rw [e2] at *; linarith)]
    generalize shippedGlores k y = z at *
    generalize fx (fractionRow k / 10 ^ 34) = c at *
    generalize fx (fractionRow k / 10 ^ 24 % 10 ^ 10) = x1 at *
    generalize fx (fractionRow k / 10 ^ 14 % 10 ^ 10) = x2 at *
    generalize fx (fractionRow k / 10 ^ 4 % 10 ^ 10) = x3 at *
    generalize fx (rareRow k / 10 ^ 20 % 10 ^ 10) = x4 at *
    generalize fx (rareRow k / 10 ^ 10 % 10 ^ 10) = x5 at *
    generalize fx (rareRow k % 10 ^ 10) = x6 at *
    generalize fx (rareRow k / 10 ^ 30 % 10 ^ 10) = x7 at *
    rcases hf.2 with g | g
    · right
      have : ((x1 + x2 + x3 + x6 + x4 + x7 : ℕ) : ℝ) < (c : ℝ) := by exact_mod_cast g
      push_cast at this
      have := div_lt_div_of_pos_right this (by positivity : (0 : ℝ) < 2 ^ 50)
      simp only [add_div] at this
      linarith
    · have g0 : x1 = 0 ∧ x2 = 0 ∧ x3 = 0 ∧ x6 = 0 := by
        have q2' : x1 + x2 + x3 + x6 + x4 + x7 ≤ c := q2
        have g' : x4 + x7 = c := g
        omega
      obtain ⟨rfl, rfl, rfl, rfl⟩ := g0
      by_cases hz : (c : ℝ) / 2 ^ 50 - x4 / 2 ^ 50 - z = 0
      · left; rw [hz]; simp
      · right
        have : 0 < (c : ℝ) / 2 ^ 50 - x4 / 2 ^ 50 - z := lt_of_le_of_ne (by simp only [Nat.cast_zero, zero_div, add_zero] at fr; linarith) (Ne.symm hz)
        simp only [Nat.cast_zero, zero_div, add_zero]
        linarith

/-- C91 violated in 11 cells: the areal correction factor is above one, and without reservoirs local lakes and wetlands and global wetlands take up, when full, all of the
land: the cell can create water (`C50_violated_vanishing_land`). -/
theorem C91_violated_flooded (k : ℕ) (hfl : k ∈ floodedRows) (p : FullPar) (c : CellIn) (h : CellFromFiles k none p c) :
    k < shippedSize ∧ 1 < p.vert.cfa ∧ 0 < p.landWater ∧ c.locLake.frac + c.locWet.frac + c.gloWet.frac = p.landWater ∧ ¬ LandStays p c := by
  have hk : k < shippedSize := (by decide : ∀ j ∈ floodedRows, j < shippedSize) k hfl
  refine ⟨hk, ?_⟩
  obtain ⟨-, -, -, -, -, e1, e2, e3, e4, e5, e6, e7, e8⟩ := frac_facts k hk
  obtain ⟨d1, hd1, b1⟩ := h.locLake
  obtain ⟨d2, hd2, b2⟩ := h.locWet
  obtain ⟨d3, hd3, b3⟩ := h.gloWet
  have h0 := List.all_eq_true.1 flood_checked k hfl
  have h' : (bif Nat.blt 576460752303423488 (cfaN k) then
      (bif Nat.blt 0 (fx (fractionRow k / 10 ^ 24 % 10 ^ 10) + fx (fractionRow k / 10 ^ 14 % 10 ^ 10) + fx (fractionRow k / 10 ^ 4 % 10 ^ 10)) then
        Nat.beq (fx (fractionRow k / 10 ^ 34)) (fx (fractionRow k / 10 ^ 24 % 10 ^ 10) + fx (fractionRow k / 10 ^ 14 % 10 ^ 10)
          + fx (fractionRow k / 10 ^ 4 % 10 ^ 10) + (fx (rareRow k / 10 ^ 20 % 10 ^ 10) + fx (rareRow k / 10 ^ 10 % 10 ^ 10))) else false) else false) = true := h0
  rw [and_cond, and_cond, blt_iff, blt_iff, Nat.beq_eq] at h'
  obtain ⟨hq, hp, he⟩ := h'
  have hcfa : 1 < p.vert.cfa := by
    rw [h.vert.cfa]
    unfold shippedCfa
    have : ((576460752303423488 : ℕ) : ℝ) < ((cfaN k : ℕ) : ℝ) := by exact_mod_cast hq
    rw [one_lt_div (by positivity)]
    unfold cfaN at this
    refine lt_of_eq_of_lt (by norm_num) this
  have key : 0 < p.landWater ∧ c.locLake.frac + c.locWet.frac + c.gloWet.frac = p.landWater := by
    rw [h.landWater, b1.1, b2.1, b3.1]
    simp only [landPart, lakePart]
    rw [e1, e2, e3, e4, e5, e6]
    generalize fx (fractionRow k / 10 ^ 34) = c at *
    generalize fx (fractionRow k / 10 ^ 24 % 10 ^ 10) = x1 at *
    generalize fx (fractionRow k / 10 ^ 14 % 10 ^ 10) = x2 at *
    generalize fx (fractionRow k / 10 ^ 4 % 10 ^ 10) = x3 at *
    generalize fx (rareRow k / 10 ^ 20 % 10 ^ 10) = x4 at *
    generalize fx (rareRow k / 10 ^ 10 % 10 ^ 10) = x5 at *
    have hc : (c : ℝ) = x1 + x2 + x3 + (x4 + x5) := by rw [he]; push_cast; ring
    have hs : (0 : ℝ) < x1 + x2 + x3 := by exact_mod_cast hp
    have e : ((c : ℝ) / 2 ^ 50 - ((x4 : ℝ) / 2 ^ 50 + (x5 : ℝ) / 2 ^ 50)) / 100 = (x1 + x2 + x3) / 2 ^ 50 / 100 := by rw [hc]; ring
    rw [e, clampNeg_of_nonneg (by positivity)]
    exact ⟨by positivity, by ring⟩
  refine ⟨hcfa, key.1, key.2, ?_⟩
  rintro (h1 | h1 | h1)
  · linarith
  · linarith [key.1]
  · linarith [key.2]

/-- C91: data that come from the files exist for every cell, with and without reservoirs. -/
theorem C91_exists (k : ℕ) (hk : k < shippedSize) (res : Option ℕ) :
    ∃ p c, CellFromFiles k res p c ∧ 0 ≤ p.vert.maxDailyPet ∧ c.resArea = 0 ∧ c.glolakeArea = 0 := by
  classical
  obtain ⟨-, -, -, -, -, t, -, -, -, ⟨r, hr, hn⟩, -⟩ := C91_parameters k hk
  have own := C76_own_class landCoverTable shipped_classes.1 r hr (some (shippedTawc k))
  rw [hn] at own
  let v : VertPar := { barePar with
    rad := { snowAlbedoThresh := 3, openwaterAlbedo := 0.08, snowAlbedo := r.snowAlbedo, albedo := r.albedo, emissivity := r.emissivity }
    lai := ⟨r.initialDays, 0.1 * r.fracDecid + (1 - r.fracDecid) * r.redEvergreen * r.maxLai, r.maxLai, some (shippedCover k), shippedArid k⟩
    degreeday := r.degreeDay
    maxSoil := shippedTawc k * r.rootingDepth
    gamma := shippedGamma k
    cfa := shippedCfa k
    builtup := shippedBuiltup k
    rechargeFactor := shippedFactor k
    maxRecharge := shippedMaxRecharge k }
  have hv : v.FromFiles k := by
    refine ⟨rfl, rfl, rfl, rfl, rfl, rfl, ?_, ?_, ?_, ?_, ?_, ?_, ?_, 50, [100], rfl, by norm_num⟩
    · constructor
      all_goals simp only [v, own, Option.bind_some]
      rw [if_pos (by linarith [t.1])]
    all_goals simp only [v, barePar]
    all_goals norm_num
  refine ⟨⟨v, shippedArea k, landPart k res⟩,
    { exCell with
      locLake := ⟨lakePart k res / 100, shippedArea k * (lakePart k res / 100), shippedArea k * (lakePart k res / 100) * 5 * 0.001⟩
      locWet := ⟨(shippedFrac k).locwet / 100, shippedArea k * ((shippedFrac k).locwet / 100), shippedArea k * ((shippedFrac k).locwet / 100) * 2 * 0.001⟩
      gloWet := ⟨(shippedFrac k).glowet / 100, shippedArea k * ((shippedFrac k).glowet / 100), shippedArea k * ((shippedFrac k).glowet / 100) * 2 * 0.001⟩
      glolakeArea := 0
      maxGlolake := 0
      resArea := 0
      han := { exCell.han with cap := if HasCap k then 1 else 0 }
      len := shippedLength k
      corr := shippedCfs k
      sink := decide (shippedDirection k < 0) }, ?_, by simp only [v, barePar]; norm_num, rfl, rfl⟩
  refine ⟨hv, rfl, rfl, ⟨5, by norm_num, rfl, rfl, rfl⟩, ⟨2, by norm_num, rfl, rfl, rfl⟩, ⟨2, by norm_num, rfl, rfl, rfl⟩,
    ⟨5, by norm_num, by simp⟩, fun h => absurd h (lt_irrefl _), ?_, rfl, rfl, decide_eq_true_iff, ?_, ?_, ?_, ?_, ?_, ?_, ?_, ?_⟩
  · change HasCap k ↔ (0 : ℝ) < if HasCap k then 1 else 0
    split_ifs with h <;> simp [h]
  all_goals simp only [exCell]
  all_goals norm_num

/-- Specification: a day of a simulation with the shipped data in the cells of the mask `B`; sensible weather, global wetlands that do not run dry within the day, no negative
demand on a global lake. -/
structure ShippedDay (res : Option ℕ) (par : Cell → FullPar) (lat0 : Cell → CellIn) (delayed : Bool) (unit : Cell → ℕ) (B : Cell → Bool) (d : WgDay)
    (s : Sim DemandState) : Prop where
  same : ∀ x, SameCell (lat0 x) (d.lateral x)
  cells : ∀ k < shippedSize, B (shippedCell k) → CellFromFiles k res (par (shippedCell k)) (d.inputs s.demand (shippedCell k)) ∧
    WeatherOk (par (shippedCell k)) (d.weather (shippedCell k)) (s.state (shippedCell k)) ∧
    (simIn par (d.sim delayed unit shippedOrder) s (shippedCell k)).WetDeep
  sign : ∀ x, 0 < (lat0 x).glolakeArea → 0 ≤ d.pot x

/-- Such days, one after the other. -/
def ShippedDays (res : Option ℕ) (par : Cell → FullPar) (lat0 : Cell → CellIn) (delayed : Bool) (unit : Cell → ℕ) (B : Cell → Bool) :
    Sim DemandState → List WgDay → Prop
  | _, [] => True
  | s, d :: ds => ShippedDay res par lat0 delayed unit B d s ∧
    ShippedDays res par lat0 delayed unit B (simDay par (masked shippedOrder B) (d.sim delayed unit shippedOrder) s).1 ds

theorem shippedDays_ok (res : Option ℕ) (par : Cell → FullPar) (lat0 : Cell → CellIn) (delayed : Bool) (unit : Cell → ℕ) (B : Cell → Bool)
    (ht : ∀ k ∈ tightRows, ¬ B (shippedCell k)) (days : List WgDay) (s : Sim DemandState)
    (h : ShippedDays res par lat0 delayed unit B s days) : WgDaysOk par lat0 delayed unit shippedOrder B s days := by
  induction days generalizing s with
  | nil => trivial
  | cons d ds ih =>
    refine ⟨⟨h.1.same, fun x hx => ?_, h.1.sign⟩, ih _ h.2⟩
    have hx' : x ∈ shippedOrder.map Prod.fst ∧ B x := by
      simp only [masked, List.mem_map, List.mem_filter] at hx
      obtain ⟨e, ⟨h1, h2⟩, rfl⟩ := hx
      exact ⟨List.mem_map_of_mem h1, h2⟩
    obtain ⟨k, hk, rfl⟩ := (mem_shippedCells x).1 hx'.1
    obtain ⟨c1, c2, c3⟩ := h.1.cells k hk hx'.2
    exact ⟨(C91_cell k hk (fun hh => ht k hh hx'.2) res _ _ c1).1, c2, c3⟩

/-- **C91.**  A simulation of the shipped rivers with the shipped static data and parameters, over any number of days and with its exchange of demand, of any set of
cells without the 34 whose water bodies do not fit: storages stay physical, fractions add up, and no water is created in cells other than the 11
whose land can vanish. -/
theorem C91_simulation (res : Option ℕ) (par : Cell → FullPar) (lat0 : Cell → CellIn) (delayed : Bool) (unit : Cell → ℕ) (B : Cell → Bool)
    (ht : ∀ k ∈ tightRows, ¬ B (shippedCell k)) (hu : ∀ k < shippedSize, unit (shippedCell k) = shippedUnit k)
    (hb : ∀ x, (lat0 x).hasLake → ∃ k < shippedSize, x = shippedCell k ∧ IsOutflow k ∧ shippedUnit k ∉ [734, 1858, 2288, 2467])
    (hlat : ∀ k < shippedSize, B (shippedCell k) → CellFromFiles k res (par (shippedCell k)) (lat0 (shippedCell k)))
    (days : List WgDay) (s : Sim DemandState)
    (hs : ∀ k < shippedSize, B (shippedCell k) → FullOk (par (shippedCell k)) (lat0 (shippedCell k)) (s.state (shippedCell k)))
    (hg : s.demand.Good lat0) (hd : ShippedDays res par lat0 delayed unit B s days) :
    (∀ k < shippedSize, B (shippedCell k) → FullOk (par (shippedCell k)) (lat0 (shippedCell k))
      ((wgRun par delayed unit shippedOrder B s days).1.state (shippedCell k))) ∧
    ∀ (cells : List ℕ), (∀ k ∈ cells, k < shippedSize ∧ k ∉ floodedRows ∧ B (shippedCell k)) → ∀ (n : ℕ) (recs : Cell → List (List DayRec)),
      (∀ k ∈ cells, (recs (shippedCell k)).flatten
          = (wgRun par delayed unit shippedOrder B s days).2.filterMap (· (shippedCell k)) ∧ (recs (shippedCell k)).length = n) →
      -(((cells.map shippedCell).map fun x => flushTol (par x) (lat0 x)).sum * days.length / n)
        ≤ balanceError (cells.map shippedCell) (fun x => (lat0 x).corr) (fun x => twsBefore (par x) (s.state x)) n recs := by
  have hx : ∀ x ∈ shippedOrder.map Prod.fst, B x → FullOk (par x) (lat0 x) (s.state x) ∧ 0 < (lat0 x).corr ∧
      ((lat0 x).sink = true → (lat0 x).corr = 1) := by
    intro x hx hB
    obtain ⟨k, hk, rfl⟩ := (mem_shippedCells x).1 hx
    obtain ⟨-, c1, c2, -⟩ := C91_cell k hk (fun hh => ht k hh hB) res _ _ (hlat k hk hB)
    exact ⟨hs k hk hB, c1, c2⟩
  have huq := (C81_unit_assumption lat0 unit hu hb).unique
  have hdo := shippedDays_ok res par lat0 delayed unit B ht days s hd
  constructor
  · intro k hk hB
    exact (C54_with_demand par lat0 delayed unit shippedOrder B shipped_sound (fun x h1 h2 => (hx x h1 h2).2.1) huq days s
      (fun x h1 h2 => (hx x h1 h2).1) hg hdo).2 _ ((mem_shippedCells _).2 ⟨k, hk, rfl⟩) hB
  · intro cells hc n recs hrec
    refine C50_with_demand_no_gain par lat0 delayed unit shippedOrder B shipped_sound (fun x h1 h2 => (hx x h1 h2).2.1)
      (fun x h1 h2 => (hx x h1 h2).2.2) huq days s (fun x h1 h2 => (hx x h1 h2).1) hg hdo _ ?_ n recs ?_
    · intro x hm
      obtain ⟨k, hk, rfl⟩ := List.mem_map.1 hm
      obtain ⟨k1, k2, k3⟩ := hc k hk
      exact ⟨⟨(mem_shippedCells _).2 ⟨k, k1, rfl⟩, k3⟩, C91_land_stays k k1 (fun hh => ht k hh k3) k2 res _ _ (hlat k k1 k3)⟩
    · intro x hm
      obtain ⟨k, hk, rfl⟩ := List.mem_map.1 hm
      exact hrec k hk

/-- The hypotheses of `C91_simulation` are met for a day in any one cell (without global wetland) with the reservoirs of 2000: the first day of a simulation,
cold and dark, with snow. -/
theorem C91_simulation_met (k : ℕ) (hk : k < shippedSize) (ht : k ∉ tightRows) (hw : (shippedFrac k).glowet = 0) (delayed : Bool) :
    ∃ (par : Cell → FullPar) (lat0 : Cell → CellIn) (B : Cell → Bool) (s : Sim DemandState) (d : WgDay),
      B (shippedCell k) = true ∧ (∀ j ∈ tightRows, ¬ B (shippedCell j)) ∧ (∀ x, ¬ (lat0 x).hasLake) ∧
      (∀ j < shippedSize, B (shippedCell j) → CellFromFiles j (some 2000) (par (shippedCell j)) (lat0 (shippedCell j)) ∧
        FullOk (par (shippedCell j)) (lat0 (shippedCell j)) (s.state (shippedCell j))) ∧ s.demand.Good lat0 ∧
      (∀ x, 0 < (d.weather x).precip) ∧ ∀ unit, ShippedDays (some 2000) par lat0 delayed unit B s [d] := by
  classical
  obtain ⟨p, c, h, hm, h1, h2⟩ := C91_exists k hk (some 2000)
  obtain ⟨g, -⟩ := C91_cell k hk ht _ p c h
  have fit := (C91_fractions k hk).2.2.2.2.2.2.2.2.2.2.1 ht (some 2000)
  simp only [waterShare] at fit
  obtain ⟨d1, -, b1⟩ := h.locLake
  obtain ⟨d2, -, b2⟩ := h.locWet
  obtain ⟨d3, -, b3⟩ := h.gloWet
  have hp : p = ⟨p.vert, p.area, resLandWater (shippedFrac k) (shippedGlores k 2000)⟩ := by
    cases p
    have := h.landWater
    simp only [landPart] at this
    rw [this]
  have fo : FullOk p c (freshFull (shippedFrac k) (shippedGlores k 2000) p.vert c 0 0) := by
    have := (C71_first_day (shippedFrac k) (shippedGlores k 2000) p.area p.vert c 0 0 (hp ▸ g) b1.1 b2.1 b3.1 (by linarith)
      (by rw [h1]; intro hh; exact absurd hh (lt_irrefl _)) le_rfl).1
    rw [← hp] at this
    exact this
  let s : Sim DemandState := ⟨⟨fun _ => 0, fun _ => 0, fun _ => 0, fun _ => 0⟩,
    fun _ => freshFull (shippedFrac k) (shippedGlores k 2000) p.vert c 0 0⟩
  let d : WgDay := { weather := fun _ => ⟨263.15, 0, 0, 4⟩, lateral := fun _ => c, pot := fun _ => 0, unagg := fun _ => 0, dec31 := false }
  have only : ∀ j < shippedSize, decide (shippedCell j = shippedCell k) = true → j = k := fun j hj he =>
    shippedCell_inj hj hk (of_decide_eq_true he)
  refine ⟨fun _ => p, fun _ => c, fun x => decide (x = shippedCell k), s, d, by simp, ?_, ?_, ?_, ?_, fun x => by simp only [d]; norm_num, ?_⟩
  · intro j hj hB
    have := only j (C91_violated_tight j hj).1 hB
    exact ht (this ▸ hj)
  · rintro x (hx | hx)
    · rw [h1] at hx; exact absurd hx (lt_irrefl _)
    · rw [h2] at hx; exact absurd hx (lt_irrefl _)
  · intro j hj hB
    obtain rfl := only j hj hB
    exact ⟨h, fo⟩
  · exact ⟨fun _ _ => rfl, fun _ _ => le_rfl⟩
  · intro unit
    refine ⟨⟨fun x => ⟨⟨rfl, rfl, rfl, rfl, rfl, rfl, rfl⟩, rfl, rfl, rfl, rfl⟩, ?_, fun _ _ => le_rfl⟩, trivial⟩
    intro j hj hB
    obtain rfl := only j hj hB
    refine ⟨{ h with }, ⟨?_, ?_, ?_⟩, ?_⟩
    · simp only [d, PhysicalTemp]; norm_num
    · simp only [d]; norm_num
    · have em : 0 < p.vert.rad.emissivity := by
        obtain ⟨v1, -⟩ := C91_column j hk p.vert h.vert
        exact (C76_shipped p.vert _ h.vert.cover
          { v1 with }).2.2.2.2.2.2.2.2.1
      have hz : (fullVert p (d.weather (shippedCell j)) (s.state (shippedCell j))).pet = 0 := by
        change ptOne 263.15 p.vert.alpha _ = 0
        unfold ptOne
        rw [if_pos]
        apply div_nonpos_of_nonpos_of_nonneg _ (latentHeat_pos _ ⟨by norm_num, by norm_num⟩).le
        have : (netRadiation p.vert.rad 263.15 0 0 (s.state (shippedCell j)).vert.snow).1 ≤ 0 := by
          unfold netRadiation
          simp only [zero_mul, zero_add, zero_sub]
          have := em.le
          rw [neg_nonpos]
          positivity
        exact mul_nonpos_of_nonpos_of_nonneg this (by norm_num)
      rw [hz]
      exact hm
    · intro hf
      change 0 < c.gloWet.frac at hf
      rw [b3.1, hw] at hf
      norm_num at hf

theorem glowet_zero (k : ℕ) (h : fractionRow k / 10 ^ 24 % 10 ^ 10 = 0) : (shippedFrac k).glowet = 0 := (f32_zero _).2 h

theorem row_62549 : fractionRow 62549 / 10 ^ 24 % 10 ^ 10 = 0 ∧ 0 < fractionRow 62549 / 10 ^ 4 % 10 ^ 10 := by decide +kernel

/-- Row 62549 is such a cell, and it has a local lake. -/
example (delayed : Bool) := C91_simulation_met 62549 (by decide) (by decide) (glowet_zero _ row_62549.1) delayed

example : (∃ p c, CellFromFiles 24181 none p c ∧ ¬ LandStays p c) ∧ ∃ p c, CellFromFiles 62549 none p c ∧ GoodCell p c ∧ LandStays p c := by
  obtain ⟨p, c, h, -⟩ := C91_exists 24181 (by decide) none
  obtain ⟨p', c', h', -⟩ := C91_exists 62549 (by decide) none
  exact ⟨⟨p, c, h, (C91_violated_flooded 24181 (by decide) p c h).2.2.2.2⟩,
    ⟨p', c', h', (C91_cell 62549 (by decide) (by decide) none p' c' h').1, C91_land_stays 62549 (by decide) (by decide) (by decide) none p' c' h'⟩⟩

end WG
