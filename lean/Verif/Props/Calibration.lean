import Verif.Model.Calibration

/-!
# Calibration (C41, C42, C45)
-/

namespace WG

/-! ## Areal correction factors (C41) -/

variable {ι : Type}

/-- Mean runoff of the unit with factors applied; cells without a value count as 0. -/
noncomputable def unitRunoff (unit : List ι) (runoff : ι → Option ℝ) (f : ι → Option ℝ) : ℝ :=
  (unit.map fun i => (runoff i).getD 0 * (f i).getD 0).sum

theorem signOf_mul (r : Option ℝ) : r.getD 0 * signOf r = |r.getD 0| := by
  cases r with
  | none => simp [signOf]
  | some x =>
    simp only [Option.getD_some, signOf]
    split_ifs with h1 h2
    · rw [abs_of_pos h1]; ring
    · rw [abs_of_neg h2]; ring
    · have : x = 0 := le_antisymm (not_lt.1 h1) (not_lt.1 h2)
      simp [this]

theorem absSum_nonneg (unit : List ι) (runoff : ι → Option ℝ) : 0 ≤ absSum unit runoff :=
  List.sum_nonneg (by simp only [List.mem_map]; rintro x ⟨i, -, rfl⟩; exact abs_nonneg _)

theorem cs3_unit (unit : List ι) (runoff : ι → Option ℝ) (simDis aim : ℝ) (old : ι → Option ℝ) (i : ι) (hi : i ∈ unit)
    (hS : absSum unit runoff ≠ 0) :
    cs3 unit runoff simDis aim old i =
      some (let c := 1 - signOf (runoff i) * (simDis - aim) / absSum unit runoff
            if c > 1.5 then 1.5 else if c < 0.5 then 0.5 else c) := by
  simp only [cs3, if_pos hi, rawCfa, if_neg hS, limitCfa]

/-- **C41.**  If some cell of the calibration unit has runoff, every cell of the unit gets a factor between 0.5 and 1.5;
the factors of all other cells are kept. -/
theorem C41_limits (unit : List ι) (runoff : ι → Option ℝ) (simDis aim : ℝ) (old : ι → Option ℝ) (i : ι)
    (hrun : ∃ j ∈ unit, ∃ r, runoff j = some r ∧ r ≠ 0) :
    (i ∈ unit → ∃ c, cs3 unit runoff simDis aim old i = some c ∧ 0.5 ≤ c ∧ c ≤ 1.5) ∧
    (i ∉ unit → cs3 unit runoff simDis aim old i = old i) := by
  constructor
  · intro hi
    have hS : absSum unit runoff ≠ 0 := by
      obtain ⟨j, hj, r, hr, hne⟩ := hrun
      have : 0 < absSum unit runoff := by
        have hle : |(runoff j).getD 0| ≤ absSum unit runoff :=
          List.single_le_sum (by simp only [List.mem_map]; rintro x ⟨i, -, rfl⟩; exact abs_nonneg _) _
            (List.mem_map.2 ⟨j, hj, rfl⟩)
        rw [hr] at hle
        have := abs_pos.2 hne
        simp only [Option.getD_some] at hle
        linarith
      exact this.ne'
    rw [cs3_unit unit runoff simDis aim old i hi hS]
    refine ⟨_, rfl, ?_⟩
    simp only
    split_ifs with h1 h2
    · norm_num
    · norm_num
    · exact ⟨not_lt.1 h2, not_lt.1 h1⟩
  · intro hi
    simp only [cs3, if_neg hi]

/-- **C41.**  Before the factors are limited, applying them to the mean runoff of the unit changes its sum by exactly
the discharge that is missing (or in excess). -/
theorem C41_exact_before_limits (unit : List ι) (runoff : ι → Option ℝ) (simDis aim : ℝ)
    (hrun : ∃ j ∈ unit, ∃ r, runoff j = some r ∧ r ≠ 0) :
    unitRunoff unit runoff (rawCfa unit runoff simDis aim) =
      unitRunoff unit runoff (fun _ => some 1) + (aim - simDis) := by
  have hS : absSum unit runoff ≠ 0 := by
    obtain ⟨j, hj, r, hr, hne⟩ := hrun
    have hle : |(runoff j).getD 0| ≤ absSum unit runoff :=
      List.single_le_sum (by simp only [List.mem_map]; rintro x ⟨i, -, rfl⟩; exact abs_nonneg _) _
        (List.mem_map.2 ⟨j, hj, rfl⟩)
    rw [hr] at hle
    have := abs_pos.2 hne
    simp only [Option.getD_some] at hle
    intro h0; linarith
  have h1 : ∀ i, (runoff i).getD 0 * (rawCfa unit runoff simDis aim i).getD 0 =
      (runoff i).getD 0 * 1 + |(runoff i).getD 0| * ((aim - simDis) / absSum unit runoff) := by
    intro i
    simp only [rawCfa, if_neg hS, Option.getD_some]
    rw [← signOf_mul (runoff i)]
    field_simp
    ring
  have h2 : ∀ l : List ι, (l.map fun i => (runoff i).getD 0 * (rawCfa unit runoff simDis aim i).getD 0).sum =
      (l.map fun i => (runoff i).getD 0 * 1).sum +
        (l.map fun i => |(runoff i).getD 0|).sum * ((aim - simDis) / absSum unit runoff) := by
    intro l
    induction l with
    | nil => simp
    | cons i l ih =>
      simp only [List.map_cons, List.sum_cons, ih, h1 i]
      ring
  unfold unitRunoff
  rw [h2 unit]
  simp only [Option.getD_some]
  congr 1
  change absSum unit runoff * _ = _
  field_simp

/-- **C41.**  The limited factors move the runoff of the unit in the right direction and never too far. -/
theorem C41_direction (unit : List ι) (runoff : ι → Option ℝ) (simDis aim : ℝ) (old : ι → Option ℝ)
    (hrun : ∃ j ∈ unit, ∃ r, runoff j = some r ∧ r ≠ 0) :
    (aim ≤ simDis → aim - simDis ≤ unitRunoff unit runoff (cs3 unit runoff simDis aim old) -
        unitRunoff unit runoff (fun _ => some 1) ∧
      unitRunoff unit runoff (cs3 unit runoff simDis aim old) ≤ unitRunoff unit runoff (fun _ => some 1)) ∧
    (simDis ≤ aim → unitRunoff unit runoff (cs3 unit runoff simDis aim old) -
        unitRunoff unit runoff (fun _ => some 1) ≤ aim - simDis ∧
      unitRunoff unit runoff (fun _ => some 1) ≤ unitRunoff unit runoff (cs3 unit runoff simDis aim old)) := by
  have hS : 0 < absSum unit runoff := by
    obtain ⟨j, hj, r, hr, hne⟩ := hrun
    have hle : |(runoff j).getD 0| ≤ absSum unit runoff :=
      List.single_le_sum (by simp only [List.mem_map]; rintro x ⟨i, -, rfl⟩; exact abs_nonneg _) _
        (List.mem_map.2 ⟨j, hj, rfl⟩)
    rw [hr] at hle
    have := abs_pos.2 hne
    simp only [Option.getD_some] at hle
    linarith
  have hex := C41_exact_before_limits unit runoff simDis aim hrun
  have mono : ∀ (l : List ι) (f g : ι → Option ℝ), (∀ i ∈ l, (runoff i).getD 0 * (f i).getD 0 ≤
      (runoff i).getD 0 * (g i).getD 0) → unitRunoff l runoff f ≤ unitRunoff l runoff g := by
    intro l f g h
    exact List.sum_le_sum h
  -- cellwise: between no change and the raw factor
  have cell : ∀ i ∈ unit, ∀ r, (runoff i).getD 0 = r → ∃ raw lim, rawCfa unit runoff simDis aim i = some raw ∧
      cs3 unit runoff simDis aim old i = some lim ∧
      (aim ≤ simDis → r * raw ≤ r * lim ∧ r * lim ≤ r * 1) ∧ (simDis ≤ aim → r * lim ≤ r * raw ∧ r * 1 ≤ r * lim) := by
    intro i hi r hr
    refine ⟨_, _, by rw [rawCfa, if_neg hS.ne'], cs3_unit unit runoff simDis aim old i hi hS.ne', ?_⟩
    have hs := signOf_mul (runoff i)
    rw [hr] at hs
    generalize signOf (runoff i) = s at hs ⊢
    have habs := abs_nonneg r
    obtain ⟨q, hq⟩ : ∃ q, q = (simDis - aim) / absSum unit runoff := ⟨_, rfl⟩
    have e : s * (simDis - aim) / absSum unit runoff = s * q := by rw [hq]; ring
    simp only [e]
    have hrs : r * (1 - s * q) = r - |r| * q := by rw [← hs]; ring
    constructor
    · intro hle
      have hq0 : 0 ≤ q := by rw [hq]; exact div_nonneg (by linarith) hS.le
      split_ifs with h1 h2
      · -- raw above 1.5: then r ≤ 0
        have hr0 : r ≤ 0 := by
          by_contra hc; push Not at hc
          have : |r| = r := abs_of_pos hc
          rw [this] at hs
          have hs1 : s = 1 := by
            have := mul_left_cancel₀ hc.ne' (hs.trans (mul_one r).symm); exact this
          rw [hs1] at h1; linarith
        exact ⟨mul_le_mul_of_nonpos_left (by linarith) hr0, mul_le_mul_of_nonpos_left (by norm_num) hr0⟩
      · have hr0 : 0 ≤ r := by
          by_contra hc; push Not at hc
          have : |r| = -r := abs_of_neg hc
          rw [this] at hs
          have hs1 : s = -1 := by
            have := mul_left_cancel₀ hc.ne (hs.trans (by ring : -r = r * (-1))); exact this
          rw [hs1] at h2; linarith
        exact ⟨mul_le_mul_of_nonneg_left (by linarith) hr0, mul_le_mul_of_nonneg_left (by norm_num) hr0⟩
      · refine ⟨le_refl _, ?_⟩
        rw [hrs]
        have := mul_nonneg habs hq0
        linarith
    · intro hle
      have hq0 : q ≤ 0 := by rw [hq]; exact div_nonpos_of_nonpos_of_nonneg (by linarith) hS.le
      split_ifs with h1 h2
      · have hr0 : 0 ≤ r := by
          by_contra hc; push Not at hc
          have : |r| = -r := abs_of_neg hc
          rw [this] at hs
          have hs1 : s = -1 := by
            have := mul_left_cancel₀ hc.ne (hs.trans (by ring : -r = r * (-1))); exact this
          rw [hs1] at h1; linarith
        exact ⟨mul_le_mul_of_nonneg_left (by linarith) hr0, mul_le_mul_of_nonneg_left (by norm_num) hr0⟩
      · have hr0 : r ≤ 0 := by
          by_contra hc; push Not at hc
          have : |r| = r := abs_of_pos hc
          rw [this] at hs
          have hs1 : s = 1 := by
            have := mul_left_cancel₀ hc.ne' (hs.trans (mul_one r).symm); exact this
          rw [hs1] at h2; linarith
        exact ⟨mul_le_mul_of_nonpos_left (by linarith) hr0, mul_le_mul_of_nonpos_left (by norm_num) hr0⟩
      · refine ⟨le_refl _, ?_⟩
        rw [hrs]
        have := mul_nonneg habs (neg_nonneg.2 hq0)
        linarith
  constructor
  · intro hle
    have a := mono unit (rawCfa unit runoff simDis aim) (cs3 unit runoff simDis aim old) (by
      intro i hi
      obtain ⟨raw, lim, e1, e2, h1, -⟩ := cell i hi _ rfl
      rw [e1, e2]; exact (h1 hle).1)
    have b := mono unit (cs3 unit runoff simDis aim old) (fun _ => some 1) (by
      intro i hi
      obtain ⟨raw, lim, e1, e2, h1, -⟩ := cell i hi _ rfl
      rw [e2]; exact (h1 hle).2)
    rw [hex] at a
    exact ⟨by linarith, b⟩
  · intro hle
    have a := mono unit (cs3 unit runoff simDis aim old) (rawCfa unit runoff simDis aim) (by
      intro i hi
      obtain ⟨raw, lim, e1, e2, -, h1⟩ := cell i hi _ rfl
      rw [e1, e2]; exact (h1 hle).1)
    have b := mono unit (fun _ => some 1) (cs3 unit runoff simDis aim old) (by
      intro i hi
      obtain ⟨raw, lim, e1, e2, -, h1⟩ := cell i hi _ rfl
      rw [e2]; exact (h1 hle).2)
    rw [hex] at a
    exact ⟨by linarith, b⟩

/-- **C41 violated.**  If no cell of the unit has runoff, the factors written are not numbers. -/
theorem C41_violated_no_runoff (unit : List ι) (runoff : ι → Option ℝ) (simDis aim : ℝ) (old : ι → Option ℝ) (i : ι)
    (hi : i ∈ unit) (hno : ∀ j ∈ unit, runoff j = some 0 ∨ runoff j = none) :
    cs3 unit runoff simDis aim old i = none := by
  have h0 : absSum unit runoff = 0 := by
    unfold absSum
    apply List.sum_eq_zero
    simp only [List.mem_map]
    rintro x ⟨j, hj, rfl⟩
    rcases hno j hj with h | h <;> simp [h]
  simp only [cs3, if_pos hi, rawCfa, if_pos h0, limitCfa]

/-- Two cells, one with runoff 4, one with runoff −1 (a lake that evaporates): the unit has runoff, the raw factors are
1 − 3/5 and 1 + 3/5 and are limited to 0.5 and 1.5. -/
example : cs3 [0, 1] (fun i : ℕ => if i = 0 then some 4 else some (-1)) 6 3 (fun _ => some 1) 0 = some 0.5 ∧
    cs3 [0, 1] (fun i : ℕ => if i = 0 then some 4 else some (-1)) 6 3 (fun _ => some 1) 1 = some 1.5 ∧
    cs3 [0, 1] (fun i : ℕ => if i = 0 then some 4 else some (-1)) 6 3 (fun _ => some 1) 2 = some 1 ∧
    ∃ j ∈ [0, 1], ∃ r : ℝ, (fun i : ℕ => if i = 0 then some 4 else some (-1)) j = some r ∧ r ≠ 0 := by
  refine ⟨?_, ?_, ?_, 0, by simp, 4, by simp, by norm_num⟩ <;>
    (norm_num [cs3, limitCfa, rawCfa, absSum, signOf])

example : cs3 [0] (fun _ : ℕ => some 0) 6 3 (fun _ => some 1) 0 = none :=
  C41_violated_no_runoff [0] _ 6 3 _ 0 (by simp) (by simp)

/-! ## The four steps (C42) -/

/-- The bias of a run with coefficient `g` relative to the observed discharge. -/
noncomputable def bias (sim : ℝ → ℝ) (obs g : ℝ) : ℝ := |(sim g - obs) / obs|

theorem optimise_cases (sim : ℝ → ℝ) (obs : ℝ) (tries : List ℝ) (s : CalState) :
    ((∃ g ∈ tries, bias sim obs g < 0.01) → (optimise sim obs tries s).status = 1 ∧
      (optimise sim obs tries s).gamma ∈ tries ∧ bias sim obs (optimise sim obs tries s).gamma < 0.01) ∧
    ((∀ g ∈ tries, ¬ bias sim obs g < 0.01) → (optimise sim obs tries s).status = s.status ∧
      ((optimise sim obs tries s).gamma = s.gamma ∨ (optimise sim obs tries s).gamma ∈ tries)) := by
  induction tries generalizing s with
  | nil => simp [optimise]
  | cons g rest ih =>
    by_cases hg : |(sim g - obs) / obs| < 0.01
    · constructor
      · intro _
        simp only [optimise, if_pos hg, cs1]
        exact ⟨trivial, by simp, hg⟩
      · intro h; exact absurd hg (h g (by simp))
    · have e : optimise sim obs (g :: rest) s = optimise sim obs rest (cs1 sim obs g s) := by
        simp only [optimise, if_neg hg]
      rw [e]
      obtain ⟨h1, h2⟩ := ih (cs1 sim obs g s)
      constructor
      · rintro ⟨x, hx, hb⟩
        rcases List.mem_cons.1 hx with rfl | hx
        · exact absurd hb hg
        · obtain ⟨a, b, c⟩ := h1 ⟨x, hx, hb⟩
          exact ⟨a, List.mem_cons_of_mem _ b, c⟩
      · intro h
        obtain ⟨a, b⟩ := h2 (fun x hx => h x (List.mem_cons_of_mem _ hx))
        refine ⟨by rw [a]; simp only [cs1, if_neg hg], ?_⟩
        rcases b with b | b
        · right; rw [b]; simp [cs1]
        · right; exact List.mem_cons_of_mem _ b

/-- The three ways the check of the bounds ends. -/
theorem checkBounds_cases (sim : ℝ → ℝ) (obs g0 : ℝ) :
    let r := checkBounds sim obs g0 { status := 0, gamma := 0, sim := 0 }
    (obs < sim g0 ∧ obs < sim 5 ∧ r.1.status = 2 ∧ r.1.gamma = 5 ∧ r.1.sim = sim 5) ∨
    (sim g0 ≤ obs ∧ sim 0.1 < obs ∧ r.1.status = 2 ∧ r.1.gamma = 0.1 ∧ r.1.sim = sim 0.1) ∨
    (r.1.status ≤ 1 ∧ (r.1.gamma = 5 ∨ r.1.gamma = 0.1) ∧
      ((obs < sim g0 ∧ sim 5 ≤ obs) ∨ (sim g0 ≤ obs ∧ obs ≤ sim 0.1)) ∧
      (r.1.status = 1 ↔ bias sim obs g0 < 0.01 ∨ bias sim obs r.1.gamma < 0.01)) := by
  intro r
  by_cases h0 : sim g0 - obs > 0
  · by_cases h5 : sim 5 - obs > 0
    · left
      have hr : r = checkBounds sim obs g0 { status := 0, gamma := 0, sim := 0 } := rfl
      simp only [checkBounds, cs1, if_pos h0, if_pos h5] at hr
      rw [hr]
      exact ⟨by linarith, by linarith, rfl, rfl, rfl⟩
    · right; right
      have hr : r = checkBounds sim obs g0 { status := 0, gamma := 0, sim := 0 } := rfl
      simp only [checkBounds, cs1, if_pos h0, if_neg h5] at hr
      rw [hr]
      refine ⟨?_, Or.inl rfl, Or.inl ⟨by linarith, by linarith⟩, ?_⟩
      · simp only; split_ifs <;> simp
      · simp only [bias]
        by_cases a : |(sim 5 - obs) / obs| < 0.01 <;> by_cases b : |(sim g0 - obs) / obs| < 0.01 <;>
          simp only [a, b, if_true, if_false] <;> simp
  · by_cases h1 : sim 0.1 - obs < 0
    · right; left
      have hr : r = checkBounds sim obs g0 { status := 0, gamma := 0, sim := 0 } := rfl
      simp only [checkBounds, cs1, if_neg h0, if_pos h1] at hr
      rw [hr]
      exact ⟨by linarith, by linarith, rfl, rfl, rfl⟩
    · right; right
      have hr : r = checkBounds sim obs g0 { status := 0, gamma := 0, sim := 0 } := rfl
      simp only [checkBounds, cs1, if_neg h0, if_neg h1] at hr
      rw [hr]
      refine ⟨?_, Or.inr rfl, Or.inr ⟨by linarith, by linarith⟩, ?_⟩
      · simp only; split_ifs <;> simp
      · simp only [bias]
        by_cases a : |(sim 0.1 - obs) / obs| < 0.01 <;> by_cases b : |(sim g0 - obs) / obs| < 0.01 <;>
          simp only [a, b, if_true, if_false] <;> simp

/-- Everything a calibration can end with. -/
theorem calibrate_cases (sim : ℝ → ℝ) (obs g0 : ℝ) (tries : List ℝ) (sim4 : ℝ) :
    let r := calibrate sim obs g0 tries sim4
    -- the optimiser ran
    (r.state.status ≤ 1 ∧ r.cfaWritten = false ∧ r.cfs = none ∧
      (r.state.gamma = 5 ∨ r.state.gamma = 0.1 ∨ r.state.gamma ∈ tries) ∧
      ((∃ g ∈ tries, bias sim obs g < 0.01) → r.state.status = 1 ∧ r.state.gamma ∈ tries ∧
        bias sim obs r.state.gamma < 0.01)) ∨
    -- a bound
    (((r.state.gamma = 5 ∧ obs < sim g0 ∧ obs < sim 5) ∨ (r.state.gamma = 0.1 ∧ sim g0 ≤ obs ∧ sim 0.1 < obs)) ∧
      ((r.state.status = 2 ∧ r.cfaWritten = false ∧ r.cfs = none ∧ obs * 0.9 ≤ sim r.state.gamma ∧
          sim r.state.gamma ≤ obs * 1.1) ∨
       (¬ (obs * 0.9 ≤ sim r.state.gamma ∧ sim r.state.gamma ≤ obs * 1.1) ∧ r.cfaWritten = true ∧
          (let c := adapted obs r.state.gamma / sim4
           let cfs := if (1 < c ∧ c < 1.01) ∨ (0.99 < c ∧ c < 1) then 1 else c
           (r.state.status = if cfs > 1 ∨ cfs < 1 then 4 else 3) ∧
           (r.cfs = if cfs > 1 ∨ cfs < 1 then some cfs else none))))) := by
  intro r
  have hr : r = calibrate sim obs g0 tries sim4 := rfl
  have tail : ∀ b : CalState, b.status = 2 → b.sim = sim b.gamma →
      checkBounds sim obs g0 { status := 0, gamma := 0, sim := 0 } = (b, (checkBounds sim obs g0 { status := 0, gamma := 0, sim := 0 }).2) →
      r.state.gamma = b.gamma ∧ ((r.state.status = 2 ∧ r.cfaWritten = false ∧ r.cfs = none ∧ obs * 0.9 ≤ sim b.gamma ∧
          sim b.gamma ≤ obs * 1.1) ∨
       (¬ (obs * 0.9 ≤ sim b.gamma ∧ sim b.gamma ≤ obs * 1.1) ∧ r.cfaWritten = true ∧
          (let c := adapted obs b.gamma / sim4
           let cfs := if (1 < c ∧ c < 1.01) ∨ (0.99 < c ∧ c < 1) then 1 else c
           (r.state.status = if cfs > 1 ∨ cfs < 1 then 4 else 3) ∧
           (r.cfs = if cfs > 1 ∨ cfs < 1 then some cfs else none)))) := by
    intro b hb hs hcb
    have h2 : ¬ (b.status ≠ 2) := by simp [hb]
    rw [hr]
    simp only [calibrate]
    rw [hcb]
    simp only [if_neg h2]
    by_cases hin : obs * 0.9 ≤ sim b.gamma ∧ sim b.gamma ≤ obs * 1.1
    · have e : cs2 obs b = b := by simp only [cs2, if_pos hb, hs, if_pos hin]
      have h3 : ¬ (b.status = 3) := by simp [hb]
      rw [e]
      simp only [if_neg h3]
      exact ⟨trivial, Or.inl ⟨hb, trivial, trivial, hin⟩⟩
    · have e : cs2 obs b = { b with status := 3 } := by simp only [cs2, if_pos hb, hs, if_neg hin]
      rw [e]
      simp only [cs4, if_true]
      refine ⟨trivial, Or.inr ⟨hin, trivial, trivial, ?_⟩⟩
      by_cases hc : (if (1 < adapted obs b.gamma / sim4 ∧ adapted obs b.gamma / sim4 < 1.01) ∨
          (0.99 < adapted obs b.gamma / sim4 ∧ adapted obs b.gamma / sim4 < 1) then 1 else adapted obs b.gamma / sim4) > 1 ∨
          (if (1 < adapted obs b.gamma / sim4 ∧ adapted obs b.gamma / sim4 < 1.01) ∨
          (0.99 < adapted obs b.gamma / sim4 ∧ adapted obs b.gamma / sim4 < 1) then 1 else adapted obs b.gamma / sim4) < 1
      · simp only [if_pos hc, if_true]
      · simp only [if_neg hc]; simp
  rcases checkBounds_cases sim obs g0 with h | h | h
  · obtain ⟨a, b, c, d, e⟩ := h
    right
    obtain ⟨hg, ht⟩ := tail _ c (by rw [e, d]) rfl
    rw [hg]
    exact ⟨Or.inl ⟨d, a, b⟩, ht⟩
  · obtain ⟨a, b, c, d, e⟩ := h
    right
    obtain ⟨hg, ht⟩ := tail _ c (by rw [e, d]) rfl
    rw [hg]
    exact ⟨Or.inr ⟨d, a, b⟩, ht⟩
  · obtain ⟨a, b, c, d⟩ := h
    left
    have hne : (checkBounds sim obs g0 { status := 0, gamma := 0, sim := 0 }).1.status ≠ 2 := by omega
    have e : r = { state := optimise sim obs tries (checkBounds sim obs g0 { status := 0, gamma := 0, sim := 0 }).1,
                   cfaWritten := false, cfs := none } := by
      rw [hr]; simp only [calibrate, if_pos hne]
    rw [e]
    obtain ⟨o1, o2⟩ := optimise_cases sim obs tries (checkBounds sim obs g0 { status := 0, gamma := 0, sim := 0 }).1
    by_cases hx : ∃ g ∈ tries, bias sim obs g < 0.01
    · obtain ⟨x, y, z⟩ := o1 hx
      exact ⟨by simp [x], rfl, rfl, Or.inr (Or.inr y), fun _ => ⟨x, y, z⟩⟩
    · push Not at hx
      obtain ⟨x, y⟩ := o2 (fun g hg => not_lt.2 (hx g hg))
      refine ⟨by simp only [x]; exact a, rfl, rfl, ?_, fun ⟨g, hg, hb⟩ => absurd hb (not_lt.2 (hx g hg))⟩
      rcases y with y | y
      · simp only [y]; rcases b with b | b <;> simp [b]
      · exact Or.inr (Or.inr y)

/-- **C42.**  Whatever the simulated discharges are: if the first guess and the coefficients tried by the optimiser are
in [0.1, 5], so is the coefficient the calibration leaves behind. -/
theorem C42_gamma_range (sim : ℝ → ℝ) (obs g0 : ℝ) (tries : List ℝ) (sim4 : ℝ)
    (ht : ∀ g ∈ tries, 0.1 ≤ g ∧ g ≤ 5) :
    0.1 ≤ (calibrate sim obs g0 tries sim4).state.gamma ∧ (calibrate sim obs g0 tries sim4).state.gamma ≤ 5 := by
  rcases calibrate_cases sim obs g0 tries sim4 with h | h
  · rcases h.2.2.2.1 with e | e | e
    · rw [e]; norm_num
    · rw [e]; norm_num
    · exact ht _ e
  · rcases h.1 with ⟨e, -⟩ | ⟨e, -⟩ <;> rw [e] <;> norm_num

/-- **C42.**  Status 2, 3 or 4 is reported only if the coefficient is at a bound that still does not reach the observed
discharge: 5 with too much simulated discharge, 0.1 with too little. -/
theorem C42_bound (sim : ℝ → ℝ) (obs g0 : ℝ) (tries : List ℝ) (sim4 : ℝ)
    (hst : 2 ≤ (calibrate sim obs g0 tries sim4).state.status) :
    let g := (calibrate sim obs g0 tries sim4).state.gamma
    (g = 5 ∧ obs < sim 5 ∧ obs < sim g0) ∨ (g = 0.1 ∧ sim 0.1 < obs ∧ sim g0 ≤ obs) := by
  intro g
  rcases calibrate_cases sim obs g0 tries sim4 with h | h
  · have := h.1; omega
  · rcases h.1 with ⟨a, b, c⟩ | ⟨a, b, c⟩
    · exact Or.inl ⟨a, c, b⟩
    · exact Or.inr ⟨a, c, b⟩

/-- **C42.**  Status 2: the simulated discharge is within 10 % of the observed one and no correction factor is written.
Conversely, at a bound outside the 10 % the areal factors are written. -/
theorem C42_ten_percent (sim : ℝ → ℝ) (obs g0 : ℝ) (tries : List ℝ) (sim4 : ℝ) :
    let r := calibrate sim obs g0 tries sim4
    (r.state.status = 2 → 0.9 * obs ≤ sim r.state.gamma ∧ sim r.state.gamma ≤ 1.1 * obs ∧ r.cfaWritten = false ∧
      r.cfs = none) ∧
    (r.cfaWritten = true ↔ 3 ≤ r.state.status) ∧
    (3 ≤ r.state.status → ¬ (0.9 * obs ≤ sim r.state.gamma ∧ sim r.state.gamma ≤ 1.1 * obs)) := by
  intro r
  rcases calibrate_cases sim obs g0 tries sim4 with h | h
  · obtain ⟨a, b, c, -⟩ := h
    change r.state.status ≤ 1 at a
    change r.cfaWritten = false at b
    refine ⟨fun h => by omega, ?_, fun h => by omega⟩
    rw [b]
    constructor
    · intro h; cases h
    · intro h; omega
  · obtain ⟨-, h | h⟩ := h
    · obtain ⟨a, b, c, d, e⟩ := h
      change r.state.status = 2 at a
      change r.cfaWritten = false at b
      refine ⟨fun _ => ⟨by linarith, by linarith, b, c⟩, ?_, fun h => by omega⟩
      rw [b]
      constructor
      · intro h; cases h
      · intro h; omega
    · obtain ⟨a, b, c, d⟩ := h
      have hst : 3 ≤ r.state.status := by
        change r.state.status = _ at c
        rw [c]; split_ifs <;> simp
      refine ⟨fun h => by omega, ⟨fun _ => hst, fun _ => b⟩, fun _ hh => a ⟨by linarith [hh.1], by linarith [hh.2]⟩⟩

/-- **C42.**  The discharge aimed at by the factors is 10 % off the observed one on the side of the simulation and lies
strictly between the two, so the correction always goes towards the observation. -/
theorem C42_aim_between (sim : ℝ → ℝ) (obs g0 : ℝ) (tries : List ℝ) (sim4 : ℝ) (_hobs : 0 < obs)
    (hst : 3 ≤ (calibrate sim obs g0 tries sim4).state.status) :
    let g := (calibrate sim obs g0 tries sim4).state.gamma
    (sim g < adapted obs g ∧ adapted obs g = 0.9 * obs ∧ g = 0.1) ∨
      (adapted obs g < sim g ∧ adapted obs g = 1.1 * obs ∧ g = 5) := by
  intro g
  have h10 := (C42_ten_percent sim obs g0 tries sim4).2.2 hst
  rcases C42_bound sim obs g0 tries sim4 (by omega) with ⟨a, b, -⟩ | ⟨a, b, -⟩
  · right
    change g = 5 at a
    change ¬ (0.9 * obs ≤ sim g ∧ sim g ≤ 1.1 * obs) at h10
    have e : adapted obs g = 1.1 * obs := by
      rw [a]; norm_num [adapted]; ring
    refine ⟨?_, e, a⟩
    rw [e]
    by_contra hc; push Not at hc
    apply h10
    rw [a] at hc ⊢
    exact ⟨by linarith, hc⟩
  · left
    change g = 0.1 at a
    change ¬ (0.9 * obs ≤ sim g ∧ sim g ≤ 1.1 * obs) at h10
    have e : adapted obs g = 0.9 * obs := by
      rw [a]; simp only [adapted, if_true]; ring
    refine ⟨?_, e, a⟩
    rw [e]
    by_contra hc; push Not at hc
    apply h10
    rw [a] at hc ⊢
    exact ⟨hc, by linarith⟩

/-- **C42.**  A station factor is written exactly in status 4; multiplied by the simulated discharge it gives the
discharge aimed at, and it is at least 1 % away from 1. -/
theorem C42_station_factor (sim : ℝ → ℝ) (obs g0 : ℝ) (tries : List ℝ) (sim4 : ℝ) (h4 : 0 < sim4) :
    let r := calibrate sim obs g0 tries sim4
    (r.state.status = 4 ↔ r.cfs ≠ none) ∧
    (∀ c, r.cfs = some c → c * sim4 = adapted obs r.state.gamma ∧ (c ≤ 0.99 ∨ 1.01 ≤ c)) ∧
    (r.state.status = 3 → |adapted obs r.state.gamma / sim4 - 1| < 0.01) ∧ r.state.status ≤ 4 := by
  intro r
  rcases calibrate_cases sim obs g0 tries sim4 with h | h
  · obtain ⟨a, b, c, -⟩ := h
    change r.state.status ≤ 1 at a
    change r.cfs = none at c
    refine ⟨?_, ?_, fun h => by omega, by omega⟩
    · rw [c]; constructor
      · intro h; omega
      · intro h; exact absurd rfl h
    · intro x hx; rw [c] at hx; cases hx
  · obtain ⟨-, h | h⟩ := h
    · obtain ⟨a, b, c, -⟩ := h
      change r.state.status = 2 at a
      change r.cfs = none at c
      refine ⟨?_, ?_, fun h => by omega, by omega⟩
      · rw [c]; constructor
        · intro h; omega
        · intro h; exact absurd rfl h
      · intro x hx; rw [c] at hx; cases hx
    · obtain ⟨a, b, c, d⟩ := h
      change r.state.status = _ at c
      change r.cfs = _ at d
      change _ = if (if (1 < adapted obs r.state.gamma / sim4 ∧ _) ∨ _ then (1:ℝ) else _) > 1 ∨ _ then 4 else 3 at c
      change _ = if (if (1 < adapted obs r.state.gamma / sim4 ∧ _) ∨ _ then (1:ℝ) else _) > 1 ∨ _ then _ else none at d
      obtain ⟨q, hq⟩ : ∃ q, q = adapted obs r.state.gamma / sim4 := ⟨_, rfl⟩
      have hqm : q * sim4 = adapted obs r.state.gamma := by rw [hq]; field_simp
      rw [← hq] at c d ⊢
      by_cases hn : (1 < q ∧ q < 1.01) ∨ (0.99 < q ∧ q < 1)
      · simp only [if_pos hn] at c d
        simp only [gt_iff_lt, lt_irrefl, or_self, if_false] at c d
        refine ⟨?_, ?_, ?_, by omega⟩
        · rw [c, d]; simp
        · intro x hx; rw [d] at hx; cases hx
        · intro _; rw [abs_lt]; rcases hn with hn | hn <;> constructor <;> linarith [hn.1, hn.2]
      · simp only [if_neg hn] at c d
        by_cases h1 : q > 1 ∨ q < 1
        · rw [if_pos h1] at c d
          refine ⟨?_, ?_, fun h => by omega, by omega⟩
          · rw [c, d]; simp
          · intro x hx
            rw [d] at hx
            obtain rfl := Option.some.inj hx
            refine ⟨hqm, ?_⟩
            by_contra hc; push Not at hc
            apply hn
            rcases h1 with h1 | h1
            · exact Or.inl ⟨h1, hc.2⟩
            · exact Or.inr ⟨hc.1, h1⟩
        · rw [if_neg h1] at c d
          push Not at h1
          have : q = 1 := le_antisymm h1.1 h1.2
          refine ⟨?_, ?_, ?_, by omega⟩
          · rw [c, d]; simp
          · intro x hx; rw [d] at hx; cases hx
          · intro _; rw [this]; norm_num

/-- **C42.**  If one of the coefficients the optimiser tries has a bias below 1 % the calibration ends with status 1
and with such a coefficient, unless it was decided at a bound. -/
theorem C42_one_percent (sim : ℝ → ℝ) (obs g0 : ℝ) (tries : List ℝ) (sim4 : ℝ)
    (hst : (calibrate sim obs g0 tries sim4).state.status < 2) (hit : ∃ g ∈ tries, bias sim obs g < 0.01) :
    (calibrate sim obs g0 tries sim4).state.status = 1 ∧
      bias sim obs (calibrate sim obs g0 tries sim4).state.gamma < 0.01 := by
  rcases calibrate_cases sim obs g0 tries sim4 with h | h
  · exact ⟨(h.2.2.2.2 hit).1, (h.2.2.2.2 hit).2.2⟩
  · exfalso
    obtain ⟨-, h | h⟩ := h
    · have := h.1; omega
    · obtain ⟨-, -, c, -⟩ := h
      change _ = if _ then 4 else 3 at c
      rw [c] at hst
      split_ifs at hst <;> omega

/-- **C42 violated.**  Status 1 is set by the check of the bounds and kept when the optimiser fails: the calibration
reports success although the coefficient written has a bias of 30 %; the first guess, with a bias of 0.5 %, is lost. -/
theorem C42_violated_status_one :
    ∃ (sim : ℝ → ℝ) (tries : List ℝ), (∀ g ∈ tries, 2 ≤ g ∧ g ≤ 5) ∧ (∀ x y, x ≤ y → sim y ≤ sim x) ∧
      bias sim 100 2 < 0.01 ∧ (calibrate sim 100 2 tries 0).state.status = 1 ∧
      bias sim 100 (calibrate sim 100 2 tries 0).state.gamma > 0.2 := by
  refine ⟨fun g => 140.5 - 20 * g, [3.5], ?_, ?_, ?_, ?_, ?_⟩
  · intro g hg; simp only [List.mem_singleton] at hg; subst hg; norm_num
  · intro x y h; simp only; linarith
  · norm_num [bias, abs_lt]
  · norm_num [calibrate, checkBounds, cs1, optimise, abs_lt]
  · norm_num [bias, calibrate, checkBounds, cs1, optimise, abs_lt, lt_abs]

/-- **C42 violated.**  If no try is within 1 % the calibration ends with the last coefficient tried, not with the best
one: status 0, and a bias of 40 % although a coefficient with a bias of 2 % was tried. -/
theorem C42_violated_not_best :
    ∃ (sim : ℝ → ℝ) (tries : List ℝ), (∀ g ∈ tries, 2 ≤ g ∧ g ≤ 5) ∧ (∀ x y, x ≤ y → sim y ≤ sim x) ∧
      (∃ g ∈ tries, bias sim 100 g ≤ 0.02) ∧ (calibrate sim 100 2 tries 0).state.status = 0 ∧
      bias sim 100 (calibrate sim 100 2 tries 0).state.gamma ≥ 0.35 := by
  refine ⟨fun g => 189.5 - 25 * g, [3.5, 5], ?_, ?_, ⟨3.5, by simp, ?_⟩, ?_, ?_⟩
  · intro g hg; simp only [List.mem_cons, List.not_mem_nil, or_false] at hg; rcases hg with rfl | rfl <;> norm_num
  · intro x y h; simp only; linarith
  · norm_num [bias, abs_le]
  · norm_num [calibrate, checkBounds, cs1, optimise, abs_lt]
  · norm_num [bias, calibrate, checkBounds, cs1, optimise, abs_lt, le_abs]

/-- A station that ends in status 4: too dry even with the smallest coefficient. -/
example : (calibrate (fun g => 50 - g) 100 2 [] 60).state.status = 4 ∧
    (calibrate (fun g => 50 - g) 100 2 [] 60).state.gamma = 0.1 ∧
    (calibrate (fun g => 50 - g) 100 2 [] 60).cfs = some 1.5 := by
  norm_num [calibrate, checkBounds, cs1, cs2, cs4, adapted]

/-- A station that ends in status 2, and one in which the optimiser finds a coefficient. -/
example : (calibrate (fun g => 110 - g) 100 2 [] 60).state.status = 2 ∧
    (calibrate (fun g => 110 - 4 * g) 100 2 [3.5, 2.5] 60).state.status = 1 ∧
    (calibrate (fun g => 110 - 4 * g) 100 2 [3.5, 2.5] 60).state.gamma = 2.5 := by
  norm_num [calibrate, checkBounds, cs1, cs2, cs4, adapted, optimise, abs_lt]

/-! ## Calibration units (C45) -/

/-- The cell ids in an array. -/
def idsOf (a : ι → Option ℤ) : Set ℤ := {v | ∃ p, a p = some v}

theorem foldl_removeCommon (done : List (ι → Option ℤ)) (a : ι → Option ℤ) (p : ι) (v : ℤ) :
    done.foldl removeCommon a p = some v ↔ a p = some v ∧ ∀ b ∈ done, v ∉ idsOf b := by
  induction done generalizing a with
  | nil => simp
  | cons b rest ih =>
    rw [List.foldl_cons, ih]
    have h1 : removeCommon a b p = some v ↔ a p = some v ∧ v ∉ idsOf b := by
      unfold removeCommon
      cases hp : a p with
      | none => simp
      | some w =>
        simp only
        by_cases hw : ∃ q, b q = some w
        · rw [if_pos hw]
          constructor
          · intro h; cases h
          · rintro ⟨h, hn⟩; obtain rfl := Option.some.inj h; exact absurd hw hn
        · rw [if_neg hw]
          constructor
          · intro h; obtain rfl := Option.some.inj h; exact ⟨rfl, hw⟩
          · rintro ⟨h, -⟩; exact h
    rw [h1]
    simp only [List.forall_mem_cons]
    tauto

theorem reduceAll_spec (as done : List (ι → Option ℤ)) :
    ∃ L : List (ι → Option ℤ), reduceAll done as = done ++ L ∧ L.length = as.length ∧
      ∀ i (h : i < as.length) (h' : i < L.length) p v,
        L[i] p = some v ↔ as[i] p = some v ∧ (∀ b ∈ done, v ∉ idsOf b) ∧ ∀ j (hj : j < i), v ∉ idsOf (as[j]) := by
  induction as generalizing done with
  | nil => exact ⟨[], by simp [reduceAll], rfl, fun i h => by simp at h⟩
  | cons a rest ih =>
    obtain ⟨L, e, hlen, hL⟩ := ih (done ++ [done.foldl removeCommon a])
    refine ⟨done.foldl removeCommon a :: L, ?_, by simp [hlen], ?_⟩
    · rw [reduceAll, e]; simp
    · intro i h h' p v
      cases i with
      | zero =>
        simp only [List.getElem_cons_zero]
        rw [foldl_removeCommon]
        simp
      | succ i =>
        simp only [List.getElem_cons_succ]
        have hi : i < rest.length := by simpa using h
        rw [hL i hi (by rw [hlen]; exact hi)]
        have hids : (∀ b ∈ done, v ∉ idsOf b) → (v ∉ idsOf (done.foldl removeCommon a) ↔ v ∉ idsOf a) := by
          intro hd
          constructor
          · rintro h ⟨q, hq⟩; exact h ⟨q, (foldl_removeCommon done a q v).2 ⟨hq, hd⟩⟩
          · rintro h ⟨q, hq⟩; exact h ⟨q, ((foldl_removeCommon done a q v).1 hq).1⟩
        constructor
        · rintro ⟨h1, h2, h3⟩
          have hd : ∀ b ∈ done, v ∉ idsOf b := fun b hb => h2 b (List.mem_append_left _ hb)
          refine ⟨h1, hd, ?_⟩
          intro j hj
          cases j with
          | zero => exact (hids hd).1 (h2 _ (by simp))
          | succ j => exact h3 j (by omega)
        · rintro ⟨h1, hd, h3⟩
          refine ⟨h1, ?_, fun j hj => h3 (j + 1) (by omega)⟩
          intro b hb
          rcases List.mem_append.1 hb with hb | hb
          · exact hd b hb
          · rw [List.mem_singleton.1 hb]
            exact (hids hd).2 (h3 0 (by omega))

/-- **C45.**  The calibration units of a sequence of stations: each unit is the upstream basin of its station without
every cell upstream of an earlier station. -/
theorem C45_units (basins : List (ι → Option ℤ)) :
    (reduceAll [] basins).length = basins.length ∧
    ∀ i (h : i < basins.length) (h' : i < (reduceAll [] basins).length) p v,
      (reduceAll [] basins)[i] p = some v ↔ basins[i] p = some v ∧ ∀ j (hj : j < i), v ∉ idsOf (basins[j]) := by
  obtain ⟨L, e, hlen, hL⟩ := reduceAll_spec basins []
  simp only [List.nil_append] at e
  rw [e]
  refine ⟨hlen, ?_⟩
  intro i h h' p v
  rw [hL i h h' p v]
  simp

/-- **C45.**  Every cell belongs to at most one unit, and to one exactly if it is upstream of some station. -/
theorem C45_partition (basins : List (ι → Option ℤ)) (v : ℤ) :
    (∀ i j (hi : i < (reduceAll [] basins).length) (hj : j < (reduceAll [] basins).length),
      v ∈ idsOf (reduceAll [] basins)[i] → v ∈ idsOf (reduceAll [] basins)[j] → i = j) ∧
    ((∃ u ∈ reduceAll [] basins, v ∈ idsOf u) ↔ ∃ b ∈ basins, v ∈ idsOf b) := by
  obtain ⟨hlen, hU⟩ := C45_units basins
  constructor
  · intro i j hi hj
    rintro ⟨p, hp⟩ ⟨q, hq⟩
    rw [hU i (by omega) hi] at hp
    rw [hU j (by omega) hj] at hq
    rcases lt_trichotomy i j with h | h | h
    · exact absurd ⟨p, hp.1⟩ (hq.2 i h)
    · exact h
    · exact absurd ⟨q, hq.1⟩ (hp.2 j h)
  · constructor
    · rintro ⟨u, hu, p, hp⟩
      obtain ⟨i, hi, rfl⟩ := List.getElem_of_mem hu
      rw [hU i (by omega) hi] at hp
      exact ⟨_, List.getElem_mem (by omega), p, hp.1⟩
    · rintro ⟨b, hb, p, hp⟩
      obtain ⟨i, hi, rfl⟩ := List.getElem_of_mem hb
      -- the first station the cell is upstream of
      classical
      have hex : ∃ n, ∃ hn : n < basins.length, v ∈ idsOf (basins[n]) := ⟨i, hi, p, hp⟩
      obtain ⟨hn, q, hq⟩ := Nat.find_spec hex
      refine ⟨(reduceAll [] basins)[Nat.find hex]'(by omega), List.getElem_mem _, q, ?_⟩
      rw [hU _ hn]
      refine ⟨hq, fun j hj hv => Nat.find_min hex hj ⟨by omega, hv⟩⟩

/-- **C45.**  A station calibrated for the first time gets its own basin without all cells of the stations calibrated
before, and is added to the file. -/
theorem C45_new_station (file : List (String × (ι → Option ℤ))) (station : String) (basin : ι → Option ℤ)
    (hnew : ∀ e ∈ file, e.1 ≠ station) :
    ∃ u, (calibUnit file station basin).2 = some u ∧
      (∀ p v, u p = some v ↔ basin p = some v ∧ ∀ e ∈ file, v ∉ idsOf e.2) ∧
      (calibUnit file station basin).1 = file ++ [(station, basin)] := by
  have hany : file.any (fun e => e.1 == station) = false := by
    rw [List.any_eq_false]
    intro e he
    simp only [beq_iff_eq]
    exact hnew e he
  have hd : insertStation file station basin = file ++ [(station, basin)] := by
    simp only [insertStation, hany]; simp
  have hmap : (file ++ [(station, basin)]).map (·.2) = file.map (·.2) ++ [basin] := by simp
  obtain ⟨hlen, hU⟩ := C45_units (file.map (·.2) ++ [basin])
  have hl : (reduceAll [] (file.map (·.2) ++ [basin])).length = file.length + 1 := by rw [hlen]; simp
  refine ⟨(reduceAll [] (file.map (·.2) ++ [basin]))[file.length]'(by omega), ?_, ?_, hd⟩
  · simp only [calibUnit, hd, hmap]
    have hi : (reduceAll [] (file.map (·.2) ++ [basin])).length - 1 = file.length := by omega
    rw [List.getLast?_eq_getElem?, hi, List.getElem?_eq_getElem (by omega)]
  · intro p v
    rw [hU file.length (by simp)]
    have e1 : (file.map (·.2) ++ [basin])[file.length]'(by simp) = basin := by
      rw [List.getElem_append_right (by simp)]; simp
    rw [e1]
    constructor
    · rintro ⟨h1, h2⟩
      refine ⟨h1, ?_⟩
      intro e he
      obtain ⟨j, hj, rfl⟩ := List.getElem_of_mem he
      have := h2 j hj
      rwa [List.getElem_append_left (by simpa using hj), List.getElem_map] at this
    · rintro ⟨h1, h2⟩
      refine ⟨h1, ?_⟩
      intro j hj
      rw [List.getElem_append_left (by simpa using hj), List.getElem_map]
      exact h2 _ (List.getElem_mem hj)

/-- **C45 violated.**  A station that is calibrated a second time, without the set-up that removes the file, and that is
not the last in it gets the unit of another station: none of the cells of the unit is upstream of it. -/
theorem C45_violated_second_time :
    ∃ (file : List (String × (ℕ → Option ℤ))) (station : String) (basin u : ℕ → Option ℤ),
      (calibUnit file station basin).2 = some u ∧ (∃ e ∈ file, e.1 = station ∧ e.2 = basin) ∧
      (∃ v, v ∈ idsOf u) ∧ ∀ v ∈ idsOf u, v ∉ idsOf basin := by
  let a : ℕ → Option ℤ := fun p => if p = 0 then some 10 else none
  let b : ℕ → Option ℤ := fun p => if p = 0 then some 10 else if p = 1 then some 20 else none
  refine ⟨[("A", a), ("B", b)], "A", a, removeCommon b a, ?_, ⟨("A", a), by simp, rfl, rfl⟩, ⟨20, 1, ?_⟩, ?_⟩
  · have hd : insertStation [("A", a), ("B", b)] "A" a = [("A", a), ("B", b)] := by
      simp [insertStation]
    simp only [calibUnit, hd]
    simp [reduceAll]
  · have h := (foldl_removeCommon [a] b 1 20).2 ⟨by simp [b], by
      intro c hc
      rw [List.mem_singleton.1 hc]
      rintro ⟨q, hq⟩
      simp only [a] at hq
      split_ifs at hq
      simp at hq⟩
    simpa using h
  · rintro v ⟨p, hp⟩
    have h := (foldl_removeCommon [a] b p v).1 (by simpa using hp)
    exact h.2 a (by simp)

/-- Two nested stations: the lower one keeps the cell between the two. -/
example : ∃ u, (calibUnit [("A", fun p : ℕ => if p = 0 then some 10 else none)] "B"
      (fun p => if p = 0 then some 10 else if p = 1 then some 20 else none)).2 = some u ∧
    u 1 = some 20 ∧ u 0 ≠ some 10 := by
  obtain ⟨u, h1, h2, -⟩ := C45_new_station [("A", fun p : ℕ => if p = 0 then some 10 else none)] "B"
    (fun p => if p = 0 then some 10 else if p = 1 then some 20 else none) (by simp)
  refine ⟨u, h1, (h2 1 20).2 ⟨by simp, ?_⟩, ?_⟩
  · intro e he
    rw [List.mem_singleton.1 he]
    rintro ⟨q, hq⟩
    simp only at hq
    split_ifs at hq
    simp at hq
  · intro h
    exact ((h2 0 10).1 h).2 _ (List.mem_singleton_self _) ⟨0, by simp⟩

end WG
