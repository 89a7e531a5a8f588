import Verif.Model.Bankfull
import Verif.Props.Misc

/-!
# Bankfull flow from daily discharge (C77)
-/

namespace WG

/-! ## Maxima -/

theorem foldl_max_ge_init (l : List ℝ) : ∀ a, a ≤ l.foldl max a := by
  induction l with
  | nil => intro a; exact le_refl _
  | cons b l ih => intro a; exact le_trans (le_max_left a b) (ih _)

theorem foldl_max_ge (l : List ℝ) : ∀ a, ∀ x ∈ l, x ≤ l.foldl max a := by
  induction l with
  | nil => intro a x h; simp at h
  | cons b l ih =>
    intro a x h
    rcases List.mem_cons.1 h with rfl | h
    · exact le_trans (le_max_right _ _) (foldl_max_ge_init l _)
    · exact ih _ x h

theorem foldl_max_mem (l : List ℝ) : ∀ a, l.foldl max a ∈ a :: l := by
  induction l with
  | nil => intro a; simp
  | cons b l ih =>
    intro a
    simp only [List.foldl_cons]
    rcases List.mem_cons.1 (ih (max a b)) with h | h
    · rw [h]
      rcases max_choice a b with h | h <;> rw [h] <;> simp
    · exact List.mem_cons_of_mem _ (List.mem_cons_of_mem _ h)

theorem foldl_max_scale (c : ℝ) (hc : 0 ≤ c) (l : List ℝ) :
    ∀ a, (l.map (c * ·)).foldl max (c * a) = c * l.foldl max a := by
  induction l with
  | nil => intro a; rfl
  | cons b l ih =>
    intro a
    simp only [List.map_cons, List.foldl_cons]
    rw [← mul_max_of_nonneg _ _ hc, ih]

/-! ## Statistics of a scaled and of a shifted series -/

theorem amsMean_scale (c : ℝ) (xs : List ℝ) : amsMean (xs.map (c * ·)) = c * amsMean xs := by
  unfold amsMean
  rw [List.length_map, List.sum_map_mul_left, List.map_id', mul_div_assoc]

theorem amsStd_scale (c : ℝ) (hc : 0 ≤ c) (xs : List ℝ) : amsStd (xs.map (c * ·)) = c * amsStd xs := by
  unfold amsStd
  rw [List.length_map, List.map_map, amsMean_scale]
  have e : ((fun x => (x - c * amsMean xs) ^ 2) ∘ fun x => c * x) = fun x => c ^ 2 * (x - amsMean xs) ^ 2 := by
    funext x; simp only [Function.comp]; ring
  rw [e, List.sum_map_mul_left, mul_div_assoc, Real.sqrt_mul (by positivity), Real.sqrt_sq hc]

theorem amsSkew_scale (c : ℝ) (hc : 0 < c) (xs : List ℝ) : amsSkew (xs.map (c * ·)) = amsSkew xs := by
  unfold amsSkew
  simp only
  rw [List.length_map, List.map_map, amsMean_scale, amsStd_scale c hc.le]
  have e : ((fun x => (x - c * amsMean xs) ^ 3) ∘ fun x => c * x) = fun x => c ^ 3 * (x - amsMean xs) ^ 3 := by
    funext x; simp only [Function.comp]; ring
  rw [e, List.sum_map_mul_left]
  have hc3 : c ^ 3 ≠ 0 := by positivity
  by_cases h : amsStd xs ^ 3 = 0
  · rw [if_neg (by rw [mul_pow, h]; simp), if_neg (by simpa using h)]
  · rw [if_pos (by rw [mul_pow]; exact mul_ne_zero hc3 h), if_pos h]
    rw [mul_pow]
    field_simp

theorem sum_map_add_left (a : ℝ) (xs : List ℝ) : (xs.map (a + ·)).sum = xs.length * a + xs.sum := by
  induction xs with
  | nil => simp
  | cons x l ih => simp only [List.map_cons, List.sum_cons, List.length_cons, ih]; push_cast; ring

theorem amsMean_shift (a : ℝ) (xs : List ℝ) (h : xs ≠ []) : amsMean (xs.map (a + ·)) = a + amsMean xs := by
  unfold amsMean
  have : (xs.length : ℝ) ≠ 0 := by
    have := List.length_pos_iff.2 h
    positivity
  rw [List.length_map, sum_map_add_left]
  field_simp

theorem amsStd_shift (a : ℝ) (xs : List ℝ) (h : xs ≠ []) : amsStd (xs.map (a + ·)) = amsStd xs := by
  unfold amsStd
  rw [List.length_map, List.map_map, amsMean_shift a xs h]
  congr 4
  funext x; simp only [Function.comp]; ring

theorem amsSkew_shift (a : ℝ) (xs : List ℝ) (h : xs ≠ []) : amsSkew (xs.map (a + ·)) = amsSkew xs := by
  unfold amsSkew
  simp only
  rw [List.length_map, List.map_map, amsMean_shift a xs h, amsStd_shift a xs h]
  have e : ((fun x => (x - (a + amsMean xs)) ^ 3) ∘ fun x => a + x) = fun x => (x - amsMean xs) ^ 3 := by
    funext x; simp only [Function.comp]; ring
  rw [e]

/-- The logarithms of a scaled positive series. -/
theorem log_scale (c : ℝ) (hc : 0 < c) (xs : List ℝ) (h : ∀ x ∈ xs, 0 < x) :
    (xs.map (c * ·)).map Real.log = (xs.map Real.log).map (Real.log c + ·) := by
  rw [List.map_map, List.map_map]
  apply List.map_congr_left
  intro x hx
  exact Real.log_mul hc.ne' (h x hx).ne'

theorem sum_log (xs : List ℝ) (h : ∀ x ∈ xs, 0 < x) : (xs.map Real.log).sum = Real.log xs.prod := by
  induction xs with
  | nil => simp
  | cons x l ih =>
    have hl : ∀ y ∈ l, 0 < y := fun y hy => h y (List.mem_cons_of_mem _ hy)
    have hp : 0 < l.prod := List.prod_pos hl
    simp only [List.map_cons, List.sum_cons, List.prod_cons]
    rw [ih hl, Real.log_mul (h x List.mem_cons_self).ne' hp.ne']

/-- The log mean is zero exactly when the product of the maxima is one. -/
theorem logMean_ne (xs : List ℝ) (h : ∀ x ∈ xs, 0 < x) (hp : xs.prod ≠ 1) : amsMean (xs.map Real.log) ≠ 0 := by
  unfold amsMean
  rw [sum_log xs h]
  have hpos : 0 < xs.prod := List.prod_pos h
  have hne : xs ≠ [] := by rintro rfl; simp at hp
  have hl : (((xs.map Real.log).length : ℕ) : ℝ) ≠ 0 := by
    rw [List.length_map]
    have := List.length_pos_iff.2 hne
    positivity
  refine div_ne_zero ?_ hl
  exact Real.log_ne_zero_of_pos_of_ne_one hpos hp

theorem varCoeff_scale (c std mean : ℝ) (hc : 0 < c) : varCoeff (c * std) (c * mean) = varCoeff std mean := by
  unfold varCoeff
  by_cases h : mean = 0
  · simp [h]
  · rw [if_pos (mul_ne_zero hc.ne' h), if_pos h]
    field_simp

/-- The bankfull flow of the scaled series, in km³/day. -/
theorem bankfullDay_scale (c : ℝ) (hc : 0 < c) (xs : List ℝ) (h0 : ∀ x ∈ xs, 0 ≤ x)
    (h1 : xs.prod ≠ 1) (h2 : (xs.map (c * ·)).prod ≠ 1) :
    bankfullDay (amsStats (xs.map (c * ·))) = (bankfullDay (amsStats xs)).map (c * ·) := by
  have hne : xs ≠ [] := by rintro rfl; simp at h1
  unfold bankfullDay amsStats
  simp only
  rw [amsStd_scale c hc.le, amsMean_scale, amsSkew_scale c hc, varCoeff_scale c _ _ hc]
  by_cases hs : amsStd xs > 0
  swap
  · rw [if_neg hs, if_neg (by intro h; exact hs (by nlinarith [pos_of_mul_pos_right h hc.le]))]; rfl
  rw [if_pos hs, if_pos (mul_pos hc hs)]
  have harith : (c * amsMean xs * (1 - 2 * varCoeff (amsStd xs) (amsMean xs) / amsSkew xs) < 0) =
      (amsMean xs * (1 - 2 * varCoeff (amsStd xs) (amsMean xs) / amsSkew xs) < 0) := by
    rw [mul_assoc]
    apply propext
    constructor
    · intro h
      by_contra h'
      have := mul_nonneg hc.le (not_lt.1 h')
      linarith
    · intro h
      exact mul_neg_of_pos_of_neg hc h
  by_cases hz : ∀ x ∈ xs, x ≠ 0
  · have hp : ∀ x ∈ xs, 0 < x := fun x hx => lt_of_le_of_ne (h0 x hx) (hz x hx).symm
    have hp' : ∀ x ∈ xs.map (c * ·), 0 < x := by
      intro x hx
      obtain ⟨y, hy, rfl⟩ := List.mem_map.1 hx
      exact mul_pos hc (hp y hy)
    have hz' : ∀ x ∈ xs.map (c * ·), x ≠ 0 := fun x hx => (hp' x hx).ne'
    rw [if_pos hz, if_pos hz']
    have m1 := logMean_ne xs hp h1
    have m2 := logMean_ne _ hp' h2
    rw [log_scale c hc xs hp] at m2 ⊢
    have hne' : xs.map Real.log ≠ [] := by simpa using hne
    rw [amsStd_shift _ _ hne', amsSkew_shift _ _ hne']
    rw [amsMean_shift _ _ hne'] at m2 ⊢
    simp only
    by_cases hk : amsSkew (xs.map Real.log) ≥ 0
    · rw [if_pos hk, if_pos hk]
      simp only [Option.map_some, Option.some.injEq]
      have e : ∀ m s k : ℝ, m ≠ 0 → m * (1 + varCoeff s m * k) = m + s * k := by
        intro m s k hm
        unfold varCoeff
        rw [if_pos hm]; field_simp
      rw [e _ _ _ m1, e _ _ _ m2, add_assoc, Real.exp_add, Real.exp_log hc]
    · rw [if_neg hk, if_neg hk]
      simp only [Option.map_some, Option.some.injEq, harith]
      ring
  · have hz' : ¬ ∀ x ∈ xs.map (c * ·), x ≠ 0 := by
      intro h
      apply hz
      intro x hx hx0
      exact h (c * x) (List.mem_map.2 ⟨x, hx, rfl⟩) (by rw [hx0, mul_zero])
    rw [if_neg hz, if_neg hz']
    simp only [Option.map_some, Option.some.injEq, harith]
    ring

theorem bankfullOut_scale (c : ℝ) (hc : 0 < c) (s t : AmsStats) (h : bankfullDay s = (bankfullDay t).map (c * ·)) :
    bankfullOut s = if bankfullOut t = -9999 then -9999 else c * bankfullOut t := by
  unfold bankfullOut
  simp only
  rw [h]
  have hK : (0 : ℝ) < 1e9 / (24 * 60 * 60) := by norm_num
  generalize (1e9 / (24 * 60 * 60) : ℝ) = K at hK
  cases bankfullDay t with
  | none =>
    simp only [Option.map_none, Option.getD_none]
    have : (-9999 : ℝ) * K < 0 := by linarith
    rw [if_pos this]
    simp
  | some v =>
    simp only [Option.map_some, Option.getD_some]
    by_cases hv : v < 0
    · have h1 : c * v * K < 0 := mul_neg_of_neg_of_pos (mul_neg_of_pos_of_neg hc hv) hK
      have h2 : v * K < 0 := mul_neg_of_neg_of_pos hv hK
      rw [if_pos h1, if_pos h2]
      simp
    · have hv := not_lt.1 hv
      have h1 : 0 ≤ c * v * K := mul_nonneg (mul_nonneg hc.le hv) hK.le
      have h2 : 0 ≤ v * K := mul_nonneg hv hK.le
      rw [if_neg (not_lt.2 h1), if_neg (not_lt.2 h2), if_neg (by intro h; linarith)]
      ring

/-- The daily discharge in another unit. -/
def scaleYears (c : ℝ) (years : List (ℝ × List ℝ)) : List (ℝ × List ℝ) :=
  years.map fun d => (c * d.1, d.2.map (c * ·))

theorem yearMax_scale (c : ℝ) (hc : 0 ≤ c) (years : List (ℝ × List ℝ)) :
    (scaleYears c years).map yearMax = (years.map yearMax).map (c * ·) := by
  unfold scaleYears
  rw [List.map_map, List.map_map]
  apply List.map_congr_left
  intro d _
  exact foldl_max_scale c hc d.2 d.1

/-- **C77.**  The bankfull flow does not depend on the unit of discharge: with all daily flows multiplied by `c` the
result is multiplied by `c` (or missing in both cases), unless the product of the annual maxima is exactly 1 in one of the
units. -/
theorem C77_unit (c : ℝ) (hc : 0 < c) (years : List (ℝ × List ℝ))
    (h0 : ∀ y ∈ years, ∀ d ∈ daysOf y, 0 ≤ d)
    (h1 : (years.map yearMax).prod ≠ 1) (h2 : ((scaleYears c years).map yearMax).prod ≠ 1) :
    bankfullTool (scaleYears c years) =
      (bankfullTool years).map fun v => if v = -9999 then -9999 else c * v := by
  unfold bankfullTool
  have hlen : (scaleYears c years).length = years.length := by simp [scaleYears]
  rw [hlen]
  by_cases hn : ((years.length : ℤ) - 1) * (years.length - 2) = 0
  · rw [if_pos hn, if_pos hn]; rfl
  rw [if_neg hn, if_neg hn]
  simp only [Option.map_some, Option.some.injEq]
  apply bankfullOut_scale c hc
  rw [yearMax_scale c hc.le] at h2 ⊢
  apply bankfullDay_scale c hc _ _ h1 h2
  intro x hx
  obtain ⟨y, hy, rfl⟩ := List.mem_map.1 hx
  exact h0 y hy _ (foldl_max_mem y.2 y.1)

/-! ## The order and the number of the years -/

theorem amsMean_perm {xs ys : List ℝ} (h : xs.Perm ys) : amsMean xs = amsMean ys := by
  unfold amsMean; rw [h.sum_eq, h.length_eq]

theorem amsStd_perm {xs ys : List ℝ} (h : xs.Perm ys) : amsStd xs = amsStd ys := by
  unfold amsStd; rw [amsMean_perm h, (h.map _).sum_eq, h.length_eq]

theorem amsSkew_perm {xs ys : List ℝ} (h : xs.Perm ys) : amsSkew xs = amsSkew ys := by
  unfold amsSkew; rw [amsStd_perm h, amsMean_perm h, (h.map _).sum_eq, h.length_eq]

theorem amsStats_perm {xs ys : List ℝ} (h : xs.Perm ys) : amsStats xs = amsStats ys := by
  unfold amsStats
  rw [amsStd_perm h, amsMean_perm h, amsSkew_perm h, amsMean_perm (h.map Real.log), amsStd_perm (h.map Real.log),
    amsSkew_perm (h.map Real.log)]
  have e : (∀ x ∈ xs, x ≠ 0) = ∀ x ∈ ys, x ≠ 0 := by
    apply propext
    exact ⟨fun g x hx => g x (h.mem_iff.2 hx), fun g x hx => g x (h.mem_iff.1 hx)⟩
  simp only [e]

/-- **C77.**  The order of the years does not matter. -/
theorem C77_order (years years' : List (ℝ × List ℝ)) (h : years.Perm years') :
    bankfullTool years = bankfullTool years' := by
  unfold bankfullTool
  rw [amsStats_perm (h.map yearMax), h.length_eq]

/-- **C77.**  The script ends with an error exactly for a period of one or two years. -/
theorem C77_short (years : List (ℝ × List ℝ)) :
    bankfullTool years = none ↔ years.length = 1 ∨ years.length = 2 := by
  unfold bankfullTool
  constructor
  · intro h
    by_contra hn
    rw [if_neg ?_] at h
    · simp at h
    · intro h0
      rcases mul_eq_zero.1 h0 with h0 | h0 <;> omega
  · intro h
    rw [if_pos]
    rcases h with h | h <;> rw [h] <;> norm_num

/-! ## The flow is reached -/

theorem exists_ge_mean (xs : List ℝ) (h : xs ≠ []) : ∃ x ∈ xs, amsMean xs ≤ x := by
  have hl : (0 : ℝ) < xs.length := by
    have := List.length_pos_iff.2 h
    exact_mod_cast this
  by_contra hn
  push Not at hn
  have key : ∀ (l : List ℝ) (m : ℝ), l ≠ [] → (∀ x ∈ l, x < m) → l.sum < l.length * m := by
    intro l m
    induction l with
    | nil => intro h; exact absurd rfl h
    | cons a l ih =>
      intro _ hx
      have ha := hx a List.mem_cons_self
      by_cases hl : l = []
      · subst hl; simpa using ha
      · have := ih hl (fun x hx' => hx x (List.mem_cons_of_mem _ hx'))
        simp only [List.sum_cons, List.length_cons]
        push_cast
        nlinarith
  have := key xs (amsMean xs) h hn
  have e : (xs.length : ℝ) * amsMean xs = xs.sum := by
    unfold amsMean; field_simp
  linarith

theorem amsStd_nonneg (xs : List ℝ) : 0 ≤ amsStd xs := Real.sqrt_nonneg _

theorem meanShare_le (m s k : ℝ) (hs : 0 ≤ s) (hk : k ≤ 0) : m * (1 + varCoeff s m * k) ≤ m := by
  unfold varCoeff
  split_ifs with h
  · have : m * (1 + s / m * k) = m + s * k := by field_simp
    rw [this]; nlinarith
  · simp

/-- The bankfull flow in km³/day is at most one of the annual maxima. -/
theorem bankfullDay_le (xs : List ℝ) (hne : xs ≠ []) (h0 : ∀ x ∈ xs, 0 ≤ x) (v : ℝ)
    (h : bankfullDay (amsStats xs) = some v) : ∃ x ∈ xs, v ≤ x := by
  have hk : ∀ y, interp y pearsonK ≤ 0 := fun y => le_trans (C49_k_range y).2 (by norm_num)
  obtain ⟨x1, hx1, hm⟩ := exists_ge_mean xs hne
  have arith : ∀ y, ∃ x ∈ xs, amsMean xs * (1 + varCoeff (amsStd xs) (amsMean xs) * interp y pearsonK) ≤ x := fun y =>
    ⟨x1, hx1, le_trans (meanShare_le _ _ _ (amsStd_nonneg xs) (hk y)) hm⟩
  unfold bankfullDay amsStats at h
  simp only at h
  by_cases hs : amsStd xs > 0
  swap
  · rw [if_neg hs] at h; cases h
  rw [if_pos hs] at h
  by_cases hz : ∀ x ∈ xs, x ≠ 0
  · rw [if_pos hz] at h
    simp only at h
    by_cases hl : amsSkew (xs.map Real.log) ≥ 0
    · rw [if_pos hl] at h
      cases h
      obtain ⟨l, hlm, hge⟩ := exists_ge_mean (xs.map Real.log) (by simpa using hne)
      obtain ⟨x, hx, rfl⟩ := List.mem_map.1 hlm
      have hpos : 0 < x := lt_of_le_of_ne (h0 x hx) (hz x hx).symm
      refine ⟨x, hx, ?_⟩
      calc _ ≤ Real.exp (amsMean (xs.map Real.log)) :=
            Real.exp_le_exp.2 (meanShare_le _ _ _ (amsStd_nonneg _) (hk _))
        _ ≤ Real.exp (Real.log x) := Real.exp_le_exp.2 hge
        _ = x := Real.exp_log hpos
    · rw [if_neg hl] at h
      cases h
      exact arith _
  · rw [if_neg hz] at h
    cases h
    exact arith _

/-- **C77.**  The bankfull flow written to the file is reached: it is "no data", or the discharge of some day of the period
is at least as large. -/
theorem C77_reached (years : List (ℝ × List ℝ)) (hne : years ≠ []) (h0 : ∀ y ∈ years, ∀ d ∈ daysOf y, 0 ≤ d) (v : ℝ)
    (h : bankfullTool years = some v) :
    v = -9999 ∨ ∃ y ∈ years, ∃ d ∈ daysOf y, v ≤ d * (1e9 / 86400) := by
  unfold bankfullTool at h
  split_ifs at h with hn
  simp only [Option.some.injEq] at h
  subst h
  unfold bankfullOut
  simp only
  cases hb : bankfullDay (amsStats (years.map yearMax)) with
  | none => left; norm_num
  | some w =>
    simp only [Option.getD_some]
    split_ifs with hneg
    · exact Or.inl rfl
    · right
      obtain ⟨x, hx, hw⟩ := bankfullDay_le (years.map yearMax) (by simpa using hne) (by
        intro x hx
        obtain ⟨y, hy, rfl⟩ := List.mem_map.1 hx
        exact h0 y hy _ (foldl_max_mem y.2 y.1)) w hb
      obtain ⟨y, hy, rfl⟩ := List.mem_map.1 hx
      refine ⟨y, hy, yearMax y, foldl_max_mem y.2 y.1, ?_⟩
      norm_num
      norm_num at hneg
      linarith

/-! ## Findings -/

theorem yearMax_zero (y : ℝ × List ℝ) (h : ∀ d ∈ daysOf y, d = 0) : yearMax y = 0 :=
  h _ (foldl_max_mem y.2 y.1)

theorem one_wet (M : ℝ) (hM : 0 < M) (n : ℕ) (hn : 10 ≤ n) : bankfullOut (amsStats (M :: List.replicate n 0)) = -9999 := by
  have hn' : (10 : ℝ) ≤ n := by exact_mod_cast hn
  have hmean : amsMean (M :: List.replicate n 0) = M / (n + 1) := by
    unfold amsMean
    simp
  have hsum : ((M :: List.replicate n 0).map fun x => (x - amsMean (M :: List.replicate n 0)) ^ 2).sum /
      ((M :: List.replicate n (0 : ℝ)).length : ℝ) = M ^ 2 * n / (n + 1) ^ 2 := by
    rw [hmean]
    simp only [List.map_cons, List.map_replicate, List.sum_cons, List.sum_replicate, List.length_cons,
      List.length_replicate, nsmul_eq_mul]
    push_cast
    have : (n : ℝ) + 1 ≠ 0 := by positivity
    field_simp
    ring
  have hstd : 3.1 * M / (n + 1) ≤ amsStd (M :: List.replicate n 0) := by
    unfold amsStd
    rw [hsum]
    apply Real.le_sqrt_of_sq_le
    rw [div_pow]
    apply div_le_div_of_nonneg_right _ (by positivity)
    have : 0 < M ^ 2 := by positivity
    nlinarith
  have hstd0 : 0 < amsStd (M :: List.replicate n 0) := lt_of_lt_of_le (by positivity) hstd
  have hm0 : 0 < M / ((n : ℝ) + 1) := by positivity
  obtain ⟨v, hv, -, hle⟩ := C49_arithmetic (amsStats (M :: List.replicate n 0)) hstd0 (by
    show 0 < amsMean (M :: List.replicate n 0)
    rw [hmean]; exact hm0) (by
    intro lm ls lk h
    simp only [amsStats] at h
    rw [if_neg ?_] at h
    · cases h
    · intro hz
      refine hz 0 ?_ rfl
      apply List.mem_cons_of_mem
      rw [List.mem_replicate]
      exact ⟨by omega, rfl⟩)
  have hle' : v ≤ amsMean (M :: List.replicate n 0) - 0.3332 * amsStd (M :: List.replicate n 0) := hle
  have hneg : v < 0 := by
    rw [hmean] at hle'
    have e : 3.1 * M / ((n : ℝ) + 1) = 3.1 * (M / (n + 1)) := by ring
    rw [e] at hstd
    norm_num at hle' hstd
    linarith
  unfold bankfullOut
  simp only [hv, Option.getD_some]
  rw [if_pos]
  norm_num
  linarith

/-- **C77 violated.**  A river that carries water in only one year of a period of eleven or more years has no bankfull flow
in the file, however much water it carries in that year. -/
theorem C77_violated_ephemeral (wet : ℝ × List ℝ) (dry years : List (ℝ × List ℝ)) (hw : 0 < yearMax wet)
    (hd : ∀ y ∈ dry, ∀ d ∈ daysOf y, d = 0) (hn : 10 ≤ dry.length) (hp : years.Perm (wet :: dry)) :
    bankfullTool years = some (-9999) := by
  rw [C77_order _ _ hp]
  unfold bankfullTool
  rw [if_neg]
  · congr 1
    have e : (wet :: dry).map yearMax = yearMax wet :: List.replicate dry.length 0 := by
      rw [List.map_cons]
      congr 1
      rw [List.eq_replicate_iff]
      refine ⟨List.length_map _, ?_⟩
      intro b hb
      obtain ⟨y, hy, rfl⟩ := List.mem_map.1 hb
      exact yearMax_zero y (hd y hy)
    rw [e]
    exact one_wet _ hw _ hn
  · intro h
    rw [List.length_cons] at h
    rcases mul_eq_zero.1 h with h | h <;> push_cast at h <;> omega

/-- Three years with the annual maxima 1/e, 1/e and e² km³/day, whose product is one. -/
noncomputable def unitYears : List (ℝ × List ℝ) := [(Real.exp (-1), []), (Real.exp (-1), [0]), (0, [Real.exp 2])]

theorem unitYears_max : unitYears.map yearMax = [Real.exp (-1), Real.exp (-1), Real.exp 2] := by
  simp only [unitYears, yearMax, List.map_cons, List.map_nil, List.foldl_cons, List.foldl_nil]
  rw [max_eq_left (Real.exp_pos _).le, max_eq_right (Real.exp_pos _).le]

theorem unit_log_mean : amsMean [-1, -1, 2] = 0 := by
  unfold amsMean; norm_num

theorem unit_log_std : 0 < amsStd [-1, -1, 2] := by
  unfold amsStd
  rw [unit_log_mean]
  apply Real.sqrt_pos.2
  norm_num

theorem unit_log_skew : 0 ≤ amsSkew [-1, -1, 2] := by
  unfold amsSkew
  simp only
  rw [if_pos (by have := unit_log_std; positivity), unit_log_mean]
  have := unit_log_std
  apply div_nonneg _ (by positivity)
  norm_num

theorem unit_log : (unitYears.map yearMax).map Real.log = [-1, -1, 2] := by
  rw [unitYears_max]
  simp only [List.map_cons, List.map_nil, Real.log_exp]

theorem unit_pos : ∀ x ∈ unitYears.map yearMax, 0 < x := by
  rw [unitYears_max]
  intro x hx
  simp only [List.mem_cons, List.not_mem_nil, or_false] at hx
  rcases hx with rfl | rfl | rfl <;> exact Real.exp_pos _

theorem unit_std : 0 < amsStd (unitYears.map yearMax) := by
  rw [unitYears_max]
  have h : Real.exp (-1) < Real.exp 2 := Real.exp_lt_exp.2 (by norm_num)
  have hm : amsMean [Real.exp (-1), Real.exp (-1), Real.exp 2] = (2 * Real.exp (-1) + Real.exp 2) / 3 := by
    unfold amsMean
    simp only [List.sum_cons, List.sum_nil, List.length_cons, List.length_nil]
    push_cast
    ring
  unfold amsStd
  apply Real.sqrt_pos.2
  simp only [List.map_cons, List.map_nil, List.sum_cons, List.sum_nil, List.length_cons, List.length_nil]
  rw [hm]
  have h1 : 0 < (Real.exp 2 - (2 * Real.exp (-1) + Real.exp 2) / 3) ^ 2 := by
    apply pow_pos; linarith
  have h2 := sq_nonneg (Real.exp (-1) - (2 * Real.exp (-1) + Real.exp 2) / 3)
  apply div_pos
  · linarith
  · norm_num

/-- **C77 violated.**  If the product of the annual maxima is exactly 1 in the unit of the file, the result depends on the
unit: for these three years every other unit gives a smaller bankfull flow. -/
theorem C77_violated_unit (c : ℝ) (hc : 0 < c) (h1 : c ≠ 1) :
    ∃ v w, bankfullTool unitYears = some v ∧ bankfullTool (scaleYears c unitYears) = some w ∧ v = 1e9 / 86400 ∧
      w < c * v := by
  have hv : bankfullDay (amsStats (unitYears.map yearMax)) = some 1 := by
    apply C49_violated_unit_mean _ (amsStd [-1, -1, 2]) (amsSkew [-1, -1, 2]) unit_std _ unit_log_skew
    simp only [amsStats]
    rw [if_pos fun x hx => (unit_pos x hx).ne', unit_log, unit_log_mean]
  have hlog := log_scale c hc _ unit_pos
  rw [unit_log] at hlog
  have hpos : ∀ x ∈ (unitYears.map yearMax).map (c * ·), 0 < x := by
    intro x hx
    obtain ⟨y, hy, rfl⟩ := List.mem_map.1 hx
    exact mul_pos hc (unit_pos y hy)
  have hlc : Real.log c ≠ 0 := Real.log_ne_zero_of_pos_of_ne_one hc h1
  obtain ⟨w, hw, -, hle, -⟩ := C49_logarithmic (amsStats ((unitYears.map yearMax).map (c * ·)))
    (Real.log c) (amsStd [-1, -1, 2]) (amsSkew [-1, -1, 2])
    (by
      show 0 < amsStd _
      rw [amsStd_scale c hc.le]
      exact mul_pos hc unit_std)
    (by
      simp only [amsStats]
      rw [if_pos fun x hx => (hpos x hx).ne', hlog, amsMean_shift _ _ (by simp), amsStd_shift _ _ (by simp),
        amsSkew_shift _ _ (by simp), unit_log_mean, add_zero])
    unit_log_skew unit_log_std hlc
  have hwc : w < c := by
    calc w ≤ _ := hle
      _ < Real.exp (Real.log c) := Real.exp_lt_exp.2 (by have := unit_log_std; norm_num; linarith)
      _ = c := Real.exp_log hc
  have hw0 : 0 < w := by
    have := C49_logarithmic (amsStats ((unitYears.map yearMax).map (c * ·)))
    obtain ⟨w', hw', -, -, h0⟩ := this (Real.log c) (amsStd [-1, -1, 2]) (amsSkew [-1, -1, 2])
      (by
        show 0 < amsStd _
        rw [amsStd_scale c hc.le]
        exact mul_pos hc unit_std)
      (by
        simp only [amsStats]
        rw [if_pos fun x hx => (hpos x hx).ne', hlog, amsMean_shift _ _ (by simp), amsStd_shift _ _ (by simp),
          amsSkew_shift _ _ (by simp), unit_log_mean, add_zero])
      unit_log_skew unit_log_std hlc
    rw [hw] at hw'
    cases hw'
    exact h0
  refine ⟨1e9 / 86400, w * (1e9 / 86400), ?_, ?_, rfl, ?_⟩
  · unfold bankfullTool
    rw [if_neg (by simp [unitYears])]
    congr 1
    unfold bankfullOut
    simp only [hv, Option.getD_some]
    norm_num
  · unfold bankfullTool
    rw [if_neg (by simp [unitYears, scaleYears]), yearMax_scale c hc.le]
    congr 1
    unfold bankfullOut
    simp only [hw, Option.getD_some]
    rw [if_neg (by norm_num; linarith)]
    norm_num
  · norm_num
    linarith

/-! ## The hypotheses can be met -/

/-- Three years, in km³/day and in a unit a hundred times smaller. -/
example : bankfullTool (scaleYears 100 [(1, [3, 2]), (2, []), (0, [5])]) =
    (bankfullTool [(1, [3, 2]), (2, []), (0, [5])]).map fun v => if v = -9999 then -9999 else 100 * v := by
  apply C77_unit 100 (by norm_num)
  · intro y hy d hd
    simp only [List.mem_cons, List.not_mem_nil, or_false] at hy
    rcases hy with rfl | rfl | rfl <;> simp only [daysOf, List.mem_cons, List.not_mem_nil, or_false] at hd
    · rcases hd with rfl | rfl | rfl <;> norm_num
    · rw [hd]; norm_num
    · rcases hd with rfl | rfl <;> norm_num
  · norm_num [yearMax]
  · norm_num [yearMax, scaleYears]

example : bankfullTool [(1, [3, 2]), (2, []), (0, [5])] = bankfullTool [(2, []), (1, [3, 2]), (0, [5])] :=
  C77_order _ _ (List.Perm.swap _ _ _)

example : bankfullTool [(1, [3, 2]), (2, [])] = none := (C77_short _).2 (Or.inr rfl)
example : bankfullTool [(1, [3, 2]), (2, []), (0, [5])] ≠ none := fun h => by
  have := (C77_short _).1 h
  simp at this

/-- A case with a value in the file: it is reached on some day. -/
example : ∃ v, bankfullTool unitYears = some v ∧ v ≠ -9999 ∧ ∃ y ∈ unitYears, ∃ d ∈ daysOf y, v ≤ d * (1e9 / 86400) := by
  obtain ⟨v, w, hv, -, hv1, -⟩ := C77_violated_unit 2 (by norm_num) (by norm_num)
  have hne : v ≠ -9999 := by rw [hv1]; norm_num
  refine ⟨v, hv, hne, ?_⟩
  rcases C77_reached unitYears (by simp [unitYears]) (by
    intro y hy d hd
    simp only [unitYears, List.mem_cons, List.not_mem_nil, or_false] at hy
    rcases hy with rfl | rfl | rfl <;> simp only [daysOf, List.mem_cons, List.not_mem_nil, or_false] at hd
    · rw [hd]; exact (Real.exp_pos _).le
    · rcases hd with rfl | rfl
      · exact (Real.exp_pos _).le
      · exact le_refl _
    · rcases hd with rfl | rfl
      · exact le_refl _
      · exact (Real.exp_pos _).le) v hv with h | h
  · exact absurd h hne
  · exact h

example : bankfullTool ((0, [7]) :: List.replicate 10 (0, [0, 0])) = some (-9999) := by
  apply C77_violated_ephemeral (0, [7]) (List.replicate 10 (0, [0, 0])) _ _ _ (by simp) (List.Perm.refl _)
  · norm_num [yearMax]
  · intro y hy d hd
    rw [(List.mem_replicate.1 hy).2] at hd
    simpa [daysOf] using hd

end WG
