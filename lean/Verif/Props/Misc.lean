import Verif.Props.DryYear4

/-!
# Tools (C44, C49)
-/

namespace WG

/-! ## First month of the operational year (C44) -/

/-- All twelve-month patterns, one by one. -/
theorem forall_year (P : List Bool → Prop) (h : ∀ a b c d e f g i j k l m : Bool, P [a, b, c, d, e, f, g, i, j, k, l, m])
    (dry : List Bool) (hl : dry.length = 12) : P dry := by
  match dry, hl with
  | [a, b, c, d, e, f, g, i, j, k, l, m], _ => exact h a b c d e f g i j k l m

theorem dryStart_spell (dry : List Bool) (hl : dry.length = 12) (h1 : dry.any id = true) (h2 : dry.all id = false) :
    1 ≤ dryStart dry ∧ dryStart dry ≤ 12 ∧ spellStart dry (dryStart dry - 1) = true := by
  revert h1 h2
  refine forall_year (fun dry => dry.any id = true → dry.all id = false →
    1 ≤ dryStart dry ∧ dryStart dry ≤ 12 ∧ spellStart dry (dryStart dry - 1) = true) ?_ dry hl
  intro a b c d
  cases a <;> cases b <;> cases c <;> cases d <;> decide +kernel

set_option maxHeartbeats 0 in
theorem dryStart_longest (dry : List Bool) (hl : dry.length = 12) (h1 : dry.any id = true) (h2 : dry.all id = false)
    (h3 : spellCount dry ≤ 2 ∨ ∃ m < 12, 5 ≤ spellLength dry m) :
    ∀ m < 12, spellLength dry m ≤ spellLength dry (dryStart dry - 1) := by
  revert h1 h2 h3
  refine forall_year (fun dry => dry.any id = true → dry.all id = false →
    (spellCount dry ≤ 2 ∨ ∃ m < 12, 5 ≤ spellLength dry m) → ∀ m < 12, spellLength dry m ≤ spellLength dry (dryStart dry - 1)) ?_ dry hl
  intro a b c d
  cases a <;> cases b <;> cases c <;> cases d <;> decide +kernel

/-- Dry months of a cell. -/
noncomputable def dryMonths (monthly : List ℝ) (annual : ℝ) : List Bool :=
  monthly.map fun x => @decide (x < annual) (Classical.dec _)

theorem startMonth_eq (monthly : List ℝ) (a : ℝ) (ha : a ≠ 0) (h1 : (dryMonths monthly a).any id = true) :
    startMonth monthly (some a) = some (dryStart (dryMonths monthly a)) := by
  simp only [startMonth, if_neg ha]
  rw [if_neg]
  · rfl
  · change ¬ ((dryMonths monthly a).any id = false)
    rw [h1]; simp

/-- Some month is below and some month not below the annual mean. -/
theorem dry_wet {monthly : List ℝ} {a : ℝ} (hdry : ∃ x ∈ monthly, x < a) (hwet : ∃ x ∈ monthly, ¬ x < a) :
    (dryMonths monthly a).any id = true ∧ (dryMonths monthly a).all id = false := by
  obtain ⟨x, hx, hxa⟩ := hdry
  obtain ⟨y, hy, hya⟩ := hwet
  constructor
  · rw [List.any_eq_true]
    exact ⟨_, List.mem_map.2 ⟨x, hx, rfl⟩, by simpa using hxa⟩
  · rw [List.all_eq_false]
    exact ⟨_, List.mem_map.2 ⟨y, hy, rfl⟩, by simpa using hya⟩

/-- **C44.**  In a cell with dry and wet months the start month is a month from 1 to 12 in which a dry period begins. -/
theorem C44_start_of_dry_period (monthly : List ℝ) (a : ℝ) (hl : monthly.length = 12) (ha : a ≠ 0)
    (hdry : ∃ x ∈ monthly, x < a) (hwet : ∃ x ∈ monthly, ¬ x < a) :
    ∃ m, startMonth monthly (some a) = some m ∧ 1 ≤ m ∧ m ≤ 12 ∧ spellStart (dryMonths monthly a) (m - 1) = true := by
  obtain ⟨h1, h2⟩ := dry_wet hdry hwet
  exact ⟨_, startMonth_eq monthly a ha h1, dryStart_spell _ (by simpa [dryMonths] using hl) h1 h2⟩

/-- **C44.**  If the year has one or two dry periods, or a dry period of at least five months, the longest one begins in
the start month. -/
theorem C44_longest (monthly : List ℝ) (a : ℝ) (hl : monthly.length = 12) (ha : a ≠ 0)
    (hdry : ∃ x ∈ monthly, x < a) (hwet : ∃ x ∈ monthly, ¬ x < a)
    (hc : spellCount (dryMonths monthly a) ≤ 2 ∨ ∃ k < 12, 5 ≤ spellLength (dryMonths monthly a) k) :
    ∃ m, startMonth monthly (some a) = some m ∧
      ∀ k < 12, spellLength (dryMonths monthly a) k ≤ spellLength (dryMonths monthly a) (m - 1) := by
  obtain ⟨h1, h2⟩ := dry_wet hdry hwet
  exact ⟨_, startMonth_eq monthly a ha h1, dryStart_longest _ (by simpa [dryMonths] using hl) h1 h2 hc⟩

/-- All patterns of `n` months. -/
def allPatterns : ℕ → List (List Bool)
  | 0 => [[]]
  | n + 1 => (allPatterns n).flatMap fun l => [false :: l, true :: l]

theorem mem_allPatterns (n : ℕ) (l : List Bool) : l ∈ allPatterns n ↔ l.length = n := by
  induction n generalizing l with
  | zero => simp [allPatterns]
  | succ n ih =>
    simp only [allPatterns, List.mem_flatMap, List.mem_cons, List.not_mem_nil, or_false]
    constructor
    · rintro ⟨t, ht, rfl | rfl⟩ <;> simp [(ih t).mp ht]
    · intro h
      match l, h with
      | x :: t, h =>
        refine ⟨t, (ih t).mpr (by simpa using h), ?_⟩
        cases x <;> simp

theorem countPatterns_eq (n : ℕ) (f : List Bool → Bool) :
    countPatterns n f = ((allPatterns n).filter f).length := by
  induction n generalizing f with
  | zero => cases h : f [] <;> simp [countPatterns, allPatterns, h]
  | succ n ih =>
    rw [countPatterns, ih, ih, allPatterns]
    generalize allPatterns n = ps
    induction ps with
    | nil => rfl
    | cons p ps ihp =>
      simp only [List.flatMap_cons, List.filter_append, List.length_append, ← ihp, List.filter_cons]
      cases f (false :: p) <;> cases f (true :: p) <;> simp <;> omega

theorem nodup_allPatterns (n : ℕ) : (allPatterns n).Nodup := by
  induction n with
  | zero => simp [allPatterns]
  | succ n ih =>
    rw [allPatterns, List.nodup_flatMap]
    refine ⟨fun l _ => by simp, ih.imp ?_⟩
    intro a b hab
    simp only [Function.onFun, List.disjoint_left]
    intro x hx hy
    simp only [List.mem_cons, List.not_mem_nil, or_false] at hx hy
    rcases hx with rfl | rfl <;> rcases hy with hy | hy <;> simp_all

theorem countPatterns_four (n : ℕ) (f : List Bool → Bool) (T : Bool → Bool → Bool → Bool → ℕ)
    (h : ∀ a b c d, countPatterns n (fun l => f (a :: b :: c :: d :: l)) = T a b c d) : countPatterns (n + 4) f =
      (((T false false false false + T false false false true) + (T false false true false + T false false true true)) +
      ((T false true false false + T false true false true) + (T false true true false + T false true true true))) +
      (((T true false false false + T true false false true) + (T true false true false + T true false true true)) +
      ((T true true false false + T true true false true) + (T true true true false + T true true true true))) := by
  simp only [countPatterns, h]

theorem extent_table (a b c d : Bool) :
    countPatterns 8 (fun l => ((a :: b :: c :: d :: l).any id && !(a :: b :: c :: d :: l).all id) &&
      startsLongest (a :: b :: c :: d :: l)) = extentTable a b c d := by
  cases a <;> cases b
  · exact extent_00 c d
  · exact extent_01 c d
  · exact extent_10 c d
  · exact extent_11 c d

/-- **C44, exact extent.**  Of the 4094 patterns of dry and wet months with at least one of each, the start month is that
of a longest dry period in 3681, and of a shorter one in the other 413. -/
theorem C44_exact_extent :
    ((allPatterns 12).filter fun d => d.any id && !d.all id).length = 4094 ∧
    ((allPatterns 12).filter fun d => (d.any id && !d.all id) && startsLongest d).length = 3681 := by
  rw [← countPatterns_eq, ← countPatterns_eq]
  refine ⟨by decide +kernel, ?_⟩
  have h := countPatterns_four 8 (fun d => (d.any id && !d.all id) && startsLongest d) extentTable extent_table
  exact Eq.trans h (by decide +kernel)

/-- **C44 violated.**  With three dry periods the start month can belong to a short one, because the length of a period
that is not the longest is added to the next: the dry periods February–April, June–July and September–October give September. -/
theorem C44_violated_three_periods :
    ∃ monthly : List ℝ, monthly.length = 12 ∧ monthly.sum / 12 = 10 ∧ startMonth monthly (some 10) = some 9 ∧
      spellLength (dryMonths monthly 10) 8 = 2 ∧ spellLength (dryMonths monthly 10) 1 = 3 := by
  have hd : dryMonths [17, 5, 5, 5, 17, 5, 5, 17, 5, 5, 17, 17] 10 =
      [false, true, true, true, false, true, true, false, true, true, false, false] := by
    simp only [dryMonths, List.map_cons, List.map_nil]
    norm_num
  refine ⟨[17, 5, 5, 5, 17, 5, 5, 17, 5, 5, 17, 17], rfl, by norm_num, ?_, ?_, ?_⟩
  · rw [startMonth_eq _ _ (by norm_num) (by rw [hd]; rfl), hd]
    decide +kernel
  · rw [hd]; decide +kernel
  · rw [hd]; decide +kernel

/-- **C44 violated.**  A cell whose inflow is never below the annual mean gets start month 0, not the documented 1. -/
theorem C44_violated_no_dry_month (monthly : List ℝ) (a : ℝ) (ha : a ≠ 0) (h : ∀ x ∈ monthly, ¬ x < a) :
    startMonth monthly (some a) = some 0 := by
  simp only [startMonth, if_neg ha]
  rw [if_pos]
  rw [List.any_eq_false]
  intro b hb
  obtain ⟨x, hx, rfl⟩ := List.mem_map.1 hb
  simpa using h x hx

/-- A wet season from June to September: the dry period begins in October. -/
example : ∃ m, startMonth [4, 4, 4, 4, 4, 20, 20, 20, 20, 5, 5, 5] (some 9.5) = some m ∧ m = 10 := by
  have hd : dryMonths [4, 4, 4, 4, 4, 20, 20, 20, 20, 5, 5, 5] 9.5 =
      [true, true, true, true, true, false, false, false, false, true, true, true] := by
    simp only [dryMonths, List.map_cons, List.map_nil]
    norm_num
  refine ⟨_, startMonth_eq _ _ (by norm_num) (by rw [hd]; rfl), ?_⟩
  rw [hd]
  decide +kernel

/-! ## Bankfull flow (C49) -/

theorem interpFrom_range (x lo hi : ℝ) (rest : List (ℝ × ℝ)) (x0 y0 : ℝ) (hx : x0 ≤ x) (hy : lo ≤ y0 ∧ y0 ≤ hi)
    (hr : ∀ p ∈ rest, lo ≤ p.2 ∧ p.2 ≤ hi) (hs : ((x0, y0) :: rest).Pairwise (fun p q => p.1 < q.1)) :
    lo ≤ interpFrom x x0 y0 rest ∧ interpFrom x x0 y0 rest ≤ hi := by
  induction rest generalizing x0 y0 with
  | nil => simpa [interpFrom] using hy
  | cons p rest ih =>
    obtain ⟨x1, y1⟩ := p
    have h1 := hr (x1, y1) (by simp)
    rw [List.pairwise_cons] at hs
    have hlt : x0 < x1 := hs.1 (x1, y1) (by simp)
    unfold interpFrom
    split_ifs with h
    · have hd : 0 < x1 - x0 := by linarith
      obtain ⟨t, ht⟩ : ∃ t, t = (x - x0) / (x1 - x0) := ⟨_, rfl⟩
      have e : y0 + (y1 - y0) / (x1 - x0) * (x - x0) = (1 - t) * y0 + t * y1 := by
        rw [ht]; field_simp; ring
      have t0 : 0 ≤ t := by rw [ht]; exact div_nonneg (by linarith) hd.le
      have t1 : t ≤ 1 := by rw [ht, div_le_one hd]; linarith
      rw [e]
      simp only at h1
      constructor
      · nlinarith [mul_le_mul_of_nonneg_left hy.1 (by linarith : 0 ≤ 1 - t), mul_le_mul_of_nonneg_left h1.1 t0]
      · nlinarith [mul_le_mul_of_nonneg_left hy.2 (by linarith : 0 ≤ 1 - t), mul_le_mul_of_nonneg_left h1.2 t0]
    · exact ih x1 y1 (not_lt.1 h) h1 (fun p hp => hr p (List.mem_cons_of_mem _ hp)) hs.2

theorem pearson_sorted : pearsonTable.Pairwise (fun p q => p.1 < q.1) := by decide +kernel
theorem pearson_values : ∀ p ∈ pearsonTable, -5953 ≤ p.2 ∧ p.2 ≤ -3332 := by decide +kernel

/-- **C49.**  The k value is between −0.5953 and −0.3332 for every skewness. -/
theorem C49_k_range (x : ℝ) : -0.5953 ≤ interp x pearsonK ∧ interp x pearsonK ≤ -0.3332 := by
  have hs : pearsonK.Pairwise (fun p q => p.1 < q.1) := by
    unfold pearsonK
    rw [List.pairwise_map]
    refine pearson_sorted.imp ?_
    intro p q h
    have : (p.1 : ℝ) < q.1 := by exact_mod_cast h
    simp only; linarith
  have hv : ∀ p ∈ pearsonK, (-0.5953 : ℝ) ≤ p.2 ∧ p.2 ≤ -0.3332 := by
    intro p hp
    obtain ⟨q, hq, rfl⟩ := List.mem_map.1 hp
    obtain ⟨h1, h2⟩ := pearson_values q hq
    have h1' : (-5953 : ℝ) ≤ q.2 := by exact_mod_cast h1
    have h2' : (q.2 : ℝ) ≤ -3332 := by exact_mod_cast h2
    simp only
    constructor <;> linarith
  cases hK : pearsonK with
  | nil => simp [pearsonK, pearsonTable] at hK
  | cons p rest =>
    obtain ⟨x0, y0⟩ := p
    rw [hK] at hs hv
    have h0 := hv (x0, y0) (by simp)
    by_cases h : x < x0
    · simp only [interp, if_pos h]; exact h0
    · simp only [interp, if_neg h]
      exact interpFrom_range x _ _ rest x0 y0 (not_lt.1 h) h0 (fun p hp => hv p (List.mem_cons_of_mem _ hp)) hs

/-- **C49.**  Every value in the file is −9999 (no data) or not negative. -/
theorem C49_output (s : AmsStats) : bankfullOut s = -9999 ∨ 0 ≤ bankfullOut s := by
  unfold bankfullOut
  simp only
  split_ifs with h
  · exact Or.inl rfl
  · exact Or.inr (not_lt.1 h)

/-- **C49.**  Cells whose annual maxima never vary have no data. -/
theorem C49_constant_flow (s : AmsStats) (h : s.std ≤ 0) : bankfullOut s = -9999 := by
  have : bankfullDay s = none := by simp only [bankfullDay, if_neg (not_lt.2 h)]
  simp only [bankfullOut, this, Option.getD_none]
  norm_num

/-- **C49.**  Without logarithmic statistics, or with a negative logarithmic skewness, the bankfull flow lies between
the mean annual maximum minus 0.5953 and minus 0.3332 standard deviations. -/
theorem C49_arithmetic (s : AmsStats) (hstd : 0 < s.std) (hmean : 0 < s.mean)
    (hlog : ∀ lm ls lk, s.logStats = some (lm, ls, lk) → lk < 0) :
    ∃ v, bankfullDay s = some v ∧ s.mean - 0.5953 * s.std ≤ v ∧ v ≤ s.mean - 0.3332 * s.std := by
  have key : ∀ x, s.mean - 0.5953 * s.std ≤ s.mean * (1 + varCoeff s.std s.mean * interp x pearsonK) ∧
      s.mean * (1 + varCoeff s.std s.mean * interp x pearsonK) ≤ s.mean - 0.3332 * s.std := by
    intro x
    obtain ⟨h1, h2⟩ := C49_k_range x
    have e : s.mean * (1 + varCoeff s.std s.mean * interp x pearsonK) = s.mean + s.std * interp x pearsonK := by
      simp only [varCoeff, if_pos hmean.ne']
      field_simp
    rw [e]
    constructor <;> nlinarith
  cases hl : s.logStats with
  | none =>
    simp only [bankfullDay, if_pos hstd, hl]
    exact ⟨_, rfl, key _⟩
  | some t =>
    obtain ⟨lm, ls, lk⟩ := t
    have hk := hlog lm ls lk hl
    simp only [bankfullDay, if_pos hstd, hl, ge_iff_le, if_neg (not_le.2 hk)]
    exact ⟨_, rfl, key _⟩

/-- **C49.**  With a logarithmic skewness of at least 0 and a log mean other than 0 the bankfull flow is positive and lies
below the geometric mean of the annual maxima. -/
theorem C49_logarithmic (s : AmsStats) (lm ls lk : ℝ) (hstd : 0 < s.std) (hl : s.logStats = some (lm, ls, lk))
    (hlk : 0 ≤ lk) (hls : 0 < ls) (hlm : lm ≠ 0) :
    ∃ v, bankfullDay s = some v ∧ Real.exp (lm - 0.5953 * ls) ≤ v ∧ v ≤ Real.exp (lm - 0.3332 * ls) ∧ 0 < v := by
  obtain ⟨h1, h2⟩ := C49_k_range lk
  refine ⟨Real.exp (lm * (1 + varCoeff ls lm * interp lk pearsonK)), ?_, ?_, ?_, Real.exp_pos _⟩
  · simp only [bankfullDay, if_pos hstd, hl, ge_iff_le, if_pos hlk]
  all_goals
    have e : lm * (1 + varCoeff ls lm * interp lk pearsonK) = lm + ls * interp lk pearsonK := by
      simp only [varCoeff, ne_eq, hlm, not_false_eq_true, if_true]
      field_simp
    rw [e]
    apply Real.exp_le_exp.2
    nlinarith

/-- **C49 violated.**  If the geometric mean of the annual maxima is exactly 1 km³/day the spread of the maxima is
ignored: the bankfull flow is 1 km³/day, not below the geometric mean. -/
theorem C49_violated_unit_mean (s : AmsStats) (ls lk : ℝ) (hstd : 0 < s.std) (hl : s.logStats = some (0, ls, lk))
    (hlk : 0 ≤ lk) : bankfullDay s = some 1 := by
  simp only [bankfullDay, if_pos hstd, hl, ge_iff_le, if_pos hlk]
  simp

example : ∃ v, bankfullDay ⟨2, 10, 0.5, some (2.2, 0.2, -0.3)⟩ = some v ∧ 8 ≤ v ∧ v ≤ 10 := by
  obtain ⟨v, h1, h2, h3⟩ := C49_arithmetic ⟨2, 10, 0.5, some (2.2, 0.2, -0.3)⟩ (by norm_num) (by norm_num) (by
    intro lm ls lk h
    simp only [Option.some.injEq, Prod.mk.injEq] at h
    rw [← h.2.2]; norm_num)
  refine ⟨v, h1, ?_, ?_⟩ <;> norm_num at h2 h3 <;> linarith

example : ∃ v, bankfullDay ⟨2, 10, 0.5, some (2.2, 0.2, 0.3)⟩ = some v ∧ 0 < v := by
  obtain ⟨v, h1, -, -, h4⟩ := C49_logarithmic ⟨2, 10, 0.5, some (2.2, 0.2, 0.3)⟩ 2.2 0.2 0.3 (by norm_num) rfl
    (by norm_num) (by norm_num) (by norm_num)
  exact ⟨v, h1, h4⟩

/-! ### The interpolation meets the table -/

theorem interpFrom_node (x y x0 y0 : ℝ) (l : List (ℝ × ℝ)) (hs : (l.map Prod.fst).Pairwise (· < ·))
    (hm : (x, y) ∈ l) : interpFrom x x0 y0 l = y := by
  induction l generalizing x0 y0 with
  | nil => simp at hm
  | cons a l ih =>
    obtain ⟨x1, y1⟩ := a
    rw [List.map_cons, List.pairwise_cons] at hs
    have hge : ¬ x < x1 := by
      rcases List.mem_cons.mp hm with h | h
      · rw [Prod.mk.injEq] at h; rw [h.1]; exact lt_irrefl _
      · exact not_lt.mpr (hs.1 x (List.mem_map.mpr ⟨_, h, rfl⟩)).le
    simp only [interpFrom, if_neg hge]
    rcases List.mem_cons.mp hm with h | h
    · rw [Prod.mk.injEq] at h
      obtain ⟨rfl, rfl⟩ := h
      cases l with
      | nil => rfl
      | cons b l =>
        obtain ⟨x2, y2⟩ := b
        have : x < x2 := hs.1 x2 (by simp)
        simp [interpFrom, this]
    · exact ih x1 y1 hs.2 h

theorem interp_node (l : List (ℝ × ℝ)) (hs : (l.map Prod.fst).Pairwise (· < ·)) (x y : ℝ) (hm : (x, y) ∈ l) :
    interp x l = y := by
  cases l with
  | nil => simp at hm
  | cons a l =>
    obtain ⟨x0, y0⟩ := a
    rw [List.map_cons, List.pairwise_cons] at hs
    rcases List.mem_cons.mp hm with h | h
    · rw [Prod.mk.injEq] at h
      obtain ⟨rfl, rfl⟩ := h
      simp only [interp, lt_irrefl, if_false]
      cases l with
      | nil => rfl
      | cons b l =>
        obtain ⟨x2, y2⟩ := b
        have : x < x2 := hs.1 x2 (by simp)
        simp [interpFrom, this]
    · have : x0 < x := hs.1 x (List.mem_map.mpr ⟨_, h, rfl⟩)
      simp only [interp, if_neg (not_lt.mpr this.le)]
      exact interpFrom_node x y x0 y0 l hs.2 h

/-- C49: at every skewness of the table of Pearson III frequency factors the interpolation gives the table's value. -/
theorem C49_nodes (g k : ℤ) (h : (g, k) ∈ pearsonTable) : interp ((g : ℝ) / 10) pearsonK = (k : ℝ) / 10000 := by
  apply interp_node
  · have hs : (pearsonTable.map Prod.fst).Pairwise (· < ·) := by decide +kernel
    unfold pearsonK
    rw [List.map_map]
    rw [List.pairwise_map] at hs ⊢
    refine hs.imp fun {a b} hab => ?_
    simp only [Function.comp]
    have : (a.1 : ℝ) < b.1 := by exact_mod_cast hab
    linarith
  · exact List.mem_map.mpr ⟨(g, k), h, rfl⟩

end WG
