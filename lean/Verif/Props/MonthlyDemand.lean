import Verif.Model.Demand
import Verif.Props.RunLoop

/-! # C32: monthly water demand spread over the days of the month -/

namespace WG

theorem demandDays_pos (m : ℕ) : 0 < demandDays m := by unfold demandDays; split_ifs <;> omega

/-- The first day of a month, and the first day of the axis, are days on which the data are read. -/
theorem mem_firstDays {s : Date} (hs : s.Valid) (n : ℕ) (t : Date) (ht : t ∈ daysFrom s n) (h : t.d = 1 ∨ t = s) :
    t ∈ firstDays (daysFrom s n) := by
  unfold firstDays
  rw [List.mem_filter]
  refine ⟨ht, ?_⟩
  rw [List.all_eq_true]
  intro u hu
  have vt := ((mem_daysFrom hs n t).1 ht).1
  obtain ⟨vu, hu1, -⟩ := (mem_daysFrom hs n u).1 hu
  simp only [decide_eq_true_eq]
  rintro ⟨h1, h2, h3⟩
  rcases h with h | rfl
  · have hd := vu.2.2.1
    rcases Nat.lt_or_eq_of_le (show t.d ≤ u.d by omega) with hlt | heq
    · have := ord_lt_of_lex vt vu (by omega); omega
    · have : t = u := by cases t; cases u; simp_all
      rw [this] at h3; omega
  · omega

/-- The daily demand the month's value stands for. -/
noncomputable def dailyDemand (monthly : ℕ → ℕ → ℝ) (t : Date) : ℝ := monthly t.y t.m / (demandDays t.m * 1e9)

theorem demandRates_run {s0 : Date} (hs0 : s0.Valid) (N : ℕ) (monthly : ℕ → ℕ → ℝ) (n : ℕ) :
    ∀ (s : Date), s.Valid → (∀ t ∈ daysFrom s n, t ∈ daysFrom s0 N) → ∀ rate,
      (s ∈ firstDays (daysFrom s0 N) ∨ rate = dailyDemand monthly s) →
      demandRates (daysFrom s0 N) monthly rate (daysFrom s n) =
        (daysFrom s n).map fun t => (t, dailyDemand monthly t) := by
  induction n with
  | zero => intros; rfl
  | succ n ih =>
    intro s hs hin rate hr
    have h1 : demandRate (daysFrom s0 N) monthly rate s = dailyDemand monthly s := by
      unfold demandRate
      split_ifs with hf
      · rfl
      · exact hr.resolve_left hf
    simp only [daysFrom, demandRates, h1, List.map_cons]
    congr 1
    cases n with
    | zero => rfl
    | succ n =>
      have hmem : s.next ∈ daysFrom s0 N := hin _ (by simp [daysFrom])
      refine ih s.next (next_valid hs) (fun t ht => hin t (by simp only [daysFrom]; exact List.mem_cons_of_mem _ ht)) _ ?_
      by_cases hd : s.d < daysInMonth s.y s.m
      · right
        simp only [dailyDemand, Date.next, if_pos hd]
      · left
        refine mem_firstDays hs0 N _ hmem (Or.inl ?_)
        simp only [Date.next, if_neg hd]
        split_ifs <;> rfl

theorem demandRates_append (grid : List Date) (monthly : ℕ → ℕ → ℝ) (a b : List Date) (rate : ℝ) :
    ∃ rate', demandRates grid monthly rate (a ++ b) = demandRates grid monthly rate a ++ demandRates grid monthly rate' b := by
  induction a generalizing rate with
  | nil => exact ⟨rate, rfl⟩
  | cons t a ih =>
    obtain ⟨r, hr⟩ := ih (demandRate grid monthly rate t)
    exact ⟨r, by simp only [List.cons_append, demandRates, hr]⟩

theorem daysFrom_sub {s : Date} (hs : s.Valid) {n N : ℕ} (h : n ≤ N) : ∀ t ∈ daysFrom s n, t ∈ daysFrom s N := by
  intro t ht
  rw [mem_daysFrom hs] at ht ⊢
  exact ⟨ht.1, ht.2.1, by omega⟩

theorem demandRates_blocks {s0 : Date} (hs0 : s0.Valid) (N : ℕ) (monthly : ℕ → ℕ → ℝ) (bs : List ℕ)
    (hb : ∀ n ∈ bs, n ≤ N) (rate : ℝ) :
    demandRates (daysFrom s0 N) monthly rate (bs.map (daysFrom s0)).flatten =
      (bs.map (daysFrom s0)).flatten.map fun t => (t, dailyDemand monthly t) := by
  induction bs generalizing rate with
  | nil => rfl
  | cons n bs ih =>
    rw [List.map_cons, List.flatten_cons]
    obtain ⟨r, hr⟩ := demandRates_append (daysFrom s0 N) monthly (daysFrom s0 n) (bs.map (daysFrom s0)).flatten rate
    rw [hr, ih (fun m hm => hb m (by simp [hm])) r, List.map_append]
    congr 1
    cases n with
    | zero => rfl
    | succ n =>
      refine demandRates_run hs0 N monthly (n + 1) s0 hs0 (daysFrom_sub hs0 (hb _ (by simp))) rate (Or.inl ?_)
      refine mem_firstDays hs0 N s0 ?_ (Or.inr rfl)
      exact daysFrom_sub hs0 (hb (n + 1) (by simp)) s0 (by simp [daysFrom])

theorem replicate_blocks (k a b : ℕ) (s : Date) :
    ((List.replicate k a ++ [b]).map (daysFrom s)).flatten =
      (List.replicate k (daysFrom s a)).flatten ++ daysFrom s b := by
  simp [List.map_replicate]

/-- **C32.**  On every day a run simulates — in the spin-up and in the simulation period, whatever day of the month the
run starts with — the demand of a cell is that month's value (m³) from the data divided by the number of days of
the month and converted to km³: no month's value is used on a day of another month, and none is missing. (The
number of days is that of an ordinary year.) -/
theorem C32_daily_demand (c : RunCfg) (h : GoodPeriod c) (hspin : 0 ≤ c.spin) (monthly : ℕ → ℕ → ℝ) (rate : ℝ) :
    ∃ s, setup c = .ok s ∧ ∀ n : ℕ, c.spin.toNat < n →
      demandRates s.dateMain monthly rate (simulated (runLoop c s n).trace) =
        (simulated (runLoop c s n).trace).map fun t => (t, monthly t.y t.m / (demandDays t.m * 1e9)) := by
  obtain ⟨s, h1, -, h3⟩ := C30_days_simulated c h hspin
  refine ⟨s, h1, fun n hn => ?_⟩
  rw [h3 n hn]
  have hs : s.dateMain = daysBetween c.start (gridEnd c) := by
    rw [setup_good h] at h1
    injection h1 with h1
    rw [← h1, ← gridTime_eq h]
  rw [hs]
  unfold daysBetween
  rw [← replicate_blocks]
  refine demandRates_blocks h.vs _ monthly _ ?_ rate
  have hy : c.start.y ≤ c.fin.y := by
    by_contra hc
    have := ord_lt_of_lex h.vf h.vs (Or.inl (by omega)); have := h.h2; omega
  have hge : (yearEnd c.start.y).ord ≤ (gridEnd c).ord ∧ c.fin.ord ≤ (gridEnd c).ord := by
    unfold gridEnd
    split_ifs with he
    · rw [he]; exact ⟨le_rfl, ord_le_yearEnd h.vf⟩
    · refine ⟨?_, le_rfl⟩
      exact (ord_lt_of_lex (yearEnd_valid _) h.vf (Or.inl (by simp only [yearEnd]; omega))).le
  intro m hm
  rw [List.mem_append, List.mem_replicate, List.mem_singleton] at hm
  rcases hm with ⟨-, rfl⟩ | rfl <;> omega

/-- The days of a month. -/
def monthDays (y m : ℕ) : List Date := (List.range (daysInMonth y m)).map fun k => ⟨y, m, k + 1⟩

/-- The days of a month that lies in the period are its calendar days. -/
theorem filter_month (s e : Date) (hs : s.Valid) (y m : ℕ) (hm : 1 ≤ m ∧ m ≤ 12)
    (h1 : s.ord ≤ (Date.mk y m 1).ord) (h2 : (Date.mk y m (daysInMonth y m)).ord ≤ e.ord) :
    (daysBetween s e).filter (fun t => decide (t.y = y ∧ t.m = m)) = monthDays y m := by
  apply eq_of_sorted_mem Date.ord
  · exact (daysFrom_sorted hs _).sublist List.filter_sublist
  · unfold monthDays
    rw [List.pairwise_map]
    refine List.Pairwise.imp ?_ (List.pairwise_lt_range (n := daysInMonth y m))
    intro a b hab
    simp only [Date.ord]; omega
  · intro t
    rw [List.mem_filter, mem_daysBetween hs]
    simp only [decide_eq_true_eq, monthDays, List.mem_map, List.mem_range]
    constructor
    · rintro ⟨⟨v, -, -⟩, rfl, rfl⟩
      obtain ⟨-, -, v3, v4⟩ := v
      exact ⟨t.d - 1, by omega, by cases t; simp only [Date.mk.injEq, true_and]; simp only at v3; omega⟩
    · rintro ⟨k, hk, rfl⟩
      refine ⟨⟨⟨hm.1, hm.2, by simp, by simpa using hk⟩, ?_, ?_⟩, rfl, rfl⟩
      · simp only [Date.ord] at h1 ⊢; omega
      · simp only [Date.ord] at h2 ⊢; omega

theorem monthDays_sum (monthly : ℕ → ℕ → ℝ) (y m : ℕ) :
    ((monthDays y m).map (dailyDemand monthly)).sum = daysInMonth y m * (monthly y m / (demandDays m * 1e9)) := by
  have : (monthDays y m).map (dailyDemand monthly) =
      List.replicate (daysInMonth y m) (monthly y m / (demandDays m * 1e9)) := by
    unfold monthDays
    rw [List.map_map]
    exact List.eq_replicate_iff.mpr ⟨by simp, by simp [dailyDemand]⟩
  rw [this, List.sum_replicate, nsmul_eq_mul]

/-- **C32 (volume).**  Over a month that lies entirely in the period, the demands of its days add up to the month's
value in the data — except for the February of a leap year. -/
theorem C32_month_total (monthly : ℕ → ℕ → ℝ) (s e : Date) (hs : s.Valid) (y m : ℕ) (hm : 1 ≤ m ∧ m ≤ 12)
    (h1 : s.ord ≤ (Date.mk y m 1).ord) (h2 : (Date.mk y m (daysInMonth y m)).ord ≤ e.ord)
    (hl : ¬ (m = 2 ∧ isLeap y)) :
    (((daysBetween s e).filter fun t => decide (t.y = y ∧ t.m = m)).map fun t =>
      monthly t.y t.m / (demandDays t.m * 1e9)).sum = monthly y m / 1e9 := by
  rw [filter_month s e hs y m hm h1 h2]
  have := monthDays_sum monthly y m
  unfold dailyDemand at this
  rw [this]
  have hd : daysInMonth y m = demandDays m := by
    unfold daysInMonth demandDays
    by_cases h2 : m = 2
    · subst h2
      have hl' : isLeap y = false := by simpa using hl
      simp [hl']
    · simp only [if_neg h2]
  have hp : (0 : ℝ) < demandDays m := by exact_mod_cast demandDays_pos m
  rw [hd]
  field_simp

example : (((daysBetween ⟨2003, 1, 15⟩ ⟨2004, 3, 3⟩).filter fun t => decide (t.y = 2003 ∧ t.m = 2)).map fun t =>
      (fun _ _ => (28e9 : ℝ)) t.y t.m / (demandDays t.m * 1e9)).sum = 28e9 / 1e9 :=
  C32_month_total (fun _ _ => 28e9) _ _ (by decide +kernel) 2003 2 (by decide) (by decide +kernel) (by decide +kernel) (by decide +kernel)

/-- **C32 violated.**  In the February of a leap year the demands of the days add up to 29/28 of the month's value: more
water is taken than the data ask for. -/
theorem C32_violated_leap_february (monthly : ℕ → ℕ → ℝ) (s e : Date) (hs : s.Valid) (y : ℕ) (hy : isLeap y = true)
    (h1 : s.ord ≤ (Date.mk y 2 1).ord) (h2 : (Date.mk y 2 29).ord ≤ e.ord) :
    (((daysBetween s e).filter fun t => decide (t.y = y ∧ t.m = 2)).map fun t =>
      monthly t.y t.m / (demandDays t.m * 1e9)).sum = 29 / 28 * (monthly y 2 / 1e9) := by
  have hd : daysInMonth y 2 = 29 := by simp [daysInMonth, hy]
  rw [filter_month s e hs y 2 (by decide) h1 (by rw [hd]; exact h2)]
  have := monthDays_sum monthly y 2
  unfold dailyDemand at this
  rw [this, hd]
  have : demandDays 2 = 28 := rfl
  rw [this]
  push_cast
  ring

example := C32_violated_leap_february (fun _ _ => 28e9) ⟨2003, 1, 15⟩ ⟨2004, 3, 3⟩ (by decide +kernel) 2004
  (by decide +kernel) (by decide +kernel) (by decide +kernel)

example : ∃ s, setup exRun = .ok s ∧ (⟨2000, 2, 29⟩, (100 : ℝ) / (28 * 1e9)) ∈
    demandRates s.dateMain (fun _ m => if m = 2 then 100 else 7) 5 (simulated (runLoop exRun s 3).trace) := by
  obtain ⟨s, h1, h2⟩ := C32_daily_demand exRun exRun_good (by decide) (fun _ m => if m = 2 then 100 else 7) 5
  obtain ⟨s', h1', -, h3'⟩ := C30_days_simulated exRun exRun_good (by decide)
  obtain rfl : s = s' := by rw [h1] at h1'; injection h1'
  refine ⟨s, h1, ?_⟩
  rw [h2 3 (by decide), List.mem_map]
  refine ⟨⟨2000, 2, 29⟩, ?_, by norm_num [demandDays]⟩
  rw [h3' 3 (by decide)]
  decide +kernel

end WG
