import Verif.Model.RunLoop
import Verif.Lemmas.Calendar

/-!
# The days a run simulates, writes and saves (C30, C31)
-/

namespace WG

/-! ## Specification -/

/-- A simulation period the forcing data covers: existing dates, start not after end, and — when the
run starts and ends in the same year — data up to that year's 31 December. -/
structure GoodPeriod (c : RunCfg) : Prop where
  vs : c.start.Valid
  vf : c.fin.Valid
  vd : c.dataStart.Valid
  ve : c.dataEnd.Valid
  h1 : c.dataStart.ord ≤ c.start.ord
  h2 : c.start.ord ≤ c.fin.ord
  h3 : c.fin.ord ≤ c.dataEnd.ord
  h4 : c.start.y = c.fin.y → (yearEnd c.fin.y).ord ≤ c.dataEnd.ord

/-- The dates computed, in order. -/
def simulated (l : List Event) : List Date :=
  l.filterMap fun e => match e with | .sim t => some t | _ => none

/-- The dates whose values are written to the output variables, in order. -/
def written (l : List Event) : List Date :=
  l.filterMap fun e => match e with | .write t => some t | _ => none

/-- The dates at which output files are saved, in order. -/
def flushed (l : List Event) : List Date :=
  l.filterMap fun e => match e with | .flush t => some t | _ => none

/-- The dates at which states are saved, in order. -/
def saved (l : List Event) : List Date :=
  l.filterMap fun e => match e with | .save t => some t | _ => none

/-! ## Lemmas -/

theorem eq_of_sorted_mem {α : Type} (f : α → ℕ) (l l' : List α)
    (h : l.Pairwise (fun a b => f a < f b)) (h' : l'.Pairwise (fun a b => f a < f b))
    (hm : ∀ x, x ∈ l ↔ x ∈ l') : l = l' := by
  induction l generalizing l' with
  | nil =>
    cases l' with
    | nil => rfl
    | cons b l2 => exact absurd ((hm b).2 (by simp)) (by simp)
  | cons a l1 ih =>
    cases l' with
    | nil => exact absurd ((hm a).1 (by simp)) (by simp)
    | cons b l2 =>
      rw [List.pairwise_cons] at h h'
      have hab : a = b := by
        by_contra hne
        have h1 : a ∈ l2 := by
          have := (hm a).1 (by simp)
          simp only [List.mem_cons] at this; exact this.resolve_left hne
        have h2 : b ∈ l1 := by
          have := (hm b).2 (by simp)
          simp only [List.mem_cons] at this; exact this.resolve_left (Ne.symm hne)
        have := h.1 b h2
        have := h'.1 a h1
        omega
      subst hab
      congr 1
      refine ih l2 h.2 h'.2 fun x => ?_
      have := hm x
      simp only [List.mem_cons] at this
      constructor
      · intro hx
        have hlt := h.1 x hx
        rcases this.1 (Or.inr hx) with rfl | hx'
        · omega
        · exact hx'
      · intro hx
        have hlt := h'.1 x hx
        rcases this.2 (Or.inr hx) with rfl | hx'
        · omega
        · exact hx'

theorem axisSlice_eq (c : RunCfg) (hv : c.dataStart.Valid) {s e : Date} (hs : s.Valid)
    (h1 : c.dataStart.ord ≤ s.ord) (h2 : e.ord ≤ c.dataEnd.ord) :
    axisSlice c s e = daysBetween s e := by
  apply eq_of_sorted_mem Date.ord
  · exact (daysFrom_sorted hv _).filter _
  · exact daysFrom_sorted hs _
  · intro t
    rw [mem_daysBetween hs, axisSlice, List.mem_filter, mem_daysBetween hv]
    simp only [Bool.and_eq_true, decide_eq_true_eq]
    constructor
    · rintro ⟨⟨a, b, d⟩, e, f⟩; exact ⟨a, e, f⟩
    · rintro ⟨a, b, d⟩; exact ⟨⟨a, by omega, by omega⟩, b, d⟩

/-- The last day of the time axis of a run. -/
def gridEnd (c : RunCfg) : Date := if c.start.y = c.fin.y then yearEnd c.fin.y else c.fin

theorem gridEnd_ge {c : RunCfg} (h : GoodPeriod c) :
    c.fin.ord ≤ (gridEnd c).ord ∧ (yearEnd c.start.y).ord ≤ (gridEnd c).ord ∧ (gridEnd c).Valid := by
  unfold gridEnd
  by_cases hy : c.start.y = c.fin.y
  · rw [if_pos hy]
    exact ⟨ord_le_yearEnd h.vf, by rw [hy], yearEnd_valid _⟩
  · rw [if_neg hy]
    refine ⟨le_refl _, ?_, h.vf⟩
    have hlt : c.start.y < c.fin.y := by
      by_contra hc
      have hlt : c.fin.y < c.start.y := by omega
      have := ord_lt_of_lex h.vf h.vs (Or.inl hlt)
      have := h.h2; omega
    exact le_of_lt (ord_lt_of_lex (yearEnd_valid _) h.vf (Or.inl hlt))

theorem gridTime_eq {c : RunCfg} (h : GoodPeriod c) : gridTime c = daysBetween c.start (gridEnd c) := by
  unfold gridTime gridEnd
  by_cases hy : c.start.y = c.fin.y
  · rw [if_pos hy, if_pos hy]; exact axisSlice_eq c h.vd h.vs h.h1 (h.h4 hy)
  · rw [if_neg hy, if_neg hy]; exact axisSlice_eq c h.vd h.vs h.h1 h.h3

theorem daysBetween_split {s a b : Date} (h1 : s.ord ≤ a.ord) (h2 : a.ord ≤ b.ord) :
    ∃ r, daysBetween s b = daysBetween s a ++ r := by
  unfold daysBetween
  rw [show b.ord + 1 - s.ord = (a.ord + 1 - s.ord) + (b.ord - a.ord) by omega, daysFrom_append]
  exact ⟨_, rfl⟩

theorem idxOf_start {s e : Date} (h : s.ord ≤ e.ord) : (daysBetween s e).idxOf s = 0 := by
  unfold daysBetween
  rw [show e.ord + 1 - s.ord = (e.ord - s.ord) + 1 by omega]
  simp [daysFrom]

theorem idxOf_mid {s a b : Date} (hs : s.Valid) (ha : a.Valid) (h1 : s.ord ≤ a.ord)
    (h2 : a.ord ≤ b.ord) : (daysBetween s b).idxOf a = a.ord - s.ord := by
  obtain ⟨r, hr⟩ := daysBetween_split h1 h2
  rw [hr, daysBetween_last hs ha h1, List.append_assoc, List.idxOf_append_of_notMem]
  · simp [daysFrom_length]
  · rw [mem_daysFrom hs]; omega

/-- The set-up of a good period. -/
theorem setup_good {c : RunCfg} (h : GoodPeriod c) :
    setup c = .ok { dateMain := daysBetween c.start (gridEnd c)
                    rangeMain := (c.fin.ord : ℤ) - c.start.ord + 1
                    rangeSpin := ((yearEnd c.start.y).ord : ℤ) - c.start.ord + 1
                    dateSpin := daysBetween c.start (yearEnd c.start.y) } := by
  have hg := gridEnd_ge h
  have hse := ord_le_yearEnd h.vs
  have := h.h1; have := h.h2; have := h.h3
  unfold setup
  rw [if_pos (by omega), gridTime_eq h, if_pos ⟨(mem_daysBetween h.vs _ _).2 ⟨h.vs, by omega, by omega⟩,
    (mem_daysBetween h.vs _ _).2 ⟨yearEnd_valid _, hse, hg.2.1⟩⟩]
  rw [idxOf_start (by omega), idxOf_mid h.vs (yearEnd_valid _) hse hg.2.1, List.drop_zero]
  obtain ⟨r, hr⟩ := daysBetween_split hse hg.2.1
  congr 2
  rw [hr, List.take_left' (by rw [daysBetween, daysFrom_length]; omega)]

theorem forDays_spin (c : RunCfg) (spin : ℤ) (h : spin ≠ 0) (l : List Date) :
    forDays c spin l = (l.map .sim, false) := by
  induction l with
  | nil => rfl
  | cons t ts ih => simp [forDays, h, ih, dayEvents]

theorem forDays_main (c : RunCfg) (l : List Date) (h : c.fin ∉ l) :
    forDays c 0 l = (l.flatMap (dayEvents c 0), false) := by
  induction l with
  | nil => rfl
  | cons t ts ih =>
    simp only [List.mem_cons, not_or] at h
    simp [forDays, h.1, ih h.2]

theorem forDays_main_end (c : RunCfg) (l r : List Date) (h : c.fin ∉ l) :
    forDays c 0 (l ++ c.fin :: r) = ((l ++ [c.fin]).flatMap (dayEvents c 0), true) := by
  induction l with
  | nil => simp [forDays]
  | cons t ts ih =>
    simp only [List.mem_cons, not_or] at h
    simp [forDays, h.1, ih h.2]

theorem whileStep_done (c : RunCfg) (s : Setup) (l : LoopState) (h : l.done = true) (n : ℕ) :
    (whileStep c s)^[n] l = l := by
  induction n with
  | zero => rfl
  | succ n ih => rw [Function.iterate_succ_apply]; rw [show whileStep c s l = l by simp [whileStep, h]]; exact ih

/-- The events of the spin-up. -/
def spinEvents (c : RunCfg) (n : ℕ) : List Event :=
  (List.replicate n ((daysBetween c.start (yearEnd c.start.y)).map Event.sim)).flatten

/-- The events of the simulation period. -/
def mainEvents (c : RunCfg) : List Event := (daysBetween c.start c.fin).flatMap (dayEvents c 0)

theorem phaseDays_spin {c : RunCfg} (h : GoodPeriod c) (s : Setup) (hs : setup c = .ok s) (spin : ℤ)
    (hne : spin ≠ 0) : phaseDays s spin = daysBetween c.start (yearEnd c.start.y) := by
  rw [setup_good h] at hs
  injection hs with hs
  subst hs
  have := ord_le_yearEnd h.vs
  simp only [phaseDays, if_neg hne]
  apply List.take_of_length_le
  rw [daysBetween, daysFrom_length]; omega

theorem phaseDays_main {c : RunCfg} (h : GoodPeriod c) (s : Setup) (hs : setup c = .ok s) :
    phaseDays s 0 = daysBetween c.start c.fin := by
  rw [setup_good h] at hs
  injection hs with hs
  subst hs
  have hg := gridEnd_ge h
  have := h.h2
  simp only [phaseDays, if_true]
  obtain ⟨r, hr⟩ := daysBetween_split h.h2 hg.1
  rw [hr, List.take_left' (by rw [daysBetween, daysFrom_length]; omega)]

theorem runLoop_spin {c : RunCfg} (h : GoodPeriod c) (s : Setup) (hs : setup c = .ok s)
    (_hspin : 0 ≤ c.spin) (n : ℕ) (hn : (n : ℤ) ≤ c.spin) :
    runLoop c s n = { spin := c.spin - n, trace := spinEvents c n, done := false } := by
  induction n with
  | zero => simp [runLoop, spinEvents]
  | succ n ih =>
    have ih := ih (by push_cast at hn ⊢; omega)
    rw [runLoop] at ih ⊢
    rw [Function.iterate_succ_apply', ih]
    have hne : c.spin - (n : ℤ) ≠ 0 := by push_cast at hn; omega
    simp only [whileStep, Bool.false_eq_true, if_false, phaseDays_spin h s hs _ hne,
      forDays_spin c _ hne, ne_eq, hne, not_false_eq_true, if_true]
    congr 1
    · push_cast; ring
    · simp [spinEvents, List.replicate_succ']

theorem runLoop_done {c : RunCfg} (h : GoodPeriod c) (s : Setup) (hs : setup c = .ok s)
    (hspin : 0 ≤ c.spin) :
    runLoop c s (c.spin.toNat + 1) =
      { spin := 0, trace := spinEvents c c.spin.toNat ++ mainEvents c, done := true } := by
  have hp := runLoop_spin h s hs hspin c.spin.toNat (by omega)
  rw [runLoop] at hp ⊢
  rw [Function.iterate_succ_apply', hp]
  have h0 : c.spin - (c.spin.toNat : ℤ) = 0 := by omega
  have hl := daysBetween_last h.vs h.vf h.h2
  simp only [whileStep, Bool.false_eq_true, if_false, h0, phaseDays_main h s hs, ne_eq,
    not_true_eq_false]
  have hnot : c.fin ∉ daysFrom c.start (c.fin.ord - c.start.ord) := by
    rw [mem_daysFrom h.vs]; have := h.h2; omega
  rw [hl, forDays_main_end c _ [] hnot, mainEvents, hl]

/-! ## C30 -/

/-- **C30 (calendar).**  The days from a start to an end date are exactly the existing calendar dates
in between, each once and in calendar order. -/
theorem C30_calendar (s e : Date) (hs : s.Valid) (he : e.Valid) :
    (∀ t, t ∈ daysBetween s e ↔ t.Valid ∧ (t = s ∨ s.ord < t.ord) ∧ (t = e ∨ t.ord < e.ord)) ∧
    (daysBetween s e).Nodup ∧
    (daysBetween s e).Pairwise (fun a b =>
      a.y < b.y ∨ (a.y = b.y ∧ (a.m < b.m ∨ (a.m = b.m ∧ a.d < b.d)))) := by
  refine ⟨fun t => ?_, daysFrom_nodup hs _, ?_⟩
  · rw [mem_daysBetween hs]
    constructor
    · rintro ⟨a, b, d⟩
      refine ⟨a, ?_, ?_⟩
      · rcases Nat.lt_or_eq_of_le b with h | h
        · exact Or.inr h
        · exact Or.inl (ord_injective a hs h.symm)
      · rcases Nat.lt_or_eq_of_le d with h | h
        · exact Or.inr h
        · exact Or.inl (ord_injective a he h)
    · rintro ⟨a, b, d⟩
      refine ⟨a, ?_, ?_⟩
      · rcases b with rfl | b <;> omega
      · rcases d with rfl | d <;> omega
  · refine (daysFrom_sorted hs (e.ord + 1 - s.ord)).imp_of_mem ?_
    intro a b ha hb hlt
    have va := ((mem_daysFrom hs _ a).1 ha).1
    have vb := ((mem_daysFrom hs _ b).1 hb).1
    by_contra hc
    have : b = a ∨ (b.y < a.y ∨ (b.y = a.y ∧ (b.m < a.m ∨ (b.m = a.m ∧ b.d < a.d)))) := by
      by_cases h : b = a
      · exact Or.inl h
      · right
        by_contra hc2
        apply h
        obtain ⟨y, m, d⟩ := a
        obtain ⟨y', m', d'⟩ := b
        simp only at hc hc2
        have e1 : y' = y := by omega
        have e2 : m' = m := by omega
        have e3 : d' = d := by omega
        rw [e1, e2, e3]
    rcases this with rfl | h
    · omega
    · have := ord_lt_of_lex vb va h; omega

/-- **C30.**  A run over a period the data covers starts without error, simulates the days from the start
date to 31 December of the start year `spinup_years` times and then every day from start to end in
order exactly once, ends after that — after `spinup_years + 1` passes, not earlier — and does nothing
more. -/
theorem C30_days_simulated (c : RunCfg) (h : GoodPeriod c) (hspin : 0 ≤ c.spin) :
    ∃ s, setup c = .ok s ∧
      (∀ n : ℕ, (runLoop c s n).done = true ↔ c.spin.toNat < n) ∧
      (∀ n : ℕ, c.spin.toNat < n →
        simulated (runLoop c s n).trace =
          (List.replicate c.spin.toNat (daysBetween c.start (yearEnd c.start.y))).flatten ++
            daysBetween c.start c.fin) := by
  refine ⟨_, setup_good h, ?_, ?_⟩
  · intro n
    constructor
    · intro hd
      by_contra hc
      rw [runLoop_spin h _ (setup_good h) hspin n (by omega)] at hd
      cases hd
    · intro hn
      obtain ⟨k, rfl⟩ : ∃ k, n = k + (c.spin.toNat + 1) := ⟨n - (c.spin.toNat + 1), by omega⟩
      rw [runLoop, Function.iterate_add_apply]
      have := runLoop_done h _ (setup_good h) hspin
      rw [runLoop] at this
      rw [this, whileStep_done _ _ _ rfl]
  · intro n hn
    obtain ⟨k, rfl⟩ : ∃ k, n = k + (c.spin.toNat + 1) := ⟨n - (c.spin.toNat + 1), by omega⟩
    rw [runLoop, Function.iterate_add_apply]
    have := runLoop_done h _ (setup_good h) hspin
    rw [runLoop] at this
    rw [this, whileStep_done _ _ _ rfl]
    simp only [simulated, List.filterMap_append]
    congr 1
    · simp only [spinEvents]
      induction c.spin.toNat with
      | zero => rfl
      | succ m ih =>
        simp only [List.replicate_succ, List.flatten_cons, List.filterMap_append, ih]
        congr 1
        induction daysBetween c.start (yearEnd c.start.y) with
        | nil => rfl
        | cons a l ih => simp [ih]
    · simp only [mainEvents]
      induction daysBetween c.start c.fin with
      | nil => rfl
      | cons a l ih =>
        rw [List.flatMap_cons, List.filterMap_append, ih]
        simp only [dayEvents, if_true]
        split_ifs <;> simp

/-- **C30.**  The calendar of the day loop is the Gregorian one: from 1 January to the next 1 January there are 366 days in
the years divisible by 4 but not by 100, or divisible by 400, and 365 days in all others. -/
theorem C30_year_length (y : ℕ) :
    (⟨y + 1, 1, 1⟩ : Date).ord - (⟨y, 1, 1⟩ : Date).ord =
      if (4 ∣ y ∧ ¬ 100 ∣ y) ∨ 400 ∣ y then 366 else 365 := by
  have h : (⟨y + 1, 1, 1⟩ : Date).ord - (⟨y, 1, 1⟩ : Date).ord = daysInYear y := by
    simp only [Date.ord, daysBeforeMonth, daysBeforeYear]; omega
  rw [h]
  unfold daysInYear isLeap
  simp only [Bool.or_eq_true, Bool.and_eq_true, beq_iff_eq, bne_iff_ne, ne_eq, Nat.dvd_iff_mod_eq_zero]

/-- Non-vacuity: two spin-up years, 28 February 2000 to 2 January 2001, spanning a leap day. -/
def exRun : RunCfg :=
  { start := ⟨2000, 2, 28⟩, fin := ⟨2001, 1, 2⟩, spin := 2, saveStates := true,
    dataStart := ⟨1999, 1, 1⟩, dataEnd := ⟨2003, 12, 31⟩ }

theorem exRun_good : GoodPeriod exRun := by
  constructor <;> decide +kernel

example : ∃ s, setup exRun = .ok s ∧
    (simulated (runLoop exRun s 3).trace).length = 308 + 308 + 310 ∧
    (simulated (runLoop exRun s 3).trace).take 3 = [⟨2000, 2, 28⟩, ⟨2000, 2, 29⟩, ⟨2000, 3, 1⟩] := by
  obtain ⟨s, h1, -, h3⟩ := C30_days_simulated exRun exRun_good (by decide)
  refine ⟨s, h1, ?_, ?_⟩
  · rw [h3 3 (by decide)]; decide +kernel
  · rw [h3 3 (by decide)]; decide +kernel

/-- **C30 (start-up check).**  A start or end date outside of the forcing data stops the run before the
first day. -/
theorem C30_period_checked (c : RunCfg)
    (h : c.start.ord < c.dataStart.ord ∨ c.dataEnd.ord < c.start.ord ∨
      c.fin.ord < c.dataStart.ord ∨ c.dataEnd.ord < c.fin.ord) :
    setup c = .error .periodNotInData := by
  unfold setup; rw [if_neg (by omega)]

example : setup { exRun with fin := ⟨2004, 1, 1⟩ } = .error .periodNotInData :=
  C30_period_checked _ (by right; right; right; decide +kernel)

/-- **C30 violated.**  With a negative number of spin-up years the loop never reaches the simulation
period: it never ends and never writes a value, however long it runs. -/
theorem C30_violated_negative_spinup (c : RunCfg) (s : Setup) (hneg : c.spin < 0) (n : ℕ) :
    (runLoop c s n).done = false ∧ written (runLoop c s n).trace = [] := by
  have key : ∀ n : ℕ, (runLoop c s n).done = false ∧ (runLoop c s n).spin < 0 ∧
      written (runLoop c s n).trace = [] := by
    intro n
    induction n with
    | zero => exact ⟨rfl, hneg, rfl⟩
    | succ n ih =>
      obtain ⟨a, b, d⟩ := ih
      rw [runLoop] at a b d ⊢
      rw [Function.iterate_succ_apply']
      generalize (whileStep c s)^[n] { spin := c.spin, trace := [], done := false } = l at *
      have hne : l.spin ≠ 0 := by omega
      simp only [whileStep, a, Bool.false_eq_true, if_false, forDays_spin c _ hne, ne_eq, hne,
        not_false_eq_true, if_true]
      refine ⟨trivial, by omega, ?_⟩
      simp only [written, List.filterMap_append] at d ⊢
      rw [d]
      induction phaseDays s l.spin with
      | nil => rfl
      | cons t ts ih => simp
  exact ⟨(key n).1, (key n).2.2⟩

example : (runLoop { exRun with spin := -1 } ⟨[⟨2000, 12, 31⟩], 1, 1, [⟨2000, 12, 31⟩]⟩ 5).done = false :=
  (C30_violated_negative_spinup _ _ (by decide) 5).1

/-- **C30 violated.**  An end date before the start date in the same year passes the period check; the
loop then never ends. -/
theorem C30_violated_reversed_period (c : RunCfg) (s : Setup) (hs : setup c = .ok s)
    (hrev : c.fin.ord < c.start.ord) (n : ℕ) : (runLoop c s n).done = false := by
  have hr : s.rangeMain ≤ 0 := by
    unfold setup at hs
    split_ifs at hs
    injection hs with hs
    subst hs
    simp only; omega
  induction n with
  | zero => rfl
  | succ n ih =>
    rw [runLoop] at ih ⊢
    rw [Function.iterate_succ_apply']
    generalize (whileStep c s)^[n] { spin := c.spin, trace := [], done := false } = l at *
    simp only [whileStep, ih, Bool.false_eq_true, if_false]
    by_cases h0 : l.spin = 0
    · rw [h0]
      have : phaseDays s 0 = [] := by
        simp only [phaseDays, if_true, Int.toNat_of_nonpos hr, List.take_zero]
      rw [this]; rfl
    · rw [forDays_spin c _ h0]

/-- Such a period does pass the set-up. -/
example : ∃ s, setup { exRun with fin := ⟨2000, 2, 27⟩ } = .ok s ∧
    ({ exRun with fin := ⟨2000, 2, 27⟩ } : RunCfg).fin.ord <
      ({ exRun with fin := ⟨2000, 2, 27⟩ } : RunCfg).start.ord := by
  have hg : gridTime { exRun with fin := ⟨2000, 2, 27⟩ } = daysBetween ⟨2000, 2, 28⟩ (yearEnd 2000) :=
    axisSlice_eq _ (by decide +kernel) (by decide +kernel) (by decide +kernel) (by decide +kernel)
  unfold setup
  rw [if_pos (by decide +kernel), hg, if_pos (by decide +kernel)]
  exact ⟨_, rfl, by decide +kernel⟩

/-! ## C31 -/

theorem written_spin (c : RunCfg) (n : ℕ) (f : Event → Option Date) (hf : ∀ t, f (.sim t) = none) :
    (spinEvents c n).filterMap f = [] := by
  simp only [spinEvents]
  induction n with
  | zero => rfl
  | succ m ih =>
    simp only [List.replicate_succ, List.flatten_cons, List.filterMap_append, ih, List.append_nil]
    induction daysBetween c.start (yearEnd c.start.y) with
    | nil => rfl
    | cons a l ih => simp [hf, ih]

/-- **C31.**  In a completed run the spin-up comes first and produces nothing but computed days; after it
every day of the period is written exactly once, in order; files are saved on every 31 December and on
the end date; and the states are saved exactly once, at the end date and as the last action, if that is
selected, otherwise never. -/
theorem C31_outputs (c : RunCfg) (h : GoodPeriod c) (hspin : 0 ≤ c.spin) (s : Setup)
    (hs : setup c = .ok s) (n : ℕ) (hd : (runLoop c s n).done = true) :
    ∃ pre main : List Event, (runLoop c s n).trace = pre ++ main ∧
      (∀ e ∈ pre, ∃ t, e = .sim t) ∧
      simulated main = daysBetween c.start c.fin ∧
      written main = daysBetween c.start c.fin ∧
      flushed main = (daysBetween c.start c.fin).filter
        (fun t => decide (t = yearEnd t.y) || decide (t = c.fin)) ∧
      saved main = (if c.saveStates then [c.fin] else []) ∧
      (c.saveStates = true → main.getLast? = some (.save c.fin)) := by
  have hgd := setup_good h
  have hn : c.spin.toNat < n := by
    by_contra hc
    rw [runLoop_spin h s hs hspin n (by omega)] at hd
    cases hd
  obtain ⟨k, rfl⟩ : ∃ k, n = k + (c.spin.toNat + 1) := ⟨n - (c.spin.toNat + 1), by omega⟩
  rw [runLoop, Function.iterate_add_apply]
  have := runLoop_done h s hs hspin
  rw [runLoop] at this
  rw [this, whileStep_done _ _ _ rfl]
  refine ⟨_, _, rfl, ?_, ?_, ?_, ?_, ?_, ?_⟩
  · intro e he
    simp only [spinEvents, List.mem_flatten, List.mem_replicate] at he
    obtain ⟨l, ⟨_, rfl⟩, he⟩ := he
    obtain ⟨t, -, rfl⟩ := List.mem_map.1 he
    exact ⟨t, rfl⟩
  · simp only [mainEvents, simulated]
    induction daysBetween c.start c.fin with
    | nil => rfl
    | cons a l ih =>
      rw [List.flatMap_cons, List.filterMap_append, ih]
      simp only [dayEvents, if_true]
      split_ifs <;> simp
  · simp only [mainEvents, written]
    induction daysBetween c.start c.fin with
    | nil => rfl
    | cons a l ih =>
      rw [List.flatMap_cons, List.filterMap_append, ih]
      simp only [dayEvents, if_true]
      split_ifs <;> simp
  · simp only [mainEvents, flushed]
    induction daysBetween c.start c.fin with
    | nil => rfl
    | cons a l ih =>
      rw [List.flatMap_cons, List.filterMap_append, ih]
      simp only [dayEvents, if_true]
      have hye : a = yearEnd a.y ↔ (a.m = 12 ∧ a.d = 31) := by
        obtain ⟨y, m, d⟩ := a; simp [yearEnd]
      have hfa : c.fin = a ↔ a = c.fin := eq_comm
      by_cases h1 : (a.m = 12 ∧ a.d = 31) ∨ c.fin = a
      · have h1' : a = yearEnd a.y ∨ a = c.fin := by rw [hye, ← hfa]; exact h1
        rw [if_pos h1, List.filter_cons_of_pos (by simpa using h1')]
        split_ifs <;> simp
      · have h1' : ¬ (a = yearEnd a.y ∨ a = c.fin) := by rw [hye, ← hfa]; exact h1
        rw [if_neg h1, List.filter_cons_of_neg (by simpa using h1')]
        split_ifs <;> simp
  · rw [mainEvents, daysBetween_last h.vs h.vf h.h2]
    simp only [saved, List.flatMap_append, List.filterMap_append]
    have hnot : ∀ t ∈ daysFrom c.start (c.fin.ord - c.start.ord), c.fin ≠ t := by
      intro t ht e
      rw [← e, mem_daysFrom h.vs] at ht
      have := h.h2; omega
    have h0 : ∀ l : List Date, (∀ t ∈ l, c.fin ≠ t) → (l.flatMap (dayEvents c 0)).filterMap
        (fun e => match e with | .save t => some t | _ => none) = ([] : List Date) := by
      intro l hl
      induction l with
      | nil => rfl
      | cons a l ih =>
        rw [List.flatMap_cons, List.filterMap_append, ih fun t ht => hl t (by simp [ht])]
        have hne := hl a (by simp)
        simp only [dayEvents, if_true, hne, or_false, false_and, if_false]
        split_ifs <;> simp
    rw [h0 _ hnot]
    cases hsv : c.saveStates <;> simp [dayEvents, hsv]
  · intro hsv
    rw [mainEvents, daysBetween_last h.vs h.vf h.h2]
    simp [dayEvents, hsv, List.getLast?_append]

example : ∃ s, setup exRun = .ok s ∧ (runLoop exRun s 3).done = true := by
  obtain ⟨s, h1, h2, -⟩ := C30_days_simulated exRun exRun_good (by decide)
  exact ⟨s, h1, (h2 3).2 (by decide)⟩

/-- **C31 (no early output).**  However far the run has come, nothing is written, saved to file or saved
as state before the spin-up is over. -/
theorem C31_nothing_in_spinup (c : RunCfg) (h : GoodPeriod c) (hspin : 0 ≤ c.spin) (s : Setup)
    (hs : setup c = .ok s) (n : ℕ) (hn : (n : ℤ) ≤ c.spin) :
    written (runLoop c s n).trace = [] ∧ flushed (runLoop c s n).trace = [] ∧
      saved (runLoop c s n).trace = [] := by
  rw [runLoop_spin h s hs hspin n hn]
  exact ⟨written_spin c n _ fun _ => rfl, written_spin c n _ fun _ => rfl,
    written_spin c n _ fun _ => rfl⟩

example : (2 : ℤ) ≤ exRun.spin := by decide

end WG
