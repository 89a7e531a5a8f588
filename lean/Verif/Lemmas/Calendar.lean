import Verif.Model.Calendar
import Mathlib.Tactic.IntervalCases

/-! # Facts about the calendar -/

namespace WG

theorem daysInMonth_pos (y m : ℕ) : 1 ≤ daysInMonth y m := by
  unfold daysInMonth; split_ifs <;> omega

theorem daysInMonth_le (y m : ℕ) : daysInMonth y m ≤ 31 := by
  unfold daysInMonth; split_ifs <;> omega

/-- The twelve months make up the year. -/
theorem daysBeforeMonth_twelve (y : ℕ) :
    daysBeforeMonth y 12 + daysInMonth y 12 = daysInYear y := by
  simp only [daysBeforeMonth, daysInMonth, daysInYear]
  cases isLeap y <;> simp

theorem next_valid {t : Date} (h : t.Valid) : t.next.Valid := by
  obtain ⟨y, m, d⟩ := t
  obtain ⟨h1, h2, h3, h4⟩ := h
  simp only at h1 h2 h3 h4
  unfold Date.next
  simp only
  by_cases ha : d < daysInMonth y m
  · rw [if_pos ha]; exact ⟨h1, h2, by simp, ha⟩
  · rw [if_neg ha]
    by_cases hb : m < 12
    · rw [if_pos hb]; exact ⟨by simp, hb, le_refl _, daysInMonth_pos _ _⟩
    · rw [if_neg hb]; exact ⟨le_refl _, by simp, le_refl _, daysInMonth_pos _ _⟩

theorem next_ord {t : Date} (h : t.Valid) : t.next.ord = t.ord + 1 := by
  obtain ⟨y, m, d⟩ := t
  obtain ⟨h1, h2, h3, h4⟩ := h
  simp only at h1 h2 h3 h4
  unfold Date.next
  simp only
  by_cases ha : d < daysInMonth y m
  · rw [if_pos ha]; simp only [Date.ord]; omega
  · rw [if_neg ha]
    have hd : d = daysInMonth y m := by omega
    by_cases hb : m < 12
    · rw [if_pos hb]
      obtain ⟨k, rfl⟩ : ∃ k, m = k + 1 := ⟨m - 1, by omega⟩
      simp only [Date.ord, daysBeforeMonth]; omega
    · rw [if_neg hb]
      have hm : m = 12 := by omega
      subst hm
      have := daysBeforeMonth_twelve y
      have h1' : daysBeforeMonth (y + 1) 1 = 0 := rfl
      have h2' : daysBeforeYear (y + 1) = daysBeforeYear y + daysInYear y := rfl
      simp only [Date.ord, h1', h2']; omega

theorem daysBeforeMonth_step (y m : ℕ) (h : 1 ≤ m) :
    daysBeforeMonth y (m + 1) = daysBeforeMonth y m + daysInMonth y m := by
  obtain ⟨k, rfl⟩ : ∃ k, m = k + 1 := ⟨m - 1, by omega⟩
  rfl

theorem daysBeforeMonth_mono (y : ℕ) {a b : ℕ} (ha : 1 ≤ a) (h : a < b) :
    daysBeforeMonth y a + daysInMonth y a ≤ daysBeforeMonth y b := by
  induction b with
  | zero => omega
  | succ b ih =>
    by_cases hb : a = b
    · subst hb; rw [daysBeforeMonth_step y a ha]
    · have := ih (by omega)
      rw [daysBeforeMonth_step y b (by omega)]; omega

theorem daysBeforeYear_mono {a b : ℕ} (h : a < b) :
    daysBeforeYear a + daysInYear a ≤ daysBeforeYear b := by
  induction b with
  | zero => omega
  | succ b ih =>
    by_cases hb : a = b
    · subst hb; exact le_refl _
    · have := ih (by omega)
      have h2' : daysBeforeYear (b + 1) = daysBeforeYear b + daysInYear b := rfl
      omega

/-- Within its year a valid date has a day number between 1 and the length of the year. -/
theorem ord_in_year {t : Date} (h : t.Valid) :
    daysBeforeYear t.y + 1 ≤ t.ord ∧ t.ord ≤ daysBeforeYear t.y + daysInYear t.y := by
  obtain ⟨y, m, d⟩ := t
  obtain ⟨h1, h2, h3, h4⟩ := h
  simp only at h1 h2 h3 h4
  simp only [Date.ord]
  refine ⟨by omega, ?_⟩
  have := daysBeforeMonth_twelve y
  by_cases hm : m = 12
  · subst hm; omega
  · have := daysBeforeMonth_mono y h1 (show m < 12 by omega); omega

/-- Calendar order and day numbers agree. -/
theorem ord_lt_of_lex {a b : Date} (ha : a.Valid) (hb : b.Valid)
    (h : a.y < b.y ∨ (a.y = b.y ∧ (a.m < b.m ∨ (a.m = b.m ∧ a.d < b.d)))) : a.ord < b.ord := by
  have h1 := ord_in_year ha
  have h2 := ord_in_year hb
  rcases h with h | ⟨h, h' | ⟨h', h''⟩⟩
  · have := daysBeforeYear_mono h; omega
  · have := daysBeforeMonth_mono a.y ha.1 h'
    have h4 := ha.2.2.2
    have h5 := hb.2.2.1
    simp only [Date.ord, ← h]; omega
  · simp only [Date.ord, ← h, ← h']; omega

theorem ord_injective {a b : Date} (ha : a.Valid) (hb : b.Valid) (h : a.ord = b.ord) : a = b := by
  by_contra hne
  have key : (a.y < b.y ∨ (a.y = b.y ∧ (a.m < b.m ∨ (a.m = b.m ∧ a.d < b.d)))) ∨
      (b.y < a.y ∨ (b.y = a.y ∧ (b.m < a.m ∨ (b.m = a.m ∧ b.d < a.d)))) := by
    by_contra hc
    apply hne
    obtain ⟨y, m, d⟩ := a
    obtain ⟨y', m', d'⟩ := b
    simp only at hc
    have e1 : y = y' := by omega
    have e2 : m = m' := by omega
    have e3 : d = d' := by omega
    rw [e1, e2, e3]
  rcases key with k | k
  · have := ord_lt_of_lex ha hb k; omega
  · have := ord_lt_of_lex hb ha k; omega

theorem daysFrom_length (s : Date) (n : ℕ) : (daysFrom s n).length = n := by
  induction n generalizing s with
  | zero => rfl
  | succ n ih => simp [daysFrom, ih]

theorem daysFrom_take (s : Date) (n k : ℕ) : (daysFrom s n).take k = daysFrom s (min k n) := by
  induction n generalizing s k with
  | zero => simp [daysFrom]
  | succ n ih =>
    cases k with
    | zero => simp [daysFrom]
    | succ k =>
      rw [show min (k + 1) (n + 1) = min k n + 1 by omega]
      simp [daysFrom, ih]

/-- Membership in a stretch of consecutive days. -/
theorem mem_daysFrom {s : Date} (hs : s.Valid) (n : ℕ) (t : Date) :
    t ∈ daysFrom s n ↔ t.Valid ∧ s.ord ≤ t.ord ∧ t.ord < s.ord + n := by
  induction n generalizing s with
  | zero => simp [daysFrom]
  | succ n ih =>
    simp only [daysFrom, List.mem_cons, ih (next_valid hs), next_ord hs]
    constructor
    · rintro (rfl | ⟨a, b, c⟩)
      · exact ⟨hs, le_refl _, by omega⟩
      · exact ⟨a, by omega, by omega⟩
    · rintro ⟨a, b, c⟩
      by_cases h : t.ord = s.ord
      · exact Or.inl (ord_injective a hs h)
      · exact Or.inr ⟨a, by omega, by omega⟩

theorem daysFrom_sorted {s : Date} (hs : s.Valid) (n : ℕ) :
    (daysFrom s n).Pairwise (fun a b => a.ord < b.ord) := by
  induction n generalizing s with
  | zero => simp [daysFrom]
  | succ n ih =>
    simp only [daysFrom, List.pairwise_cons]
    refine ⟨fun t ht => ?_, ih (next_valid hs)⟩
    have := (mem_daysFrom (next_valid hs) n t).1 ht
    rw [next_ord hs] at this; omega

theorem daysFrom_nodup {s : Date} (hs : s.Valid) (n : ℕ) : (daysFrom s n).Nodup :=
  (daysFrom_sorted hs n).imp fun h e => by rw [e] at h; omega

theorem daysFrom_append (s : Date) (a b : ℕ) :
    daysFrom s (a + b) = daysFrom s a ++ daysFrom (Date.next^[a] s) b := by
  induction a generalizing s with
  | zero => simp [daysFrom]
  | succ a ih =>
    rw [show a + 1 + b = (a + b) + 1 by omega]
    simp [daysFrom, ih]

theorem iterate_next_valid {s : Date} (hs : s.Valid) (n : ℕ) : (Date.next^[n] s).Valid := by
  induction n generalizing s with
  | zero => exact hs
  | succ n ih => exact ih (next_valid hs)

theorem iterate_next_ord {s : Date} (hs : s.Valid) (n : ℕ) :
    (Date.next^[n] s).ord = s.ord + n := by
  induction n generalizing s with
  | zero => rfl
  | succ n ih =>
    rw [Function.iterate_succ, Function.comp, ih (next_valid hs), next_ord hs]; omega

theorem yearEnd_valid (y : ℕ) : (yearEnd y).Valid := by
  simp [Date.Valid, yearEnd, daysInMonth]

theorem yearEnd_ord (y : ℕ) : (yearEnd y).ord = daysBeforeYear y + daysInYear y := by
  have := daysBeforeMonth_twelve y
  have h : daysInMonth y 12 = 31 := by simp [daysInMonth]
  simp only [Date.ord, yearEnd]; omega

theorem ord_le_yearEnd {t : Date} (h : t.Valid) : t.ord ≤ (yearEnd t.y).ord := by
  rw [yearEnd_ord]; exact (ord_in_year h).2

/-- Membership in an inclusive slice. -/
theorem mem_daysBetween {s : Date} (hs : s.Valid) (e t : Date) :
    t ∈ daysBetween s e ↔ t.Valid ∧ s.ord ≤ t.ord ∧ t.ord ≤ e.ord := by
  unfold daysBetween
  rw [mem_daysFrom hs]
  constructor
  · rintro ⟨a, b, c⟩; exact ⟨a, b, by omega⟩
  · rintro ⟨a, b, c⟩; exact ⟨a, b, by omega⟩

/-- A slice ends with its last day. -/
theorem daysBetween_last {s e : Date} (hs : s.Valid) (he : e.Valid) (h : s.ord ≤ e.ord) :
    daysBetween s e = daysFrom s (e.ord - s.ord) ++ [e] := by
  unfold daysBetween
  rw [show e.ord + 1 - s.ord = (e.ord - s.ord) + 1 by omega, daysFrom_append]
  have : Date.next^[e.ord - s.ord] s = e := by
    apply ord_injective (iterate_next_valid hs _) he
    rw [iterate_next_ord hs]; omega
  rw [this]; rfl

end WG
