import Verif.Model.WaterUse
import Verif.Props.MonthlyDemand

/-!
# Attributing the water-use data to months (C61)
-/

namespace WG

/-! ## Specification -/

/-- Months counted from year 0. -/
def monthNo (y m : ℕ) : ℕ := 12 * y + m

/-- What the file says about month `m` of year `y`: value `v` stands at a place whose time is the number of months from the
month of the reference date to that month. -/
def Declares (f : UseFile) (y m : ℕ) (v : ℝ) : Prop :=
  ∃ k : ℕ, ∃ h : k < f.times.length, f.vals[k]? = some v ∧ monthNo f.ref.y f.ref.m + f.times[k] = monthNo y m

/-- A file as the water-use model writes it: monthly values without gaps starting with the month of the reference
date, which is the first of a month. -/
structure GoodUseFile (f : UseFile) : Prop where
  d : f.ref.d = 1
  m : 1 ≤ f.ref.m ∧ f.ref.m ≤ 12
  times : f.times = List.range f.vals.length

/-! ## Lemmas -/

theorem nextMonth_no (y m : ℕ) (hm : m ≤ 12) : monthNo (nextMonth (y, m)).1 (nextMonth (y, m)).2 = monthNo y m + 1 := by
  unfold nextMonth monthNo; simp only; split <;> simp only <;> omega

theorem nextMonth_range (y m : ℕ) : 1 ≤ (nextMonth (y, m)).2 ∧ (m ≤ 12 → (nextMonth (y, m)).2 ≤ 12) := by
  unfold nextMonth; simp only; split <;> simp only <;> omega

theorem monthNo_inj {y m y' m' : ℕ} (h1 : 1 ≤ m) (h2 : m ≤ 12) (h3 : 1 ≤ m') (h4 : m' ≤ 12)
    (h : monthNo y m = monthNo y' m') : (y, m) = (y', m') := by
  unfold monthNo at h
  have : y = y' := by omega
  have : m = m' := by omega
  simp_all

theorem findSome_months (vals : List ℝ) (y m : ℕ) (hm : 1 ≤ m ∧ m ≤ 12) :
    ∀ (s : ℕ × ℕ), 1 ≤ s.2 → s.2 ≤ 12 →
    (((monthsFrom s vals.length).zip vals).findSome? fun e => if e.1 = (y, m) then some e.2 else none) =
      if monthNo s.1 s.2 ≤ monthNo y m then vals[monthNo y m - monthNo s.1 s.2]? else none := by
  induction vals with
  | nil => intro s _ _; simp [monthsFrom]
  | cons v vs ih =>
    intro s h1 h2
    simp only [List.length_cons, monthsFrom, List.zip_cons_cons, List.findSome?_cons]
    have hn := nextMonth_no s.1 s.2 h2
    have hr := nextMonth_range s.1 s.2
    have ih' := ih (nextMonth s) hr.1 (hr.2 h2)
    by_cases he : s = (y, m)
    · subst he; simp
    · rw [if_neg he]
      simp only
      rw [ih']
      have hne : monthNo s.1 s.2 ≠ monthNo y m := by
        intro hc
        have := monthNo_inj h1 h2 hm.1 hm.2 hc
        exact he this
      have hn' : monthNo (nextMonth s).1 (nextMonth s).2 = monthNo s.1 s.2 + 1 := hn
      rw [hn']
      by_cases hle : monthNo s.1 s.2 ≤ monthNo y m
      · rw [if_pos (by omega), if_pos hle]
        obtain ⟨k, hk⟩ : ∃ k, monthNo y m - monthNo s.1 s.2 = k + 1 := ⟨monthNo y m - monthNo s.1 s.2 - 1, by omega⟩
        rw [hk, show monthNo y m - (monthNo s.1 s.2 + 1) = k by omega]
        simp
      · rw [if_neg (by omega), if_neg hle]

/-! ## Theorems -/

/-- C61: what the run uses for a month, for every file: the value at the place given by the number of months since the
reference date if that is the first of a month, and the value one place earlier otherwise; the times in the file play no
role.  A month before the first or after the last value ends the run with an error. -/
theorem C61_selected (f : UseFile) (hr : 1 ≤ f.ref.m ∧ f.ref.m ≤ 12) (y m : ℕ) (hm : 1 ≤ m ∧ m ≤ 12) :
    useSel f y m =
      let start := monthNo f.ref.y f.ref.m + (if f.ref.d = 1 then 0 else 1);
      if start ≤ monthNo y m then f.vals[monthNo y m - start]? else none := by
  unfold useSel useAxis
  have hf : monthNo (firstMonth f.ref).1 (firstMonth f.ref).2 =
      monthNo f.ref.y f.ref.m + (if f.ref.d = 1 then 0 else 1) ∧
      1 ≤ (firstMonth f.ref).2 ∧ (firstMonth f.ref).2 ≤ 12 := by
    unfold firstMonth
    by_cases h : f.ref.d = 1
    · simp only [if_pos h]; exact ⟨rfl, hr.1, hr.2⟩
    · simp only [if_neg h]
      exact ⟨nextMonth_no _ _ hr.2, (nextMonth_range _ _).1, (nextMonth_range _ _).2 hr.2⟩
  rw [findSome_months f.vals y m hm (firstMonth f.ref) hf.2.1 hf.2.2, hf.1]

/-- C61: with a file as the water-use model writes it, the value a run uses for a month is the one the file declares for
that month, and a run that needs a month the file does not declare ends with an error. -/
theorem C61_right_month (f : UseFile) (h : GoodUseFile f) (y m : ℕ) (hm : 1 ≤ m ∧ m ≤ 12) (v : ℝ) :
    useSel f y m = some v ↔ Declares f y m v := by
  rw [C61_selected f h.m y m hm]
  simp only [if_pos h.d, Nat.add_zero]
  unfold Declares
  constructor
  · intro hv
    split_ifs at hv with hle
    refine ⟨monthNo y m - monthNo f.ref.y f.ref.m, ?_, hv, ?_⟩
    · rw [h.times, List.length_range]
      exact (List.getElem?_eq_some_iff.1 hv).1
    · simp only [h.times, List.getElem_range]; omega
  · rintro ⟨k, hk, hv, he⟩
    simp only [h.times, List.getElem_range] at he
    rw [if_pos (by omega), show monthNo y m - monthNo f.ref.y f.ref.m = k by omega]
    exact hv

/-- C61: hence, for every period and number of spin-up years, the demand of every simulated day whose month the file
declares is the declared value of the day's own month divided by the number of days of the (ordinary) month. -/
theorem C61_daily (f : UseFile) (hf : GoodUseFile f) (c : RunCfg) (h : GoodPeriod c) (hspin : 0 ≤ c.spin) (rate : ℝ) :
    ∃ s, setup c = .ok s ∧ ∀ n : ℕ, c.spin.toNat < n → ∀ t r,
      (t, r) ∈ demandRates s.dateMain (fun y m => (useSel f y m).getD 0) rate (simulated (runLoop c s n).trace) →
      t.Valid → ∀ v, Declares f t.y t.m v → r = v / (demandDays t.m * 1e9) := by
  obtain ⟨s, h1, h2⟩ := C32_daily_demand c h hspin (fun y m => (useSel f y m).getD 0) rate
  refine ⟨s, h1, fun n hn t r hmem hv v hd => ?_⟩
  rw [h2 n hn, List.mem_map] at hmem
  obtain ⟨t', -, he⟩ := hmem
  injection he with he1 he2
  subst he1
  rw [← he2, (C61_right_month f hf t'.y t'.m ⟨hv.1, hv.2.1⟩ v).2 hd]
  rfl

/-- C61 violated: the times in the file are not looked at.  A file whose values start twelve months after its reference
date (January 1902, `months since 1901-01-01`) is used a year too early, and its last year is missing. -/
theorem C61_violated_offset :
    ∃ f : UseFile, f.ref = ⟨1901, 1, 1⟩ ∧ f.times = (List.range 12).map (· + 12) ∧ f.vals.length = 12 ∧
      Declares f 1902 1 7 ∧ useSel f 1901 1 = some 7 ∧ useSel f 1902 1 = none := by
  have hs := fun y => C61_selected ⟨⟨1901, 1, 1⟩, (List.range 12).map (· + 12), List.replicate 12 7⟩
    (by decide) y 1 (by decide)
  refine ⟨⟨⟨1901, 1, 1⟩, (List.range 12).map (· + 12), List.replicate 12 7⟩, rfl, rfl, by simp, ?_, ?_, ?_⟩
  · exact ⟨0, by simp, by simp, by simp [monthNo]⟩
  · rw [hs]; simp [monthNo]
  · rw [hs]; simp [monthNo]

/-- C61 violated: with a reference date in mid-month every value is used one month too late. -/
theorem C61_violated_mid_month :
    ∃ f : UseFile, f.ref = ⟨1901, 1, 15⟩ ∧ f.times = List.range 12 ∧
      Declares f 1901 7 7 ∧ useSel f 1901 8 = some 7 ∧ useSel f 1901 1 = none := by
  have hs := fun m hm => C61_selected ⟨⟨1901, 1, 15⟩, List.range 12, (List.range 12).map fun k => (k : ℝ) + 1⟩
    (by decide) 1901 m hm
  refine ⟨⟨⟨1901, 1, 15⟩, List.range 12, (List.range 12).map fun k => (k : ℝ) + 1⟩, rfl, rfl, ?_, ?_, ?_⟩
  · refine ⟨6, by simp, ?_, by simp [monthNo]⟩
    show ((List.range 12).map fun k => ((k : ℕ) : ℝ) + 1)[6]? = some 7
    rw [List.getElem?_map, List.getElem?_range (by norm_num)]; norm_num
  · rw [hs 8 (by decide)]
    show ((List.range 12).map fun k => ((k : ℕ) : ℝ) + 1)[6]? = some 7
    rw [List.getElem?_map, List.getElem?_range (by norm_num)]; norm_num
  · rw [hs 1 (by decide)]; simp [monthNo]

/-! ## Non-vacuity -/

/-- Values 1, 2, …, 24 for the months of 1901 and 1902. -/
noncomputable def exUse : UseFile := ⟨⟨1901, 1, 1⟩, List.range 24, (List.range 24).map fun k => (k : ℝ) + 1⟩

example : GoodUseFile exUse := ⟨rfl, by decide, by simp [exUse]⟩

example : useSel exUse 1902 2 = some 14 := by
  rw [C61_selected exUse (by decide) 1902 2 (by decide)]
  show ((List.range 24).map fun k => ((k : ℕ) : ℝ) + 1)[13]? = some 14
  rw [List.getElem?_map, List.getElem?_range (by norm_num)]; norm_num

end WG
