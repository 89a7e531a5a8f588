import Verif.Model.LatOutput
import Verif.Model.CalibYears
import Verif.Props.Output
import Verif.Props.CalibData
import Verif.Props.Calibration

/-!
# Calibration compares like with like (C72)
-/

namespace WG

/-! ## The dates of a year -/

/-- All days of a year, 1 January to 31 December (`C30_calendar` says which dates these are). -/
def yearDays (y : ℕ) : List Date := daysBetween ⟨y, 1, 1⟩ ⟨y, 12, 31⟩

theorem jan1_valid (y : ℕ) : (⟨y, 1, 1⟩ : Date).Valid := by
  refine ⟨le_refl _, by norm_num, le_refl _, ?_⟩
  exact daysInMonth_pos y 1

theorem jan1_ord (y : ℕ) : (⟨y, 1, 1⟩ : Date).ord = daysBeforeYear y + 1 := by
  simp [Date.ord, daysBeforeMonth]

/-- Lists of dates in ascending order with the same members are the same. -/
theorem dates_ext {l k : List Date} (hl : l.Pairwise fun a b => a.ord < b.ord)
    (hk : k.Pairwise fun a b => a.ord < b.ord) (h : ∀ t, t ∈ l ↔ t ∈ k) : l = k := by
  have nd : ∀ {l : List Date}, (l.Pairwise fun a b => a.ord < b.ord) → l.Nodup := fun h =>
    h.imp fun h e => by rw [e] at h; omega
  refine ((List.perm_ext_iff_of_nodup (nd hl) (nd hk)).2 h).eq_of_pairwise ?_ hl hk
  intro a b _ _ h1 h2; omega

theorem nats_ext {l k : List ℕ} (hl : l.Pairwise (· < ·)) (hk : k.Pairwise (· < ·)) (h : ∀ t, t ∈ l ↔ t ∈ k) :
    l = k := by
  have nd : ∀ {l : List ℕ}, l.Pairwise (· < ·) → l.Nodup := fun h => h.imp fun h e => by omega
  refine ((List.perm_ext_iff_of_nodup (nd hl) (nd hk)).2 h).eq_of_pairwise ?_ hl hk
  intro a b _ _ h1 h2; omega

theorem year_lt_of_ord {a b : Date} (ha : a.Valid) (hb : b.Valid) (h : a.y < b.y) : a.ord < b.ord := by
  have h1 := ord_in_year ha
  have h2 := ord_in_year hb
  have h3 := daysBeforeYear_mono h
  omega

/-- Which dates a year has. -/
theorem mem_yearDays (y : ℕ) (t : Date) : t ∈ yearDays y ↔ t.Valid ∧ t.y = y := by
  rw [yearDays, mem_daysBetween (jan1_valid y)]
  constructor
  · rintro ⟨a, b, d⟩
    refine ⟨a, ?_⟩
    rcases Nat.lt_trichotomy t.y y with h | h | h
    · have := year_lt_of_ord a (jan1_valid y) h; omega
    · exact h
    · have := year_lt_of_ord (yearEnd_valid y) a h
      simp only [yearEnd] at this; omega
  · rintro ⟨a, rfl⟩
    refine ⟨a, ?_, ord_le_yearEnd a⟩
    rw [jan1_ord]; exact (ord_in_year a).1

theorem yearDays_length (y : ℕ) : (yearDays y).length = daysInYear y := by
  rw [yearDays, daysBetween, daysFrom_length, jan1_ord]
  have := yearEnd_ord y
  simp only [yearEnd] at this; omega

/-- The part of whole years that falls into one of them is that year. -/
theorem filter_year (a b k : ℕ) (h1 : a ≤ k) (h2 : k ≤ b) :
    (daysBetween ⟨a, 1, 1⟩ ⟨b, 12, 31⟩).filter (fun t => decide (t.y = k)) = yearDays k := by
  apply dates_ext
  · exact (daysFrom_sorted (jan1_valid a) _).filter _
  · exact daysFrom_sorted (jan1_valid k) _
  · intro t
    rw [List.mem_filter, mem_daysBetween (jan1_valid a), mem_yearDays, decide_eq_true_eq]
    constructor
    · rintro ⟨⟨v, -, -⟩, e⟩; exact ⟨v, e⟩
    · rintro ⟨v, rfl⟩
      refine ⟨⟨v, ?_, ?_⟩, rfl⟩
      · rcases Nat.lt_or_eq_of_le h1 with h | h
        · exact (year_lt_of_ord (jan1_valid a) v h).le
        · rw [h, jan1_ord]; exact (ord_in_year v).1
      · rcases Nat.lt_or_eq_of_le h2 with h | h
        · exact (year_lt_of_ord v (yearEnd_valid b) h).le
        · rw [← h]; exact ord_le_yearEnd v

/-! ## A run over whole years -/

/-- The run covers whole years. -/
structure WholeYears (c : RunCfg) (a b : ℕ) : Prop where
  good : GoodPeriod c
  first : c.start = ⟨a, 1, 1⟩
  last : c.fin = ⟨b, 12, 31⟩

theorem WholeYears.le {c : RunCfg} {a b : ℕ} (h : WholeYears c a b) : a ≤ b := by
  by_contra hc
  have := year_lt_of_ord (yearEnd_valid b) (jan1_valid a) (by simp only [yearEnd]; omega)
  have h2 := h.good.h2
  rw [h.first, h.last] at h2
  simp only [yearEnd] at this
  omega

theorem WholeYears.grid {c : RunCfg} {a b : ℕ} (h : WholeYears c a b) :
    gridTime c = daysBetween ⟨a, 1, 1⟩ ⟨b, 12, 31⟩ := by
  rw [gridTime_eq h.good]
  unfold gridEnd
  rw [h.first, h.last]
  split_ifs <;> rfl

theorem pyRange_sorted (a b : ℕ) : (pyRange a b).Pairwise (· < ·) := by
  rw [pyRange, List.pairwise_map]
  exact List.pairwise_lt_range.imp fun h => by omega

/-- A run over whole years saves its files on the last days of these years. -/
theorem WholeYears.labels {c : RunCfg} {a b : ℕ} (h : WholeYears c a b) :
    (daysFrom c.start (c.fin.ord + 1 - c.start.ord)).filter (fun t => decide (flushDay c t))
      = (pyRange a (b + 1)).map yearEnd := by
  apply dates_ext
  · exact (daysFrom_sorted h.good.vs _).filter _
  · rw [List.pairwise_map]
    exact (pyRange_sorted a (b + 1)).imp fun {x y} hxy =>
      year_lt_of_ord (yearEnd_valid x) (yearEnd_valid y) hxy
  · intro t
    have e := mem_daysBetween h.good.vs c.fin t
    rw [daysBetween] at e
    rw [List.mem_filter, e, decide_eq_true_eq, List.mem_map]
    constructor
    · rintro ⟨⟨v, h1, h2⟩, hf⟩
      have ht : t = yearEnd t.y := by
        rcases hf with hf | hf
        · exact hf
        · rw [hf, h.last]; rfl
      refine ⟨t.y, ?_, ht.symm⟩
      rw [mem_pyRange]
      constructor
      · by_contra hc
        have := year_lt_of_ord v (jan1_valid a) (show t.y < a by omega)
        rw [h.first] at h1; omega
      · by_contra hc
        have := year_lt_of_ord (yearEnd_valid b) v (show b < t.y by omega)
        rw [h.last] at h2; simp only [yearEnd] at this; omega
    · rintro ⟨y, hy, rfl⟩
      rw [mem_pyRange] at hy
      refine ⟨⟨yearEnd_valid y, ?_, ?_⟩, Or.inl rfl⟩
      · rw [h.first]
        rcases Nat.lt_or_eq_of_le hy.1 with g | g
        · exact (year_lt_of_ord (jan1_valid a) (yearEnd_valid y) g).le
        · rw [g, jan1_ord]; exact (ord_in_year (yearEnd_valid y)).1
      · rw [h.last]
        rcases Nat.lt_or_eq_of_le (show y ≤ b by omega) with g | g
        · exact (year_lt_of_ord (yearEnd_valid y) (yearEnd_valid b) g).le
        · rw [g]; exact le_refl _

/-- The axis of an output variable after the events of a day. -/
theorem axis_day (c : RunCfg) (grid : List Date) (conv : ℝ → ℝ) (x : Date → Option ℝ) (v w : OutVar) (fs gs : List OutFile)
    (d : Date) (h : (dayEvents c 0 d).foldl (outStep grid conv x) (some (v, fs)) = some (w, gs)) :
    w.axis = (if d.m = 1 ∧ d.d = 1 then grid.filter fun t => decide (t.y = d.y) else v.axis) ∧
    ∀ f ∈ gs, f ∈ fs ∨ (f.label = d ∧ f.data.axis = w.axis) := by
  cases hw : v.write grid d (x d) with
  | none =>
    exfalso
    simp only [dayEvents, if_true, List.foldl_append, List.foldl_cons, List.foldl_nil, outStep, hw, Option.map_none] at h
    split_ifs at h <;> simp [outStep] at h
  | some v' =>
    have hax : v'.axis = (if d.m = 1 ∧ d.d = 1 then grid.filter fun t => decide (t.y = d.y) else v.axis) := by
      unfold OutVar.write at hw
      simp only at hw
      split_ifs at hw with h1 h2 h3
      · injection hw with hw; subst hw; rw [if_pos h1]; rfl
      · injection hw with hw; subst hw; rw [if_neg h1]
    rw [out_day c grid conv x v v' fs d hw] at h
    split_ifs at h with hf
    · injection h with h; injection h with h1 h2; subst h1 h2
      refine ⟨hax, fun f hf => ?_⟩
      rcases List.mem_append.1 hf with hm | hm
      · exact Or.inl hm
      · rw [List.mem_singleton] at hm; subst hm; exact Or.inr ⟨rfl, rfl⟩
    · injection h with h; injection h with h1 h2; subst h1 h2
      exact ⟨hax, fun f hf => Or.inl hf⟩

/-- A variable of a run that starts on 1 January always holds the days of one calendar year. -/
theorem axis_prefix (c : RunCfg) (h : GoodPeriod c) (hj : c.start.m = 1 ∧ c.start.d = 1) (conv : ℝ → ℝ) (x : Date → Option ℝ)
    (n : ℕ) (hn : c.start.ord + n ≤ c.fin.ord) (v : OutVar) (fs : List OutFile)
    (hr : ((daysFrom c.start (n + 1)).flatMap (dayEvents c 0)).foldl
        (outStep (gridTime c) conv x) (some (OutVar.init (gridTime c), [])) = some (v, fs)) :
    v.axis = (gridTime c).filter (fun t => decide (t.y = (Date.next^[n] c.start).y)) ∧
    ∀ f ∈ fs, f.data.axis = (gridTime c).filter fun t => decide (t.y = f.label.y) := by
  induction n generalizing v fs with
  | zero =>
    simp only [daysFrom, List.flatMap_cons, List.flatMap_nil, List.append_nil] at hr
    obtain ⟨h1, h2⟩ := axis_day c _ conv x _ v [] fs _ hr
    rw [if_pos hj] at h1
    refine ⟨h1, fun f hf => ?_⟩
    rcases h2 f hf with hm | ⟨e1, e2⟩
    · simp at hm
    · rw [e2, h1, e1]
  | succ n ih =>
    have hdl : daysFrom c.start (n + 1 + 1) = daysFrom c.start (n + 1) ++ [Date.next^[n + 1] c.start] := by
      rw [daysFrom_append]; rfl
    obtain ⟨u, us, e1, -, -, -⟩ := out_prefix c h conv x n (by omega)
    rw [hdl, List.flatMap_append, List.foldl_append, e1] at hr
    simp only [List.flatMap_cons, List.flatMap_nil, List.append_nil] at hr
    obtain ⟨i1, i2⟩ := ih (by omega) u us e1
    obtain ⟨h1, h2⟩ := axis_day c _ conv x u v us fs _ hr
    have hdv := iterate_next_valid h.vs n
    have hnx : Date.next^[n + 1] c.start = (Date.next^[n] c.start).next := Function.iterate_succ_apply' _ _ _
    have h3 : v.axis = (gridTime c).filter (fun t => decide (t.y = (Date.next^[n + 1] c.start).y)) := by
      rw [h1, hnx]
      rcases next_year_cases hdv with ⟨-, hd1⟩ | ⟨-, hd2, hd3⟩
      · rw [if_pos (by rw [hd1]; exact ⟨rfl, rfl⟩)]
      · rw [if_neg hd3, i1, hd2]
    refine ⟨h3, fun f hf => ?_⟩
    rcases h2 f hf with hm | ⟨g1, g2⟩
    · exact i2 f hm
    · rw [g2, h3, g1]

/-- The output of a finished run is that of its simulation period. -/
theorem outRun_trace (c : RunCfg) (h : GoodPeriod c) (hspin : 0 ≤ c.spin) (s : Setup)
    (hs : setup c = .ok s) (n : ℕ) (hd : (runLoop c s n).done = true) (grid : List Date)
    (conv : ℝ → ℝ) (x : Date → Option ℝ) :
    outRun grid conv x (runLoop c s n).trace = outRun grid conv x (mainEvents c) := by
  have hn : c.spin.toNat < n := by
    by_contra hc
    rw [runLoop_spin h s hs hspin n (by omega)] at hd
    cases hd
  obtain ⟨k, rfl⟩ : ∃ k, n = k + (c.spin.toNat + 1) := ⟨n - (c.spin.toNat + 1), by omega⟩
  rw [runLoop, Function.iterate_add_apply]
  have hrd := runLoop_done h s hs hspin
  rw [runLoop] at hrd
  rw [hrd, whileStep_done _ _ _ rfl]
  simp only [outRun, List.foldl_append, outRun_spin]

/-- The files of a run over whole years: one per year, with the days of that year and their values. -/
theorem whole_files {c : RunCfg} {a b : ℕ} (h : WholeYears c a b) (hspin : 0 ≤ c.spin) (s : Setup)
    (hs : setup c = .ok s) (n : ℕ) (hd : (runLoop c s n).done = true) (conv : ℝ → ℝ) (x : Date → Option ℝ) :
    ∃ v fs, outRun (gridTime c) conv x (runLoop c s n).trace = some (v, fs) ∧
      fs.map OutFile.label = (pyRange a (b + 1)).map yearEnd ∧
      ∀ f ∈ fs, f.data.axis = yearDays f.label.y ∧ ∀ t ∈ yearDays f.label.y, f.data.val t = (x t).map conv := by
  have hg := h.good
  have h2 := hg.h2
  obtain ⟨v, fs, e1, -, -, e4⟩ := out_prefix c hg conv x (c.fin.ord - c.start.ord) (by omega)
  have hj : c.start.m = 1 ∧ c.start.d = 1 := by rw [h.first]; exact ⟨rfl, rfl⟩
  obtain ⟨-, hax⟩ := axis_prefix c hg hj conv x (c.fin.ord - c.start.ord) (by omega) v fs e1
  have hlab := e4.labels
  rw [show c.fin.ord - c.start.ord + 1 = c.fin.ord + 1 - c.start.ord by omega, h.labels] at hlab
  refine ⟨v, fs, ?_, hlab, ?_⟩
  · rw [outRun_trace c hg hspin s hs n hd, outRun, mainEvents, daysBetween,
      show c.fin.ord + 1 - c.start.ord = c.fin.ord - c.start.ord + 1 by omega]
    exact e1
  · intro f hf
    have hm : f.label ∈ (pyRange a (b + 1)).map yearEnd := by rw [← hlab]; exact List.mem_map_of_mem hf
    obtain ⟨y, hy, hye⟩ := List.mem_map.1 hm
    rw [mem_pyRange] at hy
    have hly : f.label.y = y := by rw [← hye]; rfl
    refine ⟨?_, ?_⟩
    · rw [hax f hf, h.grid, hly]; exact filter_year a b y hy.1 (by omega)
    · intro t ht
      rw [hly, mem_yearDays] at ht
      obtain ⟨tv, ty⟩ := ht
      rw [e4.vals f hf t, if_pos]
      refine ⟨tv, ?_, ?_, by rw [ty, hly]⟩
      · rw [h.first]
        rcases Nat.lt_or_eq_of_le hy.1 with g | g
        · exact (year_lt_of_ord (jan1_valid a) tv (show a < t.y by omega)).le
        · rw [g, jan1_ord, ← ty]; exact (ord_in_year tv).1
      · rw [← hye, ← ty]; exact ord_le_yearEnd tv

theorem firstYear_of_axis (v : OutVar) (y : ℕ) (h : v.axis = yearDays y) : v.firstYear = yearDays y := by
  have hne : ∃ t l, yearDays y = t :: l := by
    cases hl : yearDays y with
    | nil =>
      have := yearDays_length y
      rw [hl] at this
      simp only [List.length_nil, daysInYear] at this
      split_ifs at this
    | cons t l => exact ⟨t, l, rfl⟩
  obtain ⟨t, l, hl⟩ := hne
  have ht := ((mem_yearDays y t).1 (by rw [hl]; simp)).2
  unfold OutVar.firstYear
  rw [h, hl]
  simp only
  rw [← hl, ht, List.filter_eq_self]
  intro u hu
  simpa using ((mem_yearDays y u).1 hu).2

/-- The volume of a year: the sum of the daily values, missing ones as zero. -/
def yearSum (x : Date → Option ℝ) (y : ℕ) : ℝ := ((yearDays y).map fun t => (x t).getD 0).sum

open Classical in
/-- The same, missing if the value of a day is missing. -/
noncomputable def yearStrict (x : Date → Option ℝ) (y : ℕ) : Option ℝ :=
  if ∀ t ∈ yearDays y, x t ≠ none then some (yearSum x y) else none

/-- The yearly values of a calibration run. -/
theorem annual_whole {c : RunCfg} {a b : ℕ} (h : WholeYears c a b) (hspin : 0 ≤ c.spin) (s : Setup)
    (hs : setup c = .ok s) (n : ℕ) (hd : (runLoop c s n).done = true) (x : Date → Option ℝ) :
    annualValues (gridTime c) x (runLoop c s n).trace = some ((pyRange a (b + 1)).map (yearSum x)) ∧
    annualRunoff (gridTime c) x (runLoop c s n).trace = some ((pyRange a (b + 1)).map (yearStrict x)) := by
  obtain ⟨v, fs, e1, e2, e3⟩ := whole_files h hspin s hs n hd id x
  have hfa : ∀ f ∈ fs, f.data.annual = yearSum x f.label.y := by
    intro f hf
    unfold OutVar.annual yearSum
    rw [firstYear_of_axis _ _ (e3 f hf).1]
    congr 1
    apply List.map_congr_left
    intro t ht
    rw [(e3 f hf).2 t ht]; cases x t <;> rfl
  have hfs : ∀ f ∈ fs, f.data.annualStrict = yearStrict x f.label.y := by
    intro f hf
    unfold OutVar.annualStrict yearStrict
    rw [hfa f hf, firstYear_of_axis _ _ (e3 f hf).1]
    have : (∀ t ∈ yearDays f.label.y, f.data.val t ≠ none) ↔ ∀ t ∈ yearDays f.label.y, x t ≠ none := by
      refine forall₂_congr fun t ht => ?_
      rw [(e3 f hf).2 t ht]; simp
    by_cases h : ∀ t ∈ yearDays f.label.y, x t ≠ none
    · rw [if_pos h, if_pos (this.2 h)]
    · rw [if_neg h, if_neg (fun h' => h (this.1 h'))]
  constructor
  · unfold annualValues
    rw [e1]
    simp only [Option.map_some, Option.some.injEq]
    rw [List.map_congr_left hfa]
    calc fs.map (fun f => yearSum x f.label.y) = (fs.map OutFile.label).map (fun t => yearSum x t.y) := by simp
      _ = _ := by rw [e2]; simp [yearEnd, Function.comp_def]
  · unfold annualRunoff
    rw [e1]
    simp only [Option.map_some, Option.some.injEq]
    rw [List.map_congr_left hfs]
    calc fs.map (fun f => yearStrict x f.label.y) = (fs.map OutFile.label).map (fun t => yearStrict x t.y) := by simp
      _ = _ := by rw [e2]; simp [yearEnd, Function.comp_def]

/-- Matching keeps exactly the years with observations. -/
theorem matched_eq (a b : ℕ) (ys : List ℕ) (hs : ys.Pairwise (· < ·)) (hin : ∀ y ∈ ys, a ≤ y ∧ y ≤ b)
    (S o : ℕ → ℝ) :
    matched ((pyRange a (b + 1)).map fun y => (y, S y)) (ys.map fun y => (y, o y)) = ys.map fun y => (S y, o y) := by
  have nd : ys.Nodup := hs.imp fun h e => by omega
  have key : ∀ y, ((ys.map fun z => (z, o z)).filter fun p => decide (p.1 = y)).map (fun p => (S y, p.2)) =
      if y ∈ ys then [(S y, o y)] else [] := by
    intro y
    rw [List.filter_map, List.map_map]
    have : (ys.filter ((fun p : ℕ × ℝ => decide (p.1 = y)) ∘ fun z => (z, o z))) = if y ∈ ys then [y] else [] := by
      have e : ((fun p : ℕ × ℝ => decide (p.1 = y)) ∘ fun z => (z, o z)) = fun z => decide (z = y) := rfl
      rw [e]
      split_ifs with hy
      · apply nats_ext (hs.filter _) (by simp)
        intro t; simp only [List.mem_filter, decide_eq_true_eq, List.mem_singleton]
        constructor
        · exact fun h => h.2
        · rintro rfl; exact ⟨hy, rfl⟩
      · rw [List.filter_eq_nil_iff]
        intro t ht; simp only [decide_eq_true_eq]; rintro rfl; exact hy ht
    rw [this]
    split_ifs <;> rfl
  have hys : (pyRange a (b + 1)).filter (fun y => decide (y ∈ ys)) = ys := by
    apply nats_ext ((pyRange_sorted a (b + 1)).filter _) hs
    intro t
    rw [List.mem_filter, mem_pyRange, decide_eq_true_eq]
    constructor
    · exact fun h => h.2
    · intro h; have := hin t h; exact ⟨by omega, h⟩
  unfold matched
  rw [List.flatMap_map]
  simp only [key]
  conv_rhs => rw [← hys]
  generalize pyRange a (b + 1) = l
  induction l with
  | nil => rfl
  | cons y l ih =>
    rw [List.flatMap_cons, ih, List.filter_cons]
    by_cases hy : y ∈ ys
    · simp [hy]
    · simp [hy]

/-! ## C72 -/

theorem stationPeriod_years {base c : RunCfg} {ys : List ℕ} (hs : ys.Pairwise (· < ·)) (hc : stationPeriod base ys = some c)
    (hg : GoodPeriod c) : WholeYears c c.start.y c.fin.y ∧ c.start.y ∈ ys ∧ c.fin.y ∈ ys ∧
      ∀ y ∈ ys, c.start.y ≤ y ∧ y ≤ c.fin.y := by
  cases ys with
  | nil => simp [stationPeriod] at hc
  | cons y0 ys =>
    simp only [stationPeriod, Option.some.injEq] at hc
    subst hc
    refine ⟨⟨hg, rfl, rfl⟩, by simp, List.getLast_mem _, ?_⟩
    intro y hy
    simp only
    constructor
    · rcases List.mem_cons.1 hy with rfl | hy
      · exact le_refl _
      · exact ((List.pairwise_cons.1 hs).1 y hy).le
    · have : (y0 :: ys).Pairwise (· ≤ ·) := hs.imp fun h => h.le
      exact this.rel_getLast hy

/-- **C72.**  Whatever years have observations and whatever the run simulates: a calibration run covers every day of every
year used, starts and ends with such a year, and the two discharges compared are the mean yearly volume simulated in
exactly these years and the mean of the observations (m³/s times 365 days). Spin-up years, years without
observations in between and the remaining days of the output variable do not enter; missing days count as zero. -/
theorem C72_compared (tab : ℕ → YearEntry) (hl : ∀ y, 1901 ≤ y → y ≤ 2018 → tab y ≠ .absent) (ys : List ℕ)
    (hy : calibYears tab = .ok ys) (base c : RunCfg) (hc : stationPeriod base ys = some c) (hg : GoodPeriod c)
    (hspin : 0 ≤ c.spin) (s : Setup) (hs : setup c = .ok s) (n : ℕ) (hd : (runLoop c s n).done = true)
    (x : Date → Option ℝ) (obs : ℕ → ℝ) :
    (c.start.y ∈ ys ∧ c.fin.y ∈ ys) ∧
    (∀ t : Date, t.Valid → t.y ∈ ys → t ∈ written (runLoop c s n).trace) ∧
    compared c x (runLoop c s n).trace ys obs = some
      (((ys.map fun y => ((yearDays y).map fun t => (x t).getD 0).sum).sum / ys.length : ℝ),
       ((ys.map fun y => obs y * (365 * 86400 / 10 ^ 9 : ℝ)).sum / ys.length : ℝ)) := by
  obtain ⟨years, e, hsort, -, -⟩ := C43_years tab hl
  rw [hy] at e; injection e with e; subst e
  obtain ⟨hw, h1, h2, h3⟩ := stationPeriod_years hsort hc hg
  refine ⟨⟨h1, h2⟩, ?_, ?_⟩
  · intro t tv ty
    obtain ⟨pre, main, e1, -, -, e4, -⟩ := C31_outputs c hg hspin s hs n hd
    have hm : t ∈ written main := by
      rw [e4, mem_daysBetween hg.vs]
      obtain ⟨g1, g2⟩ := h3 _ ty
      have hf : t ∈ yearDays t.y := (mem_yearDays _ _).2 ⟨tv, rfl⟩
      rw [← filter_year _ _ _ g1 g2, List.mem_filter, mem_daysBetween (jan1_valid _)] at hf
      rw [hw.first, hw.last]
      exact hf.1
    rw [e1]
    simp only [written, List.filterMap_append, List.mem_append]
    exact Or.inr hm
  · unfold compared
    rw [(annual_whole hw hspin s hs n hd x).1]
    simp only [simTable, List.length_map, if_true]
    have hz : (pyRange c.start.y (c.fin.y + 1)).zip ((pyRange c.start.y (c.fin.y + 1)).map (yearSum x))
        = (pyRange c.start.y (c.fin.y + 1)).map fun y => (y, yearSum x y) := by
      generalize pyRange c.start.y (c.fin.y + 1) = l
      induction l with
      | nil => rfl
      | cons y l ih => simp [ih]
    rw [hz, obsTable, matched_eq _ _ ys hsort h3]
    simp only [List.map_map, Function.comp_def, colMean, List.length_map, yearSum]
    norm_num

theorem leap_iff (y : ℕ) : isLeap y = true ↔ (4 ∣ y ∧ ¬ 100 ∣ y) ∨ 400 ∣ y := by
  unfold isLeap
  simp only [Bool.or_eq_true, Bool.and_eq_true, beq_iff_eq, bne_iff_ne, ne_eq, Nat.dvd_iff_mod_eq_zero]

open Classical in
/-- **C72 (a perfect simulation is recognised).**  If in every year used the mean simulated discharge is the observed one,
the bias the calibration computes is the share of leap years in the observed discharge divided by 365 — zero
without leap years, at most 1/365, and so below the 1 % that end the calibration successfully. -/
theorem C72_perfect (tab : ℕ → YearEntry) (hl : ∀ y, 1901 ≤ y → y ≤ 2018 → tab y ≠ .absent) (ys : List ℕ)
    (hy : calibYears tab = .ok ys) (base c : RunCfg) (hc : stationPeriod base ys = some c) (hg : GoodPeriod c)
    (hspin : 0 ≤ c.spin) (s : Setup) (hs : setup c = .ok s) (n : ℕ) (hd : (runLoop c s n).done = true)
    (x : Date → ℝ) (obs : ℕ → ℝ) (hobs : ∀ y ∈ ys, 0 ≤ obs y) (hpos : 0 < (ys.map obs).sum)
    (hperf : ∀ y ∈ ys, ((yearDays y).map x).sum / (yearDays y).length = obs y * 86400 / 10 ^ 9) :
    ∃ sim ob, compared c (fun t => some (x t)) (runLoop c s n).trace ys obs = some (sim, ob) ∧
      (sim - ob) / ob = ((ys.filter fun y => (4 ∣ y ∧ ¬ 100 ∣ y) ∨ 400 ∣ y).map obs).sum / (365 * (ys.map obs).sum) ∧
      0 ≤ (sim - ob) / ob ∧ (sim - ob) / ob ≤ 1 / 365 ∧
      ∀ g st, (cs1 (fun _ => sim) ob g st).status = 1 := by
  obtain ⟨-, -, h⟩ := C72_compared tab hl ys hy base c hc hg hspin s hs n hd (fun t => some (x t)) obs
  simp only [Option.getD_some] at h
  refine ⟨_, _, h, ?_⟩
  have hne : ys ≠ [] := by rintro rfl; simp at hpos
  have hN : (0 : ℝ) < ys.length := by
    have := List.length_pos_iff.2 hne
    exact_mod_cast this
  set L := ((ys.filter fun y => (4 ∣ y ∧ ¬ 100 ∣ y) ∨ 400 ∣ y).map obs).sum with hL
  set O := (ys.map obs).sum with hO
  have e1 : (ys.map fun y => ((yearDays y).map x).sum).sum = (365 * O + L) * (86400 / 10 ^ 9) := by
    have : ∀ y ∈ ys, ((yearDays y).map x).sum =
        (365 * obs y + if (4 ∣ y ∧ ¬ 100 ∣ y) ∨ 400 ∣ y then obs y else 0) * (86400 / 10 ^ 9) := by
      intro y hy
      have hp := hperf y hy
      rw [yearDays_length] at hp
      have hdy : ((daysInYear y : ℕ) : ℝ) = 365 + if (4 ∣ y ∧ ¬ 100 ∣ y) ∨ 400 ∣ y then 1 else 0 := by
        unfold daysInYear
        by_cases hq : isLeap y = true
        · rw [if_pos hq, if_pos ((leap_iff y).1 hq)]; norm_num
        · rw [if_neg hq, if_neg (fun h => hq ((leap_iff y).2 h))]; norm_num
      have hdp : ((daysInYear y : ℕ) : ℝ) ≠ 0 := by rw [hdy]; split_ifs <;> norm_num
      rw [div_eq_iff hdp] at hp
      rw [hp, hdy]
      split_ifs <;> ring
    rw [List.map_congr_left this, hL, hO]
    clear this h hL hO hN hne hpos hperf hobs hc hy
    induction ys with
    | nil => simp
    | cons y ys ih =>
      simp only [List.map_cons, List.sum_cons, List.filter_cons, ih]
      by_cases hq : (4 ∣ y ∧ ¬ 100 ∣ y) ∨ 400 ∣ y
      · simp only [hq, if_true, decide_true, List.map_cons, List.sum_cons]; ring
      · simp only [hq, if_false, decide_false, Bool.false_eq_true]; ring
  have e2 : (ys.map fun y => obs y * (365 * 86400 / 10 ^ 9 : ℝ)).sum = 365 * O * (86400 / 10 ^ 9) := by
    rw [List.sum_map_mul_right, ← hO]; ring
  have hL0 : 0 ≤ L := by
    apply List.sum_nonneg
    intro z hz
    obtain ⟨y, hy, rfl⟩ := List.mem_map.1 hz
    exact hobs y (List.mem_of_mem_filter hy)
  have hLO : L ≤ O := by
    rw [hL, hO]
    clear_value L O
    clear h e1 e2 hL hO hN hne hpos hperf hc hy
    induction ys with
    | nil => simp
    | cons y ys ih =>
      have h0 := hobs y (by simp)
      have := ih fun z hz => hobs z (by simp [hz])
      simp only [List.map_cons, List.sum_cons, List.filter_cons]
      split_ifs
      · simp only [List.map_cons, List.sum_cons]; linarith
      · linarith
  have key : ((ys.map fun y => ((yearDays y).map x).sum).sum / ys.length
      - (ys.map fun y => obs y * (365 * 86400 / 10 ^ 9 : ℝ)).sum / ys.length)
      / ((ys.map fun y => obs y * (365 * 86400 / 10 ^ 9 : ℝ)).sum / ys.length) = L / (365 * O) := by
    rw [e1, e2]
    field_simp
    ring
  have hb : L / (365 * O) ≤ 1 / 365 := by
    rw [div_le_div_iff₀ (by positivity) (by norm_num)]; linarith
  have hb0 : 0 ≤ L / (365 * O) := by positivity
  refine ⟨key, by rw [key]; exact hb0, by rw [key]; exact hb, ?_⟩
  intro g st
  simp only [cs1]
  rw [key, abs_of_nonneg hb0, if_pos]
  linarith [show (1 : ℝ) / 365 < 0.01 by norm_num]

open Classical in
/-- **C72 (runoff).**  The mean runoff of a cell that a correction factor is computed from is the mean over all years from
the first to the last year with observations, whether they have observations or not; years in which the runoff
of a day is missing are left out, and without any other year there is none. -/
theorem C72_runoff (tab : ℕ → YearEntry) (hl : ∀ y, 1901 ≤ y → y ≤ 2018 → tab y ≠ .absent) (ys : List ℕ)
    (hy : calibYears tab = .ok ys) (base c : RunCfg) (hc : stationPeriod base ys = some c) (hg : GoodPeriod c)
    (hspin : 0 ≤ c.spin) (s : Setup) (hs : setup c = .ok s) (n : ℕ) (hd : (runLoop c s n).done = true)
    (r : Date → Option ℝ) :
    let full := (Finset.Icc c.start.y c.fin.y).filter fun y => ∀ t ∈ yearDays y, r t ≠ none
    (annualRunoff (gridTime c) r (runLoop c s n).trace).map meanRunoff = some
      (if full = ∅ then none
       else some ((∑ y ∈ full, ((yearDays y).map fun t => (r t).getD 0).sum) / (full.card : ℝ))) := by
  intro full
  obtain ⟨years, e, hsort, -, -⟩ := C43_years tab hl
  rw [hy] at e; injection e with e; subst e
  obtain ⟨hw, -, -, -⟩ := stationPeriod_years hsort hc hg
  have hle := hw.le
  rw [(annual_whole hw hspin s hs n hd r).2]
  set l := (pyRange c.start.y (c.fin.y + 1)).filter (fun y => decide (∀ t ∈ yearDays y, r t ≠ none)) with hl'
  have hf : ((pyRange c.start.y (c.fin.y + 1)).map (yearStrict r)).filterMap id = l.map (yearSum r) := by
    rw [List.filterMap_map, hl']
    generalize pyRange c.start.y (c.fin.y + 1) = L
    induction L with
    | nil => rfl
    | cons y L ih =>
      simp only [List.filterMap_cons, List.filter_cons, Function.comp, id]
      unfold yearStrict
      by_cases h : ∀ t ∈ yearDays y, r t ≠ none
      · rw [if_pos h, if_pos (by simpa using h)]
        simp only [List.map_cons, List.cons.injEq, true_and]
        exact ih
      · rw [if_neg h, if_neg (by simpa using h)]
        exact ih
  have nd : l.Nodup := ((pyRange_sorted c.start.y (c.fin.y + 1)).imp fun h e => by omega : (pyRange _ _).Nodup).filter _
  have hset : l.toFinset = full := by
    ext y
    simp only [hl', full, List.mem_toFinset, List.mem_filter, mem_pyRange, Finset.mem_filter, Finset.mem_Icc,
      decide_eq_true_eq]
    constructor
    · rintro ⟨h1, h2⟩; exact ⟨by omega, h2⟩
    · rintro ⟨h1, h2⟩; exact ⟨by omega, h2⟩
  have hcard : l.length = full.card := by rw [← hset, List.toFinset_card_of_nodup nd]
  have hsum : (l.map (yearSum r)).sum = ∑ y ∈ full, ((yearDays y).map fun t => (r t).getD 0).sum := by
    rw [← hset, List.sum_toFinset _ nd]; rfl
  simp only [Option.map_some, Option.some.injEq, meanRunoff, hf, colMean, hsum, List.length_map, hcard]
  have hem : l.map (yearSum r) = [] ↔ full = ∅ := by
    rw [List.map_eq_nil_iff, ← hset, List.toFinset_eq_empty_iff]
  by_cases h0 : full = ∅
  · rw [if_pos h0, if_pos (hem.2 h0)]
  · rw [if_neg h0, if_neg (fun h => h0 (hem.1 h))]

/-- The same without missing days. -/
theorem C72_runoff_complete (tab : ℕ → YearEntry) (hl : ∀ y, 1901 ≤ y → y ≤ 2018 → tab y ≠ .absent) (ys : List ℕ)
    (hy : calibYears tab = .ok ys) (base c : RunCfg) (hc : stationPeriod base ys = some c) (hg : GoodPeriod c)
    (hspin : 0 ≤ c.spin) (s : Setup) (hs : setup c = .ok s) (n : ℕ) (hd : (runLoop c s n).done = true) (r : Date → ℝ) :
    (annualRunoff (gridTime c) (fun t => some (r t)) (runLoop c s n).trace).map meanRunoff = some (some
      ((∑ y ∈ Finset.Icc c.start.y c.fin.y, ((yearDays y).map r).sum) / (c.fin.y + 1 - c.start.y : ℝ))) := by
  classical
  have h := C72_runoff tab hl ys hy base c hc hg hspin s hs n hd fun t => some (r t)
  obtain ⟨years, e, hsort, -, -⟩ := C43_years tab hl
  rw [hy] at e; injection e with e; subst e
  have hle := (stationPeriod_years hsort hc hg).1.le
  have hall : ((Finset.Icc c.start.y c.fin.y).filter fun y => ∀ t ∈ yearDays y, (some (r t) : Option ℝ) ≠ none)
      = Finset.Icc c.start.y c.fin.y := by
    rw [Finset.filter_true_of_mem]; intro y _ t _; simp
  simp only [hall, Option.getD_some, Nat.card_Icc] at h
  rw [h, if_neg (by rw [Finset.Icc_eq_empty_iff]; omega)]
  rw [Nat.cast_sub (by omega)]; push_cast; rfl

/-! ### Findings and examples -/

/-- Observations in the years given. -/
def exObsTab (l : List ℕ) (y : ℕ) : YearEntry := if y ∈ l then .value else .na

theorem exObsTab_listed (l : List ℕ) (y : ℕ) : exObsTab l y ≠ .absent := by
  unfold exObsTab; split_ifs <;> simp

/-- Forcing from 1901 to 2019, five spin-up years. -/
def exBase : RunCfg :=
  { start := ⟨1901, 1, 1⟩, fin := ⟨1902, 12, 31⟩, spin := 5, saveStates := false
    dataStart := ⟨1901, 1, 1⟩, dataEnd := ⟨2019, 12, 31⟩ }

/-- A station with observations in 1981 and 1983. -/
def exGap : RunCfg := { exBase with start := ⟨1981, 1, 1⟩, fin := ⟨1983, 12, 31⟩ }

theorem exGap_years : calibYears (exObsTab [1981, 1983]) = .ok [1981, 1983] := by decide +kernel

theorem exGap_good : GoodPeriod exGap := by constructor <;> decide +kernel

/-- A station with observations in 1984 only. -/
def exLeap : RunCfg := { exBase with start := ⟨1984, 1, 1⟩, fin := ⟨1984, 12, 31⟩ }

theorem exLeap_years : calibYears (exObsTab [1984]) = .ok [1984] := by decide +kernel

theorem exLeap_good : GoodPeriod exLeap := by constructor <;> decide +kernel

/-- **C72 violated (leap years).**  A simulation that reproduces the discharge of a leap year exactly has a bias of 1/365,
because observations are turned into yearly volumes with 365 days. -/
theorem C72_violated_leap_years : ∃ s, setup exLeap = .ok s ∧ (runLoop exLeap s 6).done = true ∧
    ∃ (x : Date → ℝ) (obs : ℕ → ℝ) (sim ob : ℝ),
      (∀ t, x t = obs 1984 * 86400 / 10 ^ 9) ∧
      compared exLeap (fun t => some (x t)) (runLoop exLeap s 6).trace [1984] obs = some (sim, ob) ∧ (sim - ob) / ob = 1 / 365 := by
  obtain ⟨s, h1, h2, -⟩ := C30_days_simulated exLeap exLeap_good (by decide)
  have hd := (h2 6).2 (by decide)
  refine ⟨s, h1, hd, fun _ => 1 * 86400 / 10 ^ 9, fun _ => 1, ?_⟩
  obtain ⟨sim, ob, e1, e2, -⟩ := C72_perfect (exObsTab [1984]) (fun y _ _ => exObsTab_listed _ y) [1984] exLeap_years exBase exLeap
    rfl exLeap_good (by decide) s h1 6 hd (fun _ => 1 * 86400 / 10 ^ 9) (fun _ => 1) (by simp) (by simp) (by
      intro y hy
      have hlen : ((yearDays y).length : ℝ) ≠ 0 := by
        rw [yearDays_length]; unfold daysInYear; split_ifs <;> norm_num
      rw [List.map_const', List.sum_replicate, nsmul_eq_mul]
      field_simp)
  refine ⟨sim, ob, fun _ => rfl, e1, ?_⟩
  rw [e2]; norm_num

/-- **C72 violated (inland sinks).**  The streamflow of an inland sink is saved as missing, and missing days count as zero: a
station in such a cell is compared with no discharge at all, whatever the model simulates, and no value of the
runoff coefficient ends the calibration successfully. -/
theorem C72_violated_inland_sink (tab : ℕ → YearEntry) (hl : ∀ y, 1901 ≤ y → y ≤ 2018 → tab y ≠ .absent) (ys : List ℕ)
    (hy : calibYears tab = .ok ys) (base c : RunCfg) (hc : stationPeriod base ys = some c) (hg : GoodPeriod c)
    (hspin : 0 ≤ c.spin) (s : Setup) (hs : setup c = .ok s) (n : ℕ) (hd : (runLoop c s n).done = true)
    (cell : Date → CellIn) (hsink : ∀ t, (cell t).sink = true) (st : Date → CellState) (up demand : Date → ℝ)
    (keep : Date → ℝ → ℝ) (obs : ℕ → ℝ) :
    ∃ ob, compared c (fun t => (latSaved (cell t) (st t) (up t) (demand t) (keep t)).dis) (runLoop c s n).trace ys obs
        = some (0, ob) ∧
      (0 < ob → ∀ (g : ℝ) (z : CalState), (cs1 (fun _ => 0) ob g z).status = z.status) := by
  obtain ⟨-, -, h⟩ := C72_compared tab hl ys hy base c hc hg hspin s hs n hd
    (fun t => (latSaved (cell t) (st t) (up t) (demand t) (keep t)).dis) obs
  have h0 : ∀ t, (latSaved (cell t) (st t) (up t) (demand t) (keep t)).dis = none := by
    intro t; simp [latSaved, hsink t]
  simp only [h0, Option.getD_none, List.map_const', List.sum_replicate, smul_zero, zero_div] at h
  simp only [h0]
  refine ⟨_, h, fun hob g z => ?_⟩
  simp only [cs1, zero_sub, neg_div, div_self hob.ne', abs_neg, abs_one]
  norm_num

/-- The runoff of the example: 1 km³ in every year except 1982, evenly over the year. -/
noncomputable def gapRunoff (t : Date) : ℝ := if t.y = 1982 then 0 else 1 / 365

theorem gapRunoff_year (y : ℕ) (h : isLeap y = false) :
    ((yearDays y).map gapRunoff).sum = if y = 1982 then 0 else 1 := by
  have : (yearDays y).map gapRunoff = (yearDays y).map fun _ => if y = 1982 then (0 : ℝ) else 1 / 365 := by
    apply List.map_congr_left
    intro t ht
    rw [mem_yearDays] at ht
    simp only [gapRunoff, ht.2]
  rw [this, List.map_const', List.sum_replicate, nsmul_eq_mul, yearDays_length, daysInYear, h]
  by_cases hy : y = 1982
  · simp [hy]
  · simp [hy]

/-- **C72 violated (years without observations).**  A basin of one cell whose runoff is the discharge at its station, with
observations in 1981 and 1983: the correction factor is computed with the runoff of 1982 as well, in which there was
none, and with it the discharge of the years compared is 15 % above the simulated one although 10 % were missing. -/
theorem C72_violated_gap_years : ∃ s, setup exGap = .ok s ∧ (runLoop exGap s 6).done = true ∧
    ∃ (obs : ℕ → ℝ) (runoff : Option ℝ) (sim ob f : ℝ),
      compared exGap (fun t => some (gapRunoff t)) (runLoop exGap s 6).trace [1981, 1983] obs = some (sim, ob) ∧
      (annualRunoff (gridTime exGap) (fun t => some (gapRunoff t)) (runLoop exGap s 6).trace).map meanRunoff = some runoff ∧
      cs3 [()] (fun _ => runoff) sim (adapted ob 5) (fun _ => some 1) () = some f ∧
      adapted ob 5 = 1.1 * sim ∧ f * sim = 1.15 * sim ∧ 0 < sim := by
  obtain ⟨s, h1, h2, -⟩ := C30_days_simulated exGap exGap_good (by decide)
  have hd := (h2 6).2 (by decide)
  obtain ⟨-, -, e⟩ := C72_compared (exObsTab [1981, 1983]) (fun y _ _ => exObsTab_listed _ y) [1981, 1983] exGap_years exBase exGap
    rfl exGap_good (by decide) s h1 6 hd (fun t => some (gapRunoff t)) (fun _ => 1 / (365 * 86400 / 10 ^ 9))
  have e2 := C72_runoff_complete (exObsTab [1981, 1983]) (fun y _ _ => exObsTab_listed _ y) [1981, 1983] exGap_years exBase exGap
    rfl exGap_good (by decide) s h1 6 hd gapRunoff
  simp only [Option.getD_some] at e
  refine ⟨s, h1, hd, fun _ => 1 / (365 * 86400 / 10 ^ 9), _, _, _, 1.15, e, e2, ?_⟩
  have y1 := gapRunoff_year 1981 (by decide)
  have y2 := gapRunoff_year 1982 (by decide)
  have y3 := gapRunoff_year 1983 (by decide)
  have hI : Finset.Icc exGap.start.y exGap.fin.y = {1981, 1982, 1983} := by decide
  rw [hI]
  have ha : exGap.start.y = 1981 := rfl
  have hb : exGap.fin.y = 1983 := rfl
  simp only [List.map_cons, List.map_nil, y1, y3, ha, hb, cs3, rawCfa, absSum, signOf, limitCfa, adapted]
  norm_num [Finset.sum_insert, y1, y2, y3]

/-- Non-vacuity of C72: the station with observations in 1981 and 1983, five spin-up years. -/
example : ∃ s, setup exGap = .ok s ∧ (runLoop exGap s 6).done = true ∧
    compared exGap (fun t => some t.y) (runLoop exGap s 6).trace [1981, 1983] (fun _ => 0) =
      some (((1981 + 1983) * 365 / 2 : ℝ), 0) := by
  obtain ⟨s, h1, h2, -⟩ := C30_days_simulated exGap exGap_good (by decide)
  have hd := (h2 6).2 (by decide)
  obtain ⟨-, -, e⟩ := C72_compared (exObsTab [1981, 1983]) (fun y _ _ => exObsTab_listed _ y) [1981, 1983] exGap_years exBase exGap
    rfl exGap_good (by decide) s h1 6 hd (fun t => some t.y) (fun _ => 0)
  refine ⟨s, h1, hd, ?_⟩
  simp only [Option.getD_some] at e
  rw [e]
  have hy : ∀ y, isLeap y = false → ((yearDays y).map fun t => ((t.y : ℕ) : ℝ)).sum = y * 365 := by
    intro y h
    have : (yearDays y).map (fun t => ((t.y : ℕ) : ℝ)) = (yearDays y).map fun _ => (y : ℝ) := by
      apply List.map_congr_left
      intro t ht
      rw [mem_yearDays] at ht
      rw [ht.2]
    rw [this, List.map_const', List.sum_replicate, nsmul_eq_mul, yearDays_length, daysInYear, h]
    simp; ring
  have y1 := hy 1981 (by decide)
  have y3 := hy 1983 (by decide)
  simp only [List.map_cons, List.map_nil, y1, y3]
  norm_num

/-- Non-vacuity: the same station in an inland sink. -/
example (c0 : CellIn) : ∃ s ob, setup exGap = .ok s ∧
    compared exGap (fun t => (latSaved { c0 with sink := true } ⟨1, 1, 1, 1, 1, 0.1, 1, t.d⟩ 1 0 id).dis)
      (runLoop exGap s 6).trace [1981, 1983] (fun _ => 1) = some (0, ob) := by
  obtain ⟨s, h1, h2, -⟩ := C30_days_simulated exGap exGap_good (by decide)
  obtain ⟨ob, h, -⟩ := C72_violated_inland_sink (exObsTab [1981, 1983]) (fun y _ _ => exObsTab_listed _ y) [1981, 1983]
    exGap_years exBase exGap rfl exGap_good (by decide) s h1 6 ((h2 6).2 (by decide)) (fun _ => { c0 with sink := true })
    (fun _ => rfl) (fun t => ⟨1, 1, 1, 1, 1, 0.1, 1, t.d⟩) (fun _ => 1) (fun _ => 0) (fun _ => id) (fun _ => 1)
  exact ⟨s, ob, h1, h⟩

end WG
