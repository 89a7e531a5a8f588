import Verif.Model.Regional
import Verif.Props.Calibration
import Verif.Props.CalibData
import Verif.Props.MonthlyDemand

/-! # C68, C69: hand-over of abstractions to calibration, and regionalisation -/

namespace WG

/-! ## C68 -/

/-- C68: the monthly volume written for calibration is the volume abstracted in the standard run: what the run saved in mm/s is
converted back exactly. -/
theorem C68_month_volume (key : String) (hk : key = "atotusegw" ∨ key = "atotusesw") (area cf : ℝ) (ha : 0 < area) (hc : 0 < cf)
    (axis : List Date) (x : Date → ℝ) (y m : ℕ) :
    handover area cf axis (fun t => some (baseUnits .lbFlux key area cf (x t))) y m =
      some (((axis.filter fun t => decide (t.y = y ∧ t.m = m)).map x).sum * 1e9) := by
  have hc' : cf ≠ 0 := hc.ne'
  unfold handover
  rw [if_neg hc', ← List.sum_map_mul_right]
  congr 2
  apply List.map_congr_left
  intro t _
  rcases hk with rfl | rfl <;> · simp [baseUnits]; field_simp; norm_num; ring

/-- C68: days on which the standard run saved no value (outside of its basin or period) add nothing to the month. -/
theorem C68_missing_days (key : String) (hk : key = "atotusegw" ∨ key = "atotusesw") (area cf : ℝ) (ha : 0 < area) (hc : 0 < cf)
    (axis : List Date) (x : Date → Option ℝ) (y m : ℕ) :
    handover area cf axis (fun t => (x t).map (baseUnits .lbFlux key area cf)) y m =
      some ((((axis.filter fun t => decide (t.y = y ∧ t.m = m)).filterMap x).sum) * 1e9) := by
  have h := C68_month_volume key hk area cf ha hc axis (fun t => (x t).getD 0) y m
  have hk0 : ∀ t, ((x t).map (baseUnits .lbFlux key area cf)).getD 0 = baseUnits .lbFlux key area cf ((x t).getD 0) := by
    intro t
    cases x t with
    | some v => rfl
    | none => rcases hk with rfl | rfl <;> simp [baseUnits]
  have hs : ∀ l : List Date, (l.filterMap x).sum = (l.map fun t => (x t).getD 0).sum := by
    intro l
    induction l with
    | nil => rfl
    | cons t l ih =>
      rw [List.filterMap_cons]
      cases hx : x t <;> simp [hx, ih]
  rw [hs, ← h]
  unfold handover
  simp only [hk0, Option.getD_some]

example : handover 2000 80 [⟨2003, 3, 1⟩, ⟨2003, 3, 2⟩, ⟨2003, 4, 1⟩]
    (fun t => (if t.d = 1 then some 0.5 else none : Option ℝ).map (baseUnits .lbFlux "atotusegw" 2000 80)) 2003 3 =
    some (0.5 * 1e9) := by
  rw [C68_missing_days "atotusegw" (Or.inl rfl) 2000 80 (by norm_num) (by norm_num) _ (fun t => if t.d = 1 then some 0.5 else none)]
  simp

/-- C68: in a calibration run the demand of the days of a month adds up to the abstraction of that month in the standard run,
whatever the two periods are, except in the February of a leap year. -/
theorem C68_calibration_use (key : String) (hk : key = "atotusegw" ∨ key = "atotusesw") (area cf : ℝ) (ha : 0 < area) (hc : 0 < cf)
    (axis : List Date) (x : Date → ℝ) (monthly : ℕ → ℕ → ℝ)
    (hm : ∀ y m, handover area cf axis (fun t => some (baseUnits .lbFlux key area cf (x t))) y m = some (monthly y m))
    (s e : Date) (hs : s.Valid) (y m : ℕ) (hmm : 1 ≤ m ∧ m ≤ 12) (h1 : s.ord ≤ (Date.mk y m 1).ord)
    (h2 : (Date.mk y m (daysInMonth y m)).ord ≤ e.ord) (hl : ¬ (m = 2 ∧ isLeap y)) :
    (((daysBetween s e).filter fun t => decide (t.y = y ∧ t.m = m)).map fun t =>
      monthly t.y t.m / (demandDays t.m * 1e9)).sum =
      ((axis.filter fun t => decide (t.y = y ∧ t.m = m)).map x).sum := by
  rw [C32_month_total monthly s e hs y m hmm h1 h2 hl]
  have h := hm y m
  rw [C68_month_volume key hk area cf ha hc] at h
  injection h with h
  rw [← h]; ring

/-- C68 (finding): in the February of a leap year the calibration run takes 29/28 of what the standard run took. -/
theorem C68_violated_leap_february (key : String) (hk : key = "atotusegw" ∨ key = "atotusesw") (area cf : ℝ) (ha : 0 < area)
    (hc : 0 < cf) (axis : List Date) (x : Date → ℝ) (monthly : ℕ → ℕ → ℝ)
    (hm : ∀ y m, handover area cf axis (fun t => some (baseUnits .lbFlux key area cf (x t))) y m = some (monthly y m))
    (s e : Date) (hs : s.Valid) (y : ℕ) (hy : isLeap y = true) (h1 : s.ord ≤ (Date.mk y 2 1).ord)
    (h2 : (Date.mk y 2 29).ord ≤ e.ord) :
    (((daysBetween s e).filter fun t => decide (t.y = y ∧ t.m = 2)).map fun t =>
      monthly t.y t.m / (demandDays t.m * 1e9)).sum =
      29 / 28 * ((axis.filter fun t => decide (t.y = y ∧ t.m = 2)).map x).sum := by
  rw [C32_violated_leap_february monthly s e hs y hy h1 h2]
  have h := hm y 2
  rw [C68_month_volume key hk area cf ha hc] at h
  injection h with h
  rw [← h]; ring

/-- C68: in a cell without continental area nothing is handed over (NaN), whatever was saved. -/
theorem C68_no_land (area : ℝ) (axis : List Date) (saved : Date → Option ℝ) (y m : ℕ) :
    handover area 0 axis saved y m = none := by simp [handover]

/-- Half a km³ on each day of a year: the March of a calibration run of one year uses 15.5 km³. -/
example : ∃ monthly : ℕ → ℕ → ℝ,
    (∀ y m, handover 2000 80 (daysBetween ⟨2003, 1, 1⟩ ⟨2003, 12, 31⟩)
      (fun t => some (baseUnits .lbFlux "atotusegw" 2000 80 ((fun _ => 0.5) t))) y m = some (monthly y m)) ∧
    (((daysBetween ⟨2003, 1, 1⟩ ⟨2003, 12, 31⟩).filter fun t => decide (t.y = 2003 ∧ t.m = 3)).map fun t =>
      monthly t.y t.m / (demandDays t.m * 1e9)).sum = 15.5 := by
  refine ⟨fun y m => ((((daysBetween ⟨2003, 1, 1⟩ ⟨2003, 12, 31⟩).filter fun t => decide (t.y = y ∧ t.m = m)).map
    fun _ => (0.5 : ℝ)).sum * 1e9), ?_, ?_⟩
  · intro y m
    exact C68_month_volume "atotusegw" (Or.inl rfl) 2000 80 (by norm_num) (by norm_num) _ _ y m
  · rw [C68_calibration_use "atotusegw" (Or.inl rfl) 2000 80 (by norm_num) (by norm_num)
      (daysBetween ⟨2003, 1, 1⟩ ⟨2003, 12, 31⟩) (fun _ => 0.5) _
      (fun y m => C68_month_volume "atotusegw" (Or.inl rfl) 2000 80 (by norm_num) (by norm_num) _ _ y m)
      ⟨2003, 1, 1⟩ ⟨2003, 12, 31⟩ (by decide +kernel) 2003 3 (by decide) (by decide +kernel) (by decide +kernel)
      (by decide +kernel)]
    rw [filter_month ⟨2003, 1, 1⟩ ⟨2003, 12, 31⟩ (by decide +kernel) 2003 3 (by decide) (by decide +kernel) (by decide +kernel)]
    have : ((monthDays 2003 3).map fun _ => (0.5 : ℝ)) = List.replicate 31 0.5 := by
      simp [monthDays, daysInMonth]
      rfl
    rw [this, List.sum_replicate]; norm_num

/-! ## C69: units and their coefficients -/

variable {ι : Type}

theorem nanmean_bounds (xs : List (Option ℝ)) (lo hi : ℝ) (h : ∀ x, some x ∈ xs → lo ≤ x ∧ x ≤ hi) (m : ℝ)
    (hm : nanmean xs = some m) : lo ≤ m ∧ m ≤ hi := by
  unfold nanmean at hm
  simp only at hm
  split_ifs at hm with he
  injection hm with hm
  have hb : ∀ y ∈ xs.filterMap id, lo ≤ y ∧ y ≤ hi := by
    intro y hy
    simp only [List.mem_filterMap, id] at hy
    obtain ⟨a, ha, rfl⟩ := hy
    exact h y ha
  generalize xs.filterMap id = ys at *
  have hl : (0 : ℝ) < ys.length := by
    exact_mod_cast List.length_pos_iff.mpr he
  have h1 : (ys.length : ℝ) * lo ≤ ys.sum := by
    have := List.card_nsmul_le_sum ys lo (fun y hy => (hb y hy).1)
    simpa using this
  have h2 : ys.sum ≤ (ys.length : ℝ) * hi := by
    have := List.sum_le_card_nsmul ys hi (fun y hy => (hb y hy).2)
    simpa using this
  rw [← hm]
  constructor
  · rw [le_div_iff₀ hl]; linarith
  · rw [div_le_iff₀ hl]; linarith

theorem nanmean_none (xs : List (Option ℝ)) : nanmean xs = none ↔ ∀ x ∈ xs, x = none := by
  unfold nanmean
  simp only
  constructor
  · intro h
    split_ifs at h with he
    intro x hx
    cases x with
    | none => rfl
    | some y =>
      have : y ∈ xs.filterMap id := by simp only [List.mem_filterMap, id]; exact ⟨_, hx, rfl⟩
      rw [he] at this; simp at this
  · intro h
    have : xs.filterMap id = [] := by
      rw [List.filterMap_eq_nil_iff]
      intro x hx; exact h x hx
    rw [if_pos this]

/-- C69: the coefficient of a unit is between the smallest and the largest coefficient in the parameter file of a cell of the
unit; if the cells of the unit have the same coefficient, as calibration leaves them, it is that coefficient; it is missing
exactly if no cell of the unit has a coefficient. -/
theorem C69_unit_gamma (cells : List ι) (unit : ι → Option ℤ) (gamma : ι → Option ℝ) :
    (∀ lo hi m : ℝ, (∀ p ∈ cells, ∀ v g, unit p = some v → 0 < v → gamma p = some g → lo ≤ g ∧ g ≤ hi) →
      unitGamma cells unit gamma = some m → lo ≤ m ∧ m ≤ hi) ∧
    (∀ g : ℝ, (∀ p ∈ cells, ∀ v, unit p = some v → 0 < v → gamma p = some g) →
      (∃ p ∈ cells, ∃ v, unit p = some v ∧ 0 < v) → unitGamma cells unit gamma = some g) ∧
    (unitGamma cells unit gamma = none ↔ ∀ p ∈ cells, ∀ v, unit p = some v → 0 < v → gamma p = none) := by
  have mem : ∀ x : ℝ, some x ∈ (cells.map fun p => match unit p with
      | some v => open Classical in if v > 0 then gamma p else none
      | none => none) → ∃ p ∈ cells, ∃ v, unit p = some v ∧ 0 < v ∧ gamma p = some x := by
    intro x hx
    obtain ⟨p, hp, e⟩ := List.mem_map.mp hx
    refine ⟨p, hp, ?_⟩
    cases hu : unit p with
    | none => simp [hu] at e
    | some v =>
      by_cases hv : v > 0
      · exact ⟨v, rfl, hv, by simpa [hu, hv] using e⟩
      · simp [hu, hv] at e
  have hnone : unitGamma cells unit gamma = none ↔ ∀ p ∈ cells, ∀ v, unit p = some v → 0 < v → gamma p = none := by
    unfold unitGamma
    rw [nanmean_none]
    simp only [List.mem_map, forall_exists_index, and_imp]
    constructor
    · intro h p hp v hv h0
      have := h _ p hp rfl
      simpa [hv, h0] using this
    · rintro h x p hp rfl
      cases hu : unit p with
      | none => rfl
      | some v =>
        by_cases hv : v > 0
        · simpa [hv] using h p hp v hu hv
        · simp [hv]
  have hrange : ∀ lo hi m : ℝ, (∀ p ∈ cells, ∀ v g, unit p = some v → 0 < v → gamma p = some g → lo ≤ g ∧ g ≤ hi) →
      unitGamma cells unit gamma = some m → lo ≤ m ∧ m ≤ hi := by
    intro lo hi m h hm
    refine nanmean_bounds _ lo hi ?_ m hm
    intro x hx
    obtain ⟨p, hp, v, hv, h0, hg⟩ := mem x hx
    exact h p hp v x hv h0 hg
  refine ⟨hrange, ?_, hnone⟩
  rintro g hg ⟨p, hp, v, hv, h0⟩
  cases hm : unitGamma cells unit gamma with
  | none => have := hnone.mp hm p hp v hv h0; rw [hg p hp v hv h0] at this; cases this
  | some m =>
    have := hrange g g m (fun q hq w g' hw h0 hg' => by
      rw [hg q hq w hw h0] at hg'; injection hg' with hg'; exact ⟨hg'.le, hg'.ge⟩) hm
    rw [le_antisymm this.2 this.1]

/-- C69: in the table of a region a cell belongs to the first station of the file whose basin contains it, with the mean coefficient
of the cells of that station's basin that are in no earlier station's basin; a cell in no basin belongs to no station. -/
theorem C69_region (cells : List ι) (file : List (String × (ι → Option ℤ))) (gamma : ι → Option ℝ) (v : ℤ) :
    (∀ i (hi : i < file.length), v ∈ idsOf file[i].2 → (∀ j (hj : j < i), v ∉ idsOf file[j].2) →
      ∃ u : ι → Option ℤ, (∀ p w, u p = some w ↔ file[i].2 p = some w ∧ ∀ j (hj : j < i), w ∉ idsOf file[j].2) ∧
        regionTable cells file gamma v = some (file[i].1, unitGamma cells u gamma)) ∧
    ((∀ e ∈ file, v ∉ idsOf e.2) → regionTable cells file gamma v = none) := by
  -- the unit of the `n`-th station
  have unit : ∀ n (hn : n < file.length), ∃ u : ι → Option ℤ,
      (reduceAll [] ((file.take (n + 1)).map (·.2))).getLast? = some u ∧
      ∀ p w, u p = some w ↔ file[n].2 p = some w ∧ ∀ j (hj : j < n), w ∉ idsOf file[j].2 := by
    intro n hn
    obtain ⟨hlen, hU⟩ := C45_units ((file.take (n + 1)).map (·.2))
    have hl : ((file.take (n + 1)).map (·.2)).length = n + 1 := by
      rw [List.length_map, List.length_take]; omega
    have hlt : n < (reduceAll [] ((file.take (n + 1)).map (·.2))).length := by omega
    refine ⟨(reduceAll [] ((file.take (n + 1)).map (·.2)))[n], ?_, ?_⟩
    · rw [List.getLast?_eq_getElem?, hlen, hl, Nat.add_sub_cancel, List.getElem?_eq_getElem hlt]
    · intro p w
      rw [hU n (by omega) hlt p w]
      simp
  have key : ∀ n, n ≤ file.length →
      (∀ i (hi : i < file.length), i < n → v ∈ idsOf file[i].2 → (∀ j (hj : j < i), v ∉ idsOf file[j].2) →
        ∃ u : ι → Option ℤ, (∀ p w, u p = some w ↔ file[i].2 p = some w ∧ ∀ j (hj : j < i), w ∉ idsOf file[j].2) ∧
          (List.range n).foldl (fun tab i =>
            match (reduceAll [] ((file.take (i + 1)).map (·.2))).getLast?, file[i]? with
            | some u, some e => fun v => open Classical in if ∃ p, u p = some v then some (e.1, unitGamma cells u gamma) else tab v
            | _, _ => tab) (fun _ => none) v = some (file[i].1, unitGamma cells u gamma)) ∧
      ((∀ j (hj : j < file.length), j < n → v ∉ idsOf file[j].2) →
          (List.range n).foldl (fun tab i =>
            match (reduceAll [] ((file.take (i + 1)).map (·.2))).getLast?, file[i]? with
            | some u, some e => fun v => open Classical in if ∃ p, u p = some v then some (e.1, unitGamma cells u gamma) else tab v
            | _, _ => tab) (fun _ => none) v = none) := by
    intro n
    induction n with
    | zero => intro _; exact ⟨fun i _ h => absurd h (by omega), fun _ => rfl⟩
    | succ n ih =>
      intro hn
      obtain ⟨ih1, ih2⟩ := ih (by omega)
      obtain ⟨u, hu, hspec⟩ := unit n (by omega)
      simp only [List.range_succ, List.foldl_append, List.foldl_cons, List.foldl_nil, hu,
        List.getElem?_eq_getElem (show n < file.length by omega)]
      constructor
      · intro i hi hin hv hfirst
        rcases Nat.lt_or_eq_of_le (Nat.lt_succ_iff.mp hin) with h | rfl
        · have hno : ¬ ∃ p, u p = some v := by
            rintro ⟨p, hp⟩
            exact ((hspec p v).mp hp).2 i h hv
          rw [if_neg hno]
          exact ih1 i hi h hv hfirst
        · have hyes : ∃ p, u p = some v := by
            obtain ⟨p, hp⟩ := hv
            exact ⟨p, (hspec p v).mpr ⟨hp, hfirst⟩⟩
          rw [if_pos hyes]
          exact ⟨u, hspec, rfl⟩
      · intro hnone
        have hno : ¬ ∃ p, u p = some v := by
          rintro ⟨p, hp⟩
          exact hnone n (by omega) (by omega) ⟨p, ((hspec p v).mp hp).1⟩
        rw [if_neg hno]
        exact ih2 fun j hj hjn => hnone j hj (by omega)
  obtain ⟨k1, k2⟩ := key file.length le_rfl
  exact ⟨fun i hi hv hf => k1 i hi hi hv hf, fun h => k2 fun j hj _ => h _ (List.getElem_mem hj)⟩

/-- Two nested stations: the upstream cell belongs to the first, the other cell to the second. -/
example : regionTable [0, 1] [("A", fun p : ℕ => if p = 0 then some 10 else none),
    ("B", fun p => if p = 0 then some 10 else some 20)] (fun p => if p = 0 then some 1.5 else some 2.5) 20
      = some ("B", some 2.5) := by
  obtain ⟨u, hu, h⟩ := (C69_region [0, 1] [("A", fun p : ℕ => if p = 0 then some 10 else none),
    ("B", fun p => if p = 0 then some 10 else some 20)] (fun p => if p = 0 then some 1.5 else some 2.5) 20).1 1 (by simp)
    ⟨1, by simp⟩ (by intro j hj; obtain rfl : j = 0 := by omega
                     rintro ⟨p, hp⟩; simp at hp)
  rw [h]
  have hu1 : ∀ p v, u p = some v → p ≠ 0 := by
    rintro p v hp rfl
    have := (hu 0 v).mp hp
    simp only [List.getElem_cons_succ, List.getElem_cons_zero, if_true, Option.some.injEq] at this
    exact this.2 0 (by omega) ⟨0, by simp [this.1]⟩
  have hg := (C69_unit_gamma [0, 1] u (fun p => if p = 0 then some 1.5 else some 2.5)).2.1 2.5
    (fun p _ v hp _ => by simp [hu1 p v hp])
    ⟨1, by simp, 20, (hu 1 20).mpr ⟨by simp, fun j hj => by
      obtain rfl : j = 0 := by omega
      rintro ⟨p, hp⟩; simp at hp⟩, by norm_num⟩
  rw [hg]; rfl

/-! ## C69: descriptors -/

theorem sum_div_list {α : Type} (l : List α) (f : α → ℝ) (c : ℝ) : (l.map fun a => f a / c).sum = (l.map f).sum / c := by
  induction l with
  | nil => simp
  | cons a l ih => simp only [List.map_cons, List.sum_cons, ih]; ring

theorem sum_bounds {α : Type} (l : List α) (f w : α → ℝ) (lo hi : ℝ) (h : ∀ a ∈ l, 0 ≤ w a ∧ (lo * w a ≤ f a ∧ f a ≤ hi * w a)) :
    lo * (l.map w).sum ≤ (l.map f).sum ∧ (l.map f).sum ≤ hi * (l.map w).sum := by
  induction l with
  | nil => simp
  | cons a l ih =>
    obtain ⟨i1, i2⟩ := ih fun b hb => h b (List.mem_cons_of_mem _ hb)
    obtain ⟨-, h1, h2⟩ := h a List.mem_cons_self
    simp only [List.map_cons, List.sum_cons]
    constructor <;> nlinarith

/-- C69: the descriptor of a basin is the mean of the descriptors of its cells weighted with the cell areas, and so lies between
the smallest and the largest of them. -/
theorem C69_descriptor (cells : List RegCell) (g : Group) (hne : ∃ c ∈ cells, c.group = g)
    (ha : ∀ c ∈ cells, c.group = g → 0 < c.area) (val : RegCell → ℝ)
    (hv : ∀ c ∈ cells, c.group = g → c.desc = some (val c) ∧ val c ≠ -99) :
    basinDescriptor cells g * ((cells.filter fun c => c.group = g).map RegCell.area).sum =
      ((cells.filter fun c => c.group = g).map fun c => val c * c.area).sum ∧
    ∀ lo hi : ℝ, (∀ c ∈ cells, c.group = g → lo ≤ val c ∧ val c ≤ hi) →
      lo ≤ basinDescriptor cells g ∧ basinDescriptor cells g ≤ hi := by
  have hmem : ∀ c, c ∈ (cells.filter fun c => c.group = g) → c ∈ cells ∧ c.group = g := by
    intro c hc; simpa using hc
  have hA : 0 < groupArea cells g := by
    obtain ⟨c, hc, hg⟩ := hne
    unfold groupArea
    have : c ∈ (cells.filter fun c => c.group = g) := by simp [hc, hg]
    refine lt_of_lt_of_le (ha c hc hg) ?_
    refine List.single_le_sum ?_ _ (List.mem_map_of_mem this)
    intro x hx
    obtain ⟨d, hd, rfl⟩ := List.mem_map.mp hx
    exact (ha d (hmem d hd).1 (hmem d hd).2).le
  have hsum : basinDescriptor cells g = ((cells.filter fun c => c.group = g).map fun c => val c * c.area).sum / groupArea cells g := by
    rw [← sum_div_list]
    unfold basinDescriptor
    congr 1
    apply List.map_congr_left
    intro c hc
    obtain ⟨h1, h2⟩ := hv c (hmem c hc).1 (hmem c hc).2
    simp [h1, replace99, h2]
  constructor
  · rw [hsum]; change _ / _ * groupArea cells g = _; field_simp
  · intro lo hi h
    obtain ⟨b1, b2⟩ := sum_bounds (cells.filter fun c => c.group = g) (fun c => val c * c.area) RegCell.area lo hi (by
      intro c hc
      have h0 := ha c (hmem c hc).1 (hmem c hc).2
      obtain ⟨h1, h2⟩ := h c (hmem c hc).1 (hmem c hc).2
      exact ⟨h0.le, mul_le_mul_of_nonneg_right h1 h0.le, mul_le_mul_of_nonneg_right h2 h0.le⟩)
    change lo * groupArea cells g ≤ _ at b1
    change _ ≤ hi * groupArea cells g at b2
    rw [hsum]
    constructor
    · rw [le_div_iff₀ hA]; exact b1
    · rw [div_le_iff₀ hA]; exact b2

/-- C69: the soil capacity of a basin is the area-weighted mean over its cells with soil; cells without soil (0, −99 or missing) do not
matter; without any such cell it is zero. -/
theorem C69_soil_descriptor (cells : List RegCell) (g : Group) (ha : ∀ c ∈ cells, c.group = g → 0 < c.area) :
    (∀ lo hi : ℝ, (∃ c ∈ cells, c.group = g ∧ ∃ d, c.desc = some d ∧ 0 < d) →
      (∀ c ∈ cells, c.group = g → ∀ d, c.desc = some d → 0 < d → lo ≤ d ∧ d ≤ hi) →
      lo ≤ basinSoil cells g ∧ basinSoil cells g ≤ hi) ∧
    ((∀ c ∈ cells, c.group = g → ∀ d, c.desc = some d → d ≤ 0) → basinSoil cells g = 0) ∧
    basinSoil cells g = basinSoil (cells.filter fun c => ∃ d, c.desc = some d ∧ 0 < d) g := by
  classical
  have hmem : ∀ c, c ∈ (cells.filter fun c => c.group = g) → c ∈ cells ∧ c.group = g := by
    intro c hc; simpa using hc
  let num : RegCell → ℝ := fun c => match c.desc with
    | some d => if d > 0 then d * c.area else 0
    | none => 0
  have hsum : ∀ cells : List RegCell, basinSoil cells g =
      ((cells.filter fun c => c.group = g).map num).sum / groupSoilArea cells g := by
    intro cells
    rw [← sum_div_list]
    unfold basinSoil
    congr 1
    apply List.map_congr_left
    intro c _
    simp only [num]
    cases hd : c.desc with
    | none => simp [replace99]
    | some d =>
      by_cases h99 : d = -99
      · subst h99; simp [replace99]; norm_num
      · by_cases h0 : d > 0 <;> simp [replace99, h99, h0]
  refine ⟨?_, ?_, ?_⟩
  · rintro lo hi ⟨c, hc, hg, d, hd, hd0⟩ h
    have hA : 0 < groupSoilArea cells g := by
      unfold groupSoilArea
      have hcm : c ∈ (cells.filter fun c => c.group = g) := by simp [hc, hg]
      have hcs : c.soilArea = c.area := by simp [RegCell.soilArea, hd, hd0]
      refine lt_of_lt_of_le (hcs ▸ ha c hc hg) ?_
      refine List.single_le_sum ?_ _ (List.mem_map_of_mem hcm)
      intro x hx
      obtain ⟨e, he, rfl⟩ := List.mem_map.mp hx
      have := (ha e (hmem e he).1 (hmem e he).2).le
      unfold RegCell.soilArea
      split
      · split_ifs
        · exact this
        · exact le_rfl
      · exact le_rfl
    obtain ⟨b1, b2⟩ := sum_bounds (cells.filter fun c => c.group = g) num RegCell.soilArea lo hi (by
      intro c hc
      have h0 := ha c (hmem c hc).1 (hmem c hc).2
      simp only [num, RegCell.soilArea]
      cases hd : c.desc with
      | none => simp
      | some d =>
        by_cases hp : d > 0
        · obtain ⟨h1, h2⟩ := h c (hmem c hc).1 (hmem c hc).2 d hd hp
          simp only [if_pos hp]
          exact ⟨h0.le, mul_le_mul_of_nonneg_right h1 h0.le, mul_le_mul_of_nonneg_right h2 h0.le⟩
        · simp [hp])
    change lo * groupSoilArea cells g ≤ _ at b1
    change _ ≤ hi * groupSoilArea cells g at b2
    rw [hsum]
    constructor
    · rw [le_div_iff₀ hA]; exact b1
    · rw [div_le_iff₀ hA]; exact b2
  · intro h
    rw [hsum]
    have : ((cells.filter fun c => c.group = g).map num).sum = 0 := by
      apply List.sum_eq_zero
      intro x hx
      obtain ⟨c, hc, rfl⟩ := List.mem_map.mp hx
      simp only [num]
      cases hd : c.desc with
      | none => rfl
      | some d => simp [not_lt.mpr (h c (hmem c hc).1 (hmem c hc).2 d hd)]
    rw [this, zero_div]
  · have hdrop : ∀ f : RegCell → ℝ, (∀ c, (¬ ∃ d, c.desc = some d ∧ 0 < d) → f c = 0) →
        ∀ l : List RegCell, ((l.filter fun c => c.group = g).map f).sum =
          (((l.filter fun c => ∃ d, c.desc = some d ∧ 0 < d).filter fun c => c.group = g).map f).sum := by
      intro f hf l
      induction l with
      | nil => rfl
      | cons c l ih =>
        by_cases h1 : c.group = g <;> by_cases h2 : ∃ d, c.desc = some d ∧ 0 < d
        · simp only [List.filter_cons, h1, h2, decide_true, if_true, List.map_cons, List.sum_cons, ih]
        · simp only [List.filter_cons, h1, h2, decide_true, decide_false, if_true, List.map_cons, List.sum_cons, ih, hf c h2]
          simp
        · simp only [List.filter_cons, h1, h2, decide_true, decide_false, if_true]
          simpa using ih
        · simp only [List.filter_cons, h1, h2, decide_false]
          simpa using ih
    have hz : ∀ c : RegCell, (¬ ∃ d, c.desc = some d ∧ 0 < d) → num c = 0 ∧ c.soilArea = 0 := by
      intro c hc
      simp only [num, RegCell.soilArea]
      cases hd : c.desc with
      | none => exact ⟨rfl, rfl⟩
      | some d =>
        have : ¬ d > 0 := fun h => hc ⟨d, hd, h⟩
        simp [this]
    rw [hsum, hsum]
    unfold groupSoilArea
    rw [hdrop num (fun c hc => (hz c hc).1), hdrop RegCell.soilArea (fun c hc => (hz c hc).2)]

/-- C69 (finding): for the other descriptors a missing value (−99 or NaN) counts as zero with the full area of the cell: the
descriptor of a basin can be below that of every cell that has one. -/
theorem C69_violated_missing : ∃ (cells : List RegCell) (g : Group), (∀ c ∈ cells, c.group = g ∧ 0 < c.area) ∧
    (∃ c ∈ cells, c.desc = some 2) ∧ (∀ c ∈ cells, c.desc = some 2 ∨ c.desc = some (-99) ∨ c.desc = none) ∧ basinDescriptor cells g = 2 / 3 := by
  refine ⟨[⟨.inr 7, 100, some 2⟩, ⟨.inr 7, 100, some (-99)⟩, ⟨.inr 7, 100, none⟩], .inr 7, by simp, by simp, by simp, ?_⟩
  norm_num [basinDescriptor, groupArea, replace99]

example : 2 ≤ basinDescriptor [⟨.inl "A", 100, some 2⟩, ⟨.inl "A", 300, some 6⟩, ⟨.inl "B", 10, none⟩] (.inl "A") :=
  ((C69_descriptor [⟨.inl "A", 100, some 2⟩, ⟨.inl "A", 300, some 6⟩, ⟨.inl "B", 10, none⟩] (.inl "A") (by simp)
    (by simp) (fun c => c.desc.getD 0) (by simp; norm_num)).2 2 6 (by simp; norm_num)).1

example : basinSoil [⟨.inl "A", 100, some 2⟩, ⟨.inl "A", 300, some 6⟩, ⟨.inl "A", 10, none⟩] (.inl "A") ≤ 6 :=
  ((C69_soil_descriptor [⟨.inl "A", 100, some 2⟩, ⟨.inl "A", 300, some 6⟩, ⟨.inl "A", 10, none⟩] (.inl "A")
    (by simp)).1 2 6 ⟨⟨.inl "A", 100, some 2⟩, by simp, rfl, 2, rfl, by norm_num⟩
    (by simp; norm_num)).2

/-! ## C69: temperature -/

/-- C69: the temperature used as descriptor is the mean temperature cut to hundredths of a degree towards zero. -/
theorem C69_temperature (t : ℝ) : |temperatureRead (truncInt (t * 100)) - t| < 0.01 ∧ |temperatureRead (truncInt (t * 100))| ≤ |t| := by
  unfold temperatureRead truncInt
  by_cases h : 0 ≤ t * 100
  · rw [if_pos h]
    have h1 := Int.floor_le (t * 100)
    have h2 := Int.lt_floor_add_one (t * 100)
    have h3 : (0 : ℝ) ≤ ⌊t * 100⌋ := by exact_mod_cast Int.floor_nonneg.mpr h
    have ht : 0 ≤ t := by linarith
    constructor
    · rw [abs_lt]; constructor <;> norm_num <;> linarith
    · rw [abs_of_nonneg ht, abs_of_nonneg (by positivity)]; linarith
  · rw [if_neg h]
    push Not at h
    have h1 := Int.le_ceil (t * 100)
    have h2 := Int.ceil_lt_add_one (t * 100)
    have h3 : (⌈t * 100⌉ : ℝ) ≤ 0 := by exact_mod_cast Int.ceil_le.mpr (by simpa using h.le)
    have ht : t < 0 := by linarith
    constructor
    · rw [abs_lt]; constructor <;> norm_num <;> linarith
    · rw [abs_of_neg ht, abs_of_nonpos (by linarith)]; linarith

/-- C69: the conversion writes one value for each cell, and fails exactly if some cell has no temperature. -/
theorem C69_temperature_column (temps : List (Option ℝ)) :
    (∀ ts : List ℝ, temps = ts.map some → temperatureColumn temps = .ok (ts.map fun t => truncInt (t * 100))) ∧
    (none ∈ temps → ∃ e, temperatureColumn temps = .error e) := by
  constructor
  · rintro ts rfl
    unfold temperatureColumn
    induction ts with
    | nil => rfl
    | cons t ts ih =>
      simp only [List.map_cons, List.mapM_cons, ih]
      rfl
  · intro h
    unfold temperatureColumn
    induction temps with
    | nil => simp at h
    | cons t ts ih =>
      cases t with
      | none => exact ⟨"IntCastingNaNError", by simp only [List.mapM_cons]; rfl⟩
      | some x =>
        obtain ⟨e, he⟩ := ih (by simpa using h)
        refine ⟨e, ?_⟩
        simp only [List.mapM_cons, he]
        rfl

example : temperatureRead (truncInt (-3.456 * 100)) ≠ -3.456 ∧ |temperatureRead (truncInt (-3.456 * 100)) - -3.456| < 0.01 := by
  refine ⟨?_, (C69_temperature (-3.456)).1⟩
  have : truncInt (-3.456 * 100) = -345 := by
    unfold truncInt
    rw [if_neg (by norm_num), Int.ceil_eq_iff]; norm_num
  rw [this]; norm_num [temperatureRead]

/-- C69: the mean temperature lies between the coldest and the warmest day, in °C. -/
theorem C69_mean_temperature (days : List (Option ℝ)) (lo hi m : ℝ) (h : ∀ k, some k ∈ days → lo ≤ k ∧ k ≤ hi)
    (hm : meanTemperature days = some m) : lo - 273.15 ≤ m ∧ m ≤ hi - 273.15 := by
  refine nanmean_bounds _ _ _ ?_ m hm
  intro x hx
  obtain ⟨d, hd, e⟩ := List.mem_map.mp hx
  cases d with
  | none => simp at e
  | some k =>
    simp only [Option.map_some, Option.some.injEq] at e
    have := h k hd
    constructor <;> linarith

example : ∃ m, meanTemperature [some 273.15, none, some 283.15] = some m ∧ 0 ≤ m ∧ m ≤ 10 := by
  cases hm : meanTemperature [some 273.15, none, some 283.15] with
  | none =>
    have := (nanmean_none _).mp hm (some (273.15 - 273.15)) (by simp)
    cases this
  | some m =>
    have := C69_mean_temperature [some 273.15, none, some 283.15] 273.15 283.15 m (by simp; norm_num) hm
    exact ⟨m, rfl, by linarith [this.1], by linarith [this.2]⟩

end WG
