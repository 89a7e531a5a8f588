import Verif.Model.Restart
import Verif.Props.RunLoop

/-!
# Reservoir activation, saved states and restarts (C34, C35, C37)
-/

namespace WG

/-! ## Saved states (C34) -/

/-- Specification: the states of the model that have to survive a restart, by object. -/
def survivingStates : List String :=
  [-- land area fractions
   "land.current_landareafrac", "land.previous_landareafrac", "land.landareafrac_ratio",
   "land.previous_swb_frac", "land.glores_frac_prevyear", "land.gloresfrac_change",
   "land.init_landfrac_res_flag", "land.landwaterfrac_excl_glolake_res", "land.land_and_water_freq_flag",
   "land.water_freq", "land.land_freq", "land.updated_loclake_frac",
   -- leaf area, canopy, snow and soil
   "vert.lai_days", "vert.cum_precipitation", "vert.growth_status", "vert.canopy_storage",
   "vert.snow_water_storage", "vert.snow_water_storage_subgrid", "vert.soil_water_content",
   "vert.daily_storage_transfer",
   -- groundwater and surface water bodies
   "lat.groundwater_storage", "lat.loclake_storage", "lat.locwet_storage", "lat.glolake_storage",
   "lat.glores_storage", "lat.glowet_storage", "lat.river_storage", "lat.k_release",
   "lat.set_res_storage_flag",
   -- unsatisfied demand
   "lat.unsatisfied_potential_netabs_riparian", "lat.unsat_potnetabs_sw_from_demandcell",
   "lat.unsat_potnetabs_sw_to_supplycell", "lat.get_neighbouring_cells_map",
   "lat.accumulated_unsatisfied_potential_netabs_sw", "lat.daily_unsatisfied_pot_nas",
   "lat.prev_accumulated_unsatisfied_potential_netabs_sw", "lat.prev_potential_water_withdrawal_sw_irri",
   "lat.prev_potential_consumptive_use_sw_irri"]

/-- Where a loaded attribute comes from. -/
def sourceOf (attr : String) : Option String :=
  match loadTable.find? (fun e => e.1 == attr) with
  | none => some attr
  | some e => savedState id e.2.1 e.2.2

theorem savedState_id {α : Type} (v : String → α) (g k : String) :
    savedState v g k = (savedState id g k).map v := by
  unfold savedState
  split <;> simp

/-- **C34.**  Whatever values the attributes have when the states are saved, after loading the file every surviving
state has exactly the value it had — no two are exchanged, none is missing — and every other attribute is that of the
freshly built objects. -/
theorem C34_roundtrip {α : Type} (v v0 : String → α) (attr : String) :
    (attr ∈ survivingStates → loadedState (savedState v) v0 attr = some (v attr)) ∧
    (attr ∉ survivingStates → loadedState (savedState v) v0 attr = some (v0 attr)) := by
  constructor
  · intro h
    have key : ∀ a ∈ survivingStates,
        (loadTable.find? (fun e => e.1 == a)).isSome = true ∧ sourceOf a = some a := by decide +kernel
    obtain ⟨h1, h2⟩ := key attr h
    unfold loadedState
    unfold sourceOf at h2
    cases hf : loadTable.find? (fun e => e.1 == attr) with
    | none => rw [hf] at h1; cases h1
    | some e =>
      rw [hf] at h2
      simp only at h2 ⊢
      rw [savedState_id, h2]; rfl
  · intro h
    have key : ∀ e ∈ loadTable, e.1 ∈ survivingStates := by decide +kernel
    unfold loadedState
    cases hf : loadTable.find? (fun e => e.1 == attr) with
    | none => rfl
    | some e =>
      have h1 := List.mem_of_find?_eq_some hf
      have h2 := List.find?_some hf
      simp only [beq_iff_eq] at h2
      exact absurd (h2 ▸ key e h1) h

example : loadedState (savedState (fun a => a.length)) (fun _ => 0) "vert.canopy_storage" = some 19 ∧
    loadedState (savedState (fun a => a.length)) (fun _ => 0) "lat.glores_area" = some 0 :=
  ⟨(C34_roundtrip _ _ _).1 (by decide +kernel), (C34_roundtrip _ _ _).2 (by decide +kernel)⟩

/-! ## Activation (C37) -/

/-- Specification: areas and capacity of a cell when the reservoirs commissioned up to year `Y` operate.  A regulated
lake is always there; a reservoir without inflow counts as a global lake. -/
noncomputable def ResCell.inYear (s : ResStatic) (Y : ℕ) : ResCell :=
  if s.startYear ≤ Y then
    if s.area > 0 ∧ s.meanInflow = 0 then
      { area := 0, cap := s.storCap, lake := s.area + s.lake, all := 0,
        maxLake := (s.area + s.lake) * s.depth * 0.001, firstDay := 0 }
    else
      { area := s.area, cap := s.storCap, lake := s.lake, all := s.area,
        maxLake := s.lake * s.depth * 0.001, firstDay := 0 }
  else if s.regulated then
    { area := s.area, cap := s.storCap, lake := s.lake, all := s.area,
      maxLake := s.lake * s.depth * 0.001, firstDay := 0 }
  else .fresh s

theorem activateArea_fresh (s : ResStatic) (Y : ℕ) : activateArea s Y (.fresh s) = .inYear s Y := by
  unfold activateArea ResCell.inYear ResCell.fresh
  by_cases h1 : s.startYear ≤ Y
  · by_cases h2 : s.area > 0 ∧ s.meanInflow = 0
    · have h3 : s.area > 0 := h2.1
      simp [h1, h2.2, h3]
    · have h3 : ¬ (s.area > 0 ∧ s.startYear ≤ Y ∧ s.meanInflow = 0) := fun h => h2 ⟨h.1, h.2.2⟩
      simp only [if_pos h1, if_neg h2, if_neg h3]
  · have h3 : ∀ a : ℝ, ¬ (a > 0 ∧ s.startYear ≤ Y ∧ s.meanInflow = 0) := fun a h => h1 h.2.1
    simp only [if_neg h1, if_neg (h3 _)]
    cases s.regulated <;> simp

theorem activateArea_inYear (s : ResStatic) {Y' Y : ℕ} (h : Y' ≤ Y) :
    activateArea s Y (.inYear s Y') = .inYear s Y := by
  by_cases h1 : s.startYear ≤ Y'
  · have h1' : s.startYear ≤ Y := h1.trans h
    unfold activateArea ResCell.inYear
    by_cases h2 : s.area > 0 ∧ s.meanInflow = 0
    · simp [h1, h1', h2.1, h2.2]
    · have h3 : ¬ (s.area > 0 ∧ s.startYear ≤ Y ∧ s.meanInflow = 0) := fun h => h2 ⟨h.1, h.2.2⟩
      simp only [if_pos h1, if_pos h1', if_neg h2, if_neg h3]
  · by_cases hr : s.regulated = true
    · have : ResCell.inYear s Y' = { ResCell.fresh s with area := s.area, cap := s.storCap } := by
        simp [ResCell.inYear, h1, hr, ResCell.fresh]
      rw [this]
      unfold activateArea ResCell.inYear ResCell.fresh
      by_cases h1' : s.startYear ≤ Y
      · by_cases h2 : s.area > 0 ∧ s.meanInflow = 0
        · simp [h1', h2.1, h2.2]
        · have h3 : ¬ (s.area > 0 ∧ s.startYear ≤ Y ∧ s.meanInflow = 0) := fun h => h2 ⟨h.1, h.2.2⟩
          simp only [if_pos h1', if_neg h2, if_neg h3]
      · have h3 : ∀ a : ℝ, ¬ (a > 0 ∧ s.startYear ≤ Y ∧ s.meanInflow = 0) := fun a h => h1' h.2.1
        simp only [if_neg h1', if_neg (h3 _), hr]
        simp
    · have : ResCell.inYear s Y' = ResCell.fresh s := by simp [ResCell.inYear, h1, hr]
      rw [this, activateArea_fresh]

/-- No reservoir is commissioned between two years in which the cell looks different. -/
theorem inYear_congr (s : ResStatic) {Y Y' : ℕ} (h : s.startYear ≤ Y ↔ s.startYear ≤ Y') :
    ResCell.inYear s Y = ResCell.inYear s Y' := by
  unfold ResCell.inYear
  by_cases h1 : s.startYear ≤ Y
  · rw [if_pos h1, if_pos (h.1 h1)]
  · rw [if_neg h1, if_neg (fun h2 => h1 (h.2 h2))]

theorem inYear_firstDay (s : ResStatic) (Y : ℕ) : { ResCell.inYear s Y with firstDay := 0 } = ResCell.inYear s Y := by
  unfold ResCell.inYear ResCell.fresh
  split_ifs <;> rfl

theorem fresh_firstDay (s : ResStatic) : { ResCell.fresh s with firstDay := 0 } = ResCell.fresh s := rfl

/-! ## The first available day of a month -/

theorem firstOfMonth_axis {s e t : Date} (hs : s.Valid) (ht : t ∈ daysBetween s e) :
    firstOfMonth (daysBetween s e) t = decide (t = s ∨ t.d = 1) := by
  have ht' := (mem_daysBetween hs e t).1 ht
  by_cases h : t = s ∨ t.d = 1
  · rw [decide_eq_true h]
    unfold firstOfMonth
    simp only [Bool.and_eq_true, decide_eq_true_eq, ht, true_and, List.all_eq_true, Bool.or_eq_true,
      Bool.not_eq_true', Bool.and_eq_false_iff, beq_eq_false_iff_ne]
    intro t' ht2
    have ht2' := (mem_daysBetween hs e t').1 ht2
    rcases h with rfl | h
    · right; exact ht2'.2.1
    · by_cases hy : t'.y = t.y
      · by_cases hm : t'.m = t.m
        · right
          have := ht2'.1.2.2.1
          simp only [Date.ord, hy, hm, h]; omega
        · left; right; exact hm
      · left; left; exact hy
  · rw [decide_eq_false h]
    push Not at h
    have hd := ht'.1.2.2.1
    have hlt : s.ord < t.ord := by
      rcases Nat.lt_or_ge s.ord t.ord with h' | h'
      · exact h'
      · exact absurd (ord_injective hs ht'.1 (by omega)).symm h.1
    have hmem : (⟨t.y, t.m, t.d - 1⟩ : Date) ∈ daysBetween s e := by
      rw [mem_daysBetween hs]
      have := ht'.1.2.2.2
      have := h.2
      refine ⟨⟨ht'.1.1, ht'.1.2.1, ?_, ?_⟩, ?_, ?_⟩ <;> simp only [Date.ord] at * <;> omega
    unfold firstOfMonth
    rw [Bool.and_eq_false_iff]
    right
    rw [List.all_eq_false]
    refine ⟨_, hmem, ?_⟩
    have := h.2
    simp [Date.ord]
    omega

/-! ## The unsaved part of the state -/

variable {ι M R O : Type}

/-- `t'` can be the day simulated after `t`. -/
def Follows (first : Date → Bool) (t t' : Date) : Prop :=
  (t'.y = t.y ∨ t' = ⟨t.y + 1, 1, 1⟩) ∧ (first t' = true ∨ (t'.y = t.y ∧ t'.m = t.m ∧ t'.d ≠ 1))

/-- The unsaved part after the day `t` of a run that began in year `s0`: it is determined by the calendar. -/
structure Inv (E : Env ι M R O) (s0 : ℕ) (t : Date) (x : SimState ι M R) : Prop where
  flags : E.on = true → x.s.setFlag = false ∧ x.u.check = false
  cells : ∃ a, s0 ≤ a ∧ a ≤ t.y ∧ (a = s0 ∨ (E.rs ≤ a ∧ a ≤ E.re)) ∧
    (∀ y, E.rs ≤ y → y ≤ E.re → s0 < y → y ≤ t.y → y ≤ a) ∧
    x.u.cells = fun i => if E.on then ResCell.inYear (E.static i) a else ResCell.fresh (E.static i)
  month : x.u.month = E.demand t.y t.m (fun i => (x.u.cells i).lake) (fun i => (x.u.cells i).area)

theorem activate_off (s : ResStatic) (opt set chk : Bool) (Y S : ℕ) (x : ActState) :
    activate s false opt set chk Y S x = x := by simp [activate]

theorem activate_noset (s : ResStatic) (opt chk : Bool) (Y S : ℕ) (x : ActState) :
    activate s true opt false chk Y S x = { x with cell := if opt || chk then activateArea s Y x.cell else x.cell } := by
  simp [activate]

theorem activate_set (s : ResStatic) (opt chk : Bool) (Y S : ℕ) (x : ActState) :
    { (activate s true opt true chk Y S x).cell with firstDay := 0 } =
      { activateArea s Y x.cell with firstDay := 0 } := by
  simp [activate, activateStorage]

/-- The cells after a day. -/
theorem day_cells (E : Env ι M R O) (S : ℕ) (first : Date → Bool) (t : Date) (x : SimState ι M R) :
    (E.day S first t x).1.u.cells = fun i => { (E.activateAll S t x).u.cells i with firstDay := 0 } := rfl

theorem day_month (E : Env ι M R O) (S : ℕ) (first : Date → Bool) (t : Date) (x : SimState ι M R) :
    (E.day S first t x).1.u.month =
      if first t then E.demand t.y t.m (fun i => ((E.day S first t x).1.u.cells i).lake)
        (fun i => ((E.day S first t x).1.u.cells i).area)
      else x.u.month := rfl

/-- The first day of a run. -/
theorem inv_first (E : Env ι M R O) (S : ℕ) (first : Date → Bool) (t : Date) (hf : first t = true) (b : Bool) :
    Inv E t.y t (E.day S first t (E.fresh b)).1 := by
  refine ⟨?_, ⟨t.y, le_refl _, le_refl _, Or.inl rfl, fun y _ _ h1 h2 => h2, ?_⟩, ?_⟩
  · intro hon
    simp only [Env.day, Env.activateAll, Env.fresh, hon]
    simp
  · rw [day_cells]
    funext i
    simp only [Env.activateAll, Env.fresh]
    cases hon : E.on
    · simp only [activate_off, Bool.false_eq_true, if_false]; rfl
    · simp only [activate_set, activateArea_fresh, if_true, inYear_firstDay]
  · rw [day_month, if_pos hf]

/-- A later day. -/
theorem inv_next (E : Env ι M R O) (S s0 : ℕ) (first : Date → Bool) (t t' : Date) (x : SimState ι M R)
    (h : Inv E s0 t x) (hf : Follows first t t') : Inv E s0 t' (E.day S first t' x).1 := by
  obtain ⟨a, ha0, ha1, ha2, ha3, ha4⟩ := h.cells
  have hty : t.y ≤ t'.y := by
    rcases hf.1 with h | h
    · omega
    · rw [h]; simp
  have hcells : (E.day S first t' x).1.u.cells = fun i =>
      if E.on then ResCell.inYear (E.static i) (if inOptYears E.rs E.re t' then t'.y else a)
      else ResCell.fresh (E.static i) := by
    rw [day_cells]
    funext i
    simp only [Env.activateAll]
    cases hon : E.on
    · simp only [activate_off, Bool.false_eq_true, if_false, ha4, hon, fresh_firstDay]
    · obtain ⟨f1, f2⟩ := h.flags hon
      simp only [f1, f2, activate_noset, ha4, hon, if_true, Bool.or_false]
      cases ho : inOptYears E.rs E.re t'
      · simp only [Bool.false_eq_true, if_false, inYear_firstDay]
      · simp only [if_true, activateArea_inYear _ (ha1.trans hty), inYear_firstDay]
  refine ⟨?_, ⟨if inOptYears E.rs E.re t' then t'.y else a, ?_, ?_, ?_, ?_, hcells⟩, ?_⟩
  · intro hon
    obtain ⟨f1, f2⟩ := h.flags hon
    simp only [Env.day, Env.activateAll, hon, f1, f2]
    simp
  · split_ifs <;> omega
  · split_ifs <;> omega
  · split_ifs with ho
    · right
      simp only [inOptYears, decide_eq_true_eq] at ho
      exact ⟨ho.2.2.1, ho.2.2.2⟩
    · exact ha2
  · intro y h1 h2 h3 h4
    split_ifs with ho
    · exact h4
    · rcases hf.1 with hy | hy
      · exact ha3 y h1 h2 h3 (by omega)
      · rcases Nat.lt_or_ge y t'.y with hlt | hge
        · refine ha3 y h1 h2 h3 ?_
          rw [hy] at hlt; simp only at hlt; omega
        · exfalso
          apply ho
          have : t'.y = y := by omega
          rw [hy] at this ⊢
          simp only at this
          simp only [inOptYears, decide_eq_true_eq, this]
          exact ⟨trivial, trivial, h1, h2⟩
  · rw [day_month]
    rcases hf.2 with hf2 | ⟨e1, e2, e3⟩
    · rw [if_pos hf2]
    · split_ifs with hf2
      · rfl
      · have hno : inOptYears E.rs E.re t' = false := by simp [inOptYears, e3]
        rw [h.month, e1, e2, hcells, ha4]
        simp only [hno, Bool.false_eq_true, if_false]

/-- A stretch of days. -/
theorem days_append (E : Env ι M R O) (S : ℕ) (first : Date → Bool) (l1 l2 : List Date) (x : SimState ι M R) :
    E.days S first (l1 ++ l2) x =
      ((E.days S first l2 (E.days S first l1 x).1).1,
        (E.days S first l1 x).2 ++ (E.days S first l2 (E.days S first l1 x).1).2) := by
  induction l1 generalizing x with
  | nil => rfl
  | cons t ts ih => simp only [List.cons_append, Env.days, ih]

theorem next_cases (t : Date) : (t.next.y = t.y ∨ t.next = ⟨t.y + 1, 1, 1⟩) ∧
    (t.next.d = 1 ∨ (t.next.y = t.y ∧ t.next.m = t.m ∧ t.next.d ≠ 1 ∨ t.d = 0)) := by
  unfold Date.next
  split_ifs <;> simp
  omega

theorem follows_next (first : Date → Bool) {t : Date} (ht : t.Valid)
    (h : t.next.d = 1 → first t.next = true) : Follows first t t.next := by
  obtain ⟨h1, h2⟩ := next_cases t
  refine ⟨h1, ?_⟩
  rcases h2 with h2 | h2 | h2
  · exact Or.inl (h h2)
  · exact Or.inr h2
  · have := ht.2.2.1; omega

/-- The last of `n + 1` consecutive days. -/
theorem inv_days (E : Env ι M R O) (S s0 : ℕ) (first : Date → Bool) (n : ℕ) (r : Date) (x : SimState ι M R)
    (hr : r.Valid) (h : Inv E s0 r (E.day S first r x).1)
    (hfirst : ∀ t ∈ daysFrom r (n + 1), t.d = 1 → first t = true) :
    Inv E s0 (Date.next^[n] r) (E.days S first (daysFrom r (n + 1)) x).1 := by
  induction n generalizing r x with
  | zero => simpa [daysFrom, Env.days] using h
  | succ n ih =>
    have hfl : Follows first r r.next := by
      refine follows_next first hr fun hd => hfirst _ ?_ hd
      simp [daysFrom]
    have := ih r.next (E.day S first r x).1 (next_valid hr) (inv_next E S s0 first r r.next _ h hfl)
      (fun t ht => hfirst t (List.mem_cons_of_mem _ ht))
    rw [Function.iterate_succ_apply]
    exact this

theorem inv_daysBetween (E : Env ι M R O) (S s0 : ℕ) (first : Date → Bool) {r k : Date} (x : SimState ι M R)
    (hr : r.Valid) (hk : k.Valid) (hrk : r.ord ≤ k.ord) (h : Inv E s0 r (E.day S first r x).1)
    (hfirst : ∀ t ∈ daysBetween r k, t.d = 1 → first t = true) :
    Inv E s0 k (E.days S first (daysBetween r k) x).1 := by
  unfold daysBetween at hfirst ⊢
  rw [show k.ord + 1 - r.ord = (k.ord - r.ord) + 1 by omega] at hfirst ⊢
  have := inv_days E S s0 first (k.ord - r.ord) r x hr h hfirst
  rwa [ord_injective (iterate_next_valid hr _) hk (by rw [iterate_next_ord hr]; omega)] at this

/-- After the spin-up: still fresh, or at the end of the start year. -/
theorem inv_spin (E : Env ι M R O) (S : ℕ) (first : Date → Bool) {s : Date} (hs : s.Valid)
    (hfs : first s = true) (hfirst : ∀ t ∈ daysBetween s (yearEnd s.y), t.d = 1 → first t = true) (n : ℕ) (b : Bool) :
    Inv E s.y s (E.day S first s
      (E.days S first (List.replicate n (daysBetween s (yearEnd s.y))).flatten (E.fresh b)).1).1 := by
  have hstep : ∀ m : ℕ, (E.days S first (List.replicate (m + 1) (daysBetween s (yearEnd s.y))).flatten (E.fresh b)).1
      = (E.days S first (daysBetween s (yearEnd s.y))
        (E.days S first (List.replicate m (daysBetween s (yearEnd s.y))).flatten (E.fresh b)).1).1 := by
    intro m
    rw [List.replicate_succ', List.flatten_append, days_append]
    simp
  induction n with
  | zero => exact inv_first E S first s hfs b
  | succ n ih =>
    rw [hstep]
    have := inv_daysBetween E S s.y first _ hs (yearEnd_valid _) (ord_le_yearEnd hs) ih hfirst
    exact inv_next E S s.y first (yearEnd s.y) s _ this ⟨Or.inl rfl, Or.inl hfs⟩

/-! ## A run in terms of its days -/

/-- The first-of-month test of a run. -/
def firstIn (c : RunCfg) : Date → Bool := firstOfMonth (daysBetween c.start (gridEnd c))

theorem firstIn_eq {c : RunCfg} (h : GoodPeriod c) {t : Date} (ht : t.Valid) (h1 : c.start.ord ≤ t.ord)
    (h2 : t.ord ≤ (gridEnd c).ord) : firstIn c t = decide (t = c.start ∨ t.d = 1) :=
  firstOfMonth_axis h.vs ((mem_daysBetween h.vs _ _).2 ⟨ht, h1, h2⟩)

/-- State before the first day of the simulation period, started from `x`. -/
noncomputable def afterSpin (E : Env ι M R O) (c : RunCfg) (x : SimState ι M R) : SimState ι M R :=
  (E.days c.start.y (firstIn c) (List.replicate c.spin.toNat (daysBetween c.start (yearEnd c.start.y))).flatten x).1

theorem run_eq (E : Env ι M R O) {c : RunCfg} (h : GoodPeriod c) (restart : Bool) (dir : RestartDir ι R) :
    E.run c restart dir =
      match (if restart then (loadRestart dir c.start).map fun s => { E.fresh true with s := s }
             else some (E.fresh false)) with
      | none => .error .noRestartFile
      | some x0 => .ok ((E.days c.start.y (firstIn c) (daysBetween c.start c.fin) (afterSpin E c x0)).2,
          (E.days c.start.y (firstIn c) (daysBetween c.start c.fin) (afterSpin E c x0)).1.s) := by
  have h1 := phaseDays_spin h _ (setup_good h) 1 (by decide)
  have h2 := phaseDays_main h _ (setup_good h)
  unfold Env.run
  rw [setup_good h]
  simp only [h1, h2]
  rfl

/-- After any day of the simulation period of a run without restart. -/
theorem inv_run (E : Env ι M R O) {c : RunCfg} (h : GoodPeriod c) {k : Date} (hk : k.Valid)
    (h1 : c.start.ord ≤ k.ord) (h2 : k.ord ≤ c.fin.ord) :
    Inv E c.start.y k (E.days c.start.y (firstIn c) (daysBetween c.start k) (afterSpin E c (E.fresh false))).1 := by
  have hg := gridEnd_ge h
  have hfirst : ∀ e : Date, e.ord ≤ (gridEnd c).ord → ∀ t ∈ daysBetween c.start e, t.d = 1 → firstIn c t = true := by
    intro e he t ht hd
    have := (mem_daysBetween h.vs _ _).1 ht
    rw [firstIn_eq h this.1 this.2.1 (by omega)]
    simp [hd]
  have hs : firstIn c c.start = true := by
    rw [firstIn_eq h h.vs (le_refl _) (by omega)]; simp
  exact inv_daysBetween E _ _ _ _ h.vs hk h1
    (inv_spin E _ _ h.vs hs (hfirst _ hg.2.1) _ _) (hfirst k (by omega))

/-- The reservoir attributes of a cell after day `k` of a run without restart. -/
noncomputable def cellOn (E : Env ι M R O) (c : RunCfg) (k : Date) (i : ι) : ResCell :=
  (E.days c.start.y (firstIn c) (daysBetween c.start k) (afterSpin E c (E.fresh false))).1.u.cells i

theorem cellOn_eq (E : Env ι M R O) {c : RunCfg} (h : GoodPeriod c) (hon : E.on = true) {k : Date}
    (hk : k.Valid) (h1 : c.start.ord ≤ k.ord) (h2 : k.ord ≤ c.fin.ord) :
    ∃ a, c.start.y ≤ a ∧ a ≤ k.y ∧ (a = c.start.y ∨ (E.rs ≤ a ∧ a ≤ E.re)) ∧
      (∀ y, E.rs ≤ y → y ≤ E.re → c.start.y < y → y ≤ k.y → y ≤ a) ∧
      ∀ i, cellOn E c k i = ResCell.inYear (E.static i) a := by
  obtain ⟨a, a1, a2, a3, a4, a5⟩ := (inv_run E h hk h1 h2).cells
  refine ⟨a, a1, a2, a3, a4, fun i => ?_⟩
  rw [cellOn, a5]; simp [hon]

/-- **C37.**  With reservoirs on, a reservoir with inflow whose start year has been reached — it lies in the configured
range, or not after the year the run starts — has its full area and capacity on every day from 1 January of that year
(or from the first day of the run) on: it is never lost again. -/
theorem C37_active (E : Env ι M R O) (c : RunCfg) (h : GoodPeriod c) (hon : E.on = true) (k : Date) (hk : k.Valid)
    (h1 : c.start.ord ≤ k.ord) (h2 : k.ord ≤ c.fin.ord) (i : ι) (hy : (E.static i).startYear ≤ k.y)
    (hr : (E.static i).startYear ≤ c.start.y ∨ (E.rs ≤ (E.static i).startYear ∧ (E.static i).startYear ≤ E.re))
    (hin : (E.static i).meanInflow ≠ 0) :
    (cellOn E c k i).area = (E.static i).area ∧ (cellOn E c k i).cap = (E.static i).storCap ∧
      (cellOn E c k i).lake = (E.static i).lake := by
  obtain ⟨a, a1, a2, a3, a4, a5⟩ := cellOn_eq E h hon hk h1 h2
  have hle : (E.static i).startYear ≤ a := by
    rcases hr with hr | ⟨r1, r2⟩
    · omega
    · rcases Nat.lt_or_ge c.start.y (E.static i).startYear with hlt | hge
      · exact a4 _ r1 r2 hlt hy
      · omega
  rw [a5]
  simp [ResCell.inYear, hle, hin]

/-- **C37.**  Before its start year a reservoir that is not a regulated lake does not exist: no area, no capacity, and
the global lake of the cell is unchanged. -/
theorem C37_not_before (E : Env ι M R O) (c : RunCfg) (h : GoodPeriod c) (hon : E.on = true) (k : Date) (hk : k.Valid)
    (h1 : c.start.ord ≤ k.ord) (h2 : k.ord ≤ c.fin.ord) (i : ι) (hy : k.y < (E.static i).startYear)
    (hreg : (E.static i).regulated = false) :
    (cellOn E c k i).area = 0 ∧ (cellOn E c k i).cap = 0 ∧ (cellOn E c k i).lake = (E.static i).lake := by
  obtain ⟨a, a1, a2, a3, a4, a5⟩ := cellOn_eq E h hon hk h1 h2
  have hle : ¬ (E.static i).startYear ≤ a := by omega
  rw [a5]
  simp [ResCell.inYear, hle, hreg, ResCell.fresh]

/-- **C37.**  A regulated lake with inflow has its area and capacity on every day of a run with reservoirs, before and
after its start year. -/
theorem C37_regulated_always (E : Env ι M R O) (c : RunCfg) (h : GoodPeriod c) (hon : E.on = true) (k : Date)
    (hk : k.Valid) (h1 : c.start.ord ≤ k.ord) (h2 : k.ord ≤ c.fin.ord) (i : ι)
    (hreg : (E.static i).regulated = true) (hin : (E.static i).meanInflow ≠ 0) :
    (cellOn E c k i).area = (E.static i).area ∧ (cellOn E c k i).cap = (E.static i).storCap := by
  obtain ⟨a, a1, a2, a3, a4, a5⟩ := cellOn_eq E h hon hk h1 h2
  rw [a5]
  by_cases hle : (E.static i).startYear ≤ a <;> simp [ResCell.inYear, hle, hreg, hin]

/-- **C37.**  No area is lost or counted twice: on every day the reservoir and global lake areas of a cell add up to
those of the static data once the reservoir is commissioned, with or without inflow, and a reservoir without inflow is
a global lake whose capacity is its area times the lake depth. -/
theorem C37_area_conserved (E : Env ι M R O) (c : RunCfg) (h : GoodPeriod c) (hon : E.on = true) (k : Date)
    (hk : k.Valid) (h1 : c.start.ord ≤ k.ord) (h2 : k.ord ≤ c.fin.ord) (i : ι)
    (hy : (E.static i).startYear ≤ k.y)
    (hr : (E.static i).startYear ≤ c.start.y ∨ (E.rs ≤ (E.static i).startYear ∧ (E.static i).startYear ≤ E.re))
    (hpos : 0 < (E.static i).area) :
    (cellOn E c k i).area + (cellOn E c k i).lake = (E.static i).area + (E.static i).lake ∧
      (cellOn E c k i).maxLake = (cellOn E c k i).lake * (E.static i).depth * 0.001 ∧
      ((E.static i).meanInflow = 0 → (cellOn E c k i).area = 0) := by
  obtain ⟨a, a1, a2, a3, a4, a5⟩ := cellOn_eq E h hon hk h1 h2
  have hle : (E.static i).startYear ≤ a := by
    rcases hr with hr | ⟨r1, r2⟩
    · omega
    · rcases Nat.lt_or_ge c.start.y (E.static i).startYear with hlt | hge
      · exact a4 _ r1 r2 hlt hy
      · omega
  rw [a5]
  by_cases hin : (E.static i).meanInflow = 0 <;> simp [ResCell.inYear, hle, hin, hpos]

/-- **C37.**  A reservoir commissioned after the start of the run in a year outside the configured range never becomes
active while the range lies before that year. -/
theorem C37_outside_range (E : Env ι M R O) (c : RunCfg) (h : GoodPeriod c) (hon : E.on = true) (k : Date)
    (hk : k.Valid) (h1 : c.start.ord ≤ k.ord) (h2 : k.ord ≤ c.fin.ord) (i : ι)
    (hy : c.start.y < (E.static i).startYear) (hend : E.re < (E.static i).startYear)
    (hreg : (E.static i).regulated = false) : (cellOn E c k i).area = 0 ∧ (cellOn E c k i).cap = 0 := by
  obtain ⟨a, a1, a2, a3, a4, a5⟩ := cellOn_eq E h hon hk h1 h2
  have hle : ¬ (E.static i).startYear ≤ a := by rcases a3 with a3 | a3 <;> omega
  rw [a5]
  simp [ResCell.inYear, hle, hreg, ResCell.fresh]

/-- **C37.**  With reservoirs off nothing is ever activated. -/
theorem C37_off (E : Env ι M R O) (c : RunCfg) (h : GoodPeriod c) (hoff : E.on = false) (k : Date)
    (hk : k.Valid) (h1 : c.start.ord ≤ k.ord) (h2 : k.ord ≤ c.fin.ord) (i : ι) :
    (cellOn E c k i).area = 0 ∧ (cellOn E c k i).lake = (E.static i).lake := by
  obtain ⟨a, a1, a2, a3, a4, a5⟩ := (inv_run E h hk h1 h2).cells
  rw [cellOn, a5]
  simp [hoff, ResCell.fresh]

/-- **C37.**  On the first day of a run a reservoir that is already in operation is full, a regulated lake that is not
yet in operation is filled like a lake on top of what it holds, other reservoirs are left as they are, and global
lakes are full. Evaporation from a regulated lake is unreduced on that day exactly if it is not yet in operation and
its storage differs from its capacity. -/
theorem C37_first_day (s : ResStatic) (opt chk : Bool) (year : ℕ) (x : ActState)
    (hall : x.cell.all = s.area) :
    let y := activate s true opt true chk year year x
    (s.startYear ≤ year → y.glores = s.storCap) ∧
    (year < s.startYear → s.regulated = true → y.glores = x.glores + s.area * s.depth / 1000) ∧
    (year < s.startYear → s.regulated = false → y.glores = x.glores) ∧
    y.glolake = y.cell.lake * s.depth / 1000 ∧
    (y.cell.firstDay = 1 ↔ year < s.startYear ∧ s.regulated = true ∧ y.glores ≠ s.storCap) ∧
    (y.cell.firstDay = 0 ∨ y.cell.firstDay = 1) := by
  have hmax : (activateArea s year x.cell).maxLake = (activateArea s year x.cell).lake * s.depth / 1000 := by
    simp only [activateArea]; ring
  have hlk : (activate s true opt true chk year year x).glolake =
      (activate s true opt true chk year year x).cell.lake * s.depth / 1000 := by
    simp only [activate, activateStorage, if_true, Bool.or_true, Bool.true_or]
    exact hmax
  by_cases h : s.startYear ≤ year
  · have hn : ¬ year < s.startYear := by omega
    refine ⟨fun _ => ?_, fun h' => absurd h' hn, fun h' => absurd h' hn, ?_, ?_, ?_⟩
    · simp [activate, activateStorage, h]
    · exact hlk
    · simp [activate, activateStorage, hn]
    · simp [activate, activateStorage, hn]
  · have hl : year < s.startYear := by omega
    cases hreg : s.regulated
    · refine ⟨fun h' => absurd h' h, fun _ h' => absurd h' (by simp), fun _ _ => ?_, ?_, ?_, ?_⟩
      · simp [activate, activateStorage, h, hl, hreg]
      · exact hlk
      · simp [activate, activateStorage, hreg]
      · simp [activate, activateStorage, hreg]
    · have ha : (activateArea s year x.cell).all = s.area := by
        simp [activateArea, h, hall]
      refine ⟨fun h' => absurd h' h, fun _ _ => ?_, fun _ h' => absurd h' (by simp), ?_, ?_, ?_⟩
      · simp [activate, activateStorage, h, hl, hreg, ha]; ring
      · exact hlk
      · simp [activate, activateStorage, h, hl, hreg]
      · simp only [activate, activateStorage, hreg, hl, if_true, Bool.or_true, Bool.true_or, and_self]
        by_cases hq : (activateArea s year x.cell).all * s.depth * 0.001 + (if s.startYear ≤ year then s.storCap else x.glores) = s.storCap
        · left; rw [if_pos (by simpa using hq)]
        · right; rw [if_neg (by simpa using hq)]

example := C37_first_day ⟨2001, true, 5, 2, 1, 10, 3⟩ true true 1995 ⟨.fresh ⟨2001, true, 5, 2, 1, 10, 3⟩, 0, 0⟩ rfl

/-- C37 is violated by reservoirs without inflow: their area becomes part of the global lake of the cell, which is filled,
but the reservoir storage is set to the full capacity as well; with area zero no process ever touches it
(`C37_stranded`), so this water is in the cell's storage for good. -/
theorem C37_violated_no_inflow (s : ResStatic) (opt chk : Bool) (year : ℕ) (x : ActState) (hy : s.startYear ≤ year)
    (hin : s.meanInflow = 0) (ha : 0 < x.cell.all) :
    let y := activate s true opt true chk year year x
    y.cell.area = 0 ∧ y.glores = s.storCap ∧ y.glolake = (x.cell.all + x.cell.lake) * s.depth / 1000 := by
  refine ⟨?_, ?_, ?_⟩
  · simp [activate, activateStorage, activateArea, hy, hin, ha]
  · simp [activate, activateStorage, hy]
  · simp [activate, activateStorage, activateArea, hy, hin, ha]; ring

example := C37_violated_no_inflow ⟨1990, false, 5, 2, 0, 10, 3⟩ true true 1995 ⟨.fresh ⟨1990, false, 5, 2, 0, 10, 3⟩, 0, 0⟩
  (by norm_num) rfl (by norm_num [ResCell.fresh])

/-- Example: a reservoir of 10 km² from 2001 and a regulated lake; the values written are the reservoir areas. -/
noncomputable def exEnv (rs re : ℕ) : Env Bool Unit Unit (Bool → ℝ) :=
  { static := fun b =>
      { startYear := 2001, regulated := b, storCap := 5, depth := 2, meanInflow := 1, area := 10, lake := 3 }
    on := true, rs := rs, re := re, demand := fun _ _ _ _ => ()
    balance := fun _ c _ g l _ => (g, l, (), fun i => (c i).area)
    glores0 := fun _ => 0, rest0 := (), month0 := () }

example : (cellOn (exEnv 1990 2010) exRun ⟨2001, 1, 1⟩ false).area = 10 ∧
    (cellOn (exEnv 1990 2010) exRun ⟨2000, 12, 31⟩ false).area = 0 ∧
    (cellOn (exEnv 1990 2010) exRun ⟨2000, 12, 31⟩ true).area = 10 ∧
    (cellOn (exEnv 1990 2000) exRun ⟨2001, 1, 1⟩ false).area = 0 := by
  refine ⟨(C37_active _ _ exRun_good rfl _ (by decide) (by decide +kernel) (by decide +kernel) false
      (by decide) (Or.inr (by decide)) one_ne_zero).1,
    (C37_not_before _ _ exRun_good rfl _ (by decide) (by decide +kernel) (by decide +kernel) false
      (by decide) rfl).1,
    (C37_regulated_always _ _ exRun_good rfl _ (by decide) (by decide +kernel) (by decide +kernel) true
      rfl one_ne_zero).1,
    (C37_outside_range _ _ exRun_good rfl _ (by decide) (by decide +kernel) (by decide +kernel) false
      (by decide) (by decide) rfl).1⟩

example : (cellOn (exEnv 1990 2010) exRun ⟨2001, 1, 1⟩ false).area +
    (cellOn (exEnv 1990 2010) exRun ⟨2001, 1, 1⟩ false).lake = 10 + 3 :=
  (C37_area_conserved _ _ exRun_good rfl _ (by decide) (by decide +kernel) (by decide +kernel) false
    (by decide) (Or.inr (by decide)) (by norm_num [exEnv])).1

example : (cellOn { exEnv 1990 2010 with on := false } exRun ⟨2001, 1, 1⟩ true).area = 0 :=
  (C37_off _ _ exRun_good rfl _ (by decide) (by decide +kernel) (by decide +kernel) true).1

/-! ## Restart (C35) -/

/-- Two states that the days to come cannot tell apart. -/
structure Same (E : Env ι M R O) (x y : SimState ι M R) : Prop where
  s : x.s = y.s
  cells : x.u.cells = y.u.cells
  month : x.u.month = y.u.month
  flags : E.on = true → x.s.setFlag = false ∧ x.u.check = false ∧ y.u.check = false

theorem activateAll_off (E : Env ι M R O) (hoff : E.on = false) (S : ℕ) (t : Date) (x : SimState ι M R) :
    E.activateAll S t x = x := by
  simp [Env.activateAll, hoff, activate_off]

theorem activateAll_on (E : Env ι M R O) (hon : E.on = true) (S : ℕ) (t : Date) (x : SimState ι M R)
    (hs : x.s.setFlag = false) :
    E.activateAll S t x =
      { u := { cells := fun i => if inOptYears E.rs E.re t || x.u.check then
                  activateArea (E.static i) t.y (x.u.cells i) else x.u.cells i
               check := false
               month := x.u.month }
        s := x.s } := by
  obtain ⟨⟨cells, chk, mo⟩, ⟨sf, g, l, r⟩⟩ := x
  simp only at hs
  subst hs
  simp only [Env.activateAll, hon, activate_noset, if_true]
  cases chk <;> simp

theorem day_same (E : Env ι M R O) (S S' : ℕ) (first first' : Date → Bool) (t : Date) (x y : SimState ι M R)
    (h : Same E x y) (hf : first t = first' t) :
    (E.day S first t x).2 = (E.day S' first' t y).2 ∧ Same E (E.day S first t x).1 (E.day S' first' t y).1 := by
  obtain ⟨⟨cells, chk, mo⟩, s⟩ := x
  obtain ⟨⟨cells', chk', mo'⟩, s'⟩ := y
  obtain ⟨h1, h2, h3, h4⟩ := h
  simp only at h1 h2 h3 h4
  subst h1 h2 h3
  cases hon : E.on
  · unfold Env.day
    rw [activateAll_off E hon, activateAll_off E hon, hf]
    refine ⟨rfl, ⟨rfl, rfl, rfl, fun h => ?_⟩⟩
    rw [hon] at h; cases h
  · obtain ⟨f1, f2, f3⟩ := h4 hon
    subst f2 f3
    have a1 := activateAll_on E hon S t ⟨⟨cells, false, mo⟩, s⟩ f1
    have a2 := activateAll_on E hon S' t ⟨⟨cells, false, mo⟩, s⟩ f1
    unfold Env.day
    rw [a1, a2, hf]
    exact ⟨rfl, ⟨rfl, rfl, rfl, fun _ => ⟨f1, rfl, rfl⟩⟩⟩

theorem days_same (E : Env ι M R O) (S S' : ℕ) (first first' : Date → Bool) (l : List Date) (x y : SimState ι M R)
    (h : Same E x y) (hf : ∀ t ∈ l, first t = first' t) :
    (E.days S first l x).2 = (E.days S' first' l y).2 ∧ Same E (E.days S first l x).1 (E.days S' first' l y).1 := by
  induction l generalizing x y with
  | nil => exact ⟨rfl, h⟩
  | cons t ts ih =>
    obtain ⟨h1, h2⟩ := day_same E S S' first first' t x y h (hf t (by simp))
    obtain ⟨h3, h4⟩ := ih _ _ h2 (fun t ht => hf t (by simp [ht]))
    simp only [Env.days]
    exact ⟨by rw [h1, h3], h4⟩

theorem days_congr (E : Env ι M R O) (S : ℕ) (first first' : Date → Bool) (l : List Date) (x : SimState ι M R)
    (hf : ∀ t ∈ l, first t = first' t) : E.days S first l x = E.days S first' l x := by
  induction l generalizing x with
  | nil => rfl
  | cons t ts ih =>
    simp only [Env.days, Env.day, hf t (by simp)]
    rw [ih _ (fun t ht => hf t (by simp [ht]))]

/-- **C35.**  Let a run be interrupted after any day `k` of its period: the first part runs to `k` and saves its
states, the second part is restarted on the day after `k` without spin-up.  Then both parts run without error, the
values written by the two parts one after the other are exactly those of the uninterrupted run, and the final states
are the same — for every water balance of the day, provided every reservoir commissioned between the start of the run
and the year of the restart falls into (or before) a configured reservoir year that has begun. -/
theorem C35_split (E : Env ι M R O) (c : RunCfg) (k : Date) (_hspin : 0 ≤ c.spin)
    (h1 : GoodPeriod { c with fin := k }) (h2 : GoodPeriod { c with start := k.next, spin := 0 })
    (hcover : E.on = true → ∀ i, c.start.y < (E.static i).startYear → (E.static i).startYear ≤ k.next.y →
      ∃ y, E.rs ≤ y ∧ y ≤ E.re ∧ (E.static i).startYear ≤ y ∧ y ≤ k.next.y) :
    ∃ o1 s1 o2 s2,
      E.run { c with fin := k } false [] = .ok (o1, s1) ∧
      E.run { c with start := k.next, spin := 0 } true [(k, s1)] = .ok (o2, s2) ∧
      E.run c false [] = .ok (o1 ++ o2, s2) := by
  have hkv : k.Valid := h1.vf
  have hko := next_ord hkv
  have hsk : c.start.ord ≤ k.ord := h1.h2
  have hkf : k.next.ord ≤ c.fin.ord := h2.h2
  have h : GoodPeriod c := by
    refine ⟨h1.vs, h2.vf, h1.vd, h1.ve, h1.h1, by omega, h2.h3, fun hy => ?_⟩
    have e1 := ord_in_year h1.vs
    have e2 := ord_in_year hkv
    have e3 := ord_in_year h2.vf
    simp only at e1 e2 e3 hy
    rw [← hy] at e3
    have hky : c.start.y = k.y := by
      rcases Nat.lt_trichotomy c.start.y k.y with hlt | heq | hgt
      · exfalso
        have := daysBeforeYear_mono hlt
        omega
      · exact heq
      · exfalso
        have := daysBeforeYear_mono hgt
        omega
    have := h1.h4 hky
    simp only at this
    rw [← hy, hky]; exact this
  have g := gridEnd_ge h
  have g1 := gridEnd_ge h1
  have g2 := gridEnd_ge h2
  -- the first part
  have hf1 : ∀ t : Date, t.Valid → c.start.ord ≤ t.ord → t.ord ≤ k.ord ∨ t.ord ≤ (yearEnd c.start.y).ord →
      firstIn { c with fin := k } t = firstIn c t := by
    intro t ht ht1 ht2
    rw [firstIn_eq h1 ht ht1 (by
      rcases ht2 with ht2 | ht2
      · exact ht2.trans g1.1
      · exact ht2.trans g1.2.1), firstIn_eq h ht ht1 (by
      rcases ht2 with ht2 | ht2
      · have := g.1; omega
      · exact ht2.trans g.2.1)]
  have hsp : afterSpin E { c with fin := k } (E.fresh false) = afterSpin E c (E.fresh false) := by
    unfold afterSpin
    rw [days_congr]
    intro t ht
    rw [List.mem_flatten] at ht
    obtain ⟨l, hl, htl⟩ := ht
    rw [List.eq_of_mem_replicate hl] at htl
    have := (mem_daysBetween h.vs _ _).1 htl
    exact hf1 t this.1 this.2.1 (Or.inr this.2.2)
  obtain ⟨x, hx⟩ : ∃ x, x = E.days c.start.y (firstIn c) (daysBetween c.start k) (afterSpin E c (E.fresh false)) :=
    ⟨_, rfl⟩
  have r1 : E.run { c with fin := k } false [] = .ok (x.2, x.1.s) := by
    rw [run_eq E h1]
    simp only [Bool.false_eq_true, if_false, hsp]
    rw [days_congr E _ (firstIn { c with fin := k }) (firstIn c), hx]
    intro t ht
    have := (mem_daysBetween h.vs _ _).1 ht
    exact hf1 t this.1 this.2.1 (Or.inl this.2.2)
  have inv : Inv E c.start.y k x.1 := by rw [hx]; exact inv_run E h hkv hsk (by omega)
  -- the second part
  obtain ⟨y0, hy0⟩ : ∃ y0 : SimState ι M R, y0 = { E.fresh true with s := x.1.s } := ⟨_, rfl⟩
  have r2 : E.run { c with start := k.next, spin := 0 } true [(k, x.1.s)] =
      .ok ((E.days k.next.y (firstIn { c with start := k.next, spin := 0 }) (daysBetween k.next c.fin) y0).2,
        (E.days k.next.y (firstIn { c with start := k.next, spin := 0 }) (daysBetween k.next c.fin) y0).1.s) := by
    rw [run_eq E h2]
    simp [loadRestart, afterSpin, Env.days, hy0]
  -- first day of the second part
  have hf2 : firstIn { c with start := k.next, spin := 0 } k.next = true := by
    rw [firstIn_eq h2 h2.vs (le_refl _) (by exact hkf.trans g2.1)]; simp
  have hfollow : Follows (firstIn c) k k.next := by
    refine follows_next _ hkv fun hd => ?_
    rw [firstIn_eq h h2.vs (by simp only; omega) (hkf.trans g.1)]
    simp [hd]
  obtain ⟨a, a1, a2, a3, a4, a5⟩ := inv.cells
  have hnc := hfollow.1
  have hky : k.y ≤ k.next.y := by
    rcases hnc with hnc | hnc
    · omega
    · rw [hnc]; simp
  obtain ⟨Z, hZ⟩ : ∃ Z : ι → ResCell, Z = fun i => if E.on then ResCell.inYear (E.static i) k.next.y
      else ResCell.fresh (E.static i) := ⟨_, rfl⟩
  have hZopt : inOptYears E.rs E.re k.next = false → Z = x.1.u.cells := by
    intro hno
    rw [hZ, a5]
    funext i
    cases hon : E.on
    · rfl
    · simp only [if_true]
      apply inYear_congr
      constructor
      · intro hle
        rcases Nat.lt_or_ge c.start.y (E.static i).startYear with hlt | hge
        · obtain ⟨y, y1, y2, y3, y4⟩ := hcover hon i hlt hle
          have hyk : y ≤ k.y := by
            rcases hnc with hnc | hnc
            · omega
            · rcases Nat.lt_or_ge y k.next.y with hy | hy
              · rw [hnc] at hy; simp only at hy; omega
              · exfalso
                have he : k.next.y = y := by omega
                rw [hnc] at he hno
                simp only at he
                simp [inOptYears, he, y1, y2] at hno
          have := a4 y y1 y2 (by omega) hyk
          omega
        · omega
      · intro hle; omega
  have hmn : (if firstIn c k.next = true then
        E.demand k.next.y k.next.m (fun i => (Z i).lake) (fun i => (Z i).area) else x.1.u.month) =
      E.demand k.next.y k.next.m (fun i => (Z i).lake) (fun i => (Z i).area) := by
    split_ifs with hfc
    · rfl
    · rcases hfollow.2 with hff | ⟨e1, e2, e3⟩
      · exact absurd hff hfc
      · rw [hZopt (by simp [inOptYears, e3]), e1, e2]; exact inv.month
  have key : (E.day c.start.y (firstIn c) k.next x.1).2 =
        (E.day k.next.y (firstIn { c with start := k.next, spin := 0 }) k.next y0).2 ∧
      Same E (E.day c.start.y (firstIn c) k.next x.1).1
        (E.day k.next.y (firstIn { c with start := k.next, spin := 0 }) k.next y0).1 := by
    cases hon : E.on
    · have c1 : E.activateAll c.start.y k.next x.1 = ⟨⟨Z, x.1.u.check, x.1.u.month⟩, x.1.s⟩ := by
        rw [activateAll_off E hon]
        have : Z = x.1.u.cells := by rw [hZ, a5]; simp [hon]
        rw [this]
      have c2 : E.activateAll k.next.y k.next y0 = ⟨⟨Z, true, E.month0⟩, x.1.s⟩ := by
        rw [activateAll_off E hon, hy0, hZ]
        simp [hon, Env.fresh]
      unfold Env.day
      rw [c1, c2]
      simp only [hf2, if_true, hmn]
      exact ⟨trivial, rfl, rfl, rfl, fun h => by rw [hon] at h; cases h⟩
    · obtain ⟨f1, f2⟩ := inv.flags hon
      have c1 : E.activateAll c.start.y k.next x.1 = ⟨⟨Z, false, x.1.u.month⟩, x.1.s⟩ := by
        rw [activateAll_on E hon _ _ _ f1, f2]
        congr 2
        cases ho : inOptYears E.rs E.re k.next
        · rw [hZopt ho]; simp
        · rw [hZ, a5]
          funext i
          simp only [hon, if_true, Bool.or_false]
          exact activateArea_inYear _ (a2.trans hky)
      have c2 : E.activateAll k.next.y k.next y0 = ⟨⟨Z, false, E.month0⟩, x.1.s⟩ := by
        rw [activateAll_on E hon _ _ y0 (by rw [hy0]; exact f1), hy0, hZ]
        simp only [hon, if_true, Env.fresh, Bool.or_true, activateArea_fresh]
      unfold Env.day
      rw [c1, c2]
      simp only [hf2, if_true, hmn]
      exact ⟨trivial, rfl, rfl, rfl, fun _ => ⟨f1, rfl, rfl⟩⟩
  obtain ⟨k1, k2⟩ := key
  have hsplit : daysBetween c.start c.fin = daysBetween c.start k ++ daysBetween k.next c.fin := by
    unfold daysBetween
    rw [show c.fin.ord + 1 - c.start.ord = (k.ord + 1 - c.start.ord) + (c.fin.ord + 1 - k.next.ord) by omega,
      daysFrom_append]
    congr 2
    exact ord_injective (iterate_next_valid h.vs _) h2.vs (by rw [iterate_next_ord h.vs]; omega)
  have hv2 : k.next.Valid := h2.vs
  have hcons : daysBetween k.next c.fin = k.next :: daysFrom k.next.next (c.fin.ord - k.next.ord) := by
    unfold daysBetween
    rw [show c.fin.ord + 1 - k.next.ord = (c.fin.ord - k.next.ord) + 1 by omega]; rfl
  obtain ⟨m1, m2⟩ := days_same E c.start.y k.next.y (firstIn c) (firstIn { c with start := k.next, spin := 0 })
    (daysFrom k.next.next (c.fin.ord - k.next.ord)) _ _ k2 (by
      intro t ht
      have ht' := (mem_daysFrom (next_valid hv2) _ _).1 ht
      have hno := next_ord hv2
      have e1 := g.1
      have e2 := g2.1
      simp only at hno e1 e2
      rw [firstIn_eq h ht'.1 (by omega) (by omega), firstIn_eq h2 ht'.1 (by simp only; omega) (by omega)]
      have n1 : t ≠ c.start := by rintro rfl; omega
      have n2 : t ≠ k.next := by rintro rfl; omega
      simp [n1, n2])
  refine ⟨_, _, _, _, r1, r2, ?_⟩
  rw [run_eq E h]
  simp only [Bool.false_eq_true, if_false]
  rw [hsplit, days_append, ← hx, hcons]
  simp only [Env.days]
  rw [k1, m1, m2.s]

/-- Non-vacuity: two spin-up years, the reservoir comes into operation one day after the restart. -/
example : ∃ o1 s1 o2 s2,
    (exEnv 1990 2010).run { exRun with fin := ⟨2000, 12, 30⟩ } false [] = .ok (o1, s1) ∧
    (exEnv 1990 2010).run { exRun with start := ⟨2000, 12, 31⟩, spin := 0 } true [(⟨2000, 12, 30⟩, s1)] = .ok (o2, s2) ∧
    (exEnv 1990 2010).run exRun false [] = .ok (o1 ++ o2, s2) :=
  C35_split (exEnv 1990 2010) exRun ⟨2000, 12, 30⟩ (by decide) (by constructor <;> decide +kernel)
    (by constructor <;> decide +kernel) (by
      intro _ i h1 h2
      exact ⟨2001, by decide, by decide, le_refl _, h2⟩)

/-- **C35.**  Without a file for the day before the start of the restarted run the program stops without simulating a
day, whatever other restart files there are. -/
theorem C35_missing_file (E : Env ι M R O) (c : RunCfg) (h : GoodPeriod c) (dir : RestartDir ι R)
    (hd : ∀ f ∈ dir, f.1.next ≠ c.start) : E.run c true dir = .error .noRestartFile := by
  rw [run_eq E h]
  have : loadRestart dir c.start = none := by
    unfold loadRestart
    rw [List.find?_eq_none.2 (fun f hf => by simpa using hd f hf)]
    rfl
  simp [this]

example : (exEnv 1990 2010).run exRun true [(⟨2000, 2, 28⟩, ((exEnv 1990 2010).fresh true).s)] =
    .error .noRestartFile :=
  C35_missing_file _ _ exRun_good _ (by decide)

theorem run_fresh (E : Env ι M R O) {c : RunCfg} (h : GoodPeriod c) (dir : RestartDir ι R) :
    E.run c false dir =
      .ok ((E.days c.start.y (firstIn c) (daysBetween c.start c.fin) (afterSpin E c (E.fresh false))).2,
          (E.days c.start.y (firstIn c) (daysBetween c.start c.fin) (afterSpin E c (E.fresh false))).1.s) := by
  rw [run_eq E h]; rfl

theorem run_restarted (E : Env ι M R O) {c : RunCfg} (h : GoodPeriod c) (k : Date) (s : SavedPart ι R)
    (hk : k.next = c.start) :
    E.run c true [(k, s)] =
      .ok ((E.days c.start.y (firstIn c) (daysBetween c.start c.fin) (afterSpin E c { E.fresh true with s := s })).2,
          (E.days c.start.y (firstIn c) (daysBetween c.start c.fin) (afterSpin E c { E.fresh true with s := s })).1.s) := by
  rw [run_eq E h]; simp [loadRestart, hk]

/-- A two-day period: 31 December 2000 and 1 January 2001. -/
def exTwo : RunCfg :=
  { start := ⟨2000, 12, 31⟩, fin := ⟨2001, 1, 1⟩, spin := 0, saveStates := true,
    dataStart := ⟨1999, 1, 1⟩, dataEnd := ⟨2003, 12, 31⟩ }

/-- **C35 violated.**  When the configured reservoir years end before the year of the restart, the restarted run
operates a reservoir the uninterrupted run does not: here a reservoir commissioned in 2001, configured reservoir years
1990 to 2000, restart on 1 January 2001.  The uninterrupted run has reservoir area 0 on that day, the restarted one
10 km². -/
theorem C35_violated_reservoir_years :
    ∃ (E : Env Bool Unit Unit (Bool → ℝ)) (c : RunCfg) (k : Date) (o1 : List (Bool → ℝ)) (s1 : SavedPart Bool Unit)
      (o2 o : List (Bool → ℝ)) (s2 s : SavedPart Bool Unit),
      GoodPeriod { c with fin := k } ∧ GoodPeriod { c with start := k.next } ∧
      E.run { c with fin := k } false [] = .ok (o1, s1) ∧
      E.run { c with start := k.next } true [(k, s1)] = .ok (o2, s2) ∧
      E.run c false [] = .ok (o, s) ∧
      (o.map fun f => f false) = [0, 0] ∧ ((o1 ++ o2).map fun f => f false) = [0, 10] := by
  have g : GoodPeriod exTwo := by constructor <;> decide +kernel
  have g1 : GoodPeriod { exTwo with fin := ⟨2000, 12, 31⟩ } := by constructor <;> decide +kernel
  have g2 : GoodPeriod { exTwo with start := ⟨2001, 1, 1⟩ } := by constructor <;> decide +kernel
  have d1 : daysBetween ⟨2000, 12, 31⟩ ⟨2000, 12, 31⟩ = [⟨2000, 12, 31⟩] := by decide +kernel
  have d2 : daysBetween ⟨2001, 1, 1⟩ ⟨2001, 1, 1⟩ = [⟨2001, 1, 1⟩] := by decide +kernel
  have d3 : daysBetween ⟨2000, 12, 31⟩ ⟨2001, 1, 1⟩ = [⟨2000, 12, 31⟩, ⟨2001, 1, 1⟩] := by decide +kernel
  refine ⟨exEnv 1990 2000, exTwo, ⟨2000, 12, 31⟩, _, _, _, _, _, _, g1, g2, run_fresh _ g1 _,
    run_restarted _ g2 _ _ rfl, run_fresh _ g _, ?_, ?_⟩
  · simp [exTwo, d3, afterSpin, Env.days, Env.day, Env.activateAll, exEnv, Env.fresh, activate, activateArea,
      activateStorage, ResCell.fresh, inOptYears]
  · simp [exTwo, d1, d2, afterSpin, Env.days, Env.day, Env.activateAll, exEnv, Env.fresh, activate, activateArea,
      activateStorage, ResCell.fresh, inOptYears]

/-- A water balance that counts the days it was computed. -/
def exCount : Env Unit Unit ℕ ℕ :=
  { static := fun _ => { startYear := 0, regulated := false, storCap := 0, depth := 0, meanInflow := 0, area := 0, lake := 0 }
    on := false, rs := 0, re := 0, demand := fun _ _ _ _ => ()
    balance := fun _ _ _ g l n => (g, l, n + 1, n + 1)
    glores0 := fun _ => 0, rest0 := 0, month0 := () }

/-- **C35 violated.**  A restart does not switch off the spin-up: with a spin-up year in the configuration of the
restarted run, the days from the restart date to 31 December are simulated once more before the simulation period and
the run does not continue the interrupted one.  Here 30 and 31 December 2000 as one run give the day counts 1 and 2,
interrupted after the first day 1 and 3. -/
theorem C35_violated_spinup :
    ∃ (c : RunCfg) (k : Date) (o1 o2 o : List ℕ) (s1 s2 s : SavedPart Unit ℕ),
      GoodPeriod { c with fin := k } ∧ GoodPeriod { c with start := k.next, spin := 1 } ∧
      exCount.run { c with fin := k } false [] = .ok (o1, s1) ∧
      exCount.run { c with start := k.next, spin := 1 } true [(k, s1)] = .ok (o2, s2) ∧
      exCount.run c false [] = .ok (o, s) ∧
      o = [1, 2] ∧ o1 ++ o2 = [1, 3] := by
  have g : GoodPeriod { exTwo with start := ⟨2000, 12, 30⟩, fin := ⟨2000, 12, 31⟩ } := by
    constructor <;> decide +kernel
  have g1 : GoodPeriod { exTwo with start := ⟨2000, 12, 30⟩, fin := ⟨2000, 12, 30⟩ } := by
    constructor <;> decide +kernel
  have g2 : GoodPeriod { exTwo with start := ⟨2000, 12, 31⟩, fin := ⟨2000, 12, 31⟩, spin := 1 } := by
    constructor <;> decide +kernel
  have d1 : daysBetween ⟨2000, 12, 30⟩ ⟨2000, 12, 30⟩ = [⟨2000, 12, 30⟩] := by decide +kernel
  have d2 : daysBetween ⟨2000, 12, 31⟩ ⟨2000, 12, 31⟩ = [⟨2000, 12, 31⟩] := by decide +kernel
  have d3 : daysBetween ⟨2000, 12, 30⟩ ⟨2000, 12, 31⟩ = [⟨2000, 12, 30⟩, ⟨2000, 12, 31⟩] := by decide +kernel
  refine ⟨{ exTwo with start := ⟨2000, 12, 30⟩, fin := ⟨2000, 12, 31⟩ }, ⟨2000, 12, 30⟩, _, _, _, _, _, _, g1, g2,
    run_fresh _ g1 _, run_restarted _ g2 _ _ rfl, run_fresh _ g _, ?_, ?_⟩
  · simp only [exTwo, d3, afterSpin]; rfl
  · simp only [exTwo, d1, d2, afterSpin, yearEnd]; rfl

end WG
