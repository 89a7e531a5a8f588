import Verif.Props.Misc
import Verif.Props.StartMonthCheck
import Verif.Model.StartMonth
import Verif.Props.ShippedSurface

/-!
# C90: first months of the operational year of reservoirs, from the tool to the run
-/

namespace WG

/-! ## Numbers -/

theorem f32_step (b : ℕ) : f32 b < f32 (b + 1) := by
  have hz : ∀ z : ℤ, (0 : ℝ) < 2 ^ z := fun z => zpow_pos (by norm_num) z
  unfold f32
  by_cases h1 : b + 1 < 2 ^ 23
  · rw [if_pos (by omega), if_pos h1]
    have := hz (-149)
    push_cast
    nlinarith
  · rw [if_neg h1]
    by_cases h2 : b < 2 ^ 23
    · rw [if_pos h2]
      have hb : b = 2 ^ 23 - 1 := by omega
      subst hb
      have := hz (-149)
      norm_num
    · rw [if_neg h2]
      by_cases h3 : b % 2 ^ 23 + 1 < 2 ^ 23
      · have e1 : (b + 1) / 2 ^ 23 = b / 2 ^ 23 := by omega
        have e2 : (b + 1) % 2 ^ 23 = b % 2 ^ 23 + 1 := by omega
        rw [e1, e2]
        apply mul_lt_mul_of_pos_right _ (hz _)
        exact_mod_cast (by omega)
      · have e1 : (b + 1) / 2 ^ 23 = b / 2 ^ 23 + 1 := by omega
        have e2 : (b + 1) % 2 ^ 23 = 0 := by omega
        have e3 : b % 2 ^ 23 = 2 ^ 23 - 1 := by omega
        rw [e1, e2, e3]
        have e4 : (((b / 2 ^ 23 + 1 : ℕ) : ℤ) - 150) = ((b / 2 ^ 23 : ℕ) : ℤ) - 150 + 1 := by push_cast; ring
        rw [e4, zpow_add_one₀ (by norm_num)]
        have := hz (((b / 2 ^ 23 : ℕ) : ℤ) - 150)
        generalize (2 : ℝ) ^ (((b / 2 ^ 23 : ℕ) : ℤ) - 150) = w at *
        norm_num
        linarith

theorem f32_mono : StrictMono f32 := strictMono_nat_of_lt_succ f32_step

theorem f32_zero (b : ℕ) : f32 b = 0 ↔ b = 0 := by
  have : f32 0 = 0 := by simp [f32]
  constructor
  · intro h; exact f32_mono.injective (h.trans this.symm)
  · rintro rfl; exact this

/-- The months of reservoir `r` that are dry, as the kernel sees them. -/
theorem patR_eq (f : ShippedForcing) (r : ℕ) : dryMonths (shippedMonthlyInflow f r) (shippedMeanInflow f r) = patR (f.data.get r) := by
  have h : ∀ j, (@decide (f32 (f.data.get r / 10 ^ (10 * j) % 10 ^ 10) < shippedMeanInflow f r) (Classical.dec _))
      = dryR (f.data.get r) j := by
    intro j
    unfold shippedMeanInflow
    rw [Bool.eq_iff_iff, decide_eq_true_iff, f32_mono.lt_iff_lt]
    change _ ↔ Nat.blt _ _ = true
    rw [Nat.blt_eq]
    rfl
  simp only [dryMonths, shippedMonthlyInflow, List.map_cons, List.map_nil, h]
  rfl

/-! ## Checks -/

theorem startEra5_all (r : ℕ) (hr : r < 1267) : startCheck startDataEra5 9999 r = true := by
  by_cases h0 : r < 181
  · exact checkFrom_spec _ _ _ startEra5_0 r (by omega) (by omega)
  by_cases h1 : r < 362
  · exact checkFrom_spec _ _ _ startEra5_181 r (by omega) (by omega)
  by_cases h2 : r < 543
  · exact checkFrom_spec _ _ _ startEra5_362 r (by omega) (by omega)
  by_cases h3 : r < 724
  · exact checkFrom_spec _ _ _ startEra5_543 r (by omega) (by omega)
  by_cases h4 : r < 905
  · exact checkFrom_spec _ _ _ startEra5_724 r (by omega) (by omega)
  by_cases h5 : r < 1086
  · exact checkFrom_spec _ _ _ startEra5_905 r (by omega) (by omega)
  exact checkFrom_spec _ _ _ startEra5_1086 r (by omega) (by omega)

theorem startW5e5_all (r : ℕ) (hr : r < 1267) : startCheck startDataW5e5 1022 r = true := by
  by_cases h0 : r < 181
  · exact checkFrom_spec _ _ _ startW5e5_0 r (by omega) (by omega)
  by_cases h1 : r < 362
  · exact checkFrom_spec _ _ _ startW5e5_181 r (by omega) (by omega)
  by_cases h2 : r < 543
  · exact checkFrom_spec _ _ _ startW5e5_362 r (by omega) (by omega)
  by_cases h3 : r < 724
  · exact checkFrom_spec _ _ _ startW5e5_543 r (by omega) (by omega)
  by_cases h4 : r < 905
  · exact checkFrom_spec _ _ _ startW5e5_724 r (by omega) (by omega)
  by_cases h5 : r < 1086
  · exact checkFrom_spec _ _ _ startW5e5_905 r (by omega) (by omega)
  exact checkFrom_spec _ _ _ startW5e5_1086 r (by omega) (by omega)

theorem coverCheck_all (k : ℕ) (hk : k < shippedSize) : coverCheck k = true := by
  refine check_cover _ ?_ k hk
  simp only [pieces, List.forall_mem_cons]
  exact ⟨cover_0, cover_3371, cover_6742, cover_10113, cover_13484, cover_16855, cover_20226, cover_23597, cover_26968, cover_30339, cover_33710, cover_37081, cover_40452, cover_43823, cover_47194, cover_50565, cover_53936, cover_57307, cover_60678, cover_64049, by simp⟩

/-- The one shipped reservoir whose start month is not the start of a longest dry period. -/
def exceptional : ShippedForcing → ℕ → Prop
  | .era5, _ => False
  | .w5e5, r => r = 1022

theorem start_check (f : ShippedForcing) (r : ℕ) (hr : r < 1267) : ∃ bad : Bool, (bad = true ↔ exceptional f r) ∧
    startCheck1 (f.data.get r) bad = true ∧ (r < 1266 → startRow f r < startRow f (r + 1)) := by
  have key : ∀ (t : DTree) (b : ℕ), startCheck t b r = true → startCheck1 (t.get r) (Nat.beq r b) = true ∧
      (r < 1266 → t.get r / 10 ^ 132 < t.get (r + 1) / 10 ^ 132) := by
    intro t b h
    unfold startCheck at h
    rw [Bool.cond_false_right, Bool.and_eq_true, Bool.cond_true_right, Bool.or_eq_true] at h
    refine ⟨h.1, fun hr' => ?_⟩
    rcases h.2 with h2 | h2
    · exfalso
      rw [not_iff', Nat.blt_eq] at h2
      exact h2 hr'
    · rw [Nat.blt_eq] at h2
      exact h2
  cases f with
  | era5 =>
    obtain ⟨h1, h2⟩ := key _ _ (startEra5_all r hr)
    exact ⟨_, ⟨fun h => by rw [Nat.beq_eq] at h; omega, fun h => h.elim⟩, h1, h2⟩
  | w5e5 =>
    obtain ⟨h1, h2⟩ := key _ _ (startW5e5_all r hr)
    exact ⟨_, Iff.of_eq Nat.beq_eq, h1, h2⟩

theorem patR_length (n : ℕ) : (patR n).length = 12 := rfl

/-- What the checks say about reservoir `r`. -/
theorem start_facts (f : ShippedForcing) (r : ℕ) (hr : r < 1267) :
    (shippedMeanInflow f r = 0 ∧ shippedStartMonth f r = 1 ∧ ¬ exceptional f r) ∨
    (shippedMeanInflow f r ≠ 0 ∧ (patR (f.data.get r)).any id = true ∧ (patR (f.data.get r)).all id = false ∧
      dryStart (patR (f.data.get r)) = shippedStartMonth f r ∧
      (startsLongest (patR (f.data.get r)) = true ↔ ¬ exceptional f r)) := by
  obtain ⟨bad, hb, h, -⟩ := start_check f r hr
  unfold startCheck1 at h
  by_cases h0 : Nat.beq (Nat.mod (Nat.div (f.data.get r) (Nat.pow 10 120)) 10000000000) 0 = true
  · rw [h0, Bool.cond_true] at h
    left
    refine ⟨(f32_zero _).mpr (by rw [Nat.beq_eq] at h0; exact h0), ?_, ?_⟩
    · cases bad
      · rw [Bool.cond_false, Nat.beq_eq] at h; exact h
      · cases h
    · cases bad
      · intro hx; exact absurd (hb.mpr hx) (by decide)
      · cases h
  · right
    rw [Bool.not_eq_true] at h0
    rw [h0, Bool.cond_false] at h
    refine ⟨fun hx => ?_, ?_⟩
    · have := (f32_zero _).mp hx
      rw [← Bool.not_eq_true, Nat.beq_eq] at h0
      exact h0 this
    · change (cond ((patR (f.data.get r)).any id) (cond ((patR (f.data.get r)).all id) false
        (cond (Nat.beq (dryStart (patR (f.data.get r))) (monthR (f.data.get r)))
        (cond bad (not (startsLongest (patR (f.data.get r)))) (startsLongest (patR (f.data.get r)))) false)) false) = true at h
      cases h1 : (patR (f.data.get r)).any id
      · rw [h1] at h; cases h
      cases h2 : (patR (f.data.get r)).all id
      · rw [h1, h2, Bool.cond_true, Bool.cond_false, Bool.cond_false_right, Bool.and_eq_true] at h
        obtain ⟨h3, h4⟩ := h
        rw [Nat.beq_eq] at h3
        refine ⟨rfl, rfl, h3, ?_⟩
        cases bad
        · rw [Bool.cond_false] at h4
          exact ⟨fun _ hx => absurd (hb.mpr hx) (by decide), fun _ => h4⟩
        · rw [Bool.cond_true, not_iff'] at h4
          exact ⟨fun hx => absurd hx h4, fun hx => absurd (hb.mp rfl) hx⟩
      · rw [h1, h2] at h; cases h

/-! ## Theorems -/

/-- C90, shipped data: every reservoir or regulated lake of the shipped network is in the table of either forcing exactly once. -/
theorem C90_every_reservoir (f : ShippedForcing) (k : ℕ) (hk : k < shippedSize) (h : HasRes k) :
    ∃! r, r < 1267 ∧ startRow f r = k := by
  have hc := coverCheck_all k hk
  unfold coverCheck at hc
  have hres : Nat.beq (Nat.mod (Nat.div (Nat.mod (Nat.div (surfR k) 100000) 100) 2) 2) 1 = true := by
    rw [Nat.beq_eq]; exact h
  rw [hres, Bool.cond_true] at hc
  generalize resNoR k = r at hc
  beta_reduce at hc
  rw [Bool.cond_false_right, Bool.and_eq_true, Bool.cond_false_right, Bool.and_eq_true, Nat.blt_eq, Nat.beq_eq, Nat.beq_eq] at hc
  obtain ⟨hr, h1, h2⟩ := hc
  have hrow : startRow f r = k := by
    cases f with
    | era5 => exact h1
    | w5e5 => exact h2
  refine ⟨r, ⟨hr, hrow⟩, ?_⟩
  rintro r' ⟨hr', hrow'⟩
  have mono : ∀ a n, a + n < 1267 → 0 < n → startRow f a < startRow f (a + n) := by
    intro a n
    induction n with
    | zero => intro _ h; omega
    | succ n ih =>
      intro h1 _
      obtain ⟨_, -, -, hs⟩ := start_check f (a + n) (by omega)
      have hs := hs (by omega)
      rcases Nat.eq_zero_or_pos n with rfl | hn
      · exact hs
      · exact (ih (by omega) hn).trans hs
  rcases lt_trichotomy r' r with hlt | heq | hgt
  · have := mono r' (r - r') (by omega) (by omega)
    rw [Nat.add_sub_cancel' hlt.le, hrow, hrow'] at this
    omega
  · exact heq
  · have := mono r (r' - r) (by omega) (by omega)
    rw [Nat.add_sub_cancel' hgt.le, hrow, hrow'] at this
    omega

/-- C90, shipped data: the start months are those which the tool computes from the shipped inflows, in every reservoir and for
either forcing, and they are months. -/
theorem C90_shipped (f : ShippedForcing) (r : ℕ) (hr : r < 1267) :
    startMonth (shippedMonthlyInflow f r) (some (shippedMeanInflow f r)) = some (shippedStartMonth f r) ∧
    1 ≤ shippedStartMonth f r ∧ shippedStartMonth f r ≤ 12 := by
  rcases start_facts f r hr with ⟨h1, h2, -⟩ | ⟨h1, h2, h3, h4, -⟩
  · rw [h1, h2]; simp [startMonth]
  · rw [startMonth_eq _ _ h1 (by rw [patR_eq]; exact h2), patR_eq, h4]
    have := dryStart_spell _ (patR_length _) h2 h3
    rw [h4] at this
    exact ⟨rfl, this.1, this.2.1⟩

/-- C90, shipped data: the operational year of every reservoir with inflow begins with its longest dry period, for either
forcing, except that of reservoir 1022 with the data for W5E5. -/
theorem C90_longest (f : ShippedForcing) (r : ℕ) (hr : r < 1267) (h0 : shippedMeanInflow f r ≠ 0)
    (hx : ¬ (f = .w5e5 ∧ r = 1022)) :
    ∀ m < 12, spellLength (dryMonths (shippedMonthlyInflow f r) (shippedMeanInflow f r)) m
      ≤ spellLength (dryMonths (shippedMonthlyInflow f r) (shippedMeanInflow f r)) (shippedStartMonth f r - 1) := by
  rcases start_facts f r hr with ⟨h1, -, -⟩ | ⟨-, -, -, h4, h5⟩
  · exact absurd h1 h0
  · have hn : ¬ exceptional f r := by
      cases f with
      | era5 => exact fun h => h
      | w5e5 => exact fun h => hx ⟨rfl, h⟩
    have h6 := h5.mpr hn
    unfold startsLongest at h6
    rw [List.all_eq_true] at h6
    intro m hm
    have h7 := h6 m (List.mem_range.mpr hm)
    rw [decide_eq_true_iff, h4] at h7
    rw [patR_eq]
    exact h7

/-- C90 violated, shipped data: with the data for W5E5 the operational year of the reservoir in row 60860 of the routing order
(indices 114 and 151: 32.75° N, 104.25° W) begins in October, with a dry period of two months; its longest dry
period is from March to May. The tool adds the length of a period that is not the longest to the next. -/
theorem C90_violated_shipped : startRow .w5e5 1022 = 60860 ∧ shippedCell 60860 = (114, 151) ∧ HasRes 60860 ∧
    shippedStartMonth .w5e5 1022 = 10 ∧
    spellLength (dryMonths (shippedMonthlyInflow .w5e5 1022) (shippedMeanInflow .w5e5 1022)) 9 = 2 ∧
    spellLength (dryMonths (shippedMonthlyInflow .w5e5 1022) (shippedMeanInflow .w5e5 1022)) 2 = 3 := by
  rw [patR_eq]
  refine ⟨?_, ?_, ?_, ?_, ?_, ?_⟩
  · change Nat.div (startDataW5e5.get 1022) (Nat.pow 10 132) = 60860
    decide +kernel
  · decide +kernel
  · change Nat.mod (Nat.div (Nat.mod (Nat.div (surfR 60860) 100000) 100) 2) 2 = 1
    decide +kernel
  · change Nat.mod (Nat.div (startDataW5e5.get 1022) (Nat.pow 10 130)) 100 = 10
    decide +kernel
  · change spellLength (patR (startDataW5e5.get 1022)) 9 = 2
    decide +kernel
  · change spellLength (patR (startDataW5e5.get 1022)) 2 = 3
    decide +kernel

/-! ## Files -/

theorem ends_append {s a : List Char} (b : List Char) (h : s <:+ a) : s <:+ b ++ a := h.trans (List.suffix_append b a)

/-- A file the tool writes is read by the run, unless it were named like the monthly inflows. -/
theorem toolFile_read (forcing d : List Char)
    (h : ¬ ("watergap_22e_".toList ++ forcing ++ "_monthly_mean_inflow".toList) <:+: toolFile d) : isRead forcing (toolFile d) :=
  ⟨Or.inl (ends_append _ (by decide)), h⟩

/-- C90, files: if in the folder only a file of the name the tool uses has start months (among those a run reads), then after
the tool has been run the run finds exactly one set of start months: that of the tool. -/
theorem C90_recomputed {α : Type} (folder folder' : ResFolder α) (forcing path d : List Char) (c : α)
    (hd : toolDataset path = some d) (h : ∀ f ∈ folder, isRead forcing f.1 → f.2 ≠ none → f.1 = toolFile d)
    (hname : ¬ ("watergap_22e_".toList ++ forcing ++ "_monthly_mean_inflow".toList) <:+: toolFile d)
    (ht : runTool folder path c = some folder') : startMonthsRead forcing folder' = [c] := by
  rw [runTool, hd, Option.map_some, Option.some.injEq] at ht
  subst ht
  unfold startMonthsRead putFile
  rw [List.filter_append, List.filterMap_append]
  have h1 : List.filterMap Prod.snd (List.filter (fun f => decide (isRead forcing f.1)) (List.filter (fun f => decide (f.1 ≠ toolFile d)) folder)) = [] := by
    rw [List.filterMap_eq_nil_iff]
    intro f hf
    rw [List.mem_filter, List.mem_filter] at hf
    obtain ⟨⟨hf1, hf2⟩, hf3⟩ := hf
    by_contra hne
    exact (of_decide_eq_true hf2) (h f hf1 (of_decide_eq_true hf3) hne)
  rw [h1, List.filter_cons_of_pos (by simpa using toolFile_read forcing d hname)]
  rfl

/-- Start months in a folder with the names `names`, of which only `s` has start months. -/
def oneFile {α : Type} (names : List (List Char)) (s : List Char) (c : α) : ResFolder α :=
  names.map fun n => (n, if n = s then some c else none)

theorem read_oneFile {α : Type} (forcing : List Char) (names : List (List Char)) (s : List Char) (c : α) :
    startMonthsRead forcing (oneFile names s c) = (names.filter fun n => isRead forcing n ∧ n = s).map fun _ => c := by
  unfold startMonthsRead oneFile
  induction names with
  | nil => rfl
  | cons n ns ih =>
    rw [List.map_cons, List.filter_cons, List.filter_cons]
    by_cases h1 : isRead forcing n
    · by_cases h2 : n = s
      · subst h2
        simp [h1] at ih ⊢; exact ih
      · simp [h1, h2] at ih ⊢; exact ih
    · simp [h1] at ih ⊢; exact ih

theorem write_oneFile {α : Type} (names : List (List Char)) (s t : List Char) (c c' : α) :
    putFile (oneFile names s c) t c' = oneFile (names.filter fun n => n ≠ t) s c ++ [(t, some c')] := by
  unfold putFile oneFile
  rw [List.filter_map]
  rfl

theorem read_append {α : Type} (forcing : List Char) (a : ResFolder α) (t : List Char) (c : α) (h : isRead forcing t) :
    startMonthsRead forcing (a ++ [(t, some c)]) = startMonthsRead forcing a ++ [c] := by
  unfold startMonthsRead
  rw [List.filter_append, List.filterMap_append, List.filter_cons_of_pos (by simpa using h)]
  rfl

/-- C90, files: with the shipped folder for ERA5 the run finds one set of start months before and, from the tool, after. -/
theorem C90_era5 {α : Type} (old new : α) (folder' : ResFolder α)
    (ht : runTool (shippedFolder .era5 old)
      "../static_input/reservoir_regulated_lake/reservoir_routing_era5/watergap_22e_era5_monthly_mean_inflow.nc4".toList new
        = some folder') :
    startMonthsRead "era5".toList (shippedFolder .era5 old) = [old] ∧ startMonthsRead "era5".toList folder' = [new] := by
  have e : shippedFolder .era5 old = oneFile shippedFilesEra5 "watergap_22e_era5_startmonth.nc".toList old := rfl
  have hd : toolDataset "../static_input/reservoir_regulated_lake/reservoir_routing_era5/watergap_22e_era5_monthly_mean_inflow.nc4".toList
      = some "era5".toList := by decide +kernel
  rw [runTool, hd, Option.map_some, Option.some.injEq, e, write_oneFile] at ht
  subst ht
  rw [e, read_append _ _ _ _ (by decide +kernel), read_oneFile, read_oneFile]
  have h1 : (shippedFilesEra5.filter fun n => isRead "era5".toList n ∧ n = "watergap_22e_era5_startmonth.nc".toList)
      = ["watergap_22e_era5_startmonth.nc".toList] := by decide +kernel
  have h2 : ((shippedFilesEra5.filter fun n => n ≠ toolFile "era5".toList).filter fun n => isRead "era5".toList n ∧ n = "watergap_22e_era5_startmonth.nc".toList)
      = [] := by decide +kernel
  rw [h1, h2]
  exact ⟨rfl, rfl⟩

/-- C90 violated, files: the shipped start months for W5E5 are in a file of another name than the tool uses; after
the tool has been run, the run finds two sets of start months, the old and the new. (xarray cannot combine them; the run
ends with the message that file extensions should be netCDF.) -/
theorem C90_violated_w5e5 {α : Type} (old new : α) :
    startMonthsRead "w5e5".toList (shippedFolder .w5e5 old) = [old] ∧
    ∃ folder', runTool (shippedFolder .w5e5 old)
      "../static_input/reservoir_regulated_lake/reservoir_routing_w5e5/watergap_22e_w5e5_monthly_mean_inflow.nc4".toList new
        = some folder' ∧ startMonthsRead "w5e5".toList folder' = [old, new] := by
  have e : shippedFolder .w5e5 old = oneFile shippedFilesW5e5 "watergap_22e_startmonth_w5e5.nc".toList old := rfl
  have hd : toolDataset "../static_input/reservoir_regulated_lake/reservoir_routing_w5e5/watergap_22e_w5e5_monthly_mean_inflow.nc4".toList
      = some "w5e5".toList := by decide +kernel
  have h1 : (shippedFilesW5e5.filter fun n => isRead "w5e5".toList n ∧ n = "watergap_22e_startmonth_w5e5.nc".toList)
      = ["watergap_22e_startmonth_w5e5.nc".toList] := by decide +kernel
  have h2 : ((shippedFilesW5e5.filter fun n => n ≠ toolFile "w5e5".toList).filter fun n => isRead "w5e5".toList n ∧ n = "watergap_22e_startmonth_w5e5.nc".toList)
      = ["watergap_22e_startmonth_w5e5.nc".toList] := by decide +kernel
  refine ⟨?_, _, by rw [runTool, hd, Option.map_some], ?_⟩
  · rw [e, read_oneFile, h1]; rfl
  · rw [e, write_oneFile, read_append _ _ _ _ (by decide +kernel), read_oneFile, h2]; rfl

/-- Hypotheses of the theorems about shipped data: some reservoir has inflow. -/
example : ∃ r < 1267, shippedMeanInflow .era5 r ≠ 0 ∧ HasRes (startRow .era5 r) ∧ startRow .era5 r < shippedSize := by
  refine ⟨1022, by norm_num, fun h => ?_, ?_, ?_⟩
  · have h' := (f32_zero _).mp h
    have : Nat.beq (Nat.mod (Nat.div (startDataEra5.get 1022) (Nat.pow 10 120)) 10000000000) 0 = false := by decide +kernel
    rw [← Bool.not_eq_true, Nat.beq_eq] at this
    exact this h'
  · change Nat.mod (Nat.div (Nat.mod (Nat.div (surfR (Nat.div (startDataEra5.get 1022) (Nat.pow 10 132))) 100000) 100) 2) 2 = 1
    decide +kernel
  · change Nat.div (startDataEra5.get 1022) (Nat.pow 10 132) < shippedSize
    decide +kernel

/-- The hypotheses of `C90_recomputed` hold for a folder with a file of inflows and the tool's own file. -/
example : startMonthsRead "era5".toList
    (putFile [("watergap_22e_era5_mean_inflow.nc4".toList, none), ("watergap_22e_era5_startmonth.nc".toList, some 7)]
      (toolFile "era5".toList) 9) = [9] :=
  C90_recomputed [("watergap_22e_era5_mean_inflow.nc4".toList, none), ("watergap_22e_era5_startmonth.nc".toList, some 7)] _
    "era5".toList "x/watergap_22e_ERA5_monthly_mean_inflow.nc4".toList "era5".toList 9 (by decide +kernel)
    (by decide +kernel) (by decide +kernel) (by rw [runTool, show toolDataset "x/watergap_22e_ERA5_monthly_mean_inflow.nc4".toList = some "era5".toList by decide +kernel]; rfl)

/-- 1.5 in binary32. -/
example : f32 0x3FC00000 = 1.5 := by norm_num [f32]

end WG
