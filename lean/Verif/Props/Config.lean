import Verif.Model.Config

/-!
# Options of a run (C36) and configuration of calibration step A (C47)
-/

namespace WG

attribute [local irreducible] hasSub

/-! ## C36 -/

/-- **C36.**  Resolving the options stops the program exactly when the time step is not daily or an anthropogenic run
has neither water use nor reservoirs. -/
theorem C36_stops (r : RawOpts) :
    (∃ e, resolveOpts r = .error e) ↔
      (r.daily = false ∨ (r.ant = true ∧ r.subtractUse = false ∧ r.resOpt = false)) := by
  obtain ⟨a, s, o, d, n, dl, rs, re⟩ := r
  cases a <;> cases s <;> cases o <;> cases dl <;> simp [resolveOpts]

/-- **C36.**  In a naturalised run everything human is off, whatever the file says; in an anthropogenic run the
switches are those of the file and at least one of water use and reservoirs is on. -/
theorem C36_consistent (r : RawOpts) (o : Opts) (h : resolveOpts r = .ok o) :
    (r.ant = false → o.ant = false ∧ o.subtractUse = false ∧ o.resOpt = false ∧ o.delayed = false ∧
      o.neighbour = false ∧ o.years = []) ∧
    (r.ant = true → o.ant = true ∧ o.subtractUse = r.subtractUse ∧ o.resOpt = r.resOpt ∧ o.delayed = r.delayed ∧
      o.neighbour = r.neighbour ∧ (o.subtractUse = true ∨ o.resOpt = true)) := by
  obtain ⟨a, s, ro, d, n, dl, rs, re⟩ := r
  cases a <;> cases s <;> cases ro <;> cases dl <;> simp [resolveOpts] at h <;> subst h <;> simp

/-- **C36.**  The reservoir years are exactly the years of the configured range, and none when reservoirs are off. -/
theorem C36_reservoir_years (r : RawOpts) (o : Opts) (h : resolveOpts r = .ok o) (y : ℕ) :
    y ∈ o.years ↔ o.resOpt = true ∧ r.rs ≤ y ∧ y ≤ r.re := by
  obtain ⟨a, s, ro, d, n, dl, rs, re⟩ := r
  cases a <;> cases s <;> cases ro <;> cases dl <;> simp [resolveOpts] at h <;> subst h <;> simp <;> omega

/-- **C36 violated.**  An anthropogenic run without water use keeps the delayed-use and neighbouring-cell switches
although there is nothing to delay. -/
theorem C36_violated_demand_switches :
    ∃ r o, resolveOpts r = .ok o ∧ o.subtractUse = false ∧ o.delayed = true ∧ o.neighbour = true :=
  ⟨⟨true, false, true, true, true, true, 1901, 2019⟩, _, rfl, rfl, rfl, rfl⟩

example : ∃ o, resolveOpts ⟨true, true, true, true, false, true, 1999, 2001⟩ = .ok o ∧ o.years = [1999, 2000, 2001] ∧
    o.delayed = true := ⟨_, rfl, by decide +kernel, rfl⟩
example : ∃ o, resolveOpts ⟨false, true, true, true, true, true, 1999, 2001⟩ = .ok o ∧ o.subtractUse = false ∧
    o.neighbour = false := ⟨_, rfl, rfl, rfl⟩
example : resolveOpts ⟨true, false, false, true, true, true, 1999, 2001⟩ = .error .noVariant := rfl

/-! ## C47 -/

/-- Specification: the entries that must keep their value. -/
def keptKeys : List String :=
  ["start", "end", "reservoir_start_year", "reservoir_end_year", "spinup_years", "daily", "run_basin",
   "path_to_stations_file", "path_to_observed_discharge", "calib_forcing", "save_and_read_states_dir"]

/-- Specification: the switches that must be on. -/
def onKeys : List String :=
  ["ant", "subtract_use", "res_opt", "delayed_use", "neighbouring_cell", "actual_net_abstr_groundwater",
   "actual_net_abstr_surfacewater", "maximum_soil_moisture"]

/-- Specification: the switches of the shipped configuration file that must be off
(/repo/Config_ReWaterGAP.json, without the restart options). -/
def offKeys : List String :=
  ["pot_evap", "net_rad", "leaf_area_index", "canopy_evap", "throughfall", "snow_fall", "snow_melt", "snow_evap",
   "groundwater_recharge_diffuse", "surface_runoff", "snowcover_frac", "canopy_storage", "snow_water_equiv",
   "soil_moisture", "consistent_precipitation", "groundwater_discharge", "total_runoff", "pot_cell_runoff",
   "groundwater_recharge_swb", "total_groundwater_recharge", "local_lake_outflow", "local_wetland_outflow",
   "global_lake_outflow", "global_wetland_outflow", "streamflow", "streamflow_from_upstream",
   "actual_water_consumption", "cell_aet_consuse", "unsat_potnetabs_sw_from_demandcell",
   "returned_demand_from_supplycell", "returned_demand_from_supplycell_nextday",
   "demand_left_excl_returned_nextday", "potnetabs_sw", "get_neighbouring_cells_map", "net_cell_runoff",
   "river_velocity", "land_area_fraction", "groundwater_storage", "local_lake_storage", "local_wetland_storage",
   "global_lake_storage", "global_wetland_storage", "river_storage", "global_reservoir_storage",
   "total_water_storage", "run_calib"]

/-- What an entry becomes. -/
def updated (k : String) : Json → Json
  | .obj o => .obj (updateConfig o)
  | v => rewriteLeaf k v

theorem updated_leaf (k : String) (v : Json) (h : ∀ o, v ≠ .obj o) : updated k v = rewriteLeaf k v := by
  cases v with
  | obj o => exact absurd rfl (h o)
  | _ => rw [updated]; simp

theorem updateConfig_cons (key : String) (v : Json) (rest : Entries) :
    updateConfig (.cons key v rest) = .cons key (updated key v) (updateConfig rest) := by
  cases v <;> rw [updateConfig] <;> first | rfl | simp

theorem find_update (e : Entries) (k : String) : (updateConfig e).find k = (e.find k).map (updated k) := by
  induction e using updateConfig.induct with
  | case1 => simp [updateConfig, Entries.find]
  | case2 key o rest _ ih =>
    rw [updateConfig_cons]
    simp only [Entries.find]
    split_ifs with h
    · rw [h]; rfl
    · exact ih
  | case3 key v rest _ ih =>
    rw [updateConfig_cons]
    simp only [Entries.find]
    split_ifs with h
    · rw [h]; rfl
    · exact ih

theorem rewriteLeaf_obj (k : String) (v : Json) (hv : ∀ o, v ≠ .obj o) (o : Entries) : updated k v ≠ .obj o := by
  rw [updated_leaf k v hv]
  unfold rewriteLeaf
  generalize (hasSub "save_and_read_states_dir" k || _ || _ || _ || _ || _ || _ || _ || _ || _ || _) = a
  generalize (hasSub "ant" k || _ || _ || _ || _ || _) = b
  generalize hasSub "get_neighbouring_cells_map" k = c
  generalize hasSub "neighbouring_cell" k = d
  cases a <;> cases b <;> cases c <;> cases d <;> simp [hv]

/-- What is found at a path after the update, in terms of what was there before. -/
theorem get_update (e : Entries) (p : List String) (k : String) :
    (updateConfig e).get (p ++ [k]) = (e.get (p ++ [k])).map (updated k) := by
  induction p generalizing e with
  | nil => simp only [List.nil_append, Entries.get, find_update]
  | cons q qs ih =>
    obtain ⟨a, l, hl⟩ : ∃ a l, qs ++ [k] = a :: l := by cases qs <;> simp
    rw [List.cons_append, hl]
    simp only [Entries.get, find_update]
    cases hf : e.find q with
    | none => rfl
    | some v =>
      by_cases hv : ∃ o, v = .obj o
      · obtain ⟨o, rfl⟩ := hv
        simp only [Option.map_some, updated]
        rw [← hl]
        exact ih o
      · push Not at hv
        have := rewriteLeaf_obj q v hv
        simp only [Option.map_some]
        cases v <;> first | exact absurd rfl (hv _) | skip
        all_goals
          split
          · rename_i o heq; exact absurd (Option.some.inj heq) (this o)
          · rfl

/-- **C47.**  At any depth of the configuration, the protected entries keep their value, … -/
theorem C47_kept (e : Entries) (p : List String) (k : String) (hk : k ∈ keptKeys) (v : Json)
    (hv : e.get (p ++ [k]) = some v) (hleaf : ∀ o, v ≠ .obj o) :
    (updateConfig e).get (p ++ [k]) = some v := by
  rw [get_update, hv]
  have h1 := updated_leaf k v hleaf
  have key : ∀ k ∈ keptKeys, (hasSub "save_and_read_states_dir" k || hasSub "start" k || hasSub "end" k ||
      hasSub "reservoir_start_year" k || hasSub "reservoir_end_year" k || hasSub "spinup_years" k ||
      hasSub "daily" k || hasSub "run_basin" k || hasSub "path_to_stations_file" k ||
      hasSub "path_to_observed_discharge" k || hasSub "calib_forcing" k) = true := by decide +kernel
  rw [Option.map_some, h1, rewriteLeaf, if_pos (key k hk)]

/-- **C47.**  … the switches calibration needs are true, … -/
theorem C47_on (e : Entries) (p : List String) (k : String) (hk : k ∈ onKeys) (v : Json)
    (hv : e.get (p ++ [k]) = some v) (hleaf : ∀ o, v ≠ .obj o) :
    (updateConfig e).get (p ++ [k]) = some (.bool true) := by
  rw [get_update, hv]
  have h1 := updated_leaf k v hleaf
  have key : ∀ k ∈ onKeys, (hasSub "save_and_read_states_dir" k || hasSub "start" k || hasSub "end" k ||
      hasSub "reservoir_start_year" k || hasSub "reservoir_end_year" k || hasSub "spinup_years" k ||
      hasSub "daily" k || hasSub "run_basin" k || hasSub "path_to_stations_file" k ||
      hasSub "path_to_observed_discharge" k || hasSub "calib_forcing" k) = false ∧
      ((hasSub "ant" k || hasSub "subtract_use" k || hasSub "res_opt" k || hasSub "delayed_use" k ||
      hasSub "actual_net_abstr_" k || hasSub "maximum_soil_moisture" k) = true ∨
      (hasSub "get_neighbouring_cells_map" k = false ∧ hasSub "neighbouring_cell" k = true)) := by decide +kernel
  obtain ⟨k1, k2⟩ := key k hk
  rw [Option.map_some, h1, rewriteLeaf, if_neg (by rw [k1]; simp)]
  rcases k2 with k2 | ⟨k2, k3⟩
  · rw [if_pos k2]
  · split_ifs <;> first | rfl | simp_all

/-- **C47.**  … and every other switch of the configuration file is false. -/
theorem C47_off (e : Entries) (p : List String) (k : String) (hk : k ∈ offKeys) (v : Json)
    (hv : e.get (p ++ [k]) = some v) (hleaf : ∀ o, v ≠ .obj o) :
    (updateConfig e).get (p ++ [k]) = some (.bool false) := by
  rw [get_update, hv]
  have h1 := updated_leaf k v hleaf
  have key : ∀ k ∈ offKeys, (hasSub "save_and_read_states_dir" k || hasSub "start" k || hasSub "end" k ||
      hasSub "reservoir_start_year" k || hasSub "reservoir_end_year" k || hasSub "spinup_years" k ||
      hasSub "daily" k || hasSub "run_basin" k || hasSub "path_to_stations_file" k ||
      hasSub "path_to_observed_discharge" k || hasSub "calib_forcing" k) = false ∧
      (hasSub "ant" k || hasSub "subtract_use" k || hasSub "res_opt" k || hasSub "delayed_use" k ||
      hasSub "actual_net_abstr_" k || hasSub "maximum_soil_moisture" k) = false ∧
      (hasSub "get_neighbouring_cells_map" k = true ∨ hasSub "neighbouring_cell" k = false) := by decide +kernel
  obtain ⟨k1, k2, k3⟩ := key k hk
  rw [Option.map_some, h1, rewriteLeaf, if_neg (by rw [k1]; simp), if_neg (by rw [k2]; simp)]
  rcases k3 with k3 | k3
  · rw [if_pos k3]
  · split_ifs <;> first | rfl | simp_all

/-- **C47.**  No entry appears or disappears: a path leads somewhere after the update exactly when it did before. -/
theorem C47_shape (e : Entries) (p : List String) :
    ((updateConfig e).get p).isSome = (e.get p).isSome := by
  rcases List.eq_nil_or_concat p with rfl | ⟨q, k, rfl⟩
  · rfl
  · rw [List.concat_eq_append, get_update, Option.isSome_map]

/-- The rule for an arbitrary key: kept if it contains one of the protected words. -/
theorem C47_substring_rule (e : Entries) (p : List String) (k : String) (v : Json)
    (hv : e.get (p ++ [k]) = some v) (hleaf : ∀ o, v ≠ .obj o) (w : String) (hw : w ∈ keptKeys)
    (hsub : ∃ a b : List Char, k.toList = a ++ w.toList ++ b) :
    (updateConfig e).get (p ++ [k]) = some v := by
  rw [get_update, hv]
  have h1 := updated_leaf k v hleaf
  have hs : hasSub w k = true := by
    obtain ⟨a, b, hab⟩ := hsub
    simp only [hasSub, decide_eq_true_eq]
    exact ⟨a, b, hab.symm⟩
  rw [Option.map_some, h1, rewriteLeaf, if_pos]
  simp only [keptKeys, List.mem_cons, List.not_mem_nil, or_false] at hw
  rcases hw with rfl | rfl | rfl | rfl | rfl | rfl | rfl | rfl | rfl | rfl | rfl <;> simp [hs]

/-- **C47 violated.**  The restart options are not switched off, because `restart` contains `start`: a configuration
with `restart: true` leaves calibration step A a restarted run. -/
theorem C47_violated_restart (e : Entries) (p : List String) (b : Bool) (k : String)
    (hk : k = "restart" ∨ k = "save_model_states_for_restart") (hv : e.get (p ++ [k]) = some (.bool b)) :
    (updateConfig e).get (p ++ [k]) = some (.bool b) := by
  refine C47_substring_rule e p k (.bool b) hv (by simp) "start" (by simp [keptKeys]) ?_
  rcases hk with rfl | rfl
  · exact ⟨"re".toList, [], by decide⟩
  · exact ⟨"save_model_states_for_re".toList, [], by decide⟩

/-- Non-vacuity: an excerpt of the shipped file. -/
def exConfig : Entries :=
  .cons "SimulationOption" (.obj (.cons "AntNat_opts" (.obj (.cons "ant" (.bool false)
    (.cons "subtract_use" (.bool false) .nil))) .nil))
  (.cons "RestartOptions" (.obj (.cons "restart" (.bool true) .nil))
  (.cons "SimulationPeriod" (.obj (.cons "spinup_years" (.num 5) .nil))
  (.cons "streamflow" (.bool true) .nil)))

example : (updateConfig exConfig).get ["SimulationOption", "AntNat_opts", "ant"] = some (.bool true) :=
  C47_on exConfig ["SimulationOption", "AntNat_opts"] "ant" (by decide +kernel) (.bool false) rfl (by simp)
example : (updateConfig exConfig).get ["SimulationPeriod", "spinup_years"] = some (.num 5) :=
  C47_kept exConfig ["SimulationPeriod"] "spinup_years" (by decide +kernel) (.num 5) rfl (by simp)
example : (updateConfig exConfig).get ["streamflow"] = some (.bool false) :=
  C47_off exConfig [] "streamflow" (by decide +kernel) (.bool true) rfl (by simp)
example : (updateConfig exConfig).get ["RestartOptions", "restart"] = some (.bool true) :=
  C47_violated_restart exConfig ["RestartOptions"] true "restart" (Or.inl rfl) rfl

end WG
