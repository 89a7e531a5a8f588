import Verif.Model.ConfigFile
import Verif.Props.Config

/-! # C73: the configuration files of a calibration -/

namespace WG

/-! ## Specification -/

/-- Two places of the file of which neither lies in the other: different sections, different elements of a section, or key
paths none of which continues the other. -/
def Place.apart : Place → Place → Prop
  | .file p, .file q => ¬ p <+: q ∧ ¬ q <+: p
  | .runtime i p, .runtime j q => i ≠ j ∨ (¬ p <+: q ∧ ¬ q <+: p)
  | .output i p, .output j q => i ≠ j ∨ (¬ p <+: q ∧ ¬ q <+: p)
  | _, _ => True

instance : DecidableRel Place.apart := fun a b => by
  cases a <;> cases b <;> simp only [Place.apart] <;> infer_instance

/-- The places whose value a calibration of a station chooses. -/
def stationPlaces : List Place :=
  [.runtime 2 ["SimulationPeriod", "start"], .runtime 2 ["SimulationPeriod", "end"],
   .runtime 4 ["SimulationExtent", "run_basin"], .runtime 5 ["CalibrateWaterGAP", "run_calib"],
   .runtime 0 ["SimulationOption", "Demand_satisfaction_opts", "neighbouring_cell"],
   .output 1 ["VerticalWaterBalanceStorages", "maximum_soil_moisture"],
   .output 2 ["LateralWaterBalanceFluxes", "streamflow"], .output 2 ["LateralWaterBalanceFluxes", "pot_cell_runoff"],
   .output 2 ["LateralWaterBalanceFluxes", "actual_net_abstr_groundwater"],
   .output 2 ["LateralWaterBalanceFluxes", "actual_net_abstr_surfacewater"],
   .file ["inputDir", "parameter_path"]]

/-- The file has a dictionary at a place. -/
def ConfigFile.dictAt (c : ConfigFile) (q : Place) : Prop := ∃ o, c.get q = some (.obj o)

/-- The dictionaries of the shipped file that hold the settings of a station run. -/
def stationDicts : List Place :=
  [.runtime 2 ["SimulationPeriod"], .runtime 4 ["SimulationExtent"], .runtime 5 ["CalibrateWaterGAP"],
   .output 2 ["LateralWaterBalanceFluxes"], .output 1 ["VerticalWaterBalanceStorages"],
   .runtime 0 ["SimulationOption", "Demand_satisfaction_opts"], .file ["inputDir"]]

/-- The output variables of the shipped file, with the element of `OutputVariable` and its name. -/
def shippedOutputs : List (ℕ × String × String) :=
  (["pot_evap", "net_rad", "leaf_area_index", "canopy_evap", "throughfall", "snow_fall", "snow_melt", "snow_evap",
    "groundwater_recharge_diffuse", "surface_runoff", "snowcover_frac"].map fun k => (0, "VerticalWaterBalanceFluxes", k)) ++
  (["canopy_storage", "snow_water_equiv", "soil_moisture", "maximum_soil_moisture"].map fun k =>
    (1, "VerticalWaterBalanceStorages", k)) ++
  (["consistent_precipitation", "groundwater_discharge", "total_runoff", "pot_cell_runoff", "groundwater_recharge_swb",
    "total_groundwater_recharge", "local_lake_outflow", "local_wetland_outflow", "global_lake_outflow",
    "global_wetland_outflow", "streamflow", "streamflow_from_upstream", "actual_net_abstr_groundwater",
    "actual_net_abstr_surfacewater", "actual_water_consumption", "cell_aet_consuse",
    "unsat_potnetabs_sw_from_demandcell", "returned_demand_from_supplycell", "returned_demand_from_supplycell_nextday",
    "demand_left_excl_returned_nextday", "potnetabs_sw", "get_neighbouring_cells_map", "net_cell_runoff", "river_velocity",
    "land_area_fraction"].map fun k => (2, "LateralWaterBalanceFluxes", k)) ++
  (["groundwater_storage", "local_lake_storage", "local_wetland_storage", "global_lake_storage", "global_wetland_storage",
    "river_storage", "global_reservoir_storage", "total_water_storage"].map fun k => (3, "LateralWaterBalanceStorages", k))

/-! ## Dictionaries -/

theorem find_put_same (e : Entries) (k : String) (v : Json) : (e.put k v).find k = some v := by
  induction e, k, v using Entries.put.induct with
  | case1 k v => simp [Entries.put, Entries.find]
  | case2 w rest k v => simp [Entries.put, Entries.find]
  | case3 key w rest k v h ih => simp [Entries.put, Entries.find, h, ih]

theorem find_put_ne (e : Entries) (k k' : String) (v : Json) (h : k' ≠ k) : (e.put k v).find k' = e.find k' := by
  induction e, k, v using Entries.put.induct with
  | case1 k v => simp [Entries.put, Entries.find, h.symm]
  | case2 w rest k v => simp [Entries.put, Entries.find, h.symm]
  | case3 key w rest k v hk ih =>
    simp only [Entries.put, Entries.find, if_neg hk]
    split_ifs
    · rfl
    · exact ih h

theorem setAt_get (e : Entries) (p : List String) (v : Json) (e' : Entries) (h : e.setAt p v = some e') :
    e'.get p = some v := by
  induction p generalizing e e' with
  | nil => simp [Entries.setAt] at h
  | cons k ks ih =>
    cases ks with
    | nil =>
      simp only [Entries.setAt, Option.some.injEq] at h
      rw [← h]; simp only [Entries.get, find_put_same]
    | cons k' ks =>
      simp only [Entries.setAt] at h
      split at h
      · rename_i o ho
        simp only [Option.map_eq_some_iff] at h
        obtain ⟨o', h1, rfl⟩ := h
        simp only [Entries.get, find_put_same]
        exact ih _ _ h1
      · simp at h

theorem setAt_apart (e : Entries) (p : List String) (v : Json) (e' : Entries) (h : e.setAt p v = some e')
    (q : List String) (h1 : ¬ p <+: q) (h2 : ¬ q <+: p) : e'.get q = e.get q := by
  induction p generalizing e e' q with
  | nil => simp at h1
  | cons k ks ih =>
    cases q with
    | nil => simp at h2
    | cons a q =>
      by_cases hak : a = k
      · subst hak
        rw [List.prefix_cons_inj] at h1 h2
        cases ks with
        | nil => simp at h1
        | cons k' ks =>
          cases q with
          | nil => simp at h2
          | cons b q =>
            simp only [Entries.setAt] at h
            split at h
            · rename_i o ho
              simp only [Option.map_eq_some_iff] at h
              obtain ⟨o', h3, rfl⟩ := h
              simp only [Entries.get, find_put_same, ho]
              exact ih _ _ h3 _ h1 h2
            · simp at h
      · have hf : e'.find a = e.find a := by
          cases ks with
          | nil =>
            simp only [Entries.setAt, Option.some.injEq] at h
            rw [← h, find_put_ne _ _ _ _ hak]
          | cons k' ks =>
            simp only [Entries.setAt] at h
            split at h
            · simp only [Option.map_eq_some_iff] at h
              obtain ⟨o', -, rfl⟩ := h
              rw [find_put_ne _ _ _ _ hak]
            · simp at h
        cases q with
        | nil => simp only [Entries.get, hf]
        | cons b q => simp only [Entries.get, hf]

theorem setAt_dict (e : Entries) (p : List String) (v : Json) (e' : Entries) (h : e.setAt p v = some e')
    (q : List String) (h1 : ¬ p <+: q) (o : Entries) (hq : e.get q = some (.obj o)) : ∃ o', e'.get q = some (.obj o') := by
  by_cases h2 : q <+: p
  · induction p generalizing e e' q o with
    | nil => simp at h1
    | cons k ks ih =>
      cases q with
      | nil => simp [Entries.get] at hq
      | cons a q =>
        obtain ⟨rfl, h2'⟩ := List.cons_prefix_cons.1 h2
        rw [List.prefix_cons_inj] at h1
        cases ks with
        | nil => simp at h1
        | cons k' ks =>
          simp only [Entries.setAt] at h
          split at h
          · rename_i o1 ho
            simp only [Option.map_eq_some_iff] at h
            obtain ⟨o', h3, rfl⟩ := h
            cases q with
            | nil => simp only [Entries.get, find_put_same]; exact ⟨o', rfl⟩
            | cons b q =>
              simp only [Entries.get, find_put_same, ho] at hq ⊢
              exact ih _ _ h3 _ h1 _ hq h2'
          · simp at h
  · exact ⟨o, by rw [setAt_apart e p v e' h q h1 h2, hq]⟩

theorem setAt_exists (e : Entries) (q : List String) (k : String) (v : Json) (o : Entries)
    (hq : e.get q = some (.obj o)) : ∃ e', e.setAt (q ++ [k]) v = some e' := by
  induction q generalizing e with
  | nil => simp [Entries.get] at hq
  | cons a q ih =>
    cases q with
    | nil =>
      simp only [Entries.get] at hq
      exact ⟨_, by simp only [List.cons_append, List.nil_append, Entries.setAt, hq]; rfl⟩
    | cons b q =>
      simp only [Entries.get] at hq
      split at hq
      · rename_i o1 ho
        obtain ⟨e', he⟩ := ih _ hq
        refine ⟨_, by simp only [List.cons_append, Entries.setAt, ho]; rw [List.cons_append] at he; rw [he]; rfl⟩
      · simp at hq

/-! ## The file -/

theorem set_get (c : ConfigFile) (p : Place) (v : Json) (c' : ConfigFile) (h : c.set p v = some c') :
    c'.get p = some v := by
  cases p with
  | file p =>
    simp only [ConfigFile.set, Option.map_eq_some_iff] at h
    obtain ⟨e, he, rfl⟩ := h
    exact setAt_get _ _ _ _ he
  | runtime i p =>
    simp only [ConfigFile.set] at h
    split at h
    · rename_i e hi
      simp only [Option.map_eq_some_iff] at h
      obtain ⟨e', he, rfl⟩ := h
      have hl : i < c.runtime.length := by
        by_contra hn
        rw [List.getElem?_eq_none (by omega)] at hi; simp at hi
      simp only [ConfigFile.get, List.getElem?_set_self hl]
      exact setAt_get _ _ _ _ he
    · simp at h
  | output i p =>
    simp only [ConfigFile.set] at h
    split at h
    · rename_i e hi
      simp only [Option.map_eq_some_iff] at h
      obtain ⟨e', he, rfl⟩ := h
      have hl : i < c.output.length := by
        by_contra hn
        rw [List.getElem?_eq_none (by omega)] at hi; simp at hi
      simp only [ConfigFile.get, List.getElem?_set_self hl]
      exact setAt_get _ _ _ _ he
    · simp at h

/-- Every place of the result is the result of reading the changed or an unchanged dictionary. -/
theorem set_cases (c : ConfigFile) (p : Place) (v : Json) (c' : ConfigFile) (h : c.set p v = some c') (q : Place) :
    c'.get q = c.get q ∨ ∃ (e e' : Entries) (pp qq : List String), e.setAt pp v = some e' ∧ c.get q = e.get qq ∧
      c'.get q = e'.get qq ∧ (q.apart p ↔ ¬ qq <+: pp ∧ ¬ pp <+: qq) ∧
      ((∃ i, q = .runtime i qq ∧ p = .runtime i pp) ∨ (∃ i, q = .output i qq ∧ p = .output i pp) ∨
        (q = .file qq ∧ p = .file pp)) := by
  cases p with
  | file p =>
    simp only [ConfigFile.set, Option.map_eq_some_iff] at h
    obtain ⟨e, he, rfl⟩ := h
    cases q with
    | file q => exact Or.inr ⟨_, _, p, q, he, rfl, rfl, Iff.rfl, by simp⟩
    | runtime i q => exact Or.inl rfl
    | output i q => exact Or.inl rfl
  | runtime i p =>
    simp only [ConfigFile.set] at h
    split at h
    · rename_i e hi
      simp only [Option.map_eq_some_iff] at h
      obtain ⟨e', he, rfl⟩ := h
      have hl : i < c.runtime.length := by
        by_contra hn
        rw [List.getElem?_eq_none (by omega)] at hi; simp at hi
      cases q with
      | file q => exact Or.inl rfl
      | output j q => exact Or.inl rfl
      | runtime j q =>
        by_cases hij : i = j
        · subst hij
          refine Or.inr ⟨e, e', p, q, he, ?_, ?_, ?_, by simp⟩
          · simp only [ConfigFile.get, hi]
          · simp only [ConfigFile.get, List.getElem?_set_self hl]
          · simp [Place.apart]
        · left
          simp only [ConfigFile.get, List.getElem?_set_ne hij]
    · simp at h
  | output i p =>
    simp only [ConfigFile.set] at h
    split at h
    · rename_i e hi
      simp only [Option.map_eq_some_iff] at h
      obtain ⟨e', he, rfl⟩ := h
      have hl : i < c.output.length := by
        by_contra hn
        rw [List.getElem?_eq_none (by omega)] at hi; simp at hi
      cases q with
      | file q => exact Or.inl rfl
      | runtime j q => exact Or.inl rfl
      | output j q =>
        by_cases hij : i = j
        · subst hij
          refine Or.inr ⟨e, e', p, q, he, ?_, ?_, ?_, by simp⟩
          · simp only [ConfigFile.get, hi]
          · simp only [ConfigFile.get, List.getElem?_set_self hl]
          · simp [Place.apart]
        · left
          simp only [ConfigFile.get, List.getElem?_set_ne hij]
    · simp at h

theorem set_apart (c : ConfigFile) (p : Place) (v : Json) (c' : ConfigFile) (h : c.set p v = some c') (q : Place)
    (hq : q.apart p) : c'.get q = c.get q := by
  rcases set_cases c p v c' h q with h1 | ⟨e, e', pp, qq, h1, h2, h3, h4, -⟩
  · exact h1
  · rw [h3, h2]
    exact setAt_apart e pp v e' h1 qq (h4.1 hq).2 (h4.1 hq).1

/-- The key path of a place. -/
def Place.path : Place → List String
  | .file p => p
  | .runtime _ p => p
  | .output _ p => p

theorem set_dict (c : ConfigFile) (p : Place) (v : Json) (c' : ConfigFile) (h : c.set p v = some c') (q : Place)
    (hq : c.dictAt q) (hp : ¬ p.path <+: q.path) : c'.dictAt q := by
  rcases set_cases c p v c' h q with h1 | ⟨e, e', pp, qq, h1, h2, h3, -, h5⟩
  · obtain ⟨o, ho⟩ := hq
    exact ⟨o, by rw [h1, ho]⟩
  · obtain ⟨o, ho⟩ := hq
    obtain ⟨o', ho'⟩ := setAt_dict e pp v e' h1 qq (by
      rcases h5 with ⟨i, rfl, rfl⟩ | ⟨i, rfl, rfl⟩ | ⟨rfl, rfl⟩ <;> exact hp) o (by rw [← h2, ho])
    exact ⟨o', by rw [h3, ho']⟩

/-- A setting in a dictionary of the file can be assigned. -/
theorem set_exists (c : ConfigFile) (q : Place) (hq : c.dictAt q) (k : String) (v : Json) (p : Place)
    (hp : (∃ l, q = .file l ∧ p = .file (l ++ [k])) ∨ (∃ i l, q = .runtime i l ∧ p = .runtime i (l ++ [k])) ∨
      ∃ i l, q = .output i l ∧ p = .output i (l ++ [k])) : ∃ c', c.set p v = some c' := by
  obtain ⟨o, ho⟩ := hq
  rcases hp with ⟨l, rfl, rfl⟩ | ⟨i, l, rfl, rfl⟩ | ⟨i, l, rfl, rfl⟩
  · obtain ⟨e', he⟩ := setAt_exists c.filePath l k v o ho
    exact ⟨_, by simp only [ConfigFile.set, he]; rfl⟩
  · simp only [ConfigFile.get] at ho
    split at ho
    · rename_i e hi
      obtain ⟨e', he⟩ := setAt_exists e l k v o ho
      exact ⟨_, by simp only [ConfigFile.set, hi, he]; rfl⟩
    · simp at ho
  · simp only [ConfigFile.get] at ho
    split at ho
    · rename_i e hi
      obtain ⟨e', he⟩ := setAt_exists e l k v o ho
      exact ⟨_, by simp only [ConfigFile.set, hi, he]; rfl⟩
    · simp at ho

theorem setAll_apart (l : List (Place × Json)) (c c' : ConfigFile) (h : c.setAll l = some c') (q : Place)
    (hq : ∀ a ∈ l, q.apart a.1) : c'.get q = c.get q := by
  induction l generalizing c with
  | nil => simp only [ConfigFile.setAll, Option.some.injEq] at h; rw [h]
  | cons a l ih =>
    simp only [ConfigFile.setAll] at h
    split at h
    · rename_i c1 h1
      rw [ih c1 h fun b hb => hq b (by simp [hb]), set_apart c _ _ c1 h1 q (hq a (by simp))]
    · simp at h

/-- Assignments to places apart from each other all take effect. -/
theorem setAll_get (l : List (Place × Json)) (c c' : ConfigFile) (h : c.setAll l = some c')
    (hl : l.Pairwise fun a b => a.1.apart b.1) : ∀ a ∈ l, c'.get a.1 = some a.2 := by
  induction l generalizing c with
  | nil => simp
  | cons a l ih =>
    simp only [ConfigFile.setAll] at h
    rw [List.pairwise_cons] at hl
    split at h
    · rename_i c1 h1
      intro b hb
      rcases List.mem_cons.1 hb with rfl | hb
      · rw [setAll_apart l c1 c' h _ hl.1]
        exact set_get _ _ _ _ h1
      · exact ih c1 h hl.2 b hb
    · simp at h

/-- `p` is a key in the dictionary at `q`. -/
def Place.child (q : Place) (k : String) : Place :=
  match q with
  | .file p => .file (p ++ [k])
  | .runtime i p => .runtime i (p ++ [k])
  | .output i p => .output i (p ++ [k])

theorem setAll_exists (D : List Place) (l : List (Place × Json))
    (hl : ∀ a ∈ l, ∃ q ∈ D, ∃ k, a.1 = q.child k) (hD : ∀ a ∈ l, ∀ q ∈ D, ¬ a.1.path <+: q.path)
    (c : ConfigFile) (hc : ∀ q ∈ D, c.dictAt q) : ∃ c', c.setAll l = some c' := by
  induction l generalizing c with
  | nil => exact ⟨c, rfl⟩
  | cons a l ih =>
    obtain ⟨q, hqD, k, hk⟩ := hl a (by simp)
    obtain ⟨c1, h1⟩ := set_exists c q (hc q hqD) k a.2 a.1 (by
      rw [hk]; cases q <;> simp [Place.child])
    obtain ⟨c', h2⟩ := ih (fun b hb => hl b (by simp [hb])) (fun b hb => hD b (by simp [hb])) c1
      (fun q' hq' => set_dict c _ _ c1 h1 q' (hc q' hq') (hD a (by simp) q' hq'))
    exact ⟨c', by simp only [ConfigFile.setAll, h1, h2]⟩

/-! ## Step A -/

theorem stepA_update (params : String) (c a : ConfigFile) (h : stepAConfig params c = some a) (q : Place) (k : String)
    (hq : ∀ p, q ≠ .file p) : a.get (q.child k) = (c.get (q.child k)).map (updated k) := by
  rw [stepAConfig] at h
  cases q with
  | file p => exact absurd rfl (hq p)
  | runtime i p =>
    rw [set_apart _ _ _ _ h (Place.child (.runtime i p) k) trivial]
    simp only [Place.child, ConfigFile.get, List.getElem?_map]
    cases c.runtime[i]? with
    | none => rfl
    | some e => exact get_update e p k
  | output i p =>
    rw [set_apart _ _ _ _ h (Place.child (.output i p) k) trivial]
    simp only [Place.child, ConfigFile.get, List.getElem?_map]
    cases c.output[i]? with
    | none => rfl
    | some e => exact get_update e p k

theorem stepA_file (params : String) (c a : ConfigFile) (h : stepAConfig params c = some a) (p : List String)
    (hp : Place.apart (.file p) (.file ["inputDir", "parameter_path"])) : a.get (.file p) = c.get (.file p) :=
  set_apart _ _ _ _ h (.file p) hp

theorem stepA_dict (params : String) (c a : ConfigFile) (h : stepAConfig params c = some a) (q : Place) (k : String)
    (hq : ∀ p, q ≠ .file p) (hd : c.dictAt (q.child k)) : a.dictAt (q.child k) := by
  obtain ⟨o, ho⟩ := hd
  exact ⟨updateConfig o, by rw [stepA_update params c a h q k hq, ho]; rfl⟩

theorem calib_cases (paramsA start fin params : String) (c c' : ConfigFile)
    (h : calibConfig paramsA start fin params c = some c') :
    ∃ a, stepAConfig paramsA c = some a ∧ stationConfig start fin params a = some c' := by
  rw [calibConfig] at h
  split at h
  · exact ⟨_, by assumption, h⟩
  · simp at h

/-! ## The property -/

/-- **C73 (what a run reads).**  Each option of a run is the value at its own place of the file. -/
theorem C73_read (c : ConfigFile) (r : RawOpts) : c.rawOpts = some r ↔
    c.get (.runtime 0 ["SimulationOption", "AntNat_opts", "ant"]) = some (.bool r.ant) ∧
    c.get (.runtime 0 ["SimulationOption", "AntNat_opts", "subtract_use"]) = some (.bool r.subtractUse) ∧
    c.get (.runtime 0 ["SimulationOption", "AntNat_opts", "res_opt"]) = some (.bool r.resOpt) ∧
    c.get (.runtime 0 ["SimulationOption", "Demand_satisfaction_opts", "delayed_use"]) = some (.bool r.delayed) ∧
    c.get (.runtime 0 ["SimulationOption", "Demand_satisfaction_opts", "neighbouring_cell"]) = some (.bool r.neighbour) ∧
    c.get (.runtime 3 ["TimeStep", "daily"]) = some (.bool r.daily) ∧
    (∃ n, c.get (.runtime 2 ["SimulationPeriod", "reservoir_start_year"]) = some (.num n) ∧ n.toNat = r.rs) ∧
    ∃ n, c.get (.runtime 2 ["SimulationPeriod", "reservoir_end_year"]) = some (.num n) ∧ n.toNat = r.re := by
  rw [ConfigFile.rawOpts]
  constructor
  · intro h
    split at h
    · simp only [Option.some.injEq] at h
      subst h
      rename_i g1 g2 g3 g4 g5 g6 g7 g8
      exact ⟨g1, g2, g3, g4, g5, g6, ⟨_, g7, rfl⟩, _, g8, rfl⟩
    · simp at h
  · rintro ⟨g1, g2, g3, g4, g5, g6, ⟨n, g7, e7⟩, m, g8, e8⟩
    rw [g1, g2, g3, g4, g5, g6, g7, g8]
    simp only [e7, e8]

/-- **C73 (step A).**  The file of step A names the parameter file of step A; the rest of its paths are those of the user.
Of the output variables exactly the two abstractions and the soil capacity are written, whatever the user chose; the run is
anthropogenic, with water use, reservoirs, delayed use and neighbouring cells. -/
theorem C73_step_A (paramsA : String) (c a : ConfigFile) (h : stepAConfig paramsA c = some a) :
    a.get (.file ["inputDir", "parameter_path"]) = some (.str paramsA) ∧
    (∀ p, Place.apart (.file p) (.file ["inputDir", "parameter_path"]) → a.get (.file p) = c.get (.file p)) ∧
    (∀ i s k, (i, s, k) ∈ shippedOutputs → ∀ b, c.get (.output i [s, k]) = some (.bool b) →
      a.get (.output i [s, k]) = some (.bool (decide (k = "actual_net_abstr_groundwater" ∨
        k = "actual_net_abstr_surfacewater" ∨ k = "maximum_soil_moisture")))) ∧
    ∀ r, c.rawOpts = some r →
      a.rawOpts = some { r with ant := true, subtractUse := true, resOpt := true, delayed := true, neighbour := true } := by
  refine ⟨set_get _ _ _ _ h, stepA_file _ _ _ h, fun i s k hk b hb => ?_, fun r hr => ?_⟩
  · have u := stepA_update _ _ _ h (.output i [s]) k (by simp)
    simp only [Place.child, List.cons_append, List.nil_append] at u
    rw [u, hb]
    have key : ∀ x ∈ shippedOutputs, (x.2.2 ∈ offKeys ∧ ¬ (x.2.2 = "actual_net_abstr_groundwater" ∨
        x.2.2 = "actual_net_abstr_surfacewater" ∨ x.2.2 = "maximum_soil_moisture")) ∨
        (x.2.2 ∈ onKeys ∧ (x.2.2 = "actual_net_abstr_groundwater" ∨
        x.2.2 = "actual_net_abstr_surfacewater" ∨ x.2.2 = "maximum_soil_moisture")) := by decide +kernel
    rcases key _ hk with ⟨k1, k2⟩ | ⟨k1, k2⟩
    · have hoff := C47_off (.cons k (.bool b) .nil) [] k k1 (.bool b) (by simp [Entries.get, Entries.find]) (by simp)
      rw [get_update] at hoff
      simp only [List.nil_append, Entries.get, Entries.find, if_true, Option.map_some] at hoff
      rw [Option.map_some, hoff]
      simp only [k2, decide_false]
    · have hon := C47_on (.cons k (.bool b) .nil) [] k k1 (.bool b) (by simp [Entries.get, Entries.find]) (by simp)
      rw [get_update] at hon
      simp only [List.nil_append, Entries.get, Entries.find, if_true, Option.map_some] at hon
      rw [Option.map_some, hon]
      simp only [k2, decide_true]
  · obtain ⟨g1, g2, g3, g4, g5, g6, ⟨rs, g7, e7⟩, re, g8, e8⟩ := (C73_read c r).1 hr
    have on : ∀ q k b, (∀ p, q ≠ Place.file p) → k ∈ onKeys → c.get (q.child k) = some (.bool b) →
        a.get (q.child k) = some (.bool true) := by
      intro q k b hq hk hb
      have hon := C47_on (.cons k (.bool b) .nil) [] k hk (.bool b) (by simp [Entries.get, Entries.find]) (by simp)
      rw [get_update] at hon
      simp only [List.nil_append, Entries.get, Entries.find, if_true, Option.map_some] at hon
      rw [stepA_update _ _ _ h q k hq, hb, Option.map_some, hon]
    have kept : ∀ q k v, (∀ p, q ≠ Place.file p) → k ∈ keptKeys → (∀ o, v ≠ .obj o) → c.get (q.child k) = some v →
        a.get (q.child k) = some v := by
      intro q k v hq hk hv hb
      have hkept := C47_kept (.cons k v .nil) [] k hk v (by simp [Entries.get, Entries.find]) hv
      rw [get_update] at hkept
      simp only [List.nil_append, Entries.get, Entries.find, if_true, Option.map_some] at hkept
      rw [stepA_update _ _ _ h q k hq, hb, Option.map_some, hkept]
    refine (C73_read a _).2 ⟨?_, ?_, ?_, ?_, ?_, ?_, ⟨rs, ?_, e7⟩, re, ?_, e8⟩
    · exact on (.runtime 0 ["SimulationOption", "AntNat_opts"]) "ant" _ (by simp) (by decide) g1
    · exact on (.runtime 0 ["SimulationOption", "AntNat_opts"]) "subtract_use" _ (by simp) (by decide) g2
    · exact on (.runtime 0 ["SimulationOption", "AntNat_opts"]) "res_opt" _ (by simp) (by decide) g3
    · exact on (.runtime 0 ["SimulationOption", "Demand_satisfaction_opts"]) "delayed_use" _ (by simp) (by decide) g4
    · exact on (.runtime 0 ["SimulationOption", "Demand_satisfaction_opts"]) "neighbouring_cell" _ (by simp) (by decide) g5
    · exact kept (.runtime 3 ["TimeStep"]) "daily" _ (by simp) (by decide) (by simp) g6
    · exact kept (.runtime 2 ["SimulationPeriod"]) "reservoir_start_year" _ (by simp) (by decide) (by simp) g7
    · exact kept (.runtime 2 ["SimulationPeriod"]) "reservoir_end_year" _ (by simp) (by decide) (by simp) g8

/-- **C73.**  In the configuration file of a station the simulation runs from the first to the last day given, for the
basin, as a calibration run, without neighbouring cells, with the parameter file of the basin, and its outputs are
streamflow and potential runoff but not the abstractions and the soil capacity; every other setting is that of the file
it is made from. -/
theorem C73_station (start fin params : String) (c c' : ConfigFile) (h : stationConfig start fin params c = some c') :
    c'.get (.runtime 2 ["SimulationPeriod", "start"]) = some (.str start) ∧
    c'.get (.runtime 2 ["SimulationPeriod", "end"]) = some (.str fin) ∧
    c'.get (.runtime 4 ["SimulationExtent", "run_basin"]) = some (.bool true) ∧
    c'.get (.runtime 5 ["CalibrateWaterGAP", "run_calib"]) = some (.bool true) ∧
    c'.get (.runtime 0 ["SimulationOption", "Demand_satisfaction_opts", "neighbouring_cell"]) = some (.bool false) ∧
    c'.get (.output 2 ["LateralWaterBalanceFluxes", "streamflow"]) = some (.bool true) ∧
    c'.get (.output 2 ["LateralWaterBalanceFluxes", "pot_cell_runoff"]) = some (.bool true) ∧
    c'.get (.output 2 ["LateralWaterBalanceFluxes", "actual_net_abstr_groundwater"]) = some (.bool false) ∧
    c'.get (.output 2 ["LateralWaterBalanceFluxes", "actual_net_abstr_surfacewater"]) = some (.bool false) ∧
    c'.get (.output 1 ["VerticalWaterBalanceStorages", "maximum_soil_moisture"]) = some (.bool false) ∧
    c'.get (.file ["inputDir", "parameter_path"]) = some (.str params) ∧
    ∀ q, (∀ p ∈ stationPlaces, q.apart p) → c'.get q = c.get q := by
  have hg := setAll_get _ c c' h (by simp [Place.apart])
  simp only [List.forall_mem_cons] at hg
  obtain ⟨h1, h2, h3, h4, h5, h6, h7, h8, h9, h10, h11, -⟩ := hg
  refine ⟨h1, h2, h3, h4, h9, h5, h6, h7, h8, h10, h11, fun q hq => ?_⟩
  simp only [stationPlaces, List.forall_mem_cons] at hq
  obtain ⟨q1, q2, q3, q4, q5, q6, q7, q8, q9, q10, q11, -⟩ := hq
  refine setAll_apart _ c c' h q ?_
  simp only [List.forall_mem_cons]
  exact ⟨q1, q2, q3, q4, q7, q8, q9, q10, q5, q6, q11, by simp⟩

/-- **C73.**  A file that has the dictionaries of these settings, which every run reads, yields a file for every station. -/
theorem C73_made (paramsA start fin params : String) (c : ConfigFile) (hc : ∀ q ∈ stationDicts, c.dictAt q) :
    ∃ c', calibConfig paramsA start fin params c = some c' := by
  simp only [stationDicts, List.forall_mem_cons] at hc
  obtain ⟨d1, d2, d3, d4, d5, d6, d7, -⟩ := hc
  obtain ⟨a, ha⟩ : ∃ a, stepAConfig paramsA c = some a :=
    set_exists { c with output := c.output.map updateConfig, runtime := c.runtime.map updateConfig } (.file ["inputDir"]) d7
      "parameter_path" _ _ (by simp)
  obtain ⟨c', h'⟩ : ∃ c', stationConfig start fin params a = some c' := by
    refine setAll_exists stationDicts _ ?_ (by simp [stationDicts, Place.path]) a ?_
    · simp [stationDicts, Place.child]
    · simp only [stationDicts, List.forall_mem_cons]
      refine ⟨stepA_dict _ _ _ ha (.runtime 2 []) _ (by simp) d1, stepA_dict _ _ _ ha (.runtime 4 []) _ (by simp) d2,
        stepA_dict _ _ _ ha (.runtime 5 []) _ (by simp) d3, stepA_dict _ _ _ ha (.output 2 []) _ (by simp) d4,
        stepA_dict _ _ _ ha (.output 1 []) _ (by simp) d5,
        stepA_dict _ _ _ ha (.runtime 0 ["SimulationOption"]) _ (by simp) d6, ?_, by simp⟩
      exact set_dict _ _ _ _ ha _ d7 (by simp [Place.path])
  exact ⟨c', by rw [calibConfig, ha]; exact h'⟩

/-- **C73.**  Whatever the user chose, a station run is anthropogenic, with water use, reservoirs and delayed use and
without neighbouring cells; time step and reservoir years are those of the user. -/
theorem C73_options (paramsA start fin params : String) (c c' : ConfigFile)
    (h : calibConfig paramsA start fin params c = some c') (r : RawOpts) (hr : c.rawOpts = some r) :
    c'.rawOpts = some { r with ant := true, subtractUse := true, resOpt := true, delayed := true, neighbour := false } := by
  obtain ⟨a, ha, h'⟩ := calib_cases _ _ _ _ _ _ h
  obtain ⟨-, -, -, -, hn, -, -, -, -, -, -, hrest⟩ := C73_station start fin params a c' h'
  have e1 := hrest (.runtime 0 ["SimulationOption", "AntNat_opts", "ant"]) (by decide)
  have e2 := hrest (.runtime 0 ["SimulationOption", "AntNat_opts", "subtract_use"]) (by decide)
  have e3 := hrest (.runtime 0 ["SimulationOption", "AntNat_opts", "res_opt"]) (by decide)
  have e4 := hrest (.runtime 0 ["SimulationOption", "Demand_satisfaction_opts", "delayed_use"]) (by decide)
  have e5 := hrest (.runtime 3 ["TimeStep", "daily"]) (by decide)
  have e6 := hrest (.runtime 2 ["SimulationPeriod", "reservoir_start_year"]) (by decide)
  have e7 := hrest (.runtime 2 ["SimulationPeriod", "reservoir_end_year"]) (by decide)
  rw [ConfigFile.rawOpts] at hr
  split at hr
  · rename_i b1 b2 b3 b4 b5 b6 n1 n2 g1 g2 g3 g4 g5 g6 g7 g8
    simp only [Option.some.injEq] at hr
    subst hr
    have u1 := stepA_update _ _ _ ha (.runtime 0 ["SimulationOption", "AntNat_opts"]) "ant" (by simp)
    have u2 := stepA_update _ _ _ ha (.runtime 0 ["SimulationOption", "AntNat_opts"]) "subtract_use" (by simp)
    have u3 := stepA_update _ _ _ ha (.runtime 0 ["SimulationOption", "AntNat_opts"]) "res_opt" (by simp)
    have u4 := stepA_update _ _ _ ha (.runtime 0 ["SimulationOption", "Demand_satisfaction_opts"]) "delayed_use" (by simp)
    have u5 := stepA_update _ _ _ ha (.runtime 3 ["TimeStep"]) "daily" (by simp)
    have u6 := stepA_update _ _ _ ha (.runtime 2 ["SimulationPeriod"]) "reservoir_start_year" (by simp)
    have u7 := stepA_update _ _ _ ha (.runtime 2 ["SimulationPeriod"]) "reservoir_end_year" (by simp)
    simp only [Place.child, List.cons_append, List.nil_append] at u1 u2 u3 u4 u5 u6 u7
    rw [g1] at u1; rw [g2] at u2; rw [g3] at u3; rw [g4] at u4; rw [g6] at u5; rw [g7] at u6; rw [g8] at u7
    have on : ∀ k ∈ ["ant", "subtract_use", "res_opt", "delayed_use"], ∀ b, rewriteLeaf k (.bool b) = .bool true := by
      intro k hk b
      have key : ∀ k ∈ ["ant", "subtract_use", "res_opt", "delayed_use"],
        (hasSub "save_and_read_states_dir" k || hasSub "start" k || hasSub "end" k ||
        hasSub "reservoir_start_year" k || hasSub "reservoir_end_year" k || hasSub "spinup_years" k ||
        hasSub "daily" k || hasSub "run_basin" k || hasSub "path_to_stations_file" k ||
        hasSub "path_to_observed_discharge" k || hasSub "calib_forcing" k) = false ∧
        (hasSub "ant" k || hasSub "subtract_use" k || hasSub "res_opt" k || hasSub "delayed_use" k ||
        hasSub "actual_net_abstr_" k || hasSub "maximum_soil_moisture" k) = true := by decide +kernel
      obtain ⟨k1, k2⟩ := key k hk
      rw [rewriteLeaf, if_neg (by rw [k1]; simp), if_pos k2]
    have kept : ∀ k ∈ ["daily", "reservoir_start_year", "reservoir_end_year"], ∀ v, rewriteLeaf k v = v := by
      intro k hk v
      have key : ∀ k ∈ ["daily", "reservoir_start_year", "reservoir_end_year"],
        (hasSub "save_and_read_states_dir" k || hasSub "start" k || hasSub "end" k ||
        hasSub "reservoir_start_year" k || hasSub "reservoir_end_year" k || hasSub "spinup_years" k ||
        hasSub "daily" k || hasSub "run_basin" k || hasSub "path_to_stations_file" k ||
        hasSub "path_to_observed_discharge" k || hasSub "calib_forcing" k) = true := by decide +kernel
      rw [rewriteLeaf, if_pos (key k hk)]
    simp only [Option.map_some, updated] at u1 u2 u3 u4 u5 u6 u7
    rw [on _ (by simp)] at u1 u2 u3 u4
    rw [kept _ (by simp)] at u5 u6 u7
    rw [ConfigFile.rawOpts, e1, e2, e3, e4, e5, e6, e7, hn, u1, u2, u3, u4, u5, u6, u7]
  · simp at hr

/-- **C73.**  Whatever the user chose, of the output variables exactly streamflow and potential runoff are written in a
station run. -/
theorem C73_outputs (paramsA start fin params : String) (c c' : ConfigFile)
    (h : calibConfig paramsA start fin params c = some c') (i : ℕ) (s k : String) (hk : (i, s, k) ∈ shippedOutputs)
    (b : Bool) (hb : c.get (.output i [s, k]) = some (.bool b)) :
    c'.get (.output i [s, k]) = some (.bool (decide (k = "streamflow" ∨ k = "pot_cell_runoff"))) := by
  obtain ⟨a, ha, h'⟩ := calib_cases _ _ _ _ _ _ h
  obtain ⟨-, -, -, -, -, o1, o2, o3, o4, o5, -, hrest⟩ := C73_station start fin params a c' h'
  by_cases hp : ∀ p ∈ stationPlaces, (Place.output i [s, k]).apart p
  · rw [hrest _ hp]
    have u := stepA_update _ _ _ ha (.output i [s]) k (by simp)
    simp only [Place.child, List.cons_append, List.nil_append] at u
    rw [u, hb]
    have key : ∀ x ∈ shippedOutputs, (∀ p ∈ stationPlaces, (Place.output x.1 [x.2.1, x.2.2]).apart p) →
        x.2.2 ∈ offKeys ∧ ¬ (x.2.2 = "streamflow" ∨ x.2.2 = "pot_cell_runoff") := by decide +kernel
    obtain ⟨k1, k2⟩ := key _ hk hp
    have hoff := C47_off (.cons k (.bool b) .nil) [] k k1 (.bool b) (by simp [Entries.get, Entries.find]) (by simp)
    rw [get_update] at hoff
    simp only [List.nil_append, Entries.get, Entries.find, if_true, Option.map_some] at hoff
    rw [Option.map_some, hoff]
    simp only [k2, decide_false]
  · have key : ∀ x ∈ shippedOutputs, ¬ (∀ p ∈ stationPlaces, (Place.output x.1 [x.2.1, x.2.2]).apart p) →
        (x = (2, "LateralWaterBalanceFluxes", "streamflow") ∨ x = (2, "LateralWaterBalanceFluxes", "pot_cell_runoff") ∨
        x = (2, "LateralWaterBalanceFluxes", "actual_net_abstr_groundwater") ∨
        x = (2, "LateralWaterBalanceFluxes", "actual_net_abstr_surfacewater") ∨
        x = (1, "VerticalWaterBalanceStorages", "maximum_soil_moisture")) := by decide +kernel
    have := key _ hk hp
    simp only [Prod.mk.injEq] at this
    rcases this with ⟨rfl, rfl, rfl⟩ | ⟨rfl, rfl, rfl⟩ | ⟨rfl, rfl, rfl⟩ | ⟨rfl, rfl, rfl⟩ | ⟨rfl, rfl, rfl⟩
    · rw [o1]; simp
    · rw [o2]; simp
    · rw [o3]; simp
    · rw [o4]; simp
    · rw [o5]; simp

/-- **C73.**  The other inputs, the directory of the results, spin-up, reservoir years, station list, observations and the
name of the forcing are those of the user. -/
theorem C73_kept (paramsA start fin params : String) (c c' : ConfigFile)
    (h : calibConfig paramsA start fin params c = some c') :
    (∀ p, Place.apart (.file p) (.file ["inputDir", "parameter_path"]) → c'.get (.file p) = c.get (.file p)) ∧
    ∀ i s k v, (∀ o, v ≠ .obj o) →
      (i, s, k) ∈ [(1, "RestartOptions", "save_and_read_states_dir"), (2, "SimulationPeriod", "reservoir_start_year"),
        (2, "SimulationPeriod", "reservoir_end_year"), (2, "SimulationPeriod", "spinup_years"), (3, "TimeStep", "daily"),
        (4, "SimulationExtent", "path_to_stations_file"), (5, "CalibrateWaterGAP", "calib_forcing"),
        (5, "CalibrateWaterGAP", "path_to_observed_discharge")] →
      c.get (.runtime i [s, k]) = some v → c'.get (.runtime i [s, k]) = some v := by
  obtain ⟨a, ha, h'⟩ := calib_cases _ _ _ _ _ _ h
  obtain ⟨-, -, -, -, -, -, -, -, -, -, -, hrest⟩ := C73_station start fin params a c' h'
  refine ⟨fun p hp => ?_, fun i s k v hv hm hg => ?_⟩
  · rw [hrest _ ?_, stepA_file _ _ _ ha p hp]
    intro q hq
    simp only [stationPlaces, List.mem_cons, List.not_mem_nil, or_false] at hq
    rcases hq with rfl | rfl | rfl | rfl | rfl | rfl | rfl | rfl | rfl | rfl | rfl <;> trivial
  · have key : ∀ x ∈ [(1, "RestartOptions", "save_and_read_states_dir"), (2, "SimulationPeriod", "reservoir_start_year"),
        (2, "SimulationPeriod", "reservoir_end_year"), (2, "SimulationPeriod", "spinup_years"), (3, "TimeStep", "daily"),
        (4, "SimulationExtent", "path_to_stations_file"), (5, "CalibrateWaterGAP", "calib_forcing"),
        (5, "CalibrateWaterGAP", "path_to_observed_discharge")],
        x.2.2 ∈ keptKeys ∧ ∀ p ∈ stationPlaces, (Place.runtime x.1 [x.2.1, x.2.2]).apart p := by decide +kernel
    obtain ⟨k1, k2⟩ := key _ hm
    rw [hrest _ k2]
    have u := stepA_update _ _ _ ha (.runtime i [s]) k (by simp)
    simp only [Place.child, List.cons_append, List.nil_append] at u
    have hkept := C47_kept (.cons k v .nil) [] k k1 v (by simp [Entries.get, Entries.find]) hv
    rw [get_update] at hkept
    simp only [List.nil_append, Entries.get, Entries.find, if_true, Option.map_some] at hkept
    rw [u, hg, Option.map_some, hkept]

/-- **C73 violated.**  A user who asked for a restart from saved states gets it in every run of the calibration, whatever
year the observations of the station begin in: a calibration run does not start from spin-up. -/
theorem C73_violated_restart (paramsA start fin params : String) (c c' : ConfigFile)
    (h : calibConfig paramsA start fin params c = some c') (k : String)
    (hk : k = "restart" ∨ k = "save_model_states_for_restart") (b : Bool)
    (hb : c.get (.runtime 1 ["RestartOptions", k]) = some (.bool b)) :
    c'.get (.runtime 1 ["RestartOptions", k]) = some (.bool b) := by
  obtain ⟨a, ha, h'⟩ := calib_cases _ _ _ _ _ _ h
  obtain ⟨-, -, -, -, -, -, -, -, -, -, -, hrest⟩ := C73_station start fin params a c' h'
  have u := stepA_update _ _ _ ha (.runtime 1 ["RestartOptions"]) k (by simp)
  simp only [Place.child, List.cons_append, List.nil_append] at u
  have hr := C47_violated_restart (.cons k (.bool b) .nil) [] b k hk (by simp [Entries.get, Entries.find])
  rw [get_update] at hr
  simp only [List.nil_append, Entries.get, Entries.find, if_true, Option.map_some] at hr
  rw [hrest _ (by rcases hk with rfl | rfl <;> decide), u, hb, Option.map_some, hr]

/-! ## Non-vacuity: an excerpt of the shipped file, naturalised and restarting -/

/-- A dictionary of literal entries. -/
def dict : List (String × Json) → Entries
  | [] => .nil
  | (k, v) :: l => .cons k v (dict l)

/-- Excerpt of `/repo/Config_ReWaterGAP.json` with some settings changed. -/
def exFile : ConfigFile where
  filePath := dict [("inputDir", .obj (dict [("climate_forcing", .str "f/"), ("parameter_path", .str "p.nc")])),
    ("outputDir", .str "out/")]
  runtime := [
    dict [("SimulationOption", .obj (dict [
      ("AntNat_opts", .obj (dict [("ant", .bool false), ("subtract_use", .bool false), ("res_opt", .bool true)])),
      ("Demand_satisfaction_opts", .obj (dict [("delayed_use", .bool false), ("neighbouring_cell", .bool true)]))]))],
    dict [("RestartOptions", .obj (dict [("restart", .bool true)]))],
    dict [("SimulationPeriod", .obj (dict [("start", .str "1901-01-01"), ("end", .str "1902-12-31"),
      ("reservoir_start_year", .num 1901), ("reservoir_end_year", .num 2019), ("spinup_years", .num 5)]))],
    dict [("TimeStep", .obj (dict [("daily", .bool true)]))],
    dict [("SimulationExtent", .obj (dict [("run_basin", .bool false)]))],
    dict [("CalibrateWaterGAP", .obj (dict [("run_calib", .bool false)]))]]
  output := [
    dict [("VerticalWaterBalanceFluxes", .obj (dict [("pot_evap", .bool true)]))],
    dict [("VerticalWaterBalanceStorages", .obj (dict [("maximum_soil_moisture", .bool false)]))],
    dict [("LateralWaterBalanceFluxes", .obj (dict [("streamflow", .bool false), ("total_runoff", .bool true)]))]]

theorem exFile_dicts : ∀ q ∈ stationDicts, exFile.dictAt q := by
  intro q hq
  simp only [stationDicts, List.mem_cons, List.not_mem_nil, or_false] at hq
  rcases hq with rfl | rfl | rfl | rfl | rfl | rfl | rfl <;> exact ⟨_, rfl⟩

/-- Step A of the excerpt. -/
example : ∃ a, stepAConfig "a.nc" exFile = some a ∧ a.get (.file ["inputDir", "parameter_path"]) = some (.str "a.nc") ∧
    a.get (.output 1 ["VerticalWaterBalanceStorages", "maximum_soil_moisture"]) = some (.bool true) ∧
    a.rawOpts = some { ant := true, subtractUse := true, resOpt := true, delayed := true, neighbour := true, daily := true, rs := 1901, re := 2019 } := by
  obtain ⟨c', h⟩ := C73_made "a.nc" "1971-01-01" "2000-12-31" "b.nc" exFile exFile_dicts
  obtain ⟨a, ha, -⟩ := calib_cases _ _ _ _ _ _ h
  obtain ⟨h1, -, h3, h4⟩ := C73_step_A _ _ _ ha
  exact ⟨a, ha, h1, h3 1 _ "maximum_soil_moisture" (by decide +kernel) false rfl, h4 _ rfl⟩

/-- The hypotheses of all the theorems are met by the excerpt. -/
example : ∃ c', calibConfig "a.nc" "1971-01-01" "2000-12-31" "b.nc" exFile = some c' ∧
    c'.rawOpts = some { ant := true, subtractUse := true, resOpt := true, delayed := true, neighbour := false, daily := true, rs := 1901, re := 2019 } ∧
    c'.get (.output 2 ["LateralWaterBalanceFluxes", "streamflow"]) = some (.bool true) ∧
    c'.get (.output 0 ["VerticalWaterBalanceFluxes", "pot_evap"]) = some (.bool false) ∧
    c'.get (.runtime 2 ["SimulationPeriod", "start"]) = some (.str "1971-01-01") ∧
    c'.get (.runtime 2 ["SimulationPeriod", "spinup_years"]) = some (.num 5) ∧
    c'.get (.file ["inputDir", "climate_forcing"]) = some (.str "f/") ∧
    c'.get (.runtime 1 ["RestartOptions", "restart"]) = some (.bool true) := by
  obtain ⟨c', h⟩ := C73_made "a.nc" "1971-01-01" "2000-12-31" "b.nc" exFile exFile_dicts
  obtain ⟨a, -, h'⟩ := calib_cases _ _ _ _ _ _ h
  refine ⟨c', h, C73_options _ _ _ _ _ _ h _ rfl, ?_, ?_, (C73_station _ _ _ _ _ h').1,
    (C73_kept _ _ _ _ _ _ h).2 _ _ _ _ (by simp) (by simp) rfl, (C73_kept _ _ _ _ _ _ h).1 _ (by decide),
    C73_violated_restart _ _ _ _ _ _ h _ (Or.inl rfl) true rfl⟩
  · exact C73_outputs _ _ _ _ _ _ h 2 _ "streamflow" (by decide +kernel) false rfl
  · exact C73_outputs _ _ _ _ _ _ h 0 _ "pot_evap" (by decide +kernel) true rfl

end WG
