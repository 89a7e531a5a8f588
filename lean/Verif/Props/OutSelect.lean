import Verif.Model.OutSelect
import Verif.Props.Output
import Verif.Props.ConfigFile

/-!
# C74: the selected output variables, and only they, are saved, each with its own values

The specification is the table `outputTable`: for every option of the configuration file the name of the output and
the quantity of the water balances that it stands for.
-/

namespace WG

/-! ## Specification -/

/-- One selectable output: where its option is in the file, the name of the output and the quantity. -/
structure OutRow where
  /-- element of `OutputVariable` -/
  idx : ℕ
  /-- section -/
  sec : String
  /-- option -/
  opt : String
  /-- name of the output -/
  key : String
  /-- the quantity of the model -/
  arr : String
  /-- given per continental instead of land area -/
  perCont : Bool := false
deriving DecidableEq

/-- What the options of the configuration file stand for. -/
def outputTable : List OutRow := [
  ⟨0, "VerticalWaterBalanceFluxes", "pot_evap", "potevap", "total_potential_evap", false⟩,
  ⟨0, "VerticalWaterBalanceFluxes", "net_rad", "netrad", "net_radiation", false⟩,
  ⟨0, "VerticalWaterBalanceFluxes", "leaf_area_index", "lai-total", "leaf_area_index", false⟩,
  ⟨0, "VerticalWaterBalanceFluxes", "canopy_evap", "canopy-evap", "canopy_evap", true⟩,
  ⟨0, "VerticalWaterBalanceFluxes", "throughfall", "throughfall", "throughfall", true⟩,
  ⟨0, "VerticalWaterBalanceFluxes", "snow_fall", "snowfall", "snow_fall", true⟩,
  ⟨0, "VerticalWaterBalanceFluxes", "snow_melt", "snm", "snow_melt", true⟩,
  ⟨0, "VerticalWaterBalanceFluxes", "snow_evap", "snow-evap", "sublimation", true⟩,
  ⟨0, "VerticalWaterBalanceFluxes", "groundwater_recharge_diffuse", "qrd", "groundwater_recharge_from_soil_mm", true⟩,
  ⟨0, "VerticalWaterBalanceFluxes", "surface_runoff", "qs", "surface_runoff", true⟩,
  ⟨0, "VerticalWaterBalanceFluxes", "snowcover_frac", "snowcover-frac", "snowcover_frac", true⟩,
  ⟨1, "VerticalWaterBalanceStorages", "canopy_storage", "canopystor", "canopy_storage", true⟩,
  ⟨1, "VerticalWaterBalanceStorages", "snow_water_equiv", "swe", "snow_water_storage", true⟩,
  ⟨1, "VerticalWaterBalanceStorages", "soil_moisture", "soilmoist", "soil_water_content", true⟩,
  ⟨1, "VerticalWaterBalanceStorages", "maximum_soil_moisture", "smax", "max_soil_water_content", false⟩,
  ⟨2, "LateralWaterBalanceFluxes", "consistent_precipitation", "consistent-precipitation", "consistent_precip", false⟩,
  ⟨2, "LateralWaterBalanceFluxes", "groundwater_discharge", "qg", "groundwater_discharge", false⟩,
  ⟨2, "LateralWaterBalanceFluxes", "total_runoff", "qtot", "total_runoff", false⟩,
  ⟨2, "LateralWaterBalanceFluxes", "pot_cell_runoff", "pot_cell_runoff", "pot_cell_runoff", false⟩,
  ⟨2, "LateralWaterBalanceFluxes", "groundwater_recharge_swb", "qrf", "groundwater_recharge_swb", false⟩,
  ⟨2, "LateralWaterBalanceFluxes", "total_groundwater_recharge", "qr", "total_groundwater_recharge", false⟩,
  ⟨2, "LateralWaterBalanceFluxes", "local_lake_outflow", "locallake-outflow", "loclake_outflow", false⟩,
  ⟨2, "LateralWaterBalanceFluxes", "local_wetland_outflow", "localwetland-outflow", "locwet_outflow", false⟩,
  ⟨2, "LateralWaterBalanceFluxes", "global_lake_outflow", "globallake-outflow", "glolake_outflow", false⟩,
  ⟨2, "LateralWaterBalanceFluxes", "global_wetland_outflow", "globalwetland-outflow", "glowet_outflow", false⟩,
  ⟨2, "LateralWaterBalanceFluxes", "streamflow", "dis", "streamflow", false⟩,
  ⟨2, "LateralWaterBalanceFluxes", "streamflow_from_upstream", "dis-from-upstream", "streamflow_from_upstream", false⟩,
  ⟨2, "LateralWaterBalanceFluxes", "actual_net_abstr_groundwater", "atotusegw", "actual_net_abstraction_gw", false⟩,
  ⟨2, "LateralWaterBalanceFluxes", "actual_net_abstr_surfacewater", "atotusesw", "actual_net_abstraction_sw", false⟩,
  ⟨2, "LateralWaterBalanceFluxes", "actual_water_consumption", "atotuse", "actual_water_consumption", false⟩,
  ⟨2, "LateralWaterBalanceFluxes", "cell_aet_consuse", "evap-total", "cell_aet_consuse", false⟩,
  ⟨2, "LateralWaterBalanceFluxes", "unsat_potnetabs_sw_from_demandcell", "unsat_potnetabs_sw_from_demandcell",
    "unsat_potnetabs_sw_from_demandcell_out", false⟩,
  ⟨2, "LateralWaterBalanceFluxes", "returned_demand_from_supplycell", "returned_demand_from_supplycell",
    "returned_demand_from_supplycell", false⟩,
  ⟨2, "LateralWaterBalanceFluxes", "returned_demand_from_supplycell_nextday", "returned_demand_from_supplycell_nextday",
    "returned_demand_from_supplycell_nextday", false⟩,
  ⟨2, "LateralWaterBalanceFluxes", "demand_left_excl_returned_nextday", "demand_left_excl_returned_nextday",
    "demand_left_excl_returned_nextday", false⟩,
  ⟨2, "LateralWaterBalanceFluxes", "potnetabs_sw", "potnetabs_sw", "potential_net_abstraction_sw", false⟩,
  ⟨2, "LateralWaterBalanceFluxes", "get_neighbouring_cells_map", "get_neighbouring_cells_map",
    "get_neighbouring_cells_map_out", false⟩,
  ⟨2, "LateralWaterBalanceFluxes", "net_cell_runoff", "ncrun", "net_cell_runoff", false⟩,
  ⟨2, "LateralWaterBalanceFluxes", "river_velocity", "river-velocity", "river_velocity", false⟩,
  ⟨2, "LateralWaterBalanceFluxes", "land_area_fraction", "land-area-fraction", "current_landarea_frac", false⟩,
  ⟨3, "LateralWaterBalanceStorages", "groundwater_storage", "groundwstor", "groundwater_storage", false⟩,
  ⟨3, "LateralWaterBalanceStorages", "local_lake_storage", "locallakestor", "loclake_storage", false⟩,
  ⟨3, "LateralWaterBalanceStorages", "local_wetland_storage", "localwetlandstor", "locwet_storage", false⟩,
  ⟨3, "LateralWaterBalanceStorages", "global_lake_storage", "globallakestor", "glolake_storage", false⟩,
  ⟨3, "LateralWaterBalanceStorages", "global_wetland_storage", "globalwetlandstor", "glowet_storage", false⟩,
  ⟨3, "LateralWaterBalanceStorages", "river_storage", "riverstor", "river_storage", false⟩,
  ⟨3, "LateralWaterBalanceStorages", "global_reservoir_storage", "reservoirstor", "glores_storage", false⟩,
  ⟨3, "LateralWaterBalanceStorages", "total_water_storage", "tws", "total_water_storage", false⟩]

/-- The option is set (to anything Python takes for true). -/
def OutRow.selected (w : OutRow) (c : ConfigFile) : Prop :=
  ∃ v, c.get (.output w.idx [w.sec, w.opt]) = some v ∧ v.truthy = true

/-- The dictionary of units a row belongs to. -/
def OutRow.group (w : OutRow) : OutGroup :=
  match w.idx with
  | 0 => .vbFlux
  | 1 => .vbStorage
  | 2 => .lbFlux
  | _ => .lbStorage

/-- The daily value of a row. -/
noncomputable def OutRow.daily (w : OutRow) (r : DayResults) (t : Date) : Option ℝ :=
  (r.arr w.arr t).map fun x => if w.perCont then x * (r.landFrac t / r.contFrac) else x

/-- The four sections are there. -/
def outSections (c : ConfigFile) : Prop :=
  ∀ w ∈ outputTable, ∃ o, c.get (.output w.idx [w.sec]) = some (.obj o)

/-! ## File names -/

theorem split_last (a a' b b' : List Char) (h : a ++ '_' :: b = a' ++ '_' :: b') (hb : '_' ∉ b) (hb' : '_' ∉ b') :
    a = a' ∧ b = b' := by
  rcases List.append_eq_append_iff.1 h with ⟨l, rfl, h2⟩ | ⟨l, rfl, h2⟩
  · cases l with
    | nil => simpa using h2
    | cons x l =>
      simp only [List.cons_append, List.cons.injEq] at h2
      exact absurd (by rw [h2.2]; simp) hb
  · cases l with
    | nil => simp at h2; exact ⟨by simp, h2.symm⟩
    | cons x l =>
      simp only [List.cons_append, List.cons.injEq] at h2
      exact absurd (by rw [h2.2]; simp) hb'

theorem digit_mem (n : ℕ) : digit n ∈ ['0', '1', '2', '3', '4', '5', '6', '7', '8', '9'] := by
  have h : n % 10 < 10 := Nat.mod_lt _ (by norm_num)
  unfold digit
  generalize n % 10 = k at h
  interval_cases k <;> decide

theorem digit_inj {m n : ℕ} (h : digit m = digit n) : m % 10 = n % 10 := by
  have h1 : m % 10 < 10 := Nat.mod_lt _ (by norm_num)
  have h2 : n % 10 < 10 := Nat.mod_lt _ (by norm_num)
  unfold digit at h
  generalize m % 10 = k at h h1
  generalize n % 10 = l at h h2
  interval_cases k <;> interval_cases l <;> first | rfl | (exfalso; revert h; decide)

theorem iso_no_underscore (t : Date) : '_' ∉ isoDate t ++ ".nc".toList := by
  have hd : ∀ n, '_' ≠ digit n := by
    intro n h
    have := digit_mem n
    rw [← h] at this
    revert this; decide
  simp only [isoDate, List.mem_append, List.mem_cons, List.not_mem_nil, or_false, not_or]
  refine ⟨⟨hd _, hd _, hd _, hd _, by decide, hd _, hd _, by decide, hd _, hd _⟩, by decide⟩

/-- Dates whose text identifies them. -/
def Date.plain (t : Date) : Prop := t.y < 10000 ∧ t.m < 100 ∧ t.d < 100

theorem iso_inj (t u : Date) (ht : t.plain) (hu : u.plain) (h : isoDate t = isoDate u) : t = u := by
  simp only [isoDate, List.cons.injEq, and_true] at h
  obtain ⟨a1, a2, a3, a4, -, b1, b2, -, c1, c2⟩ := h
  obtain ⟨h1, h2, h3⟩ := ht
  obtain ⟨k1, k2, k3⟩ := hu
  have := digit_inj a1; have := digit_inj a2; have := digit_inj a3; have := digit_inj a4
  have := digit_inj b1; have := digit_inj b2; have := digit_inj c1; have := digit_inj c2
  obtain ⟨ty, tm, td⟩ := t
  obtain ⟨uy, um, ud⟩ := u
  simp only at *
  simp only [Date.mk.injEq]
  refine ⟨?_, ?_, ?_⟩ <;> omega

theorem outName_inj (path : String) (k l : String) (t u : Date) (ht : t.plain) (hu : u.plain)
    (h : outName path k t = outName path l u) : k = l ∧ (k ≠ "smax" → t = u) := by
  unfold outName at h
  have no : '_' ∉ "smax".toList ++ ".nc".toList := by decide
  split_ifs at h with h1 h2 h2
  · exact ⟨h1.trans h2.symm, fun q => absurd h1 q⟩
  · rw [h1] at h
    have h := List.append_cancel_left h
    rw [h] at no
    exact absurd (by simp) no
  · rw [h2] at h
    have h := List.append_cancel_left h
    rw [← h] at no
    exact absurd (by simp) no
  · have h := List.append_cancel_left h
    obtain ⟨e1, e2⟩ := split_last _ _ _ _ h (iso_no_underscore t) (iso_no_underscore u)
    refine ⟨String.toList_inj.1 e1, fun _ => iso_inj t u ht hu (List.append_cancel_right e2)⟩

example : outName "output/" "dis-from-upstream" ⟨1999, 12, 31⟩ = "output/dis-from-upstream_1999-12-31.nc".toList := by decide
example : outName "output/" "smax" ⟨1999, 12, 31⟩ = "output/smax.nc".toList := by decide

/-! ## Selection -/

theorem row_dict : ∀ w ∈ outputTable, (dayDict w.group).lookup w.key = some ⟨w.arr, w.perCont⟩ := by decide +kernel

theorem row_value (w : OutRow) (hw : w ∈ outputTable) (r : DayResults) (t : Date) :
    r.value w.group w.key t = some (w.daily r t) := by
  simp only [DayResults.value, row_dict w hw, OutRow.daily, perContFrac]

theorem sec_get (c : ConfigFile) (i : ℕ) (s k : String) (o : Entries) (h : c.get (.output i [s]) = some (.obj o)) :
    c.get (.output i [s, k]) = o.find k := by
  simp only [ConfigFile.get] at h ⊢
  cases hi : c.output[i]? with
  | none => rw [hi] at h; simp at h
  | some e =>
    rw [hi] at h
    simp only [Entries.get] at h ⊢
    rw [h]

theorem chosen_iff (e : Entries) (k : String) : e.chosen k = true ↔ ∃ v, e.find k = some v ∧ v.truthy = true := by
  unfold Entries.chosen
  cases e.find k <;> simp

theorem mem_createLoop (sn : List String) (gs gf : OutGroup) (st fl : Entries) (vars : List (String × String)) (g : OutGroup)
    (k : String) : (g, k) ∈ createLoop sn gs gf st fl vars ↔
      ∃ o, (k, o) ∈ vars ∧ ((k ∈ sn ∧ g = gs ∧ st.chosen o = true) ∨ (k ∉ sn ∧ g = gf ∧ fl.chosen o = true)) := by
  simp only [createLoop, List.mem_filterMap, Prod.exists]
  constructor
  · rintro ⟨k', o, hm, h⟩
    split_ifs at h with h1 h2 h2
    · simp only [Option.some.injEq, Prod.mk.injEq] at h
      obtain ⟨rfl, rfl⟩ := h
      exact ⟨o, hm, .inl ⟨h1, rfl, h2⟩⟩
    · simp only [Option.some.injEq, Prod.mk.injEq] at h
      obtain ⟨rfl, rfl⟩ := h
      exact ⟨o, hm, .inr ⟨h1, rfl, h2⟩⟩
  · rintro ⟨o, hm, ⟨h1, rfl, h2⟩ | ⟨h1, rfl, h2⟩⟩
    · exact ⟨k, o, hm, by simp [h1, h2]⟩
    · exact ⟨k, o, hm, by simp [h1, h2]⟩

theorem createLoop_keys (sn : List String) (gs gf : OutGroup) (st fl : Entries) (vars : List (String × String)) :
    ((createLoop sn gs gf st fl vars).map Prod.snd).Sublist (vars.map Prod.fst) := by
  unfold createLoop
  induction vars with
  | nil => simp
  | cons v l ih =>
    rw [List.filterMap_cons]
    split
    · simp only [List.map_cons]; exact ih.cons _
    · rename_i b hb
      simp only [List.map_cons]
      have : b.2 = v.1 := by
        split_ifs at hb <;> (simp only [Option.some.injEq] at hb; rw [← hb])
      rw [this]
      exact ih.cons_cons _

theorem row_vb : ∀ v ∈ vbOutputVars, ∃ w ∈ outputTable, w.key = v.1 ∧ w.opt = v.2 ∧
    ((v.1 ∈ vbStorageNames ∧ w.idx = 1 ∧ w.sec = "VerticalWaterBalanceStorages") ∨
     (v.1 ∉ vbStorageNames ∧ w.idx = 0 ∧ w.sec = "VerticalWaterBalanceFluxes")) := by decide +kernel

theorem row_lb : ∀ v ∈ lbOutputVars, ∃ w ∈ outputTable, w.key = v.1 ∧ w.opt = v.2 ∧
    ((v.1 ∈ lbStorageNames ∧ w.idx = 3 ∧ w.sec = "LateralWaterBalanceStorages") ∨
     (v.1 ∉ lbStorageNames ∧ w.idx = 2 ∧ w.sec = "LateralWaterBalanceFluxes")) := by decide +kernel

theorem row_cases : ∀ w ∈ outputTable,
    (w.idx = 0 ∧ w.sec = "VerticalWaterBalanceFluxes" ∧ (w.key, w.opt) ∈ vbOutputVars ∧ w.key ∉ vbStorageNames) ∨
    (w.idx = 1 ∧ w.sec = "VerticalWaterBalanceStorages" ∧ (w.key, w.opt) ∈ vbOutputVars ∧ w.key ∈ vbStorageNames) ∨
    (w.idx = 2 ∧ w.sec = "LateralWaterBalanceFluxes" ∧ (w.key, w.opt) ∈ lbOutputVars ∧ w.key ∉ lbStorageNames) ∨
    (w.idx = 3 ∧ w.sec = "LateralWaterBalanceStorages" ∧ (w.key, w.opt) ∈ lbOutputVars ∧ w.key ∈ lbStorageNames) := by
  decide +kernel

theorem keys_nodup : (vbOutputVars.map Prod.fst ++ lbOutputVars.map Prod.fst).Nodup := by decide +kernel

theorem create_some (c : ConfigFile) (ks : List (OutGroup × String)) (h : createVars c = some ks) :
    ∃ vf vs lf ls, c.get (.output 0 ["VerticalWaterBalanceFluxes"]) = some (.obj vf) ∧
      c.get (.output 1 ["VerticalWaterBalanceStorages"]) = some (.obj vs) ∧
      c.get (.output 2 ["LateralWaterBalanceFluxes"]) = some (.obj lf) ∧
      c.get (.output 3 ["LateralWaterBalanceStorages"]) = some (.obj ls) ∧
      ks = createLoop vbStorageNames .vbStorage .vbFlux vs vf vbOutputVars ++
        createLoop lbStorageNames .lbStorage .lbFlux ls lf lbOutputVars := by
  unfold createVars at h
  split at h
  · rename_i vf vs lf ls h1 h2 h3 h4
    simp only [Option.some.injEq] at h
    exact ⟨vf, vs, lf, ls, h1, h2, h3, h4, h.symm⟩
  · simp at h

/-- **C74.**  The output variables can be created exactly if the four sections are in the configuration file; then a variable
is created if and only if its option is set in its section, and each once. -/
theorem C74_selected (c : ConfigFile) :
    (createVars c ≠ none ↔ outSections c) ∧
    ∀ ks, createVars c = some ks → (ks.map Prod.snd).Nodup ∧
      ∀ g k, (g, k) ∈ ks ↔ ∃ w ∈ outputTable, w.group = g ∧ w.key = k ∧ w.selected c := by
  constructor
  · constructor
    · intro h w hw
      obtain ⟨ks, hks⟩ := Option.ne_none_iff_exists'.1 h
      obtain ⟨vf, vs, lf, ls, h1, h2, h3, h4, -⟩ := create_some c ks hks
      rcases row_cases w hw with ⟨e1, e2, -⟩ | ⟨e1, e2, -⟩ | ⟨e1, e2, -⟩ | ⟨e1, e2, -⟩ <;> rw [e1, e2]
      exacts [⟨_, h1⟩, ⟨_, h2⟩, ⟨_, h3⟩, ⟨_, h4⟩]
    · intro h
      obtain ⟨vf, h1⟩ := h ⟨0, "VerticalWaterBalanceFluxes", "pot_evap", "potevap", "total_potential_evap", false⟩
        (by decide +kernel)
      obtain ⟨vs, h2⟩ := h ⟨1, "VerticalWaterBalanceStorages", "canopy_storage", "canopystor", "canopy_storage", true⟩
        (by decide +kernel)
      obtain ⟨lf, h3⟩ := h ⟨2, "LateralWaterBalanceFluxes", "streamflow", "dis", "streamflow", false⟩ (by decide +kernel)
      obtain ⟨ls, h4⟩ := h ⟨3, "LateralWaterBalanceStorages", "total_water_storage", "tws", "total_water_storage", false⟩
        (by decide +kernel)
      simp only at h1 h2 h3 h4
      simp [createVars, outSection, h1, h2, h3, h4]
  · intro ks hks
    obtain ⟨vf, vs, lf, ls, h1, h2, h3, h4, rfl⟩ := create_some c ks hks
    constructor
    · rw [List.map_append]
      exact List.Nodup.sublist ((createLoop_keys ..).append (createLoop_keys ..)) keys_nodup
    · intro g k
      rw [List.mem_append, mem_createLoop, mem_createLoop]
      constructor
      · rintro (⟨o, hm, h⟩ | ⟨o, hm, h⟩)
        · obtain ⟨w, hw, e1, e2, h'⟩ := row_vb _ hm
          simp only at e1 e2 h'
          rcases h with ⟨m, rfl, hc⟩ | ⟨m, rfl, hc⟩
          · rcases h' with ⟨m', i, sc⟩ | ⟨m', -⟩
            · refine ⟨w, hw, by simp [OutRow.group, i], e1, ?_⟩
              unfold OutRow.selected
              rw [i, sc, sec_get c _ _ _ _ h2, e2]
              exact (chosen_iff _ _).1 hc
            · exact absurd m m'
          · rcases h' with ⟨m', -⟩ | ⟨m', i, sc⟩
            · exact absurd m' m
            · refine ⟨w, hw, by simp [OutRow.group, i], e1, ?_⟩
              unfold OutRow.selected
              rw [i, sc, sec_get c _ _ _ _ h1, e2]
              exact (chosen_iff _ _).1 hc
        · obtain ⟨w, hw, e1, e2, h'⟩ := row_lb _ hm
          simp only at e1 e2 h'
          rcases h with ⟨m, rfl, hc⟩ | ⟨m, rfl, hc⟩
          · rcases h' with ⟨m', i, sc⟩ | ⟨m', -⟩
            · refine ⟨w, hw, by simp [OutRow.group, i], e1, ?_⟩
              unfold OutRow.selected
              rw [i, sc, sec_get c _ _ _ _ h4, e2]
              exact (chosen_iff _ _).1 hc
            · exact absurd m m'
          · rcases h' with ⟨m', -⟩ | ⟨m', i, sc⟩
            · exact absurd m' m
            · refine ⟨w, hw, by simp [OutRow.group, i], e1, ?_⟩
              unfold OutRow.selected
              rw [i, sc, sec_get c _ _ _ _ h3, e2]
              exact (chosen_iff _ _).1 hc
      · rintro ⟨w, hw, rfl, rfl, hs⟩
        unfold OutRow.selected at hs
        rcases row_cases w hw with ⟨e1, e2, m, n⟩ | ⟨e1, e2, m, n⟩ | ⟨e1, e2, m, n⟩ | ⟨e1, e2, m, n⟩
        · rw [e1, e2, sec_get c _ _ _ _ h1, ← chosen_iff] at hs
          exact .inl ⟨_, m, .inr ⟨n, by simp [OutRow.group, e1], hs⟩⟩
        · rw [e1, e2, sec_get c _ _ _ _ h2, ← chosen_iff] at hs
          exact .inl ⟨_, m, .inl ⟨n, by simp [OutRow.group, e1], hs⟩⟩
        · rw [e1, e2, sec_get c _ _ _ _ h3, ← chosen_iff] at hs
          exact .inr ⟨_, m, .inr ⟨n, by simp [OutRow.group, e1], hs⟩⟩
        · rw [e1, e2, sec_get c _ _ _ _ h4, ← chosen_iff] at hs
          exact .inr ⟨_, m, .inl ⟨n, by simp [OutRow.group, e1], hs⟩⟩

/-- Every option of the shipped configuration file is in the table, and only those. -/
theorem C74_options : ∀ x, x ∈ shippedOutputs ↔ ∃ w ∈ outputTable, x = (w.idx, w.sec, w.opt) := by
  have h1 : ∀ x ∈ shippedOutputs, ∃ w ∈ outputTable, x = (w.idx, w.sec, w.opt) := by decide +kernel
  have h2 : ∀ w ∈ outputTable, (w.idx, w.sec, w.opt) ∈ shippedOutputs := by decide +kernel
  exact fun x => ⟨h1 x, fun ⟨w, hw, e⟩ => e ▸ h2 w hw⟩

/-! ## Saving -/

theorem save_other (path : String) (t : Date) (vs : List Created) (fs : Files) (n : List Char)
    (h : ∀ c ∈ vs, n ≠ outName path c.key t) : saveAll path t vs fs n = fs n := by
  unfold saveAll
  induction vs generalizing fs with
  | nil => rfl
  | cons a l ih =>
    rw [List.foldl_cons, ih _ fun c hc => h c (List.mem_cons_of_mem _ hc)]
    exact if_neg (h a (by simp))

theorem save_mem (path : String) (t : Date) (ht : t.plain) (vs : List Created) (hn : (vs.map Created.key).Nodup) (fs : Files)
    (c : Created) (hc : c ∈ vs) : saveAll path t vs fs (outName path c.key t) = some c.data := by
  induction vs generalizing fs with
  | nil => simp at hc
  | cons a l ih =>
    simp only [List.map_cons, List.nodup_cons] at hn
    have e : saveAll path t (a :: l) fs = saveAll path t l (fun n => if n = outName path a.key t then some a.data else fs n) := rfl
    rw [e]
    rcases List.mem_cons.1 hc with rfl | hc
    · rw [save_other]
      · simp
      · intro b hb hname
        have := (outName_inj path _ _ t t ht ht hname).1
        exact hn.1 (this ▸ List.mem_map_of_mem hb)
    · exact ih hn.2 _ hc

/-! ## A whole run -/

/-- The value of `smax`, now and in its file, over a trace. -/
def smaxStep (x : Date → Option ℝ) (s : Option ℝ × Option (Option ℝ)) : Event → Option ℝ × Option (Option ℝ)
  | .write t => (if t.m = 1 ∧ t.d = 1 then x t else s.1, s.2)
  | .flush _ => (s.1, some s.1)
  | _ => s

theorem writeAll_map (grid : List Date) (r : DayResults) (t : Date) (vs : List Created)
    (val : Created → Option ℝ) (hv : ∀ c ∈ vs, r.value c.group c.key t = some (val c))
    (d : Created → OutData) (hd : ∀ c ∈ vs, c.data.write grid t (val c) = some (d c)) :
    writeAll grid r t vs = some (vs.map fun c => { c with data := d c }) := by
  induction vs with
  | nil => rfl
  | cons a l ih =>
    have h1 := hv a (by simp)
    have h2 := hd a (by simp)
    have h3 := ih (fun c hc => hv c (List.mem_cons_of_mem _ hc)) (fun c hc => hd c (List.mem_cons_of_mem _ hc))
    simp only [writeAll, h1, h2, h3, List.map_cons]

/-- What holds of the output after a trace: `x k` are the daily values and `conv k` is the conversion of the variable. -/
structure OutInv (grid : List Date) (path : String) (ks : List (OutGroup × String)) (x : String → Date → Option ℝ)
    (conv : String → ℝ → ℝ) (files0 : Files) (tr : List Event) (o : OutAll) : Prop where
  names : (o.vars.map fun c => (c.group, c.key)) = ks
  axis : ∀ c ∈ o.vars, c.key ≠ "smax" → ∃ v fs, c.data = .axis v ∧ outRun grid (conv c.key) (x c.key) tr = some (v, fs) ∧
    ∀ f ∈ fs, Event.flush f.label ∈ tr ∧ o.files (outName path c.key f.label) = some (.axis f.data)
  const : ∀ c ∈ o.vars, c.key = "smax" → c.data = .const (tr.foldl (smaxStep (x "smax")) (some 0, none)).1 ∧
    ∀ y, (tr.foldl (smaxStep (x "smax")) (some 0, none)).2 = some y → ∀ t, o.files (outName path "smax" t) = some (.const y)
  other : ∀ n, (∀ k ∈ ks, ∀ t, Event.flush t ∈ tr → n ≠ outName path k.2 t) → o.files n = files0 n

theorem outName_smax (path : String) (t u : Date) : outName path "smax" t = outName path "smax" u := by
  simp only [outName, if_true]

theorem outRun_snoc (grid : List Date) (conv : ℝ → ℝ) (x : Date → Option ℝ) (tr : List Event) (e : Event) :
    outRun grid conv x (tr ++ [e]) = outStep grid conv x (outRun grid conv x tr) e := by
  simp only [outRun, List.foldl_append, List.foldl_cons, List.foldl_nil]

theorem outAll_inv (grid : List Date) (path : String) (area cf : ℝ) (r : DayResults) (files0 : Files)
    (ks : List (OutGroup × String)) (hk : (ks.map Prod.snd).Nodup)
    (x : String → Date → Option ℝ) (conv : String → ℝ → ℝ)
    (hx : ∀ k ∈ ks, ∀ t, r.value k.1 k.2 t = some (x k.2 t))
    (hconv : ∀ k ∈ ks, baseUnits k.1 k.2 area cf = conv k.2) (hsm : conv "smax" = id)
    (tr : List Event) (hflush : (flushed tr).Nodup)
    (hplain : ∀ t, Event.flush t ∈ tr → t.plain)
    (hrun : ∀ k ∈ ks, k.2 ≠ "smax" → outRun grid (conv k.2) (x k.2) tr ≠ none) :
    ∃ o, tr.foldl (outAllStep grid path area cf r)
        (some { vars := ks.map fun k => ⟨k.1, k.2, OutData.init grid k.2⟩, files := files0 }) = some o ∧
      OutInv grid path ks x conv files0 tr o := by
  induction tr using List.reverseRecOn with
  | nil =>
    refine ⟨_, rfl, ?_, ?_, ?_, ?_⟩
    · simp [Function.comp_def]
    · intro c hc hne
      obtain ⟨k, hk, rfl⟩ := List.mem_map.1 hc
      simp only at hne
      exact ⟨_, [], by simp [OutData.init, hne], rfl, by simp⟩
    · intro c hc he
      obtain ⟨k, hk, rfl⟩ := List.mem_map.1 hc
      simp only at he
      exact ⟨by simp [OutData.init, he], by simp⟩
    · intro n _; rfl
  | append_singleton tr e ih =>
    obtain ⟨o, ho, inv⟩ := ih (by simp only [flushed, List.filterMap_append] at hflush; exact hflush.of_append_left)
      (fun t ht => hplain t (List.mem_append_left _ ht))
      (fun k hk hne h => hrun k hk hne (by rw [outRun_snoc, h]; cases e <;> rfl))
    rw [List.foldl_append, ho, List.foldl_cons, List.foldl_nil]
    have mem : ∀ c ∈ o.vars, (c.group, c.key) ∈ ks := fun c hc => by
      rw [← inv.names]; exact List.mem_map_of_mem (f := fun c : Created => (c.group, c.key)) hc
    have keys : o.vars.map Created.key = ks.map Prod.snd := by rw [← inv.names, List.map_map]; rfl
    have keep : ∀ e, (∀ t, e ≠ Event.write t) → (∀ t, e ≠ Event.flush t) →
        OutInv grid path ks x conv files0 (tr ++ [e]) o := by
      intro e h1 h2
      have hs : ∀ s, outStep grid (conv s) (x s) (outRun grid (conv s) (x s) tr) e = outRun grid (conv s) (x s) tr := by
        intro s
        cases e with
        | write t => exact absurd rfl (h1 t)
        | flush t => exact absurd rfl (h2 t)
        | sim t => cases outRun grid (conv s) (x s) tr <;> rfl
        | save t => cases outRun grid (conv s) (x s) tr <;> rfl
      have hsm' : ∀ s, smaxStep (x "smax") s e = s := by
        intro s
        cases e with
        | write t => exact absurd rfl (h1 t)
        | flush t => exact absurd rfl (h2 t)
        | sim t => rfl
        | save t => rfl
      refine ⟨inv.names, ?_, ?_, ?_⟩
      · intro c hc hne
        obtain ⟨v, fs, a, b, d⟩ := inv.axis c hc hne
        refine ⟨v, fs, a, ?_, fun f hf => ⟨List.mem_append_left _ (d f hf).1, (d f hf).2⟩⟩
        rw [outRun_snoc, hs, b]
      · intro c hc he
        rw [List.foldl_append, List.foldl_cons, List.foldl_nil, hsm']
        exact inv.const c hc he
      · intro n hn
        exact inv.other n fun k hk t ht => hn k hk t (List.mem_append_left _ ht)
    cases e with
    | sim t => exact ⟨o, rfl, keep _ (by simp) (by simp)⟩
    | save t => exact ⟨o, rfl, keep _ (by simp) (by simp)⟩
    | write t =>
      have hd : ∀ c ∈ o.vars, ∃ d, c.data.write grid t (x c.key t) = some d := by
        intro c hc
        by_cases hne : c.key = "smax"
        · rw [(inv.const c hc hne).1]; exact ⟨_, rfl⟩
        · obtain ⟨v, fs, a, b, -⟩ := inv.axis c hc hne
          have := hrun _ (mem c hc) hne
          rw [outRun_snoc, b] at this
          simp only [outStep] at this
          rw [a]
          simp only [OutData.write]
          cases hw : v.write grid t (x c.key t) with
          | none => rw [hw] at this; exact absurd rfl this
          | some v' => exact ⟨_, rfl⟩
      have : Nonempty OutData := ⟨.const none⟩
      choose! d hd using hd
      have hw := writeAll_map grid r t o.vars (fun c => x c.key t) (fun c hc => hx _ (mem c hc) t) d hd
      refine ⟨{ o with vars := o.vars.map fun c => { c with data := d c } }, by simp only [outAllStep, hw, Option.map_some], ?_⟩
      refine ⟨?_, ?_, ?_, ?_⟩
      · rw [List.map_map, ← inv.names]; rfl
      · intro c hc hne
        obtain ⟨c0, hc0, rfl⟩ := List.mem_map.1 hc
        simp only at hne ⊢
        obtain ⟨v, fs, a, b, f⟩ := inv.axis c0 hc0 hne
        have hdc := hd c0 hc0
        rw [a] at hdc
        simp only [OutData.write, Option.map_eq_some_iff] at hdc
        obtain ⟨v', h1, h2⟩ := hdc
        refine ⟨v', fs, h2.symm, ?_, fun g hg => ⟨List.mem_append_left _ (f g hg).1, (f g hg).2⟩⟩
        rw [outRun_snoc, b]
        simp only [outStep, h1, Option.map_some]
      · intro c hc he
        obtain ⟨c0, hc0, rfl⟩ := List.mem_map.1 hc
        simp only at he ⊢
        obtain ⟨a, b⟩ := inv.const c0 hc0 he
        have hdc := hd c0 hc0
        rw [a] at hdc
        simp only [OutData.write, Option.some.injEq] at hdc
        rw [List.foldl_append, List.foldl_cons, List.foldl_nil]
        simp only [smaxStep]
        refine ⟨?_, b⟩
        rw [← hdc, he]
      · intro n hn
        exact inv.other n fun k hk t ht => hn k hk t (List.mem_append_left _ ht)
    | flush t =>
      have hpt : t.plain := hplain t (by simp)
      have hnew : ∀ u, Event.flush u ∈ tr → u ≠ t := by
        rintro u hu rfl
        simp only [flushed, List.filterMap_append, List.nodup_append] at hflush
        exact hflush.2.2 u (List.mem_filterMap.2 ⟨_, hu, rfl⟩) u (by simp) rfl
      have hkeys : ((convertAll area cf o.vars).map Created.key).Nodup := by
        unfold convertAll
        rw [List.map_map]
        have : (Created.key ∘ fun c : Created => { c with data := c.data.convert (baseUnits c.group c.key area cf) }) =
          Created.key := rfl
        rw [this, keys]; exact hk
      refine ⟨_, rfl, ?_, ?_, ?_, ?_⟩
      · simp only [convertAll]
        rw [List.map_map, ← inv.names]; rfl
      · intro c hc hne
        have hsv := save_mem path t hpt _ hkeys o.files c hc
        simp only [convertAll] at hc
        obtain ⟨c0, hc0, rfl⟩ := List.mem_map.1 hc
        simp only at hne hsv ⊢
        obtain ⟨v, fs, a, b, f⟩ := inv.axis c0 hc0 hne
        have hcv := hconv _ (mem c0 hc0)
        simp only at hcv
        rw [hcv, a] at hsv ⊢
        simp only [OutData.convert] at hsv ⊢
        refine ⟨_, _, rfl, by rw [outRun_snoc, b]; simp only [outStep]; rfl, ?_⟩
        intro g hg
        rcases List.mem_append.1 hg with hg | hg
        · obtain ⟨g1, g2⟩ := f g hg
          refine ⟨List.mem_append_left _ g1, ?_⟩
          rw [save_other, g2]
          intro c' hc' hname
          simp only [convertAll] at hc'
          obtain ⟨c', hc', rfl⟩ := List.mem_map.1 hc'
          simp only at hname
          exact hnew _ g1 ((outName_inj path _ _ _ _ (hplain _ (List.mem_append_left _ g1)) hpt hname).2 hne)
        · rw [List.mem_singleton] at hg
          subst hg
          exact ⟨by simp, hsv⟩
      · intro c hc he
        have hsv := save_mem path t hpt _ hkeys o.files c hc
        simp only [convertAll] at hc
        obtain ⟨c0, hc0, rfl⟩ := List.mem_map.1 hc
        simp only at he hsv ⊢
        obtain ⟨a, b⟩ := inv.const c0 hc0 he
        have hcv := hconv _ (mem c0 hc0)
        simp only at hcv
        rw [hcv, a, he, hsm] at hsv ⊢
        simp only [OutData.convert, Option.map_id, id_eq] at hsv ⊢
        rw [List.foldl_append, List.foldl_cons, List.foldl_nil]
        simp only [smaxStep, true_and, Option.some.injEq, forall_eq']
        intro u
        rw [outName_smax path u t]; exact hsv
      · intro n hn
        simp only
        rw [save_other]
        · exact inv.other n fun k hk t ht => hn k hk t (List.mem_append_left _ ht)
        · intro c hc
          simp only [convertAll] at hc
          obtain ⟨c0, hc0, rfl⟩ := List.mem_map.1 hc
          exact hn _ (mem c0 hc0) t (by simp)


theorem smax_days (c : RunCfg) (h : GoodPeriod c) (x : Date → Option ℝ) (n : ℕ) (hn : c.start.ord + n ≤ c.fin.ord) :
    let t := Date.next^[n] c.start
    let cur := if c.start.ord ≤ (⟨t.y, 1, 1⟩ : Date).ord then x ⟨t.y, 1, 1⟩ else some 0
    let s := ((daysFrom c.start (n + 1)).flatMap (dayEvents c 0)).foldl (smaxStep x) (some 0, none)
    s.1 = cur ∧ (t = c.fin → s.2 = some cur) := by
  have day : ∀ (t : Date) (s : Option ℝ × Option (Option ℝ)),
      (((dayEvents c 0 t).foldl (smaxStep x) s).1 = if t.m = 1 ∧ t.d = 1 then x t else s.1) ∧
      (t = c.fin → ((dayEvents c 0 t).foldl (smaxStep x) s).2 = some (if t.m = 1 ∧ t.d = 1 then x t else s.1)) := by
    intro t s
    unfold dayEvents
    by_cases hj : t.m = 1 ∧ t.d = 1
    · simp only [if_pos hj]
      by_cases hf : c.fin = t
      · cases hsv : c.saveStates <;> simp [hf, smaxStep, hj]
      · have hd : ¬ (t.m = 12 ∧ t.d = 31) := by omega
        simp [hf, Ne.symm hf, smaxStep, hj]
    · simp only [if_neg hj]
      by_cases hf : c.fin = t
      · cases hsv : c.saveStates <;> simp [hf, smaxStep, hj]
      · by_cases hd : t.m = 12 ∧ t.d = 31 <;> simp [hf, Ne.symm hf, smaxStep, hj, hd]
  induction n with
  | zero =>
    simp only [Function.iterate_zero, id_eq, daysFrom, List.flatMap_cons, List.flatMap_nil, List.append_nil]
    obtain ⟨d1, d2⟩ := day c.start (some 0, none)
    have hcur : (if c.start.m = 1 ∧ c.start.d = 1 then x c.start else some 0) =
        if c.start.ord ≤ (⟨c.start.y, 1, 1⟩ : Date).ord then x ⟨c.start.y, 1, 1⟩ else some 0 := by
      have hv : (⟨c.start.y, 1, 1⟩ : Date).Valid := by
        refine ⟨?_, ?_, ?_, ?_⟩ <;> simp [daysInMonth]
      by_cases hj : c.start.m = 1 ∧ c.start.d = 1
      · have : (⟨c.start.y, 1, 1⟩ : Date) = c.start := by
          have e : ∀ u : Date, u.m = 1 ∧ u.d = 1 → (⟨u.y, 1, 1⟩ : Date) = u := by
            rintro ⟨y, m, d⟩ ⟨h1, h2⟩
            simp only at h1 h2
            rw [h1, h2]
          exact e _ hj
        rw [if_pos hj, this, if_pos (le_refl _)]
      · rw [if_neg hj, if_neg]
        intro hle
        have h1 := (ord_in_year h.vs).1
        have h2 : (⟨c.start.y, 1, 1⟩ : Date).ord = daysBeforeYear c.start.y + 1 := by simp [Date.ord, daysBeforeMonth]
        have := ord_injective h.vs hv (by omega)
        exact hj (by rw [this]; exact ⟨rfl, rfl⟩)
    rw [d1]
    exact ⟨hcur, fun e => (d2 e).trans (congrArg some hcur)⟩
  | succ n ih =>
    have hdl : daysFrom c.start (n + 1 + 1) = daysFrom c.start (n + 1) ++ [Date.next^[n + 1] c.start] := by
      rw [daysFrom_append]; rfl
    obtain ⟨i1, -⟩ := ih (by omega)
    simp only [hdl, List.flatMap_append, List.foldl_append, List.flatMap_cons, List.flatMap_nil, List.append_nil]
    obtain ⟨d1, d2⟩ := day (Date.next^[n + 1] c.start)
      (((daysFrom c.start (n + 1)).flatMap (dayEvents c 0)).foldl (smaxStep x) (some 0, none))
    have hdv := iterate_next_valid h.vs n
    have hord := iterate_next_ord h.vs n
    have hnx : Date.next^[n + 1] c.start = (Date.next^[n] c.start).next := Function.iterate_succ_apply' _ _ _
    have hno := next_ord hdv
    have hcur : (if (Date.next^[n + 1] c.start).m = 1 ∧ (Date.next^[n + 1] c.start).d = 1 then x (Date.next^[n + 1] c.start)
        else (((daysFrom c.start (n + 1)).flatMap (dayEvents c 0)).foldl (smaxStep x) (some 0, none)).1) =
        if c.start.ord ≤ (⟨(Date.next^[n + 1] c.start).y, 1, 1⟩ : Date).ord
          then x ⟨(Date.next^[n + 1] c.start).y, 1, 1⟩ else some 0 := by
      rw [i1, hnx]
      rcases next_year_cases hdv with ⟨hye, hd1⟩ | ⟨hye, hd2, hd3⟩
      · rw [hd1, if_pos ⟨rfl, rfl⟩, if_pos]
        rw [hd1] at hno
        change c.start.ord ≤ (⟨(Date.next^[n] c.start).y + 1, 1, 1⟩ : Date).ord
        omega
      · rw [if_neg hd3, hd2]
    rw [d1]
    exact ⟨hcur, fun e => by rw [d2 e, hcur]⟩

theorem smax_spin (c : RunCfg) (x : Date → Option ℝ) (n : ℕ) (s : Option ℝ × Option (Option ℝ)) :
    (spinEvents c n).foldl (smaxStep x) s = s := by
  have h : ∀ e ∈ spinEvents c n, ∃ t, e = Event.sim t := by
    intro e he
    simp only [spinEvents, List.mem_flatten, List.mem_replicate] at he
    obtain ⟨l, ⟨-, rfl⟩, h2⟩ := he
    obtain ⟨t, -, rfl⟩ := List.mem_map.1 h2
    exact ⟨t, rfl⟩
  generalize spinEvents c n = l at h
  induction l with
  | nil => rfl
  | cons a l ih =>
    obtain ⟨t, rfl⟩ := h a (by simp)
    rw [List.foldl_cons]
    exact ih fun e he => h e (List.mem_cons_of_mem _ he)

theorem outRun_labels (grid : List Date) (conv : ℝ → ℝ) (x : Date → Option ℝ) (tr : List Event) (v : OutVar) (fs : List OutFile)
    (h : outRun grid conv x tr = some (v, fs)) : fs.map OutFile.label = flushed tr := by
  induction tr using List.reverseRecOn generalizing v fs with
  | nil => simp [outRun] at h; rw [h.2]; rfl
  | append_singleton tr e ih =>
    rw [outRun_snoc] at h
    cases hr : outRun grid conv x tr with
    | none => rw [hr] at h; cases e <;> simp [outStep] at h
    | some p =>
      obtain ⟨v', fs'⟩ := p
      have := ih v' fs' hr
      rw [hr] at h
      simp only [flushed, List.filterMap_append] at this ⊢
      cases e with
      | sim t => simp only [outStep, Option.some.injEq, Prod.mk.injEq] at h; rw [← h.2, this]; simp
      | save t => simp only [outStep, Option.some.injEq, Prod.mk.injEq] at h; rw [← h.2, this]; simp
      | write t =>
        simp only [outStep, Option.map_eq_some_iff, Prod.mk.injEq] at h
        obtain ⟨-, -, -, h2⟩ := h
        rw [← h2, this]; simp
      | flush t =>
        simp only [outStep, Option.some.injEq, Prod.mk.injEq] at h
        rw [← h.2, List.map_append, this]; simp

theorem row_unique : ∀ w ∈ outputTable, outputTable.find? (fun v => decide (v.key = w.key)) = some w := by decide +kernel

/-- The days on which files are saved. -/
def saveDays (c : RunCfg) : List Date :=
  (daysBetween c.start c.fin).filter fun t => decide (t = yearEnd t.y) || decide (t = c.fin)

theorem saveDays_plain (c : RunCfg) (h : GoodPeriod c) (hy : c.fin.y < 10000) (t : Date) (ht : t ∈ saveDays c) : t.plain := by
  have := (mem_daysBetween h.vs _ _).1 (List.mem_filter.1 ht).1
  obtain ⟨⟨v1, v2, v3, v4⟩, -, h3⟩ := this
  have hm : daysInMonth t.y t.m ≤ 31 := by unfold daysInMonth; split_ifs <;> omega
  refine ⟨?_, by omega, by omega⟩
  by_contra hge
  have a1 := (ord_in_year (t := t) ⟨v1, v2, v3, v4⟩).1
  have a2 := (ord_in_year h.vf).2
  have := daysBeforeYear_mono (show c.fin.y < t.y by omega)
  omega

/-- **C74.**  A complete run whose configuration file has the four sections saves, whatever is selected, without any
exception and for every selected option one file per calendar year (and for `smax` one file): it holds, on every
day of the period in that year, the quantity the option stands for, in the units of the output; all other files stay as they
were. -/
theorem C74_saved (c : RunCfg) (h : GoodPeriod c) (hspin : 0 ≤ c.spin) (hy : c.fin.y < 10000) (s : Setup)
    (hs : setup c = .ok s) (n : ℕ) (hd : (runLoop c s n).done = true)
    (cfg : ConfigFile) (hc : outSections cfg) (path : String) (area cf : ℝ) (r : DayResults) (files0 : Files) :
    ∃ o, outAllRun (gridTime c) cfg path area cf r files0 (runLoop c s n).trace = some o ∧
      (∀ w ∈ outputTable, w.selected cfg → w.key ≠ "smax" → ∀ l ∈ saveDays c,
        ∃ v, o.files (outName path w.key l) = some (.axis v) ∧
          (∀ t ∈ daysBetween c.start c.fin, t.y = l.y → t ∈ v.axis) ∧
          ∀ t, v.val t = if t ∈ daysBetween c.start c.fin ∧ t.y = l.y
            then (w.daily r t).map (baseUnits w.group w.key area cf) else none) ∧
      (∀ w ∈ outputTable, w.selected cfg → w.key = "smax" → ∀ t,
        o.files (outName path "smax" t) = some (.const
          (if (⟨c.fin.y, 1, 1⟩ : Date) ∈ daysBetween c.start c.fin then w.daily r ⟨c.fin.y, 1, 1⟩ else some 0))) ∧
      (∀ m, (∀ w ∈ outputTable, w.selected cfg → ∀ l ∈ saveDays c, m ≠ outName path w.key l) → o.files m = files0 m) := by
  obtain ⟨hsel, hks⟩ := C74_selected cfg
  obtain ⟨ks, hk⟩ := Option.ne_none_iff_exists'.1 (hsel.2 hc)
  obtain ⟨knd, kmem⟩ := hks ks hk
  -- values and conversion by name
  let row : String → Option OutRow := fun k => outputTable.find? fun v => decide (v.key = k)
  let x : String → Date → Option ℝ := fun k t => match row k with | some w => w.daily r t | none => none
  let conv : String → ℝ → ℝ := fun k => match row k with | some w => baseUnits w.group w.key area cf | none => id
  have xrow : ∀ w ∈ outputTable, x w.key = w.daily r := by
    intro w hw; funext t; simp only [x, row, row_unique w hw]
  have crow : ∀ w ∈ outputTable, conv w.key = baseUnits w.group w.key area cf := by
    intro w hw; simp only [conv, row, row_unique w hw]
  have hsm : conv "smax" = id := by
    have := crow ⟨1, "VerticalWaterBalanceStorages", "maximum_soil_moisture", "smax", "max_soil_water_content", false⟩
      (by decide +kernel)
    simp only at this
    rw [this]; funext y
    simp [OutRow.group, baseUnits]
  have hfiles := fun k => C38_files c h hspin s hs n hd (conv k) (x k)
  have hfl : flushed (runLoop c s n).trace = saveDays c := by
    obtain ⟨v, fs, e1, e2, -⟩ := hfiles "dis"
    rw [← outRun_labels _ _ _ _ _ _ e1, e2]; rfl
  have mem_fl : ∀ t, Event.flush t ∈ (runLoop c s n).trace ↔ t ∈ saveDays c := by
    intro t
    rw [← hfl, flushed, List.mem_filterMap]
    constructor
    · intro ht; exact ⟨_, ht, rfl⟩
    · rintro ⟨e, he, h2⟩
      cases e <;> simp at h2
      rw [← h2]; exact he
  have hplain := saveDays_plain c h hy
  obtain ⟨o, ho, inv⟩ := outAll_inv (gridTime c) path area cf r files0 ks knd x conv
    (by
      intro k hkm t
      obtain ⟨w, hw, e1, e2, -⟩ := (kmem k.1 k.2).1 hkm
      rw [← e1, ← e2, row_value w hw, xrow w hw])
    (by
      intro k hkm
      obtain ⟨w, hw, e1, e2, -⟩ := (kmem k.1 k.2).1 hkm
      rw [← e1, ← e2, crow w hw])
    hsm (runLoop c s n).trace
    (by rw [hfl]; exact (daysFrom_nodup h.vs _).filter _)
    (fun t ht => hplain t ((mem_fl t).1 ht))
    (by
      intro k _ _ hnone
      obtain ⟨v, fs, e1, -⟩ := hfiles k.2
      rw [hnone] at e1; cases e1)
  have entry : ∀ w ∈ outputTable, w.selected cfg → ∃ e ∈ o.vars, e.key = w.key := by
    intro w hw hws
    have := (kmem w.group w.key).2 ⟨w, hw, rfl, rfl, hws⟩
    rw [← inv.names] at this
    obtain ⟨e, he, h2⟩ := List.mem_map.1 this
    simp only [Prod.mk.injEq] at h2
    exact ⟨e, he, h2.2⟩
  refine ⟨o, by simp only [outAllRun, hk]; exact ho, ?_, ?_, ?_⟩
  · intro w hw hws hne l hl
    obtain ⟨e, he, hek⟩ := entry w hw hws
    obtain ⟨v, fs, -, b, d⟩ := inv.axis e he (by rw [hek]; exact hne)
    obtain ⟨v', fs', e1, e2, e3, e4⟩ := hfiles e.key
    rw [b, Option.some.injEq, Prod.mk.injEq] at e1
    obtain ⟨rfl, rfl⟩ := e1
    have hl' : l ∈ fs.map OutFile.label := by rw [e2]; exact hl
    obtain ⟨f, hf, rfl⟩ := List.mem_map.1 hl'
    refine ⟨f.data, by rw [← hek]; exact (d f hf).2, e4 f hf, fun t => ?_⟩
    have h3 := e3 f hf t
    rw [hek, xrow w hw, crow w hw] at h3
    by_cases hin : t ∈ daysBetween c.start c.fin ∧ t.y = f.label.y
    · rw [if_pos hin]
      apply Option.ext
      intro y
      rw [h3 y, Option.map_eq_some_iff]
      constructor
      · rintro ⟨-, -, q, hq, rfl⟩; exact ⟨q, hq, rfl⟩
      · rintro ⟨q, hq, rfl⟩; exact ⟨hin.1, hin.2, q, hq, rfl⟩
    · rw [if_neg hin]
      apply Option.ext
      intro y
      rw [h3 y]
      constructor
      · rintro ⟨a, b, -⟩; exact absurd ⟨a, b⟩ hin
      · intro hh; cases hh
  · intro w hw hws hk' t
    obtain ⟨e, he, hek⟩ := entry w hw hws
    refine (inv.const e he (hek.trans hk')).2 _ ?_ t
    have hn : c.spin.toNat < n := by
      by_contra hcn
      rw [runLoop_spin h s hs hspin n (by omega)] at hd
      cases hd
    obtain ⟨k, rfl⟩ : ∃ k, n = k + (c.spin.toNat + 1) := ⟨n - (c.spin.toNat + 1), by omega⟩
    rw [runLoop, Function.iterate_add_apply]
    have hrd := runLoop_done h s hs hspin
    rw [runLoop] at hrd
    rw [hrd, whileStep_done _ _ _ rfl, List.foldl_append, smax_spin]
    have h2 := h.h2
    have hsd := smax_days c h (x "smax") (c.fin.ord - c.start.ord) (by omega)
    have hfin : Date.next^[c.fin.ord - c.start.ord] c.start = c.fin := by
      apply ord_injective (iterate_next_valid h.vs _) h.vf
      rw [iterate_next_ord h.vs]; omega
    simp only [hfin] at hsd
    have hlen : daysBetween c.start c.fin = daysFrom c.start (c.fin.ord - c.start.ord + 1) := by
      rw [daysBetween, show c.fin.ord + 1 - c.start.ord = c.fin.ord - c.start.ord + 1 by omega]
    rw [mainEvents, hlen, hsd.2 trivial, ← hlen]
    have hxs : x "smax" = w.daily r := by rw [← hk']; exact xrow w hw
    rw [hxs]
    congr 1
    have hj : (⟨c.fin.y, 1, 1⟩ : Date).Valid := by refine ⟨?_, ?_, ?_, ?_⟩ <;> simp [daysInMonth]
    have hjo : (⟨c.fin.y, 1, 1⟩ : Date).ord ≤ c.fin.ord := by
      have := (ord_in_year h.vf).1
      simp [Date.ord, daysBeforeMonth] at this ⊢
      omega
    by_cases hle : c.start.ord ≤ (⟨c.fin.y, 1, 1⟩ : Date).ord
    · rw [if_pos hle, if_pos ((mem_daysBetween h.vs _ _).2 ⟨hj, hle, hjo⟩)]
    · rw [if_neg hle, if_neg fun hm => hle ((mem_daysBetween h.vs _ _).1 hm).2.1]
  · intro m hm
    apply inv.other
    intro k hkm t ht
    obtain ⟨w, hw, -, e2, hws⟩ := (kmem k.1 k.2).1 hkm
    rw [← e2]
    exact hm w hw hws t ((mem_fl t).1 ht)

/-- **C74.**  A run that continues an earlier one (it starts later than the earlier one ends) with the same output directory
leaves all files of the earlier run as they are, except that of `smax`. -/
theorem C74_continued (c₁ c₂ : RunCfg) (h₁ : GoodPeriod c₁) (h₂ : GoodPeriod c₂) (hspin : 0 ≤ c₂.spin)
    (hlater : c₁.fin.ord < c₂.start.ord) (hy : c₂.fin.y < 10000) (hy₁ : c₁.fin.y < 10000) (s : Setup) (hs : setup c₂ = .ok s)
    (n : ℕ) (hd : (runLoop c₂ s n).done = true) (cfg : ConfigFile) (hc : outSections cfg) (path : String) (area cf : ℝ)
    (r : DayResults) (files : Files) :
    ∃ o, outAllRun (gridTime c₂) cfg path area cf r files (runLoop c₂ s n).trace = some o ∧
      ∀ w ∈ outputTable, w.key ≠ "smax" → ∀ l ∈ saveDays c₁, o.files (outName path w.key l) = files (outName path w.key l) := by
  obtain ⟨o, h0, -, -, h3⟩ := C74_saved c₂ h₂ hspin hy s hs n hd cfg hc path area cf r files
  refine ⟨o, h0, fun w hw hne l hl => h3 _ ?_⟩
  intro w' _ _ l' hl' e
  have := (outName_inj path _ _ l l' (saveDays_plain c₁ h₁ hy₁ l hl) (saveDays_plain c₂ h₂ hy l' hl') e).2 hne
  have a := ((mem_daysBetween h₁.vs _ _).1 (List.mem_filter.1 hl).1).2.2
  have b := ((mem_daysBetween h₂.vs _ _).1 (List.mem_filter.1 hl').1).2.1
  rw [this] at a
  omega

/-- **C74 violated (`smax` of a continued run).**  If the run does not contain the 1 January of its last year and `smax` is
selected, the file of `smax` is replaced by zeros, whatever was in it. -/
theorem C74_violated_smax (c : RunCfg) (h : GoodPeriod c) (hspin : 0 ≤ c.spin) (hy : c.fin.y < 10000) (s : Setup)
    (hs : setup c = .ok s) (n : ℕ) (hd : (runLoop c s n).done = true) (cfg : ConfigFile) (hc : outSections cfg)
    (hsel : ∃ v, cfg.get (.output 1 ["VerticalWaterBalanceStorages", "maximum_soil_moisture"]) = some v ∧ v.truthy = true)
    (hj : (⟨c.fin.y, 1, 1⟩ : Date) ∉ daysBetween c.start c.fin) (path : String) (area cf : ℝ) (r : DayResults) (files : Files) :
    ∃ o, outAllRun (gridTime c) cfg path area cf r files (runLoop c s n).trace = some o ∧
      o.files (path.toList ++ "smax.nc".toList) = some (.const (some 0)) := by
  obtain ⟨o, h0, -, h2, -⟩ := C74_saved c h hspin hy s hs n hd cfg hc path area cf r files
  refine ⟨o, h0, ?_⟩
  have := h2 ⟨1, "VerticalWaterBalanceStorages", "maximum_soil_moisture", "smax", "max_soil_water_content", false⟩
    (by decide +kernel) hsel rfl c.fin
  rw [if_neg hj] at this
  rw [← this]
  congr 1

/-! ## Examples -/

/-- A file with all four sections, in which potential evapotranspiration, `smax` and storages are selected. -/
def exOutFile : ConfigFile :=
  { exFile with output := [
      dict [("VerticalWaterBalanceFluxes", .obj (dict [("pot_evap", .bool true), ("canopy_evap", .bool true)]))],
      dict [("VerticalWaterBalanceStorages", .obj (dict [("maximum_soil_moisture", .bool true)]))],
      dict [("LateralWaterBalanceFluxes", .obj (dict [("streamflow", .bool false), ("total_runoff", .bool true)]))],
      dict [("LateralWaterBalanceStorages", .obj (dict [("total_water_storage", .bool true)]))]] }

theorem exOut_sections : outSections exOutFile := by
  intro w hw
  rcases row_cases w hw with ⟨e1, e2, -⟩ | ⟨e1, e2, -⟩ | ⟨e1, e2, -⟩ | ⟨e1, e2, -⟩ <;> rw [e1, e2] <;> exact ⟨_, rfl⟩

example : createVars exOutFile = some [(.vbFlux, "potevap"), (.vbFlux, "canopy-evap"), (.vbStorage, "smax"), (.lbFlux, "qtot"),
    (.lbStorage, "tws")] := by decide +kernel

/-- A run over two years: canopy evaporation of 8.64 mm on half of the continental area is saved as 0.00005 mm/s; the file
of streamflow, which is not selected, stays. -/
example (files : Files) : ∃ s, setup exRun = .ok s ∧ ∃ o,
    outAllRun (gridTime exRun) exOutFile "out/" 3000 80
      { arr := fun a _ => if a = "canopy_evap" then some 8.64 else none, landFrac := fun _ => 40, contFrac := 80 } files
      (runLoop exRun s 3).trace = some o ∧
    (∃ v, o.files "out/canopy-evap_2000-12-31.nc".toList = some (.axis v) ∧ v.val ⟨2000, 2, 29⟩ = some 0.00005) ∧
    o.files "out/smax.nc".toList = some (.const none) ∧
    o.files "out/dis_2000-12-31.nc".toList = files "out/dis_2000-12-31.nc".toList := by
  obtain ⟨s, h1, h2, -⟩ := C30_days_simulated exRun exRun_good (by decide)
  obtain ⟨o, a, b, d, e⟩ := C74_saved exRun exRun_good (by decide) (by decide) s h1 3 ((h2 3).2 (by decide)) exOutFile
    exOut_sections "out/" 3000 80
    { arr := fun a _ => if a = "canopy_evap" then some 8.64 else none, landFrac := fun _ => 40, contFrac := 80 } files
  refine ⟨s, h1, o, a, ?_, ?_, ?_⟩
  · obtain ⟨v, v1, -, v3⟩ := b ⟨0, "VerticalWaterBalanceFluxes", "canopy_evap", "canopy-evap", "canopy_evap", true⟩
      (by decide +kernel) ⟨_, rfl, rfl⟩ (by decide) ⟨2000, 12, 31⟩ (by decide +kernel)
    refine ⟨v, ?_, ?_⟩
    · rw [← v1]; rfl
    · rw [v3, if_pos (by decide +kernel)]
      simp only [OutRow.daily, if_true, Option.map_some, OutRow.group, baseUnits, Option.some.injEq]
      rw [if_neg (by decide)]
      norm_num
  · have := d ⟨1, "VerticalWaterBalanceStorages", "maximum_soil_moisture", "smax", "max_soil_water_content", false⟩
      (by decide +kernel) ⟨_, rfl, rfl⟩ rfl exRun.fin
    rw [if_pos (by decide +kernel)] at this
    rw [show ("out/smax.nc".toList) = outName "out/" "smax" exRun.fin by decide, this]
    simp [OutRow.daily]
  · apply e
    intro w hw hsel l _ hname
    have h0 : "out/dis_2000-12-31.nc".toList = outName "out/" "dis" ⟨2000, 12, 31⟩ := by decide
    rw [h0] at hname
    have hl : l.plain := saveDays_plain exRun exRun_good (by decide) l (by assumption)
    have hk := (outName_inj "out/" _ _ _ l ⟨by decide, by decide, by decide⟩ hl hname).1
    have hw' : w = ⟨2, "LateralWaterBalanceFluxes", "streamflow", "dis", "streamflow", false⟩ := by
      have a1 := row_unique w hw
      rw [← hk] at a1
      exact (Option.some.inj a1).symm
    subst hw'
    obtain ⟨v, hv, ht⟩ := hsel
    have : v = .bool false := (Option.some.inj hv).symm
    rw [this] at ht
    cases ht

/-- The run that continues `exRun` on the next three days. -/
def exNext : RunCfg :=
  { start := ⟨2001, 1, 3⟩, fin := ⟨2001, 1, 5⟩, spin := 0, saveStates := true, dataStart := ⟨1999, 1, 1⟩, dataEnd := ⟨2003, 12, 31⟩ }

theorem exNext_good : GoodPeriod exNext := by constructor <;> decide +kernel

/-- It leaves the water storages of the earlier run but replaces the maximum soil moisture by zeros. -/
example (r : DayResults) (files : Files) : ∃ s, setup exNext = .ok s ∧ ∃ o,
    outAllRun (gridTime exNext) exOutFile "out/" 3000 80 r files (runLoop exNext s 1).trace = some o ∧
    o.files "out/tws_2001-01-02.nc".toList = files "out/tws_2001-01-02.nc".toList ∧
    o.files "out/smax.nc".toList = some (.const (some 0)) := by
  obtain ⟨s, h1, h2, -⟩ := C30_days_simulated exNext exNext_good (by decide)
  obtain ⟨o, a, b⟩ := C74_continued exRun exNext exRun_good exNext_good (by decide) (by decide +kernel) (by decide) (by decide) s h1 1
    ((h2 1).2 (by decide)) exOutFile exOut_sections "out/" 3000 80 r files
  obtain ⟨o', a', b'⟩ := C74_violated_smax exNext exNext_good (by decide) (by decide) s h1 1 ((h2 1).2 (by decide)) exOutFile
    exOut_sections ⟨_, rfl, rfl⟩ (by decide +kernel) "out/" 3000 80 r files
  rw [a, Option.some.injEq] at a'
  subst a'
  refine ⟨s, h1, o, a, ?_, b'⟩
  have := b ⟨3, "LateralWaterBalanceStorages", "total_water_storage", "tws", "total_water_storage", false⟩ (by decide +kernel)
    (by decide) ⟨2001, 1, 2⟩ (by decide +kernel)
  rw [show "out/tws_2001-01-02.nc".toList = outName "out/" "tws" ⟨2001, 1, 2⟩ by decide]
  exact this

end WG
