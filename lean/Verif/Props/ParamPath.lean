import Verif.Model.ParamPath

/-!
# Which reservoir data a run uses (C63)
-/

namespace WG

/-! ## Lemmas -/

theorem takeWhile_stop {c : Char} (a b : List Char) (ha : c ∉ a) : (a ++ c :: b).takeWhile (· != c) = a := by
  induction a with
  | nil => simp
  | cons x xs ih =>
    have hx : x ≠ c := fun e => ha (by simp [e])
    rw [List.cons_append, List.takeWhile_cons_of_pos (by simpa using hx), ih fun h => ha (by simp [h])]

theorem takeWhile_all {c : Char} (a : List Char) (ha : c ∉ a) : a.takeWhile (· != c) = a := by
  induction a with
  | nil => simp
  | cons x xs ih =>
    have hx : x ≠ c := fun e => ha (by simp [e])
    rw [List.takeWhile_cons_of_pos (by simpa using hx), ih fun h => ha (by simp [h])]

theorem afterLast_sep (c : Char) (pre s : List Char) (hs : c ∉ s) : afterLast c (pre ++ c :: s) = s := by
  unfold afterLast
  rw [List.reverse_append, List.reverse_cons, List.append_assoc, List.singleton_append,
    takeWhile_stop _ _ (by simpa using hs), List.reverse_reverse]

theorem afterLast_none (c : Char) (s : List Char) (hs : c ∉ s) : afterLast c s = s := by
  unfold afterLast
  rw [takeWhile_all _ (by simpa using hs), List.reverse_reverse]

theorem beforeFirst_sep (c : Char) (s post : List Char) (hs : c ∉ s) : beforeFirst c (s ++ c :: post) = s :=
  takeWhile_stop s post hs

/-! ## Theorems -/

/-- **C63.**  A simulation with a parameter file `…_<forcing>.<extension>` reads the reservoir data made for that forcing,
whatever directory the file is in and whatever its name is otherwise; if there are none it ends before the first
day. -/
theorem C63_simulation (folders : List (List Char)) (pre forcing ext calibForcing : List Char)
    (h1 : '_' ∉ forcing) (h2 : '.' ∉ forcing) (h3 : '_' ∉ ext) (hc : forcing ≠ "run-calib".toList) :
    reservoirFolder folders false (pre ++ '_' :: (forcing ++ '.' :: ext)) calibForcing =
      if forcing ∈ folders then some forcing else none := by
  have hname : forcingName false (pre ++ '_' :: (forcing ++ '.' :: ext)) calibForcing = forcing := by
    unfold forcingName
    rw [afterLast_sep _ _ _ (by simp [h1, h3]), beforeFirst_sep _ _ _ h2]
    simp only
    rw [if_neg]
    rintro (h | h)
    · exact hc h
    · cases h
  unfold reservoirFolder
  rw [hname]

/-- **C63.**  In a calibration — every run of step B, and step A and the set-up, which use the file `…_run-calib.nc` — the
reservoir data are those of the forcing named after the last hyphen of the option `calib_forcing`. -/
theorem C63_calibration (folders : List (List Char)) (runCalib : Bool) (path pre pre' forcing : List Char)
    (h : runCalib = true ∨ ∃ ext, '_' ∉ ext ∧ path = pre' ++ '_' :: ("run-calib".toList ++ '.' :: ext)) (hf : '-' ∉ forcing) :
    reservoirFolder folders runCalib path (pre ++ '-' :: forcing) = if forcing ∈ folders then some forcing else none := by
  have hname : forcingName runCalib path (pre ++ '-' :: forcing) = forcing := by
    unfold forcingName
    simp only
    rw [if_pos]
    · exact afterLast_sep _ _ _ hf
    · rcases h with h | ⟨ext, he, rfl⟩
      · exact Or.inr h
      · left
        rw [afterLast_sep _ _ _ (by
          rw [List.mem_append, List.mem_cons]
          rintro (hm | hm | hm)
          · revert hm; decide
          · revert hm; decide
          · exact he hm), beforeFirst_sep _ _ _ (by decide)]
  unfold reservoirFolder
  rw [hname]

/-- **C63 violated.**  The parameter file the calibration writes cannot be used as it is: its name ends in
`_global_parameters.nc`, so a simulation with it looks for the reservoir data of a forcing called `parameters` and ends
before the first day, whatever the version and the forcing calibrated for. -/
theorem C63_violated_calibrated_file (folders : List (List Char)) (source calibForcing : List Char)
    (h : "parameters".toList ∉ folders) :
    reservoirFolder folders false (calibratedPath source) calibForcing = none := by
  have e : calibratedPath source =
      ("./model/".toList ++ beforeGlobal source ++ "_global".toList) ++ '_' :: ("parameters".toList ++ '.' :: "nc".toList) := by
    unfold calibratedPath
    have : "_global_parameters.nc".toList = "_global".toList ++ '_' :: ("parameters".toList ++ '.' :: "nc".toList) := by
      decide
    rw [this, ← List.append_assoc]
  rw [e, C63_simulation folders _ _ _ _ (by decide) (by decide) (by decide) (by decide), if_neg h]

/-- **C63.**  The calibration names its parameter file after the uncalibrated one: what precedes the first `_global` in its
name (the version), followed by `_global_parameters.nc`, in the folder `model`. -/
theorem C63_calibrated_name (version rest : List Char)
    (hfirst : ∀ a b, version ++ "_global".toList ++ rest = a ++ "_global".toList ++ b → version.length ≤ a.length) :
    calibratedPath (version ++ "_global".toList ++ rest) = "./model/".toList ++ version ++ "_global_parameters.nc".toList := by
  have key : beforeGlobal (version ++ "_global".toList ++ rest) = version := by
    induction version with
    | nil =>
      have : "_global".toList = '_' :: "global".toList := by decide
      rw [List.nil_append, this, List.cons_append, beforeGlobal, if_pos]
      rw [this, ← List.cons_append]
      exact List.prefix_append _ _
    | cons c v ih =>
      rw [List.cons_append, List.cons_append, beforeGlobal, if_neg]
      · rw [ih]
        intro a b h
        have := hfirst (c :: a) b (by simp only [List.cons_append]; rw [h])
        simpa using this
      · rintro ⟨t, ht⟩
        have := hfirst [] t (by simp only [List.nil_append, List.cons_append]; exact ht.symm)
        simp at this
  unfold calibratedPath
  rw [key]

/-! ## Non-vacuity -/

/-- A file of uncalibrated parameters as the user names it. -/
example : calibratedPath ("WaterGAP_2.2e".toList ++ "_global".toList ++ "_parameters_run-calib.nc".toList)
    = "./model/".toList ++ "WaterGAP_2.2e".toList ++ "_global_parameters.nc".toList := by
  refine C63_calibrated_name _ _ fun a b h => ?_
  by_contra hlt
  have hlt : a.length < 13 := by simpa using hlt
  have hd : ∀ n < 13, ¬ "_global".toList <+: (("WaterGAP_2.2e".toList ++ "_global".toList ++ "_parameters_run-calib.nc".toList).drop n) := by
    decide
  apply hd _ hlt
  rw [h, List.append_assoc, List.drop_left]
  exact List.prefix_append _ _

/-- The shipped parameter file and folders. -/
example : reservoirFolder ["era5".toList, "w5e5".toList] false
    "model/WaterGAP_2.2e_global_parameters_gswp3_w5e5.nc".toList "gswp3-era5".toList = some "w5e5".toList := by decide

example : reservoirFolder ["era5".toList, "w5e5".toList] true "calibration/calib_out/5/WaterGAP_2.2e_basin_5.nc".toList
    "gswp3-era5".toList = some "era5".toList := by decide

example : calibratedPath "WaterGAP_2.2e_global_parameters_run-calib.nc".toList =
    "./model/WaterGAP_2.2e_global_parameters.nc".toList := by decide

end WG
