import Verif.Model.CalibFiles
import Verif.Props.ParamPath

/-!
# C93: the parameter files of a calibration survive interruptions

A calibration that is stopped at any file operation, any number of times, and set up again ends with the parameters an undisturbed one
gives; what goes wrong is shown in the theorems named `violated`.
-/

namespace WG

variable {P : Type}

/-! ## Lemmas about folders -/

theorem get_put_same (f : Folder P) (n : List Char) (c : Option P) : (f.put n c).get n = some c := by
  simp [Folder.put, Folder.get]

theorem get_filter_ne (f : Folder P) {n m : List Char} (h : m ≠ n) : Folder.get (f.filter (·.1 ≠ n)) m = f.get m := by
  unfold Folder.get
  rw [List.find?_filter]
  congr 1
  apply List.find?_congr
  intro e _
  by_cases he : e.1 = m <;> simp [he, h]

theorem get_put_ne (f : Folder P) {n m : List Char} (c : Option P) (h : m ≠ n) : (f.put n c).get m = f.get m := by
  unfold Folder.put
  rw [← get_filter_ne f h]
  unfold Folder.get
  rw [List.find?_cons_of_neg (by simpa using Ne.symm h)]

theorem get_remove_same (f : Folder P) (n : List Char) : (f.remove n).get n = none := by
  unfold Folder.remove Folder.get
  rw [Option.map_eq_none_iff, List.find?_eq_none]
  intro e he
  simpa using (List.mem_filter.1 he).2

theorem get_remove_ne (f : Folder P) {n m : List Char} (h : m ≠ n) : (f.remove n).get m = f.get m := get_filter_ne f h

theorem get_none_iff (f : Folder P) (n : List Char) : f.get n = none ↔ ∀ e ∈ f, e.1 ≠ n := by
  unfold Folder.get
  rw [Option.map_eq_none_iff, List.find?_eq_none]
  simp

/-! ## Lemmas about names -/

theorem replaceFrom_drop (old new : List Char) (s : List Char) : ∀ k, s.length ≤ k → replaceFrom old new k s = [] := by
  induction s with
  | nil => intro k _; cases k <;> rfl
  | cons c s ih =>
    intro k hk
    cases k with
    | zero => simp at hk
    | succ k => exact ih k (by simpa using hk)

theorem replaceFrom_end (old new pre : List Char) (ho : old ≠ [])
    (hfirst : ∀ a b, pre ++ old = a ++ old ++ b → pre.length ≤ a.length) : replaceFrom old new 0 (pre ++ old) = pre ++ new := by
  induction pre with
  | nil =>
    obtain ⟨o, os, rfl⟩ := List.exists_cons_of_ne_nil ho
    rw [List.nil_append, List.nil_append, replaceFrom, if_pos (by rw [List.isPrefixOf_iff_prefix]),
      replaceFrom_drop _ _ _ _ (by simp), List.append_nil]
  | cons c pre ih =>
    rw [List.cons_append, replaceFrom, if_neg, ih, List.cons_append]
    · intro a b h
      have := hfirst (c :: a) b (by simp [h])
      simpa using this
    · rw [List.isPrefixOf_iff_prefix]
      rintro ⟨t, ht⟩
      have := hfirst [] t (by simp [ht])
      simp at this

theorem replaceFrom_none (old new s : List Char) (h : ∀ n < s.length, old.isPrefixOf (s.drop n) = false) : replaceFrom old new 0 s = s := by
  induction s with
  | nil => rfl
  | cons c s ih =>
    have h0 := h 0 (by simp)
    rw [List.drop_zero] at h0
    rw [replaceFrom, if_neg (by rw [h0]; simp), ih]
    intro n hn
    have := h (n + 1) (by simpa using hn)
    simpa using this

/-- A source as the code expects it: `WaterGAP_<version>_run-calib.nc`. -/
structure GoodSource (source version : List Char) : Prop where
  name : source = "WaterGAP_".toList ++ version ++ "_run-calib.nc".toList
  once : ∀ a b, source = a ++ "_run-calib.nc".toList ++ b → ("WaterGAP_".toList ++ version).length ≤ a.length

/-- The file of basin `b`: `WaterGAP_<version>_basin_<b>.nc`. -/
theorem basinName_eq {source version : List Char} (h : GoodSource source version) (b : ℕ) :
    basinName source b = "WaterGAP_".toList ++ version ++ ("_basin_".toList ++ Nat.toDigits 10 b ++ ".nc".toList) := by
  unfold basinName
  rw [h.name]
  apply replaceFrom_end
  · decide
  · intro a b hab
    exact h.once a b (by rw [h.name, hab])

theorem globMatch_iff (pre post n : List Char) :
    globMatch pre post n = true ↔ pre <+: n ∧ post <:+ n ∧ pre.length + post.length ≤ n.length := by
  unfold globMatch
  rw [Bool.and_eq_true, Bool.and_eq_true, List.isPrefixOf_iff_prefix, List.isSuffixOf_iff_suffix, decide_eq_true_eq, and_assoc]

theorem basinName_match {source version : List Char} (h : GoodSource source version) (b : ℕ) :
    globMatch "WaterGAP_".toList ('_' :: Nat.toDigits 10 b ++ ".nc".toList) (basinName source b) = true := by
  rw [basinName_eq h, globMatch_iff]
  refine ⟨⟨version ++ ("_basin_".toList ++ Nat.toDigits 10 b ++ ".nc".toList), by simp⟩,
    ⟨"WaterGAP_".toList ++ version ++ "_basin".toList, ?_⟩, ?_⟩
  · have : "_basin_".toList = "_basin".toList ++ ['_'] := by decide
    rw [this]
    simp [List.append_assoc]
  · have : "_basin_".toList.length = 7 := by decide
    simp only [List.length_append, List.length_cons, this]
    omega

theorem temp_noMatch (post : List Char) : globMatch "WaterGAP_".toList post tempName = false := by
  rw [← Bool.not_eq_true, globMatch_iff]
  rintro ⟨h, -⟩
  exact absurd h (by decide)

theorem basinName_ne_temp {source version : List Char} (h : GoodSource source version) (b : ℕ) : basinName source b ≠ tempName := by
  intro e
  have := basinName_match h b
  rw [e, temp_noMatch] at this
  exact absurd this (by simp)

/-! ## One change of parameters -/

/-- Only the file of the basin and the temporary file are in the folder. -/
def OnlyOwn (D : List Char) (f : Folder P) : Prop := ∀ e ∈ f, e.1 = D ∨ e.1 = tempName

theorem OnlyOwn.put {D : List Char} {f : Folder P} (h : OnlyOwn D f) {n : List Char} (hn : n = D ∨ n = tempName) (c : Option P) :
    OnlyOwn D (f.put n c) := by
  intro e he
  rcases List.mem_cons.1 he with rfl | he
  · exact hn
  · exact h e (List.mem_filter.1 he).1

theorem OnlyOwn.remove {D : List Char} {f : Folder P} (h : OnlyOwn D f) (n : List Char) : OnlyOwn D (f.remove n) :=
  fun e he => h e (List.mem_filter.1 he).1

theorem updateFile_own {D : List Char} {b : ℕ} (hD : globMatch "WaterGAP_".toList ('_' :: Nat.toDigits 10 b ++ ".nc".toList) D = true)
    {f : Folder P} (h : OnlyOwn D f) : updateFile b f = if (f.get D).isSome then some D else none := by
  unfold updateFile
  have hp : ∀ e ∈ f, globMatch "WaterGAP_".toList ('_' :: Nat.toDigits 10 b ++ ".nc".toList) e.1 = decide (e.1 = D) := by
    intro e he
    by_cases hd : e.1 = D
    · rw [hd, hD]; simp
    · rcases h e he with h1 | h1
      · exact absurd h1 hd
      · rw [h1, temp_noMatch]
        rw [h1] at hd
        simp [hd]
  rw [List.find?_congr hp]
  unfold Folder.get
  cases hf : f.find? fun e => decide (e.1 = D) with
  | none => simp
  | some e => have := List.find?_some hf; simp at this; simp [this]

/-- The states during one change. -/
theorem update_own {D : List Char} {b : ℕ} (hD : globMatch "WaterGAP_".toList ('_' :: Nat.toDigits 10 b ++ ".nc".toList) D = true)
    {f : Folder P} (h : OnlyOwn D f) {p : P} (hp : f.get D = some (some p)) (u : P → P) :
    updateTrace b u f = [f.put tempName none, f.put tempName (some (u p)), (f.put tempName (some (u p))).remove D, [(D, some (u p))]] := by
  have hne : D ≠ tempName := by
    intro e; rw [e, temp_noMatch] at hD; exact absurd hD (by simp)
  unfold updateTrace
  rw [updateFile_own hD h, hp]
  simp only [Option.isSome_some, if_true, hp]
  have : (Folder.remove (f.put tempName (some (u p))) D).rename tempName D = [(D, some (u p))] := by
    unfold Folder.rename
    rw [get_remove_ne _ (Ne.symm hne), get_put_same]
    simp only
    unfold Folder.put
    congr 1
    rw [List.filter_eq_nil_iff]
    intro e he
    have h1 := (List.mem_filter.1 he).1
    have h2 := (List.mem_filter.1 he).2
    have h3 : OnlyOwn D (Folder.remove (f.put tempName (some (u p))) D) := (h.put (Or.inr rfl) _).remove D
    have := h3 e h1
    simp only [ne_eq, decide_not, Bool.not_eq_eq_eq_not, Bool.not_true, decide_eq_false_iff_not] at h2
    simp [this.resolve_right h2]
  rw [this]

theorem update_none {D : List Char} {b : ℕ} (hD : globMatch "WaterGAP_".toList ('_' :: Nat.toDigits 10 b ++ ".nc".toList) D = true)
    {f : Folder P} (h : OnlyOwn D f) (hp : f.get D = none) (u : P → P) : updateTrace b u f = [] := by
  unfold updateTrace
  rw [updateFile_own hD h, hp]
  simp

theorem changes_none {D : List Char} {b : ℕ} (hD : globMatch "WaterGAP_".toList ('_' :: Nat.toDigits 10 b ++ ".nc".toList) D = true)
    {f : Folder P} (h : OnlyOwn D f) (hp : f.get D = none) (us : List (P → P)) : changesTrace b us f = [] := by
  induction us with
  | nil => rfl
  | cons u us ih => rw [changesTrace, update_none hD h hp]; simpa using ih

/-! ## All changes -/

/-- The parameters after the changes `us`. -/
def applied (us : List (P → P)) (p : P) : P := us.foldl (fun q u => u q) p

theorem changes_last {D : List Char} {b : ℕ} (hD : globMatch "WaterGAP_".toList ('_' :: Nat.toDigits 10 b ++ ".nc".toList) D = true)
    (us : List (P → P)) : ∀ (f : Folder P) (p : P), OnlyOwn D f → f.get D = some (some p) →
    (changesTrace b us f).getLastD f = if us = [] then f else [(D, some (applied us p))] := by
  induction us with
  | nil => intro f p _ _; rfl
  | cons u us ih =>
    intro f p h hp
    rw [changesTrace, update_own hD h hp, if_neg (by simp)]
    have h' : OnlyOwn D [(D, some (u p))] := by intro e he; left; rw [List.mem_singleton] at he; rw [he]
    have hp' : Folder.get [(D, some (u p))] D = some (some (u p)) := by simp [Folder.get]
    have := ih [(D, some (u p))] (u p) h' hp'
    simp only [List.getLastD_cons, List.getLastD_nil, List.cons_append, List.nil_append, this]
    split_ifs with hu
    · rw [hu]; rfl
    · rfl

theorem changes_all {D : List Char} {b : ℕ} (hD : globMatch "WaterGAP_".toList ('_' :: Nat.toDigits 10 b ++ ".nc".toList) D = true)
    (us : List (P → P)) : ∀ (f : Folder P) (p : P), OnlyOwn D f → f.get D = some (some p) → ∀ g ∈ changesTrace b us f,
    OnlyOwn D g ∧ ∃ i ≤ us.length, g.get D = some (some (applied (us.take i) p)) ∨ g.get tempName = some (some (applied (us.take i) p)) := by
  have hne : D ≠ tempName := by
    intro e; rw [e, temp_noMatch] at hD; exact absurd hD (by simp)
  induction us with
  | nil => intro f p _ _ g hg; simp [changesTrace] at hg
  | cons u us ih =>
    intro f p h hp g hg
    rw [changesTrace, update_own hD h hp] at hg
    have h' : OnlyOwn D [(D, some (u p))] := by intro e he; left; rw [List.mem_singleton] at he; rw [he]
    have hp' : Folder.get [(D, some (u p))] D = some (some (u p)) := by simp [Folder.get]
    simp only [List.getLastD_cons, List.getLastD_nil, List.cons_append, List.nil_append, List.mem_cons] at hg
    rcases hg with rfl | rfl | rfl | rfl | hg
    · exact ⟨h.put (Or.inr rfl) _, 0, by omega, Or.inl (by rw [get_put_ne _ _ hne, hp]; rfl)⟩
    · exact ⟨h.put (Or.inr rfl) _, 1, by simp, Or.inr (by rw [get_put_same]; rfl)⟩
    · exact ⟨(h.put (Or.inr rfl) _).remove D, 1, by simp, Or.inr (by rw [get_remove_ne _ (Ne.symm hne), get_put_same]; rfl)⟩
    · exact ⟨h', 1, by simp, Or.inl (by rw [hp']; rfl)⟩
    · obtain ⟨q1, i, hi, q2⟩ := ih _ _ h' hp' g hg
      exact ⟨q1, i + 1, by simpa using hi, by simpa [applied] using q2⟩

theorem setup_last {source : List Char} (p : P) (b : ℕ) (f : Folder P) :
    (setupTrace source p b f).getLastD f = f.put (basinName source b) (some p) := rfl

theorem basin_own {source version : List Char} (hs : GoodSource source version) (p : P) (b : ℕ) (us : List (P → P)) (f : Folder P)
    (h : OnlyOwn (basinName source b) f) (g : Folder P) (hg : g ∈ basinTrace source p b us f) : OnlyOwn (basinName source b) g := by
  unfold basinTrace at hg
  rw [List.mem_append] at hg
  rcases hg with hg | hg
  · unfold setupTrace at hg
    simp only [List.mem_cons, List.not_mem_nil, or_false] at hg
    rcases hg with rfl | rfl <;> exact h.put (Or.inl rfl) _
  · rw [setup_last] at hg
    exact (changes_all (basinName_match hs b) us _ p (h.put (Or.inl rfl) _) (get_put_same _ _ _) g hg).1

theorem stoppedAt_mem (t : List (Folder P)) (f : Folder P) (k : ℕ) : stoppedAt t f k = f ∨ stoppedAt t f k ∈ t := by
  unfold stoppedAt
  by_cases h : t.take k = []
  · rw [h]; left; rfl
  · right
    rw [List.getLastD_eq_getLast?, List.getLast?_eq_some_getLast h]
    exact List.mem_of_mem_take (List.getLast_mem h)

/-! ## Results -/

/-- C93: whatever earlier calibrations did with the folder of a basin — any number of attempts with any parameters and changes, each
stopped after any file operation — a calibration that is set up again and completed leaves the parameters that its changes give to the
source; if there was a change, nothing else is in the folder. -/
theorem C93_after_interruptions (source version : List Char) (hs : GoodSource source version) (b : ℕ)
    (attempts : List (P × List (P → P) × ℕ)) (p : P) (us : List (P → P)) :
    let f := attempts.foldl (fun f a => stoppedAt (basinTrace source a.1 b a.2.1 f) f a.2.2) []
    let g := (basinTrace source p b us f).getLastD f
    g.get (basinName source b) = some (some (applied us p)) ∧ (us ≠ [] → g = [(basinName source b, some (applied us p))]) := by
  have hf : ∀ f : Folder P, OnlyOwn (basinName source b) f → OnlyOwn (basinName source b)
      (attempts.foldl (fun f a => stoppedAt (basinTrace source a.1 b a.2.1 f) f a.2.2) f) := by
    induction attempts with
    | nil => intro f h; exact h
    | cons a as ih =>
      intro f h
      apply ih
      rcases stoppedAt_mem (basinTrace source a.1 b a.2.1 f) f a.2.2 with h1 | h1
      · beta_reduce; rw [h1]; exact h
      · exact basin_own hs _ _ _ _ h _ h1
  intro f g
  have h : OnlyOwn (basinName source b) f := hf [] (by intro e he; simp at he)
  have hl := changes_last (basinName_match hs b) us _ p (h.put (Or.inl rfl) (some p)) (get_put_same _ _ _)
  have hg : g = (changesTrace b us (f.put (basinName source b) (some p))).getLastD (f.put (basinName source b) (some p)) := by
    change (basinTrace source p b us f).getLastD f = _
    unfold basinTrace
    rw [setup_last]
    rw [List.getLastD_eq_getLast?, List.getLastD_eq_getLast?, List.getLast?_append]
    cases (changesTrace b us (f.put (basinName source b) (some p))).getLast? with
    | none => rfl
    | some x => rfl
  rw [hg, hl]
  refine ⟨?_, fun hu => if_neg hu⟩
  split_ifs with hu
  · rw [get_put_same, hu]; rfl
  · simp [Folder.get]

/-- C93: at no file operation during the changes are parameters lost: a complete set of parameters, one of those reached so far, is in the
file of the basin or in the temporary file. -/
theorem C93_never_lost (source version : List Char) (hs : GoodSource source version) (b : ℕ) (us : List (P → P)) (f : Folder P) (p : P)
    (hf : ∀ e ∈ f, e.1 = basinName source b ∨ e.1 = tempName) (hp : f.get (basinName source b) = some (some p)) :
    ∀ g ∈ changesTrace b us f, ∃ i ≤ us.length, g.get (basinName source b) = some (some (applied (us.take i) p)) ∨
      g.get tempName = some (some (applied (us.take i) p)) :=
  fun g hg => (changes_all (basinName_match hs b) us f p hf hp g hg).2

/-- C93: the file the changes go to is the one that the configuration of the stations names and that the set-up has written. -/
theorem C93_same_file (source version : List Char) (hs : GoodSource source version) (b : ℕ) (p : P) (f : Folder P)
    (hf : ∀ e ∈ f, e.1 = basinName source b ∨ e.1 = tempName) :
    updateFile b (f.put (basinName source b) (some p)) = some (basinName source b) := by
  rw [updateFile_own (basinName_match hs b) (OnlyOwn.put hf (Or.inl rfl) _), get_put_same]
  rfl

theorem basinName_merged {source version : List Char} (hs : GoodSource source version) (b : ℕ) :
    (globMatch [] ".nc".toList (basinName source b) && !("." : String).toList.isPrefixOf (basinName source b)) = true := by
  rw [Bool.and_eq_true, globMatch_iff, basinName_eq hs]
  refine ⟨⟨List.nil_prefix, ⟨"WaterGAP_".toList ++ version ++ ("_basin_".toList ++ Nat.toDigits 10 b), by simp [List.append_assoc]⟩, by simp⟩, ?_⟩
  have : "WaterGAP_".toList = 'W' :: "aterGAP_".toList := by decide
  have h2 : ("." : String).toList = ['.'] := by decide
  rw [this, h2]
  simp [List.isPrefixOf]

/-- C93: if every basin had a change of parameters, the merge reads exactly the calibrated parameters of the basins, one file each, whatever
interrupted attempts went before. -/
theorem C93_merge (source version : List Char) (hs : GoodSource source version) (bs : List ℕ) (attempts : ℕ → List (P × List (P → P) × ℕ))
    (p : P) (us : ℕ → List (P → P)) (hu : ∀ b ∈ bs, us b ≠ []) :
    mergedInput (bs.map fun b => (basinTrace source p b (us b)
        ((attempts b).foldl (fun f a => stoppedAt (basinTrace source a.1 b a.2.1 f) f a.2.2) [])).getLastD
        ((attempts b).foldl (fun f a => stoppedAt (basinTrace source a.1 b a.2.1 f) f a.2.2) [])) =
      bs.map fun b => some (applied (us b) p) := by
  induction bs with
  | nil => rfl
  | cons b bs ih =>
    have h1 := (C93_after_interruptions source version hs b (attempts b) p (us b)).2 (hu b (by simp))
    have h2 := ih (fun c hc => hu c (by simp [hc]))
    unfold mergedInput at h2 ⊢
    rw [List.map_cons, List.flatMap_cons, h2, h1, List.map_cons]
    rw [List.filter_cons_of_pos (by exact basinName_merged hs b)]
    rfl

/-! ## The start of a calibration -/

theorem foldl_remove_mem (l : List (List Char)) : ∀ (f : Folder P) (e : List Char × Option P),
    e ∈ l.foldl (fun f n => Folder.remove f n) f ↔ e ∈ f ∧ e.1 ∉ l := by
  induction l with
  | nil => intro f e; simp
  | cons n l ih =>
    intro f e
    rw [List.foldl_cons, ih]
    unfold Folder.remove
    rw [List.mem_filter]
    simp only [ne_eq, decide_not, Bool.not_eq_eq_eq_not, Bool.not_true, decide_eq_false_iff_not, List.mem_cons, not_or, and_assoc]

theorem left_noParam (model : Folder P) (e : List Char × Option P)
    (he : e ∈ ((model.map (·.1)).filter isParamFile).foldl (fun f n => Folder.remove f n) model) : isParamFile e.1 = false := by
  rw [foldl_remove_mem] at he
  rw [← Bool.not_eq_true]
  intro h
  exact he.2 (List.mem_filter.2 ⟨List.mem_map_of_mem he.1, h⟩)

theorem start_last (misc model : Folder P) : (startTrace misc model).getLastD model =
    match misc.find? fun e => isParamFile e.1 with
    | some e => Folder.put (((model.map (·.1)).filter isParamFile).foldl (fun f n => Folder.remove f n) model) e.1 e.2
    | none => ((model.map (·.1)).filter isParamFile).foldl (fun f n => Folder.remove f n) model := by
  unfold startTrace
  generalize hd : (model.map (·.1)).filter isParamFile = d
  simp only
  cases misc.find? fun e => isParamFile e.1 with
  | some e => simp only [List.getLastD_eq_getLast?, List.getLast?_append, List.getLast?_cons_cons, List.getLast?_singleton]; rfl
  | none =>
    simp only
    cases d with
    | nil => rfl
    | cons n d =>
      rw [List.length_cons, List.range_succ, List.map_append, List.getLastD_eq_getLast?, List.getLast?_append]
      simp [List.take_of_length_le]

/-- C93: a calibration that finds an uncalibrated file starts with exactly this one in the folder of the model, so the set-up of the basins
copies it. -/
theorem C93_start (misc model : Folder P) (e : List Char × Option P) (he : misc.find? (fun e => isParamFile e.1) = some e) :
    ((startTrace misc model).getLastD model).filter (fun e => isParamFile e.1) = [e] := by
  rw [start_last, he]
  simp only
  unfold Folder.put
  have hpos : isParamFile e.1 = true := List.find?_some (p := fun e : List Char × Option P => isParamFile e.1) he
  rw [List.filter_cons_of_pos (by exact hpos), List.filter_filter]
  congr 1
  rw [List.filter_eq_nil_iff]
  intro x hx
  rw [left_noParam model x hx]
  simp

/-- C93: the files that are removed and copied are those named `WaterGAP….nc`. -/
theorem C93_pattern (n : List Char) : isParamFile n = true ↔ ∃ mid, n = "WaterGAP".toList ++ mid ++ ".nc".toList := by
  unfold isParamFile
  rw [globMatch_iff]
  constructor
  · rintro ⟨⟨t, rfl⟩, h2, h3⟩
    rw [List.length_append, Nat.add_le_add_iff_left] at h3
    obtain ⟨mid, rfl⟩ := List.suffix_of_suffix_length_le h2 (List.suffix_append _ _) h3
    exact ⟨mid, by simp⟩
  · rintro ⟨mid, rfl⟩
    exact ⟨⟨mid ++ ".nc".toList, by simp⟩, ⟨"WaterGAP".toList ++ mid, rfl⟩, by simp only [List.length_append]; omega⟩

/-- C93: the other files in the folder of the model stay as they are. -/
theorem C93_start_keeps (misc model : Folder P) (e : List Char × Option P) (he : e ∈ model)
    (hn : ∀ mid, e.1 ≠ "WaterGAP".toList ++ mid ++ ".nc".toList) : e ∈ (startTrace misc model).getLastD model := by
  have hp : isParamFile e.1 = false := by
    rw [← Bool.not_eq_true, C93_pattern]
    rintro ⟨mid, h⟩
    exact hn mid h
  have hl : e ∈ ((model.map (·.1)).filter isParamFile).foldl (fun f n => Folder.remove f n) model := by
    rw [foldl_remove_mem]
    refine ⟨he, fun h => ?_⟩
    rw [(List.mem_filter.1 h).2] at hp
    exact absurd hp (by simp)
  rw [start_last]
  cases hm : misc.find? fun e => isParamFile e.1 with
  | none => exact hl
  | some g =>
    have hg : isParamFile g.1 = true := List.find?_some (p := fun e : List Char × Option P => isParamFile e.1) hm
    refine List.mem_cons_of_mem _ (List.mem_filter.2 ⟨hl, ?_⟩)
    simp only [ne_eq, decide_not, Bool.not_eq_eq_eq_not, Bool.not_true, decide_eq_false_iff_not]
    intro h
    rw [h, hg] at hp
    exact absurd hp (by simp)

/-- C93: the name of a basin's file is that of the source with the first `old` replaced; what follows is treated alike. -/
theorem C93_replace (old new pre rest : List Char) (ho : old ≠ [])
    (hfirst : ∀ a b, pre ++ old ++ rest = a ++ old ++ b → pre.length ≤ a.length) :
    replaceFrom old new 0 (pre ++ old ++ rest) = pre ++ new ++ replaceFrom old new 0 rest := by
  have drop : ∀ l r : List Char, replaceFrom old new l.length (l ++ r) = replaceFrom old new 0 r := by
    intro l r
    induction l with
    | nil => rfl
    | cons c l ih => exact ih
  induction pre with
  | nil =>
    obtain ⟨o, os, rfl⟩ := List.exists_cons_of_ne_nil ho
    rw [List.nil_append, List.nil_append, List.cons_append, replaceFrom,
      if_pos (by rw [List.isPrefixOf_iff_prefix]; exact ⟨rest, rfl⟩), List.length_cons, Nat.add_sub_cancel, drop]
  | cons c pre ih =>
    rw [List.cons_append, List.cons_append, replaceFrom, if_neg, ih, List.cons_append, List.cons_append]
    · intro a b h
      have := hfirst (c :: a) b (by simpa using h)
      simpa using this
    · rw [List.isPrefixOf_iff_prefix]
      rintro ⟨t, ht⟩
      have := hfirst [] t (by simpa using ht.symm)
      simp at this

/-- C93, finding: the parameter files of the model are removed before it is known whether there is an uncalibrated file.  Without one in
`misc` (the repository has none) the calibration ends with an error, and the model has no parameters any more. -/
theorem C93_violated_no_source (misc model : Folder P) (h : ∀ e ∈ misc, isParamFile e.1 = false) :
    ∀ e ∈ (startTrace misc model).getLastD model, isParamFile e.1 = false := by
  have hn : misc.find? (fun e => isParamFile e.1) = none := by
    rw [List.find?_eq_none]
    intro e he
    rw [h e he]; simp
  intro e he
  rw [start_last, hn] at he
  exact left_noParam model e he

/-- C93, finding: whenever a calibration is interrupted after its first steps, the calibrated parameters the model had before are gone: what
is left as parameter file is (a part of) the uncalibrated file. -/
theorem C93_violated_interrupted (misc model : Folder P) (k : ℕ) (hk : ((model.map (·.1)).filter isParamFile).length ≤ k) :
    ∀ e ∈ stoppedAt (startTrace misc model) model k, isParamFile e.1 = true → ∃ s ∈ misc, e.1 = s.1 ∧ (e.2 = none ∨ e.2 = s.2) := by
  have hleft := left_noParam model
  intro e he hp
  unfold stoppedAt startTrace at he
  generalize (model.map (·.1)).filter isParamFile = d at hk he hleft
  simp only at he
  have hlen : ((List.range d.length).map fun i => (d.take (i + 1)).foldl (fun f n => Folder.remove f n) model).length = d.length := by simp
  have hlast : ((List.range d.length).map fun i => (d.take (i + 1)).foldl (fun f n => Folder.remove f n) model).getLastD model =
      d.foldl (fun f n => Folder.remove f n) model := by
    cases d with
    | nil => rfl
    | cons n d =>
      rw [List.length_cons, List.range_succ, List.map_append, List.getLastD_eq_getLast?, List.getLast?_append]
      simp [List.take_of_length_le]
  generalize (List.range d.length).map (fun i => (d.take (i + 1)).foldl (fun f n => Folder.remove f n) model) = r at he hlen hlast
  cases hm : misc.find? fun e => isParamFile e.1 with
  | none =>
    rw [hm] at he
    simp only at he
    rw [List.take_of_length_le (by omega), hlast] at he
    rw [hleft e he] at hp
    exact absurd hp (by simp)
  | some s =>
    rw [hm] at he
    simp only at he
    have hs := List.mem_of_find?_eq_some hm
    rw [List.take_append, List.take_of_length_le (by omega), hlen] at he
    obtain ⟨i, rfl⟩ := Nat.exists_eq_add_of_le hk
    rw [Nat.add_sub_cancel_left] at he
    have key : ∀ c, e ∈ Folder.put (d.foldl (fun f n => Folder.remove f n) model) s.1 c → e.1 = s.1 ∧ e.2 = c := by
      intro c hc
      rcases List.mem_cons.1 hc with rfl | hc
      · exact ⟨rfl, rfl⟩
      · rw [hleft e (List.mem_filter.1 hc).1] at hp
        exact absurd hp (by simp)
    match i with
    | 0 =>
      rw [List.take_zero, List.append_nil, hlast] at he
      rw [hleft e he] at hp
      exact absurd hp (by simp)
    | 1 =>
      simp only [List.take_succ_cons, List.take_zero, List.getLastD_eq_getLast?, List.getLast?_append, List.getLast?_singleton] at he
      obtain ⟨h1, h2⟩ := key _ he
      exact ⟨s, hs, h1, Or.inl h2⟩
    | i + 2 =>
      simp only [List.take_succ_cons, List.take_nil, List.getLastD_eq_getLast?, List.getLast?_append, List.getLast?_cons_cons, List.getLast?_singleton] at he
      obtain ⟨h1, h2⟩ := key _ he
      exact ⟨s, hs, h1, Or.inr h2⟩

/-! ## Other findings -/

/-- C93, finding: the old file is removed before the new one takes its name.  A calibration stopped in between has no file under the name of
the basin, and stations started without a new set-up change nothing. -/
theorem C93_violated_window (source version : List Char) (hs : GoodSource source version) (b : ℕ) (u : P → P) (f : Folder P) (p : P)
    (hf : ∀ e ∈ f, e.1 = basinName source b ∨ e.1 = tempName) (hp : f.get (basinName source b) = some (some p)) :
    ∃ g ∈ updateTrace b u f, g.get (basinName source b) = none ∧ ∀ us, changesTrace b us g = [] := by
  have hD := basinName_match hs b
  rw [update_own hD hf hp]
  refine ⟨_, by simp only [List.mem_cons]; exact Or.inr (Or.inr (Or.inl rfl)), get_remove_same _ _, fun us => ?_⟩
  exact changes_none hD ((OnlyOwn.put hf (Or.inr rfl) _).remove _) (get_remove_same _ _) us

/-- C93, finding: the set-up does not remove the temporary file of an interrupted calibration.  If no parameter of the basin is changed
afterwards, the merge also reads the parameters of the interrupted attempt. -/
theorem C93_violated_stale_temp (source version : List Char) (hs : GoodSource source version) (b : ℕ) (u : P → P) (f : Folder P) (p q : P)
    (hf : ∀ e ∈ f, e.1 = basinName source b ∨ e.1 = tempName) (hp : f.get (basinName source b) = some (some p)) :
    ∃ g ∈ updateTrace b u f, some (u p) ∈ mergedInput [(basinTrace source q b [] g).getLastD g] := by
  have hD := basinName_match hs b
  have hne := basinName_ne_temp hs b
  rw [update_own hD hf hp]
  refine ⟨f.put tempName (some (u p)), by simp, ?_⟩
  have hl : (basinTrace source q b [] (f.put tempName (some (u p)))).getLastD (f.put tempName (some (u p))) =
      (f.put tempName (some (u p))).put (basinName source b) (some q) := rfl
  rw [hl]
  unfold mergedInput
  rw [List.flatMap_cons, List.flatMap_nil, List.append_nil, List.mem_map]
  refine ⟨(tempName, some (u p)), ?_, rfl⟩
  rw [List.mem_filter]
  refine ⟨?_, by dsimp only; decide⟩
  unfold Folder.put
  rw [List.mem_cons, List.mem_filter]
  right
  exact ⟨by simp, by simpa using Ne.symm hne⟩

/-- C93, finding: if the source is not called `…_run-calib.nc`, so that its copy does not end in `_<b>.nc`, no change finds a file: the whole
calibration leaves the parameters of the source. -/
theorem C93_violated_name (source : List Char) (b : ℕ)
    (h : globMatch "WaterGAP_".toList ('_' :: Nat.toDigits 10 b ++ ".nc".toList) (basinName source b) = false) (p : P) (us : List (P → P)) :
    (basinTrace source p b us []).getLastD [] = [(basinName source b, some p)] := by
  have hc : changesTrace b us [(basinName source b, some p)] = [] := by
    induction us with
    | nil => rfl
    | cons u us ih =>
      have : updateTrace b u [(basinName source b, some p)] = [] := by
        unfold updateTrace updateFile
        rw [List.find?_cons_of_neg (by simpa using h)]
        rfl
      rw [changesTrace, this]
      simpa using ih
  unfold basinTrace
  have : (setupTrace source p b ([] : Folder P)).getLastD [] = [(basinName source b, some p)] := rfl
  rw [this, hc]
  rfl

/-- C93, finding: this is so for the shipped name and every basin. -/
theorem C93_violated_shipped_name (b : ℕ) (p : P) (us : List (P → P)) :
    (basinTrace "WaterGAP_2.2e_global_parameters_gswp3_w5e5.nc".toList p b us []).getLastD [] =
      [("WaterGAP_2.2e_global_parameters_gswp3_w5e5.nc".toList, some p)] := by
  have hn : basinName "WaterGAP_2.2e_global_parameters_gswp3_w5e5.nc".toList b = "WaterGAP_2.2e_global_parameters_gswp3_w5e5.nc".toList :=
    replaceFrom_none _ _ _ (by decide)
  have hm : globMatch "WaterGAP_".toList ('_' :: Nat.toDigits 10 b ++ ".nc".toList) (basinName "WaterGAP_2.2e_global_parameters_gswp3_w5e5.nc".toList b) = false := by
    rw [hn, ← Bool.not_eq_true, globMatch_iff]
    rintro ⟨-, ⟨t, ht⟩, -⟩
    have h1 := afterLast_sep '_' t (Nat.toDigits 10 b ++ ".nc".toList) (by
      rw [List.mem_append, not_or]
      exact ⟨Nat.underscore_not_in_toDigits, by decide⟩)
    rw [← List.cons_append, ht] at h1
    have h2 : afterLast '_' "WaterGAP_2.2e_global_parameters_gswp3_w5e5.nc".toList = "w5e5".toList ++ ".nc".toList := by decide
    rw [h2] at h1
    have h3 := List.append_cancel_right h1
    have h4 : 'w' ∈ Nat.toDigits 10 b := by rw [← h3]; decide
    exact absurd (Nat.isDigit_of_mem_toDigits (by norm_num) (by norm_num) h4) (by decide)
  have := C93_violated_name _ b hm p us
  rw [this, hn]

/-- C93, finding: a file of an earlier calibration with another version is not removed.  If it is listed first, the changes go to it, and the
file that the simulation of the station reads stays as it was. -/
theorem C93_violated_other_version (source version : List Char) (hs : GoodSource source version) (b : ℕ) (old : List Char) (p q : P) (u : P → P)
    (hold : globMatch "WaterGAP_".toList ('_' :: Nat.toDigits 10 b ++ ".nc".toList) old = true) (hne : old ≠ basinName source b) :
    ((updateTrace b u [(old, some q), (basinName source b, some p)]).getLastD []).get (basinName source b) = some (some p) := by
  have h1 : updateFile b [(old, some q), (basinName source b, some p)] = some old := by
    unfold updateFile
    rw [List.find?_cons_of_pos (by simpa using hold)]
    rfl
  have hot : old ≠ tempName := by
    intro e; rw [e, temp_noMatch] at hold; exact absurd hold (by simp)
  have h2 : Folder.get [(old, some q), (basinName source b, some p)] old = some (some q) := by simp [Folder.get]
  unfold updateTrace
  rw [h1]
  simp only [h2, List.getLastD_cons, List.getLastD_nil]
  unfold Folder.rename
  rw [get_remove_ne _ (Ne.symm hot), get_put_same]
  simp only
  rw [get_put_ne _ _ (Ne.symm hne), get_remove_ne _ (basinName_ne_temp hs b), get_remove_ne _ (Ne.symm hne),
    get_put_ne _ _ (basinName_ne_temp hs b)]
  simp [Folder.get, hne]

/-! ## Cases that meet the hypotheses -/

theorem goodSource_example : GoodSource "WaterGAP_2.2e_global_parameters_run-calib.nc".toList "2.2e_global_parameters".toList := by
  refine ⟨by decide, fun a b h => ?_⟩
  by_contra hlt
  have hlt : a.length < 31 := by simpa using hlt
  have hd : ∀ n < 31, ¬ "_run-calib.nc".toList <+: ("WaterGAP_2.2e_global_parameters_run-calib.nc".toList.drop n) := by decide
  apply hd _ hlt
  rw [h, List.append_assoc, List.drop_left]
  exact List.prefix_append _ _

/-- Two interrupted attempts and a complete one, with numbers as parameters. -/
example := (C93_after_interruptions _ _ goodSource_example 7 [(2, [(· + 1), (· * 2)], 5), (3, [(· + 4)], 4)] 2 [(· + 1), (· * 5)]).2 (by simp)

example : basinName "WaterGAP_2.2e_global_parameters_run-calib.nc".toList 12 = "WaterGAP_2.2e_global_parameters_basin_12.nc".toList := by decide

example : (basinTrace "WaterGAP_2.2e_global_parameters_run-calib.nc".toList 2 12 [(· + 1), (· * 5)] []).map (fun f => f.map (·.2)) =
    [[none], [some 2], [none, some 2], [some 3, some 2], [some 3], [some 3], [none, some 3], [some 15, some 3], [some 15], [some 15]] := by decide

example := C93_never_lost _ _ goodSource_example 7 [(· + 1)] [(basinName "WaterGAP_2.2e_global_parameters_run-calib.nc".toList 7, some 2)] 2
  (fun _ he => Or.inl (congrArg Prod.fst (List.mem_singleton.1 he))) (get_put_same [] _ _)
example := C93_same_file _ _ goodSource_example 7 2 [] (by simp)
example := C93_merge _ _ goodSource_example [1, 2, 3] (fun _ => [(2, [(· + 1)], 4)]) 2 (fun b => [(· + b)]) (by simp)
example := C93_violated_window _ _ goodSource_example 7 (· + 1) [(basinName "WaterGAP_2.2e_global_parameters_run-calib.nc".toList 7, some 2)] 2
  (fun _ he => Or.inl (congrArg Prod.fst (List.mem_singleton.1 he))) (get_put_same [] _ _)
example := C93_violated_stale_temp _ _ goodSource_example 7 (· + 1) [(basinName "WaterGAP_2.2e_global_parameters_run-calib.nc".toList 7, some 2)] 2 9
  (fun _ he => Or.inl (congrArg Prod.fst (List.mem_singleton.1 he))) (get_put_same [] _ _)
example := C93_violated_other_version _ _ goodSource_example 7 "WaterGAP_2.2d_basin_7.nc".toList 2 9 (· + 1) (by decide) (by decide)
example := C93_start [("WaterGAP_2.2e_global_parameters_run-calib.nc".toList, some 2)] [("WaterGAP_2.2e_global_parameters_gswp3_w5e5.nc".toList, some 1)]
  ("WaterGAP_2.2e_global_parameters_run-calib.nc".toList, some 2) (by decide)
example := C93_violated_no_source ([] : Folder ℕ) [("WaterGAP_2.2e_global_parameters_gswp3_w5e5.nc".toList, some 1)] (by simp)
example : startTrace ([] : Folder ℕ) [("WaterGAP_2.2e_global_parameters_gswp3_w5e5.nc".toList, some 1)] = [[]] := by decide
example := C93_violated_interrupted [("WaterGAP_2.2e_global_parameters_run-calib.nc".toList, some 2)]
  [("WaterGAP_2.2e_global_parameters_gswp3_w5e5.nc".toList, some 1)] 1 (by decide)

example := (C93_pattern "WaterGAP_2.2e_global_parameters_gswp3_w5e5.nc".toList).2 ⟨"_2.2e_global_parameters_gswp3_w5e5".toList, by decide⟩
example := C93_start_keeps [("WaterGAP_2.2e_global_parameters_run-calib.nc".toList, some 2)] [("readme.nc".toList, some 1)] ("readme.nc".toList, some 1)
  (by simp) (by intro mid h; have := congrArg List.head? h; simp at this)
example : replaceFrom "ab".toList "x".toList 0 "cabababd".toList = "cxxxd".toList := by decide
example := C93_replace "ab".toList "x".toList "c".toList "cab".toList (by decide) (by
  intro a b h
  cases a with
  | nil => simp at h
  | cons _ _ => simp)

end WG
