import Verif.Model.Forcing

/-!
# Units and checks of the forcing (C48)
-/

namespace WG

variable {ι : Type}

/-- **C48.**  A run reaches its end exactly when no cell has negative precipitation on any of its days; the days before
the first bad one are computed (and written) all the same, the bad day and everything after it never. -/
theorem C48_negative_rejected (days : List (Field ι × Field ι)) :
    ((readDays days).2 = true ↔ ∀ d ∈ days, ∀ i x, d.1.val i = some x → 0 ≤ x) ∧
    (∀ pre d post, days = pre ++ d :: post → (∃ i x, d.1.val i = some x ∧ x < 0) →
      (∀ e ∈ pre, ∀ i x, e.1.val i = some x → 0 ≤ x) → (readDays days).1.length = pre.length) := by
  have hstep : ∀ (d : Field ι × Field ι) (rest : List (Field ι × Field ι)),
      (∀ i x, d.1.val i = some x → 0 ≤ x) →
      readDays (d :: rest) = ((toMmPerDay d.1, toKelvin d.2) :: (readDays rest).1, (readDays rest).2) := by
    rintro ⟨p, t⟩ rest h
    have : ¬ hasNegative p := by
      rintro ⟨i, x, hx, hneg⟩
      exact absurd (h i x hx) (not_le.2 hneg)
    simp [readDays, readForcing, this]
  have hbad : ∀ (d : Field ι × Field ι) (rest : List (Field ι × Field ι)),
      (∃ i x, d.1.val i = some x ∧ x < 0) → readDays (d :: rest) = ([], false) := by
    rintro ⟨p, t⟩ rest h
    have : hasNegative p := h
    simp [readDays, readForcing, this]
  constructor
  · induction days with
    | nil => simp [readDays]
    | cons d rest ih =>
      by_cases h : ∀ i x, d.1.val i = some x → 0 ≤ x
      · rw [hstep d rest h]
        constructor
        · intro hr e he
          rcases List.mem_cons.1 he with rfl | he
          · exact h
          · exact (ih.1 hr) e he
        · intro hr
          exact ih.2 fun e he => hr e (by simp [he])
      · have h' : ∃ i x, d.1.val i = some x ∧ x < 0 := by
          push Not at h; exact h
        rw [hbad d rest h']
        constructor
        · intro hr; cases hr
        · intro hr; exact absurd (hr d (by simp)) h
  · rintro pre d post rfl hd hpre
    induction pre with
    | nil => rw [List.nil_append, hbad d post hd]; rfl
    | cons e es ih =>
      rw [List.cons_append, hstep e _ (hpre e (by simp))]
      simp only [List.length_cons]
      rw [ih fun f hf => hpre f (by simp [hf])]

/-- **C48.**  What the water balance gets: precipitation in mm/day (a rate in kg m⁻² s⁻¹ times the 86 400 seconds of a
day, otherwise unchanged), temperature in kelvin (°C plus 273.15), cell by cell; missing values stay missing. -/
theorem C48_units (p t : Field ι) (v : (ι → Option ℝ) × (ι → Option ℝ)) (h : readForcing p t = some v) (i : ι) :
    (p.units = "kg m-2 s-1" → v.1 i = (p.val i).map (· * 86400)) ∧
    (p.units = "mm/day" → v.1 i = p.val i) ∧
    (t.units = "K" → v.2 i = t.val i) ∧ (t.units = "k" → v.2 i = t.val i) ∧
    (t.units = "celcius" → v.2 i = (t.val i).map (· + 273.15)) ∧
    (∀ x, v.1 i = some x → 0 ≤ x) := by
  unfold readForcing at h
  split_ifs at h with hn
  injection h with h
  subst h
  refine ⟨fun e => by simp [toMmPerDay, e], fun e => by simp [toMmPerDay, e], fun e => by simp [toKelvin, e],
    fun e => by simp [toKelvin, e], fun e => by simp [toKelvin, e], fun x hx => ?_⟩
  by_contra hneg
  push Not at hneg
  apply hn
  unfold toMmPerDay at hx
  simp only at hx
  split_ifs at hx with hu
  · beta_reduce at hx
    cases hv : p.val i with
    | none => rw [hv] at hx; simp at hx
    | some y =>
      rw [hv] at hx
      simp only [Option.map_some, Option.some.injEq] at hx
      exact ⟨i, y, hv, by linarith⟩
  · exact ⟨i, x, hx, hneg⟩

/-- The values of the days of a run that reaches its end are the values of each day, converted. -/
theorem readDays_values (days : List (Field ι × Field ι)) (h : (readDays days).2 = true) :
    (readDays days).1 = days.map fun d => (toMmPerDay d.1, toKelvin d.2) := by
  induction days with
  | nil => rfl
  | cons d rest ih =>
    obtain ⟨p, t⟩ := d
    unfold readDays at h ⊢
    unfold readForcing at h ⊢
    by_cases hn : hasNegative p
    · simp [hn] at h
    · simp only [if_neg hn] at h ⊢
      rw [ih h]; rfl

/-- **C48.**  A run that is not a calibration run and reaches its end: if precipitation is declared in `kg m-2 s-1` every
value of every day is multiplied with 86 400, if in `mm/day` it is taken as it is; temperature declared in `K` is taken as
it is, in one of the accepted spellings of degrees Celsius it gets 273.15 added. -/
theorem C48_run_units (f : ForcingSet ι) (out : List ((ι → Option ℝ) × (ι → Option ℝ)))
    (h : runForcing false f = some (out, true)) :
    out.length = f.days.length ∧
    ∀ k (hk : k < f.days.length) (hk' : k < out.length) (i : ι),
      (f.pUnits = "kg m-2 s-1" → (out[k]).1 i = ((f.days[k]).1 i).map (· * 86400)) ∧
      (f.pUnits ∈ ["mm/day", " mm day-1"] → (out[k]).1 i = (f.days[k]).1 i) ∧
      (f.tUnits = "K" → (out[k]).2 i = (f.days[k]).2 i) ∧
      (f.tUnits ∈ ["°C", "C", "degree celcius", "celcius"] → (out[k]).2 i = ((f.days[k]).2 i).map (· + 273.15)) := by
  unfold runForcing at h
  split_ifs at h
  injection h with h
  have h2 : (readDays (f.days.map fun d => ((⟨d.1, f.pUnits⟩ : Field ι), (⟨d.2, f.tUnits⟩ : Field ι)))).2 = true := by
    rw [h]
  have h1 := readDays_values _ h2
  rw [h] at h1
  simp only [List.map_map] at h1
  subst h1
  refine ⟨by simp, fun k hk hk' i => ?_⟩
  simp only [List.getElem_map, Function.comp]
  refine ⟨fun e => ?_, fun e => ?_, fun e => ?_, fun e => ?_⟩
  · simp [toMmPerDay, e]
  · have : f.pUnits ≠ "kg m-2 s-1" := by rintro e'; rw [e'] at e; revert e; decide
    simp [toMmPerDay, this]
  · simp [toKelvin, e]
  · have h1 : f.tUnits ≠ "K" := by rintro e'; rw [e'] at e; revert e; decide
    have h2 : f.tUnits ≠ "k" := by rintro e'; rw [e'] at e; revert e; decide
    simp [toKelvin, h1, h2]

/-- **C48.**  A run that is not a calibration run starts only if each of the four variables is declared in one of the nine
accepted units; any other spelling (`kg m^-2 s^-1`, `mm day-1` without its leading blank, `k`) ends it before the first day. -/
theorem C48_unknown_units_refused (f : ForcingSet ι) :
    runForcing false f = none ↔
      ∃ u ∈ [f.pUnits, f.lwUnits, f.swUnits, f.tUnits],
        u ∉ ["kg m-2 s-1", "W m-2", "K", "mm/day", " mm day-1", "°C", "C", "degree celcius", "celcius"] := by
  have key : ∀ u : String, acceptedUnits.contains u = true ↔
      u ∈ ["kg m-2 s-1", "W m-2", "K", "mm/day", " mm day-1", "°C", "C", "degree celcius", "celcius"] := by
    intro u
    rw [List.contains_iff_mem]
    simp only [acceptedUnits, List.cons_append, List.nil_append, List.mem_cons, List.not_mem_nil, or_false]
    tauto
  have h : runForcing false f = none ↔ unitsAccepted [f.pUnits, f.lwUnits, f.swUnits, f.tUnits] = false := by
    unfold runForcing
    cases unitsAccepted [f.pUnits, f.lwUnits, f.swUnits, f.tUnits] <;> simp
  rw [h]
  unfold unitsAccepted
  rw [List.all_eq_false]
  constructor
  · rintro ⟨u, hu, hn⟩
    exact ⟨u, hu, fun hc => hn ((key u).2 hc)⟩
  · rintro ⟨u, hu, hn⟩
    exact ⟨u, hu, fun hc => hn ((key u).1 hc)⟩

/-- No cell of a constant positive field is negative. -/
theorem not_hasNegative_const (x : ℝ) (hx : 0 ≤ x) (s : String) : ¬ hasNegative (⟨fun _ => some x, s⟩ : Field Unit) := by
  rintro ⟨i, y, hy, hneg⟩
  simp only [Option.some.injEq] at hy
  subst hy; linarith

/-- **C48 violated.**  Calibration runs do not check units and the unit is compared with one spelling only: the same rate
declared as `kg m^-2 s^-1` is taken for mm/day, 86 400 times too little. -/
theorem C48_violated_unit_spelling :
    ∃ (f g : ForcingSet Unit) (v w : (Unit → Option ℝ) × (Unit → Option ℝ)),
      f.days = g.days ∧ f.pUnits = "kg m-2 s-1" ∧ g.pUnits = "kg m^-2 s^-1" ∧
      runForcing true f = some ([v], true) ∧ runForcing true g = some ([w], true) ∧
      v.1 () = some 8640 ∧ w.1 () = some 0.1 := by
  have hn : ∀ s : String, ¬ hasNegative (⟨fun _ => some 0.1, s⟩ : Field Unit) :=
    not_hasNegative_const 0.1 (by norm_num)
  refine ⟨⟨"kg m-2 s-1", "W m-2", "W m-2", "K", [(fun _ => some 0.1, fun _ => some 280)]⟩,
    ⟨"kg m^-2 s^-1", "W m-2", "W m-2", "K", [(fun _ => some 0.1, fun _ => some 280)]⟩, _, _, rfl, rfl, rfl,
    by simp [runForcing, readDays, readForcing, hn]; rfl, by simp [runForcing, readDays, readForcing, hn]; rfl, ?_, ?_⟩
  · simp [toMmPerDay]; norm_num
  · simp [toMmPerDay]

/-- **C48 violated.**  The check does not look at which variable has which unit: a run whose precipitation is declared in
`K` (and whose temperature is declared in `W m-2`) starts and finishes; the values are taken for mm/day and for degrees
Celsius. -/
theorem C48_violated_other_quantity :
    ∃ (f : ForcingSet Unit) (v : (Unit → Option ℝ) × (Unit → Option ℝ)),
      f.pUnits = "K" ∧ f.tUnits = "W m-2" ∧ f.days = [(fun _ => some 280, fun _ => some 280)] ∧
      runForcing false f = some ([v], true) ∧ v.1 () = some 280 ∧ v.2 () = some 553.15 := by
  have hn : ∀ s : String, ¬ hasNegative (⟨fun _ => some 280, s⟩ : Field Unit) :=
    not_hasNegative_const 280 (by norm_num)
  refine ⟨⟨"K", "W m-2", "W m-2", "W m-2", [(fun _ => some 280, fun _ => some 280)]⟩, _, rfl, rfl, rfl,
    by simp [runForcing, readDays, readForcing, hn, unitsAccepted, acceptedUnits]; rfl, ?_, ?_⟩
  · simp [toMmPerDay]
  · simp [toKelvin]; norm_num

/-- Non-vacuity of `C48_run_units` and of the refusal. -/
example : ∃ out, runForcing false
    (⟨"kg m-2 s-1", "W m-2", "W m-2", "celcius", [(fun _ => some 1, fun _ => some 5)]⟩ : ForcingSet Unit) =
      some (out, true) := by
  have hn : ∀ s : String, ¬ hasNegative (⟨fun _ => some 1, s⟩ : Field Unit) := not_hasNegative_const 1 (by norm_num)
  exact ⟨_, by simp [runForcing, readDays, readForcing, hn, unitsAccepted, acceptedUnits]; rfl⟩

example : runForcing false
    (⟨"mm day-1", "W m-2", "W m-2", "K", [(fun _ => some 1, fun _ => some 5)]⟩ : ForcingSet Unit) = none :=
  (C48_unknown_units_refused _).2 ⟨"mm day-1", by simp, by decide⟩

/-- Non-vacuity: two good days, then one with a negative cell, then another good one. -/
example :
    (readDays [((⟨fun _ => some 1, "mm/day"⟩ : Field Bool), ⟨fun _ => some 5, "celcius"⟩),
      (⟨fun _ => none, "mm/day"⟩, ⟨fun _ => some 5, "celcius"⟩),
      (⟨fun b => if b then some 1 else some (-1), "mm/day"⟩, ⟨fun _ => some 5, "celcius"⟩),
      (⟨fun _ => some 1, "mm/day"⟩, ⟨fun _ => some 5, "celcius"⟩)]).1.length = 2 :=
  (C48_negative_rejected _).2 [_, _] _ [_] rfl ⟨false, -1, by simp, by norm_num⟩ (by
    intro e he i x hx
    simp only [List.mem_cons, List.not_mem_nil, or_false] at he
    rcases he with rfl | rfl
    · simp at hx; subst hx; norm_num
    · simp at hx)

end WG
