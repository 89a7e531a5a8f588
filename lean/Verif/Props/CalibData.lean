import Verif.Model.CalibData
import Mathlib.Data.List.Sort

/-!
# Data of the calibration (C43, C46, C56, C57)
-/

namespace WG

/-! ## The years used for the calibration (C43) -/

/-- The station has a value for the year. -/
def hasValue (tab : ℕ → YearEntry) (y : ℕ) : Bool := tab y = .value

/-- The order in which years are taken: 1981 to 2009, 1979, 1980, 2010 to 2018, and then backwards from 1978 to 1901. -/
def yearOrder : List ℕ :=
  pyRange 1981 2010 ++ pyRange 1979 1981 ++ pyRange 2010 2019 ++ (pyRange 1901 1979).reverse

theorem mem_pyRange (a b y : ℕ) : y ∈ pyRange a b ↔ a ≤ y ∧ y < b := by
  simp only [pyRange, List.mem_map, List.mem_range]
  constructor
  · rintro ⟨x, hx, rfl⟩; omega
  · intro h; exact ⟨y - a, by omega, by omega⟩

theorem nodup_pyRange (a b : ℕ) : (pyRange a b).Nodup :=
  List.nodup_range.map (fun x y h => by simpa using h)

theorem mem_yearOrder (y : ℕ) : y ∈ yearOrder ↔ 1901 ≤ y ∧ y ≤ 2018 := by
  simp only [yearOrder, List.mem_append, List.mem_reverse, mem_pyRange]
  omega

theorem nodup_yearOrder : yearOrder.Nodup := by
  simp only [yearOrder, List.nodup_append, List.nodup_reverse, nodup_pyRange, List.mem_append, List.mem_reverse,
    mem_pyRange, true_and]
  refine ⟨⟨?_, ?_⟩, ?_⟩ <;> (intro a ha b hb; omega)

theorem addAll_ok (tab : ℕ → YearEntry) (ys acc : List ℕ) (h : ∀ y ∈ ys, tab y ≠ .absent) :
    addAll tab ys acc = .ok (acc ++ ys.filter (hasValue tab)) := by
  induction ys generalizing acc with
  | nil => simp [addAll]
  | cons y ys ih =>
    have hy := h y (by simp)
    have hys := fun z hz => h z (List.mem_cons_of_mem _ hz)
    cases e : tab y with
    | absent => exact absurd e hy
    | na =>
      have hv : hasValue tab y = false := by simp [hasValue, e]
      simp only [addAll, e, YearEntry.check, ih _ hys, Bool.false_eq_true, if_false, List.filter_cons, hv]
    | value =>
      have hv : hasValue tab y = true := by simp [hasValue, e]
      simp only [addAll, e, YearEntry.check, ih _ hys, if_true, List.filter_cons, hv, List.append_assoc,
        List.singleton_append]

theorem addUntil_ok (tab : ℕ → YearEntry) (front : Bool) (ys acc : List ℕ) (h : ∀ y ∈ ys, tab y ≠ .absent)
    (hl : acc.length ≤ 30) :
    ∃ r, addUntil tab front ys acc = .ok r ∧
      r.Perm (acc ++ (ys.filter (hasValue tab)).take (30 - acc.length)) := by
  induction ys generalizing acc with
  | nil => exact ⟨acc, by simp [addUntil], by simp⟩
  | cons y ys ih =>
    have hy := h y (by simp)
    have hys := fun z hz => h z (List.mem_cons_of_mem _ hz)
    by_cases h30 : acc.length = 30
    · exact ⟨acc, by simp [addUntil, h30], by simp [h30]⟩
    · have hlt : acc.length < 30 := by omega
      cases e : tab y with
      | absent => exact absurd e hy
      | na =>
        have hv : hasValue tab y = false := by simp [hasValue, e]
        obtain ⟨r, h1, h2⟩ := ih acc hys hl
        refine ⟨r, ?_, ?_⟩
        · simp only [addUntil, if_neg h30, e, YearEntry.check, Bool.false_eq_true, if_false, h1]
        · simpa [List.filter_cons, hv] using h2
      | value =>
        have hv : hasValue tab y = true := by simp [hasValue, e]
        have hlen : (if front = true then y :: acc else acc ++ [y]).length = acc.length + 1 := by
          cases front <;> simp
        obtain ⟨r, h1, h2⟩ := ih (if front = true then y :: acc else acc ++ [y]) hys (by omega)
        refine ⟨r, ?_, ?_⟩
        · simp only [addUntil, if_neg h30, e, YearEntry.check, if_true, h1]
        · rw [hlen] at h2
          have hp : (if front = true then y :: acc else acc ++ [y]).Perm (acc ++ [y]) := by
            cases front
            · exact List.Perm.refl _
            · exact (List.perm_append_singleton y acc).symm
          have e1 : 30 - acc.length = (30 - (acc.length + 1)) + 1 := by omega
          simp only [List.filter_cons, hv, if_true]
          rw [e1, List.take_succ_cons]
          refine h2.trans ?_
          have := hp.append_right ((ys.filter (hasValue tab)).take (30 - (acc.length + 1)))
          simpa using this

/-- **C43.**  If the file of a station lists every year from 1901 to 2018 (with a value or `NA`), the years used are
exactly the first 30 years with a value in the order 1981–2009, 1979, 1980, 2010–2018, 1978 … 1901, returned in
ascending order without repetition; if there are fewer, all of them are used. -/
theorem C43_years (tab : ℕ → YearEntry) (h : ∀ y, 1901 ≤ y → y ≤ 2018 → tab y ≠ .absent) :
    ∃ years, calibYears tab = .ok years ∧ years.Pairwise (· < ·) ∧
      (∀ y, y ∈ years ↔ y ∈ (yearOrder.filter (hasValue tab)).take 30) ∧
      years.length = min 30 (yearOrder.filter (hasValue tab)).length := by
  have hr : ∀ a b, 1901 ≤ a → b ≤ 2019 → ∀ y ∈ pyRange a b, tab y ≠ .absent := by
    intro a b ha hb y hy
    rw [mem_pyRange] at hy
    exact h y (by omega) (by omega)
  have ea := addAll_ok tab (pyRange 1981 2010) [] (hr _ _ (by omega) (by omega))
  rw [List.nil_append] at ea
  have la : ((pyRange 1981 2010).filter (hasValue tab)).length ≤ 30 := by
    refine (List.length_filter_le _ _).trans ?_
    simp [pyRange]
  obtain ⟨b, eb, pb⟩ := addUntil_ok tab true (pyRange 1979 1981) _ (hr _ _ (by omega) (by omega)) la
  have key : ∀ (l m : List ℕ), l.length ≤ 30 → l ++ m.take (30 - l.length) = (l ++ m).take 30 := by
    intro l m hl
    rw [List.take_append, List.take_of_length_le hl]
  rw [key _ _ la, ← List.filter_append] at pb
  have step : ∀ (l m x : List ℕ), x.Perm (l.take 30) → (x ++ m.take (30 - x.length)).Perm ((l ++ m).take 30) := by
    intro l m x hx
    have hlen := hx.length_eq
    refine (hx.append_right _).trans ?_
    rw [hlen, List.length_take]
    rw [List.take_append]
    have : 30 - min 30 l.length = 30 - l.length := by omega
    rw [this]
  have lb : b.length ≤ 30 := by rw [pb.length_eq, List.length_take]; omega
  obtain ⟨c, ec, pc⟩ := addUntil_ok tab false (pyRange 2010 2019) b (hr _ _ (by omega) (by omega)) lb
  have pc' := pc.trans (step _ ((pyRange 2010 2019).filter (hasValue tab)) b pb)
  rw [← List.filter_append] at pc'
  have lc : c.length ≤ 30 := by rw [pc'.length_eq, List.length_take]; omega
  obtain ⟨d, ed, pd⟩ := addUntil_ok tab true (pyRange 1901 1979).reverse c
    (by intro y hy; rw [List.mem_reverse] at hy; exact hr _ _ (by omega) (by omega) y hy) lc
  have pd' := pd.trans (step _ ((pyRange 1901 1979).reverse.filter (hasValue tab)) c pc')
  rw [← List.filter_append] at pd'
  have hnod : d.Nodup := (pd'.nodup_iff).2 ((nodup_yearOrder.filter _).sublist (List.take_sublist _ _))
  refine ⟨d.insertionSort (· ≤ ·), ?_, ?_, ?_, ?_⟩
  · simp only [calibYears, ea, eb, ec, ed]
  · have h1 : (d.insertionSort (· ≤ ·)).Pairwise (· ≤ ·) := List.pairwise_insertionSort _ d
    have h2 : (d.insertionSort (· ≤ ·)).Nodup := ((List.perm_insertionSort _ d).nodup_iff).2 hnod
    exact (h1.and h2).imp (fun h => lt_of_le_of_ne h.1 h.2)
  · intro y
    rw [(List.perm_insertionSort _ d).mem_iff, pd'.mem_iff]
    rfl
  · rw [(List.perm_insertionSort _ d).length_eq, pd'.length_eq, List.length_take]
    rfl

/-- **C43.**  Every year used has an observed value and lies in 1901–2018; at most 30 years are used. -/
theorem C43_valid (tab : ℕ → YearEntry) (h : ∀ y, 1901 ≤ y → y ≤ 2018 → tab y ≠ .absent) :
    ∃ years, calibYears tab = .ok years ∧ years.length ≤ 30 ∧
      ∀ y ∈ years, tab y = .value ∧ 1901 ≤ y ∧ y ≤ 2018 := by
  obtain ⟨years, e, -, hm, hl⟩ := C43_years tab h
  refine ⟨years, e, by omega, ?_⟩
  intro y hy
  have := List.mem_of_mem_take ((hm y).1 hy)
  rw [List.mem_filter, mem_yearOrder] at this
  exact ⟨by simpa [hasValue] using this.2, this.1⟩

/-- **C43.**  A year from 1981 to 2009 that the file does not list stops the set-up. -/
theorem C43_absent (tab : ℕ → YearEntry) (y : ℕ) (h1 : 1981 ≤ y) (h2 : y < 2010) (h : tab y = .absent) :
    ∃ e, calibYears tab = .error e := by
  have gen : ∀ (ys acc : List ℕ), y ∈ ys → ∃ e, addAll tab ys acc = .error e := by
    intro ys
    induction ys with
    | nil => intro acc hy; simp at hy
    | cons z ys ih =>
      intro acc hy
      by_cases hz : z = y
      · subst hz; exact ⟨_, by simp only [addAll, h, YearEntry.check]; rfl⟩
      · have hy' : y ∈ ys := by
          rcases List.mem_cons.1 hy with rfl | hy
          · exact absurd rfl hz
          · exact hy
        cases e : tab z with
        | absent => exact ⟨_, by simp only [addAll, e, YearEntry.check]; rfl⟩
        | na =>
          obtain ⟨x, hx⟩ := ih acc hy'
          exact ⟨x, by simp only [addAll, e, YearEntry.check, Bool.false_eq_true, if_false, hx]⟩
        | value =>
          obtain ⟨x, hx⟩ := ih (acc ++ [z]) hy'
          exact ⟨x, by simp only [addAll, e, YearEntry.check, if_true, hx]⟩
  obtain ⟨e, he⟩ := gen (pyRange 1981 2010) [] ((mem_pyRange _ _ _).2 ⟨h1, h2⟩)
  exact ⟨e, by simp only [calibYears, he]⟩

/-- **C43 violated.**  For a station with observations in all years the preferred period 1981–2010 is not the one used:
2010 is left out and 1979 taken instead, and 1980 is skipped. -/
theorem C43_violated_preferred_period :
    calibYears (fun _ => .value) = .ok (1979 :: pyRange 1981 2010) := by decide +kernel

/-- A station that has observations every second year from 1931 on: all 44 years with a value are candidates, the 30
preferred ones are used. -/
example : calibYears (fun y => if y % 2 = 1 ∧ 1931 ≤ y then .value else .na) =
    .ok ((pyRange 1959 2019).filter (fun y => y % 2 = 1)) := by
  decide +kernel

/-! ## Files of ten years (C57) -/

/-- **C57.**  The files of the actual abstractions cover the calibration period exactly: every year of the period is in
one and only one of them, none covers more than ten years or a year outside. -/
theorem C57_cover (start fin y : ℕ) :
    (start ≤ y ∧ y ≤ fin ↔ ∃ p ∈ tenYears start fin, p.1 ≤ y ∧ y ≤ p.2) ∧
    (∀ p ∈ tenYears start fin, start ≤ p.1 ∧ p.1 ≤ p.2 ∧ p.2 ≤ fin ∧ p.2 ≤ p.1 + 9) ∧
    (tenYears start fin).Pairwise (fun p q => p.2 < q.1) := by
  induction hn : fin + 1 - start using Nat.strong_induction_on generalizing start with
  | _ n ih =>
    by_cases h : start ≤ fin
    · rw [tenYears, if_pos h]
      obtain ⟨i1, i2, i3⟩ := ih (fin + 1 - (start + 10)) (by omega) (start + 10) rfl
      refine ⟨?_, ?_, ?_⟩
      · constructor
        · rintro ⟨h1, h2⟩
          by_cases h9 : y ≤ start + 9
          · exact ⟨(start, min (start + 9) fin), by simp, h1, by simp; omega⟩
          · obtain ⟨p, hp, hy⟩ := i1.1 ⟨by omega, h2⟩
            exact ⟨p, by simp [hp], hy⟩
        · rintro ⟨p, hp, hy⟩
          rcases List.mem_cons.1 hp with rfl | hp
          · simp only at hy; omega
          · have := i2 p hp; omega
      · intro p hp
        rcases List.mem_cons.1 hp with rfl | hp
        · simp only; omega
        · have := i2 p hp; omega
      · rw [List.pairwise_cons]
        refine ⟨fun q hq => ?_, i3⟩
        have := i2 q hq
        simp only; omega
    · rw [tenYears, if_neg h]
      simp
      omega

example : tenYears 1979 2003 = [(1979, 1988), (1989, 1998), (1999, 2003)] := by
  simp [tenYears]

/-! ## Merging the parameter files (C46) -/

theorem foldl_mergeStep_ones (files : List (Option ℝ)) (out : Option ℝ) (h : ∀ f ∈ files, f = some 1) :
    files.foldl mergeStep out = out := by
  induction files generalizing out with
  | nil => rfl
  | cons f rest ih =>
    rw [List.foldl_cons]
    have hf : mergeStep out f = out := by simp [mergeStep, h f (by simp)]
    rw [hf]
    exact ih _ (fun g hg => h g (List.mem_cons_of_mem _ hg))

/-- **C46.**  The merged correction factor of a cell: the value of the only region that changed it, and 1 if no region
changed it. Cells that are missing in every file stay missing. -/
theorem C46_factor (files : List (Option ℝ)) :
    (∀ (a b : List (Option ℝ)) c, files = a ++ some c :: b → (∀ f ∈ a ++ b, f = some 1) → mergeFactor files = some c) ∧
    (files ≠ [] → (∀ f ∈ files, f = some 1) → mergeFactor files = some 1) ∧
    ((∀ f ∈ files, f = none) → mergeFactor files = none) := by
  refine ⟨?_, ?_, ?_⟩
  · intro a b c e h
    subst e
    have ha := foldl_mergeStep_ones a ((((a ++ some c :: b).headD none).map fun _ => (1 : ℝ)))
      (fun f hf => h f (List.mem_append_left _ hf))
    unfold mergeFactor
    rw [List.foldl_append, ha, List.foldl_cons,
      foldl_mergeStep_ones b _ (fun f hf => h f (List.mem_append_right _ hf))]
    by_cases hc : c = 1
    · subst hc
      cases a with
      | nil => simp [mergeStep]
      | cons x a =>
        have : x = some 1 := h x (by simp)
        simp [mergeStep, this]
    · simp [mergeStep, hc]
  · intro hne h
    unfold mergeFactor
    rw [foldl_mergeStep_ones _ _ h]
    cases files with
    | nil => exact absurd rfl hne
    | cons f rest => simp [h f (by simp)]
  · intro h
    have gen : ∀ l : List (Option ℝ), (∀ f ∈ l, f = none) → l.foldl mergeStep none = none := by
      intro l
      induction l with
      | nil => intro _; rfl
      | cons f rest ih =>
        intro hl
        rw [List.foldl_cons]
        have : mergeStep none f = none := by simp [mergeStep, hl f (by simp)]
        rw [this]
        exact ih (fun g hg => hl g (List.mem_cons_of_mem _ hg))
    unfold mergeFactor
    cases files with
    | nil => rfl
    | cons f rest =>
      have hf := h f (by simp)
      simp only [List.headD_cons, hf, Option.map_none]
      subst hf
      exact gen _ h

/-- **C46 violated.**  A factor that is not a number in one region (a unit without runoff, see C41) makes the merged
factor of the cell not a number, whatever the other regions say. -/
theorem C46_violated_nan (a b : List (Option ℝ)) (h : ∀ f ∈ b, f = some 1) : mergeFactor (a ++ none :: b) = none := by
  unfold mergeFactor
  rw [List.foldl_append, List.foldl_cons, foldl_mergeStep_ones b _ h]
  simp [mergeStep]

/-- C46: as long as at most one file has a value other than 1 for the cell and no value is missing, the order of the
files does not matter. -/
theorem C46_order_independent (f1 f2 : List (Option ℝ)) (hp : f1.Perm f2) (hv : ∀ f ∈ f1, f ≠ none)
    (h1 : f1.countP (fun f => decide (f ≠ some 1)) ≤ 1) : mergeFactor f1 = mergeFactor f2 := by
  rcases f1.eq_nil_or_concat with rfl | ⟨_, _, hne⟩
  · rw [List.nil_perm.mp hp]
  have hne1 : f1 ≠ [] := by rw [hne]; simp
  have hne2 : f2 ≠ [] := fun h => hne1 (List.perm_nil.mp (h ▸ hp))
  by_cases hall : ∀ f ∈ f1, f = some 1
  · rw [(C46_factor f1).2.1 hne1 hall, (C46_factor f2).2.1 hne2 fun f hf => hall f (hp.mem_iff.mpr hf)]
  · push Not at hall
    obtain ⟨f, hf, hf1⟩ := hall
    obtain ⟨c, rfl⟩ := Option.ne_none_iff_exists'.mp (hv f hf)
    have key : ∀ l : List (Option ℝ), some c ∈ l → l.countP (fun f => decide (f ≠ some 1)) ≤ 1 →
        mergeFactor l = some c := by
      intro l hm hc
      obtain ⟨a, b, rfl⟩ := List.append_of_mem hm
      apply (C46_factor _).1 a b c rfl
      intro g hg
      by_contra hgn
      rw [List.countP_append, List.countP_cons_of_pos (by simpa using hf1)] at hc
      have hz : a.countP (fun f => decide (f ≠ some 1)) = 0 ∧ b.countP (fun f => decide (f ≠ some 1)) = 0 := by omega
      rcases List.mem_append.mp hg with h | h
      · have := List.countP_eq_zero.mp hz.1 g h
        simp [hgn] at this
      · have := List.countP_eq_zero.mp hz.2 g h
        simp [hgn] at this
    rw [key f1 hf h1, key f2 (hp.mem_iff.mp hf) (by rw [← hp.countP_eq]; exact h1)]

example : mergeFactor [some 1, some 0.7, some 1] = mergeFactor [some 0.7, some 1, some 1] :=
  C46_order_independent _ _ (List.Perm.swap _ _ _) (by simp) (by simp; norm_num [List.countP_cons])

theorem clipGamma_range (g : ℝ) : 0.1 ≤ clipGamma g ∧ clipGamma g ≤ 5 := by
  unfold clipGamma
  constructor
  · exact le_min (by norm_num) (le_max_left _ _)
  · exact min_le_left _ _

theorem clipGamma_eq (g : ℝ) (h1 : 0.1 ≤ g) (h2 : g ≤ 5) : clipGamma g = g := by
  unfold clipGamma
  rw [max_eq_right h1, min_eq_right h2]

/-- **C46.**  Outside the North China Plain the merged runoff coefficient is between 0.1 and 5, and is the calibrated or
estimated one if that is in the range; a value given for the North China Plain is taken as it is. -/
theorem C46_gamma (final : ℝ) (china : Option ℝ) :
    ((china = none ∨ china = some (-99)) → ∃ g, mergeGamma (some final) china = some g ∧ 0.1 ≤ g ∧ g ≤ 5 ∧
      (0.1 ≤ final → final ≤ 5 → g = final)) ∧
    (∀ v, china = some v → v ≠ -99 → mergeGamma (some final) china = some v) := by
  constructor
  · intro h
    refine ⟨clipGamma final, ?_, (clipGamma_range final).1, (clipGamma_range final).2, clipGamma_eq final⟩
    rcases h with rfl | rfl <;> simp [mergeGamma]
  · rintro v rfl hv
    simp [mergeGamma, hv]

example : mergeFactor [some 1, some 0.7, some 1] = some 0.7 :=
  (C46_factor _).1 [some 1] [some 1] 0.7 rfl (by simp)

example : mergeFactor [some 0.7, none, some 1] = none := C46_violated_nan [some 0.7] [some 1] (by simp)

/-! ## Regionalisation (C56) -/

variable {ι : Type}

theorem firstRegion_of_group {regions : List (ι → Option (String × ℝ))} {sb : ι → ℕ} {i : ι} {s : String}
    (h : groupOf regions sb i = .inl s) : ∃ g, firstRegion regions i = some (s, g) := by
  unfold groupOf at h
  cases e : firstRegion regions i with
  | none => rw [e] at h; cases h
  | some p =>
    rw [e] at h
    obtain ⟨t, g⟩ := p
    simp only [Sum.inl.injEq] at h
    exact ⟨g, by rw [h]⟩

/-- **C56.**  A cell of a calibration unit keeps the coefficient calibrated for the station: if all cells of the unit
of station `s` carry the coefficient `g`, then so does the result. -/
theorem C56_calibrated (cells : List ι) (regions : List (ι → Option (String × ℝ))) (sb : ι → ℕ) (lnEst : Group → ℝ)
    (i : ι) (s : String) (g : ℝ) (hi : i ∈ cells) (hs : firstRegion regions i = some (s, g))
    (hall : ∀ j ∈ cells, ∀ g', firstRegion regions j = some (s, g') → g' = g) :
    gammaFinal cells regions sb lnEst i = g := by
  have hg : groupOf regions sb i = .inl s := by simp [groupOf, hs]
  have hmem : ∀ x ∈ groupGammas cells regions sb (.inl s), x = g := by
    intro x hx
    simp only [groupGammas, List.mem_filterMap, List.mem_filter, decide_eq_true_eq] at hx
    obtain ⟨j, ⟨hj, hjg⟩, hx⟩ := hx
    obtain ⟨g', e⟩ := firstRegion_of_group hjg
    rw [e] at hx
    simp only [Option.map_some, Option.some.injEq] at hx
    rw [← hx]
    exact hall j hj g' e
  have hne : groupGammas cells regions sb (.inl s) ≠ [] := by
    apply List.ne_nil_of_mem (a := g)
    simp only [groupGammas, List.mem_filterMap, List.mem_filter, decide_eq_true_eq]
    exact ⟨i, ⟨hi, hg⟩, by rw [hs]; rfl⟩
  have hrep := List.eq_replicate_of_mem hmem
  have hlen : ((groupGammas cells regions sb (.inl s)).length : ℝ) ≠ 0 := by
    simpa using hne
  have hmean : groupMean cells regions sb (.inl s) = some g := by
    simp only [groupMean, if_neg hne]
    congr 1
    rw [hrep]
    simp only [List.sum_replicate, nsmul_eq_mul, List.length_replicate]
    field_simp
  simp only [gammaFinal, hg, hmean]

/-- **C56.**  A cell outside every calibration unit gets the estimate of its super basin, limited to [0.1, 5]; all such
cells of a super basin get the same. -/
theorem C56_estimated (cells : List ι) (regions : List (ι → Option (String × ℝ))) (sb : ι → ℕ) (lnEst : Group → ℝ)
    (i : ι) (h : firstRegion regions i = none) :
    gammaFinal cells regions sb lnEst i = clipGamma (Real.exp (lnEst (.inr (sb i)))) := by
  have hg : groupOf regions sb i = .inr (sb i) := by simp [groupOf, h]
  have he : groupGammas cells regions sb (.inr (sb i)) = [] := by
    rw [List.eq_nil_iff_forall_not_mem]
    intro x hx
    simp only [groupGammas, List.mem_filterMap, List.mem_filter, decide_eq_true_eq] at hx
    obtain ⟨j, ⟨-, hjg⟩, hx⟩ := hx
    unfold groupOf at hjg
    cases e : firstRegion regions j with
    | none => rw [e] at hx; simp at hx
    | some p => rw [e] at hjg; cases hjg
  simp only [gammaFinal, hg, groupMean, he, if_true]

/-- **C56.**  If every calibrated coefficient is between 0.1 and 5, so is the coefficient of every cell. -/
theorem C56_range (cells : List ι) (regions : List (ι → Option (String × ℝ))) (sb : ι → ℕ) (lnEst : Group → ℝ) (i : ι)
    (h : ∀ r ∈ regions, ∀ j s g, r j = some (s, g) → 0.1 ≤ g ∧ g ≤ 5) :
    0.1 ≤ gammaFinal cells regions sb lnEst i ∧ gammaFinal cells regions sb lnEst i ≤ 5 := by
  have hmem : ∀ G x, x ∈ groupGammas cells regions sb G → 0.1 ≤ x ∧ x ≤ 5 := by
    intro G x hx
    simp only [groupGammas, List.mem_filterMap, List.mem_filter] at hx
    obtain ⟨j, -, hx⟩ := hx
    cases e : firstRegion regions j with
    | none => rw [e] at hx; simp at hx
    | some p =>
      rw [e] at hx
      simp only [Option.map_some, Option.some.injEq] at hx
      obtain ⟨r, hr, hrj⟩ := List.exists_of_findSome?_eq_some e
      rw [← hx]
      exact h r hr j p.1 p.2 hrj
  by_cases he : groupGammas cells regions sb (groupOf regions sb i) = []
  · simp only [gammaFinal, groupMean, he, if_true]
    exact clipGamma_range _
  · simp only [gammaFinal, groupMean, if_neg he]
    have hm := hmem (groupOf regions sb i)
    generalize groupGammas cells regions sb (groupOf regions sb i) = l at he hm
    have hlen : 0 < (l.length : ℝ) := by exact_mod_cast List.length_pos_iff.2 he
    have hb : ∀ l : List ℝ, (∀ x ∈ l, 0.1 ≤ x ∧ x ≤ 5) → 0.1 * (l.length : ℝ) ≤ l.sum ∧ l.sum ≤ 5 * l.length := by
      intro l
      induction l with
      | nil => simp
      | cons x l ih =>
        intro h
        have h1 := h x (by simp)
        have h2 := ih (fun y hy => h y (List.mem_cons_of_mem _ hy))
        simp only [List.sum_cons, List.length_cons, Nat.cast_add, Nat.cast_one]
        constructor <;> linarith [h1.1, h1.2, h2.1, h2.2]
    obtain ⟨h1, h2⟩ := hb l hm
    exact ⟨(le_div_iff₀ hlen).2 h1, (div_le_iff₀ hlen).2 h2⟩

/-- Three cells, the first two in the unit of a station with coefficient 2.5, the third in super basin 7. -/
example (lnEst : Group → ℝ) :
    gammaFinal [0, 1, 2] [fun i : ℕ => if i < 2 then some ("s", 2.5) else none] (fun _ => 7) lnEst 1 = 2.5 ∧
    gammaFinal [0, 1, 2] [fun i : ℕ => if i < 2 then some ("s", 2.5) else none] (fun _ => 7) lnEst 2 =
      clipGamma (Real.exp (lnEst (.inr 7))) := by
  refine ⟨C56_calibrated _ _ _ _ 1 "s" 2.5 (by simp) (by simp [firstRegion]) ?_, C56_estimated _ _ _ _ 2 (by simp [firstRegion])⟩
  intro j hj g' h
  simp only [firstRegion, List.findSome?_cons, List.findSome?_nil] at h
  by_cases h2 : j < 2
  · simp only [h2, if_true, Option.some.injEq, Prod.mk.injEq, true_and] at h; exact h.symm
  · simp [h2] at h

end WG
