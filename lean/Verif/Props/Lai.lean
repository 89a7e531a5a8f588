import Verif.Model.Lai

/-! Property C08: the leaf area index. -/

namespace WG

/-- Sensible vegetation parameters. -/
structure LaiPar.Ok (p : LaiPar) : Prop where
  order : p.minLai ≤ p.maxLai
  init : 0 ≤ p.initialDays
  land : p.landCover ≠ none

/-- What C08 promises of every state. -/
structure LaiState.InRange (p : LaiPar) (s : LaiState) : Prop where
  lower : p.minLai ≤ s.lai
  upper : s.lai ≤ p.maxLai
  days : 0 ≤ s.days

theorem laiGrow_range (p : LaiPar) (hp : p.Ok) (d : ℤ) (c : ℝ) (hd : p.initialDays ≤ d) :
    (laiGrow p d c).InRange p := by
  have h1 := hp.order
  have h2 := hp.init
  unfold laiGrow
  split_ifs with h
  · exact ⟨h1, le_rfl, by simpa using h2.trans hd⟩
  · have h3 : ((d - p.initialDays : ℤ) : ℝ) ≤ 30 := by
      have : d - p.initialDays ≤ 30 := by omega
      exact_mod_cast this
    have h4 : (0 : ℝ) ≤ ((d - p.initialDays : ℤ) : ℝ) := by
      have : 0 ≤ d - p.initialDays := by omega
      exact_mod_cast this
    constructor
    · simp only; nlinarith
    · simp only; nlinarith
    · exact h2.trans hd

private theorem decline_range (p : LaiPar) (hp : p.Ok) (d : ℤ) (h0 : 0 ≤ d) (h30 : d ≤ 30) :
    p.minLai ≤ p.maxLai - ((p.maxLai - p.minLai) / 30) * ((30 - d : ℤ) : ℝ) ∧
    p.maxLai - ((p.maxLai - p.minLai) / 30) * ((30 - d : ℤ) : ℝ) ≤ p.maxLai := by
  have := hp.order
  have h3 : ((30 - d : ℤ) : ℝ) ≤ 30 := by
    have : 30 - d ≤ 30 := by omega
    exact_mod_cast this
  have h4 : (0 : ℝ) ≤ ((30 - d : ℤ) : ℝ) := by
    have : 0 ≤ 30 - d := by omega
    exact_mod_cast this
  constructor <;> nlinarith

/-- C08, one day: from any state with a non-negative day counter the next leaf area index lies between its
bounds and the counter stays non-negative (a state always carries a 0/1 growth status by its type; all
stores in the code are 0 or 1). -/
theorem C08_lai_step (p : LaiPar) (hp : p.Ok) (s : LaiState) (hs : 0 ≤ s.days) (t prec : ℝ) :
    (laiStep p s t prec).InRange p := by
  have h1 := hp.order
  have h2 := hp.init
  obtain ⟨lc, hlc⟩ := Option.ne_none_iff_exists'.mp hp.land
  have hdecl : ∀ (d : ℤ) (c : ℝ) (g : Bool), 0 ≤ d → d ≤ 30 → LaiState.InRange p
      { lai := p.maxLai - ((p.maxLai - p.minLai) / 30) * ((30 - d : ℤ) : ℝ),
        days := d, cumPrecip := c, grown := g } := fun d c g h0 h30 =>
    ⟨(decline_range p hp d h0 h30).1, (decline_range p hp d h0 h30).2, h0⟩
  simp only [laiStep, hlc]
  by_cases ht : t > 281.15
  · simp only [if_pos ht]
    by_cases hg : s.grown = false
    · simp only [if_pos hg]
      split_ifs with ha hb
      · exact laiGrow_range p hp _ _ (by omega)
      · exact ⟨le_rfl, h1, h2⟩
      · exact ⟨le_rfl, h1, by simp only; omega⟩
    · simp only [if_neg hg]
      by_cases h30 : s.days ≤ 30
      · simp only [if_pos h30]
        exact hdecl _ _ _ (by split_ifs <;> omega) (by split_ifs <;> omega)
      · simp only [if_neg h30]
        exact ⟨h1, le_rfl, by simp only; split_ifs <;> omega⟩
  · simp only [if_neg ht]
    by_cases hg : s.grown = false
    · simp only [if_pos hg]
      split_ifs with ha hb
      · exact laiGrow_range p hp _ _ (by omega)
      · exact ⟨le_rfl, h1, h2⟩
      · exact ⟨le_rfl, h1, hs⟩
    · simp only [if_neg hg]
      by_cases h30 : s.days ≤ 30
      · simp only [if_pos h30]
        exact hdecl _ _ _ (by split_ifs <;> omega) (by split_ifs <;> omega)
      · simp only [if_neg h30]
        exact ⟨h1, le_rfl, by simp only; omega⟩

/-- The state the program starts from: no counter, no precipitation, nothing growing
(`waterbalance_vertical_init.py`). -/
def laiInit : LaiState := { lai := 0, days := 0, cumPrecip := 0, grown := false }

/-- C08: after any non-empty sequence of days of weather the leaf area index is within its bounds. -/
theorem C08_lai_history (p : LaiPar) (hp : p.Ok) (ws : List (ℝ × ℝ)) (hne : ws ≠ []) :
    (laiRun p laiInit ws).InRange p := by
  have gen : ∀ (ws : List (ℝ × ℝ)) (s : LaiState), 0 ≤ s.days → ws ≠ [] → (laiRun p s ws).InRange p := by
    intro ws
    induction ws with
    | nil => intro s _ h; exact absurd rfl h
    | cons w ws ih =>
      intro s hs _
      have h1 := C08_lai_step p hp s hs w.1 w.2
      by_cases hw : ws = []
      · subst hw; exact h1
      · exact ih _ h1.days hw
  exact gen ws laiInit le_rfl hne

/-- A deciduous forest used for the examples. -/
noncomputable def sampleLai : LaiPar :=
  { initialDays := 10, minLai := 0.1, maxLai := 4.63, landCover := some 3, humidArid := 0 }

theorem sampleLai_ok : sampleLai.Ok := ⟨by norm_num [sampleLai], by norm_num [sampleLai], by simp [sampleLai]⟩

example : (laiRun sampleLai laiInit [(290, 5), (291, 50)]).InRange sampleLai :=
  C08_lai_history sampleLai sampleLai_ok _ (by simp)

/-- A cell without land cover keeps its state for ever. -/
theorem C08_no_land_cover (p : LaiPar) (h : p.landCover = none) (s : LaiState) (ws : List (ℝ × ℝ)) :
    laiRun p s ws = s := by
  induction ws generalizing s with
  | nil => rfl
  | cons w ws ih => simp [laiRun, laiStep, h, ih]

/-- The leaf area index as a function of the season counters (specification of the seasonal profile):
minimum before the season, a 30-day linear rise, maximum, a 30-day linear fall. -/
noncomputable def laiProfile (p : LaiPar) (grown : Bool) (days : ℤ) : ℝ :=
  if grown then
    (if 30 ≤ days then p.maxLai else p.maxLai - (p.maxLai - p.minLai) / 30 * ((30 - days : ℤ) : ℝ))
  else
    (if days ≤ p.initialDays then p.minLai
     else p.minLai + (p.maxLai - p.minLai) / 30 * ((days - p.initialDays : ℤ) : ℝ))

/-- The states that occur: the index is on the seasonal profile (or, right after the decline of an evergreen
class turned into growth, one daily step above it), an unfinished season lasts less than 30 days
beyond the initial days and has seen more than 40 mm of precipitation. -/
structure LaiState.OnProfile (p : LaiPar) (s : LaiState) : Prop where
  lai : s.lai = laiProfile p s.grown s.days ∨
    (s.grown = false ∧ s.lai = laiProfile p s.grown s.days + (p.maxLai - p.minLai) / 30)
  days : 0 ≤ s.days
  rise : s.grown = false → s.days < p.initialDays + 30
  rain : s.grown = false → p.initialDays < s.days → 40 < s.cumPrecip

/-- C08: on reachable states every day keeps the index on the seasonal profile and moves it by at most one
thirtieth of the range — for deciduous land cover (`lc > 2`) and for the evergreen one as parameterised in
the shipped table (`initial_days = 1`), where decline can turn into growth. -/
theorem C08_lai_smooth (p : LaiPar) (hp : p.Ok) (lc : ℝ) (hlc : p.landCover = some lc)
    (hdec : 2 < lc ∨ p.initialDays = 1)
    (s : LaiState) (hs : s.OnProfile p) (hcg : s.grown = true → 40 < s.cumPrecip)
    (t prec : ℝ) (hprec : 0 ≤ prec) :
    (laiStep p s t prec).OnProfile p ∧
    ((laiStep p s t prec).grown = true → 40 < (laiStep p s t prec).cumPrecip) ∧
    |(laiStep p s t prec).lai - s.lai| ≤ (p.maxLai - p.minLai) / 30 := by
  have h1 := hp.order
  have h2 := hp.init
  obtain ⟨hl, hd, hr, hc⟩ := hs
  set q := (p.maxLai - p.minLai) / 30 with hq
  have hq0 : 0 ≤ q := by rw [hq]; apply div_nonneg <;> linarith
  have hq30 : p.maxLai - p.minLai = 30 * q := by rw [hq]; ring
  have abs0 : |(0:ℝ)| ≤ q := by simpa using hq0
  have step1 : ∀ a b : ℝ, a - b = q ∨ a - b = 0 ∨ a - b = -q → |a - b| ≤ q := by
    intro a b h
    rcases h with h | h | h <;> rw [h]
    · rw [abs_of_nonneg hq0]
    · exact abs0
    · rw [abs_neg, abs_of_nonneg hq0]
  -- the growing step
  have grow : s.grown = false → p.initialDays ≤ s.days → s.cumPrecip + prec > 40 →
      (laiGrow p (s.days + 1) (s.cumPrecip + prec)).OnProfile p ∧
      ((laiGrow p (s.days + 1) (s.cumPrecip + prec)).grown = true →
        40 < (laiGrow p (s.days + 1) (s.cumPrecip + prec)).cumPrecip) ∧
      |(laiGrow p (s.days + 1) (s.cumPrecip + prec)).lai - s.lai| ≤ q := by
    intro hg hge hcum
    have hlt := hr hg
    have hpr : laiProfile p s.grown s.days = p.minLai + q * ((s.days - p.initialDays : ℤ) : ℝ) := by
      rw [laiProfile, hg, if_neg (by simp)]
      split_ifs with h
      · have : s.days = p.initialDays := le_antisymm h hge
        rw [this]; simp
      · rfl
    have hsl : s.lai = p.minLai + q * ((s.days - p.initialDays : ℤ) : ℝ) ∨
        s.lai = p.minLai + q * ((s.days - p.initialDays : ℤ) : ℝ) + q := by
      rw [← hpr]
      exact hl.imp id fun h => h.2
    unfold laiGrow
    rw [← hq]
    split_ifs with h
    · have e : s.days - p.initialDays = 29 := by omega
      refine ⟨⟨Or.inl ?_, by simp only; omega, by simp, by simp⟩, fun _ => hcum, ?_⟩
      · simp only [laiProfile, if_true]
        rw [if_pos (by omega)]
      · apply step1
        simp only
        rw [e] at hsl
        push_cast at hsl
        rcases hsl with hsl | hsl
        · left; rw [hsl]; linarith
        · right; left; rw [hsl]; linarith
    · refine ⟨⟨Or.inl ?_, by simp only; omega, fun _ => by simp only; omega, ?_⟩, by simp, ?_⟩
      · simp only [laiProfile]
        rw [if_neg (by simp), if_neg (by omega)]
      · intro _ _; exact hcum
      · apply step1
        simp only
        push_cast at hsl ⊢
        rcases hsl with hsl | hsl
        · left; rw [hsl]; ring
        · right; left; rw [hsl]; ring
  -- the reset branches can only be reached from the minimum
  have atMin : s.grown = false → s.days ≤ p.initialDays → |p.minLai - s.lai| ≤ q := by
    intro hg hle
    have : laiProfile p s.grown s.days = p.minLai := by
      rw [laiProfile, hg]
      simp [hle]
    rw [this] at hl
    apply step1
    rcases hl with h | ⟨-, h⟩
    · right; left; rw [h]; ring
    · right; right; rw [h]; ring
  have hnoreset : s.grown = false → ¬ s.cumPrecip + prec > 40 → s.days ≤ p.initialDays := by
    intro hg hn
    by_contra hlt
    have := hc hg (not_le.mp hlt)
    linarith
  have dec : s.grown = true → s.days ≤ 30 →
      s.lai = p.maxLai - q * ((30 - s.days : ℤ) : ℝ) := by
    intro hg hle
    rw [hl.resolve_right (by simp [hg]), laiProfile, hg, if_pos rfl]
    split_ifs with h
    · have : s.days = 30 := le_antisymm hle h
      rw [this]; simp
    · rfl
  have atMax : s.grown = true → 30 ≤ s.days → s.lai = p.maxLai := by
    intro hg hlt
    rw [hl.resolve_right (by simp [hg]), laiProfile, hg]
    simp [hlt]
  -- the declining step, with the growth status `g` after it
  have decline : s.grown = true → s.days ≤ 30 → ∀ g : Bool, (g = true ∨ p.initialDays = 1) →
      let d2 : ℤ := (if s.days - 1 ≤ 0 then 0 else s.days - 1)
      let o : LaiState :=
        { lai := p.maxLai - q * ((30 - d2 : ℤ) : ℝ)
          days := d2
          cumPrecip := (if s.days - 1 ≤ 0 then 0 else s.cumPrecip)
          grown := (if s.days - 1 ≤ 0 then false else g) }
      o.OnProfile p ∧ (o.grown = true → 40 < o.cumPrecip) ∧ |o.lai - s.lai| ≤ q := by
    intro hg h30 g hgi
    have hsl := dec hg h30
    by_cases h0 : s.days - 1 ≤ 0
    · simp only [if_pos h0]
      refine ⟨⟨Or.inl ?_, le_rfl, fun _ => by simp only; omega, by intro _ h; simp only at h; omega⟩,
        by simp, ?_⟩
      · simp only [laiProfile]
        rw [if_neg (by simp), if_pos h2]
        push_cast
        linarith

      · rw [hsl]
        rcases (by omega : s.days = 0 ∨ s.days = 1) with h | h
        · rw [h]; simp [hq0]
        · rw [h]
          apply step1
          right; right
          push_cast
          ring
    · simp only [if_neg h0]
      refine ⟨⟨?_, by simp only; omega, ?_, ?_⟩, ?_, ?_⟩
      · simp only [laiProfile]
        cases g with
        | true =>
          left
          rw [if_pos rfl, if_neg (by omega)]
        | false =>
          right
          have hi := hgi.resolve_left (by simp)
          rw [if_neg (by simp), hi, ← hq]
          refine ⟨rfl, ?_⟩
          split_ifs with h
          · have : s.days = 2 := by omega
            rw [this]; push_cast; linarith
          · push_cast; linarith
      · intro _; simp only; omega
      · intro _ _; exact hcg hg
      · intro _; exact hcg hg
      · rw [hsl]
        apply step1
        right; right
        push_cast
        ring
  simp only [laiStep, hlc]
  by_cases ht : t > 281.15
  · simp only [if_pos ht]
    by_cases hg : s.grown = false
    · simp only [if_pos hg]
      by_cases ha : s.days ≥ p.initialDays
      · simp only [if_pos ha]
        by_cases hb : s.cumPrecip + prec > 40
        · simp only [if_pos hb]; exact grow hg ha hb
        · simp only [if_neg hb]
          refine ⟨⟨by simp [laiProfile], h2, by simp, by simp⟩, by simp, ?_⟩
          exact atMin hg (hnoreset hg hb)
      · simp only [if_neg ha]
        have hle : s.days + 1 ≤ p.initialDays := by omega
        refine ⟨⟨by simp [laiProfile, hle], by simp only; omega, fun _ => by simp only; omega,
          by intro _ h; simp only at h; omega⟩, by simp, ?_⟩
        exact atMin hg (by omega)
    · simp only [if_neg hg]
      have hgt : s.grown = true := by simpa using hg
      by_cases h30 : s.days ≤ 30
      · simp only [if_pos h30]
        refine decline hgt h30 (if lc ≤ 2 then false else true) ?_
        rcases hdec with h | h
        · left; simp [h]
        · right; exact h
      · simp only [if_neg h30]
        refine ⟨⟨Or.inl ?_, ?_, by simp, by simp⟩, fun _ => hcg hgt, ?_⟩
        · simp only [laiProfile, if_true]
          rw [if_pos]
          split_ifs <;> omega
        · simp only; split_ifs <;> omega
        · rw [atMax hgt (by omega), sub_self]; exact abs0
  · simp only [if_neg ht]
    by_cases hg : s.grown = false
    · simp only [if_pos hg]
      by_cases ha : s.days > p.initialDays
      · simp only [if_pos ha]
        by_cases hb : s.cumPrecip + prec > 40
        · simp only [if_pos hb]; exact grow hg (by omega) hb
        · exact absurd (hnoreset hg hb) (by omega)
      · simp only [if_neg ha]
        refine ⟨⟨by simp [laiProfile, not_lt.mp ha], hd, fun _ => by simp only; omega,
          by intro _ h; simp only at h; omega⟩, by simp, ?_⟩
        exact atMin hg (by omega)
    · simp only [if_neg hg]
      have hgt : s.grown = true := by simpa using hg
      by_cases h30 : s.days ≤ 30
      · simp only [if_pos h30]
        exact decline hgt h30 true (Or.inl rfl)
      · simp only [if_neg h30]
        refine ⟨⟨Or.inl ?_, by simp only; omega, by simp, by simp⟩, fun _ => hcg hgt, ?_⟩
        · simp only [laiProfile, if_true]
          rw [if_pos (by omega)]
        · rw [atMax hgt (by omega), sub_self]; exact abs0

/-- The hypotheses of `C08_lai_smooth` hold in the state with the minimum leaf area index at the start. -/
theorem lai_start_onProfile (p : LaiPar) (hp : p.Ok) :
    LaiState.OnProfile p { lai := p.minLai, days := 0, cumPrecip := 0, grown := false } :=
  ⟨Or.inl (by simp [laiProfile, hp.init]), le_rfl, fun _ => by have := hp.init; simp only; omega,
    fun _ h => absurd h (not_lt.mpr hp.init)⟩

/-- C08: along every history from the start of the simulation the leaf area index moves by at most one
thirtieth of its range per day and stays on the seasonal profile. -/
theorem C08_lai_smooth_history (p : LaiPar) (hp : p.Ok) (lc : ℝ) (hlc : p.landCover = some lc)
    (hdec : 2 < lc ∨ p.initialDays = 1) (ws : List (ℝ × ℝ)) (w : ℝ × ℝ)
    (hprec : ∀ x ∈ ws ++ [w], 0 ≤ x.2) :
    let s0 : LaiState := { lai := p.minLai, days := 0, cumPrecip := 0, grown := false }
    |(laiRun p s0 (ws ++ [w])).lai - (laiRun p s0 ws).lai| ≤ (p.maxLai - p.minLai) / 30 := by
  have gen : ∀ (ws : List (ℝ × ℝ)) (s : LaiState), s.OnProfile p →
      (s.grown = true → 40 < s.cumPrecip) → (∀ x ∈ ws ++ [w], 0 ≤ x.2) →
      |(laiRun p s (ws ++ [w])).lai - (laiRun p s ws).lai| ≤ (p.maxLai - p.minLai) / 30 := by
    intro ws
    induction ws with
    | nil =>
      intro s hs hc hw
      exact (C08_lai_smooth p hp lc hlc hdec s hs hc w.1 w.2 (hw w (by simp))).2.2
    | cons v vs ih =>
      intro s hs hc hw
      obtain ⟨a, b, -⟩ := C08_lai_smooth p hp lc hlc hdec s hs hc v.1 v.2 (hw v (by simp))
      exact ih _ a b fun x hx => hw x (by simp at hx ⊢; tauto)
  exact gen ws _ (lai_start_onProfile p hp) (by simp) hprec

example : ∀ x ∈ [((290 : ℝ), (5 : ℝ))] ++ [(291, 50)], 0 ≤ x.2 := by
  intro x hx; simp at hx; rcases hx with rfl | rfl <;> norm_num

/-- The minimum leaf area index never exceeds the maximum for fractions in `[0,1]`, provided the maximum is
at least the 0.1 of a bare deciduous tree, or nothing is deciduous (`lai_init.py:63-64`). -/
theorem C08_min_le_max (maxLai fd red : ℝ) (h0 : 0 ≤ fd) (h1 : fd ≤ 1) (hr0 : 0 ≤ red) (hr1 : red ≤ 1)
    (hm : 0 ≤ maxLai) (hcase : 0.1 ≤ maxLai ∨ fd = 0) :
    0 ≤ minLeafAreaIndex maxLai fd red ∧ minLeafAreaIndex maxLai fd red ≤ maxLai := by
  unfold minLeafAreaIndex
  have h2 : 0 ≤ (1 - fd) * red * maxLai := by
    have : 0 ≤ 1 - fd := by linarith
    positivity
  have h3 : (1 - fd) * red * maxLai ≤ (1 - fd) * maxLai := by
    have : 0 ≤ (1 - fd) * maxLai := mul_nonneg (by linarith) hm
    nlinarith
  refine ⟨by linarith, ?_⟩
  rcases hcase with h | h
  · nlinarith
  · subst h; linarith

/-- C08 for the shipped parameter table: every land cover class satisfies the ordering needed by the
theorems above, has non-negative initial days, and every evergreen class (1, 2) has `initial_days = 1`. The
quantifier is the complete table. -/
theorem C08_shipped_table : ∀ r ∈ landCoverTable,
    0 ≤ (0.1 : ℚ) * r.fracDecid + (1 - r.fracDecid) * r.redEvergreen * r.maxLai ∧
    (0.1 : ℚ) * r.fracDecid + (1 - r.fracDecid) * r.redEvergreen * r.maxLai ≤ r.maxLai ∧
    0 ≤ r.initialDays ∧ (r.number ≤ 2 → r.initialDays = 1) ∧ r.albedo ≤ r.snowAlbedo ∧
    0 ≤ r.albedo ∧ r.snowAlbedo ≤ 1 ∧ 0 < r.degreeDay := by
  intro r hr
  simp only [landCoverTable, List.mem_cons, List.not_mem_nil, or_false] at hr
  rcases hr with rfl | rfl | rfl | rfl | rfl | rfl | rfl | rfl | rfl | rfl | rfl | rfl | rfl | rfl <;>
    norm_num

end WG
