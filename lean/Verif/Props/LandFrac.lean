import Verif.Model.LandFrac

/-! Properties C28 and C29: land area fraction, and the volumes it carries. -/

namespace WG

set_option linter.unnecessarySeqFocus false

theorem clampNeg_nonneg (x : ℝ) : 0 ≤ clampNeg x := by
  unfold clampNeg; split_ifs <;> linarith

theorem clampNeg_of_nonneg {x : ℝ} (h : 0 ≤ x) : clampNeg x = x := by
  unfold clampNeg; rw [if_neg (not_lt.mpr h)]

/-- C28: whatever the static data, the years and the dynamics of the water bodies, the land area fraction is never
negative, with and without reservoirs. -/
theorem C28_nonneg (fs : FracStatic) (res : Bool) (s : LandState) (days : List LandDay) (d : LandDay)
    (h : 0 ≤ s.cur ∧ 0 ≤ s.prev) :
    0 ≤ (landRun fs res s days).cur ∧
    0 ≤ landToday fs res d.opt d.glores (landRun fs res s days) := by
  have today : ∀ (d : LandDay) (s : LandState), 0 ≤ s.cur ∧ 0 ≤ s.prev → 0 ≤ landToday fs res d.opt d.glores s := by
    intro d s ⟨h1, h2⟩
    unfold landToday
    cases res
    · simpa using h1
    · simp only [if_true]
      have hy : 0 ≤ (landYear fs d.opt d.glores s).cur ∧ 0 ≤ (landYear fs d.opt d.glores s).prev := by
        unfold landYear
        by_cases ho : (d.opt || s.init) = true
        · rw [if_pos ho]
          by_cases hi : s.init = true
          · rw [if_pos hi]; exact ⟨clampNeg_nonneg _, le_rfl⟩
          · rw [if_neg hi]; exact ⟨clampNeg_nonneg _, h2⟩
        · rw [if_neg ho]; exact ⟨h1, h2⟩
      unfold landAdapt
      by_cases ho : d.opt = true
      swap
      · rw [if_neg ho]; exact hy.1
      rw [ho] at hy ⊢
      simp only [if_true]
      split_ifs
      · exact hy.2
      · exact hy.1
  have run : 0 ≤ (landRun fs res s days).cur ∧ 0 ≤ (landRun fs res s days).prev := by
    unfold landRun
    induction days generalizing s with
    | nil => exact h
    | cons d ds ih => exact ih _ ⟨clampNeg_nonneg _, today d s h⟩
  exact ⟨run.1, today d _ run⟩

/-- C28: without reservoirs, for every history in which the dynamic water bodies never cover more than their static
share, land and water bodies together keep the fraction they had at the start. -/
theorem C28_plain_history (fs : FracStatic) (days : List LandDay)
    (hd : ∀ d ∈ days, d.swb ≤ (fs.loclake + fs.locwet + fs.glowet) / 100) :
    let s := landRun fs false (landStartPlain fs) days
    s.cur + s.swb = landFracPlain fs + (fs.loclake + fs.locwet + fs.glowet) / 100 ∧ landFracPlain fs ≤ s.cur := by
  have key : ∀ (s : LandState), s.cur + s.swb = landFracPlain fs + (fs.loclake + fs.locwet + fs.glowet) / 100 →
      landFracPlain fs ≤ s.cur →
      (landRun fs false s days).cur + (landRun fs false s days).swb
        = landFracPlain fs + (fs.loclake + fs.locwet + fs.glowet) / 100 ∧
      landFracPlain fs ≤ (landRun fs false s days).cur := by
    unfold landRun
    induction days with
    | nil => exact fun s h1 h2 => ⟨h1, h2⟩
    | cons d ds ih =>
      intro s h1 h2
      have hdd := hd d (by simp)
      have h0 : 0 ≤ landFracPlain fs := clampNeg_nonneg _
      have e : s.cur - (d.swb - s.swb) = landFracPlain fs + (fs.loclake + fs.locwet + fs.glowet) / 100 - d.swb := by
        linarith
      have hc : clampNeg (s.cur - (d.swb - s.swb)) = s.cur - (d.swb - s.swb) := clampNeg_of_nonneg (by linarith)
      apply ih (fun x hx => hd x (by simp [hx]))
      · simp only [landDay, landUpdate, Bool.false_eq_true, if_false, hc]; linarith
      · simp only [landDay, landUpdate, Bool.false_eq_true, if_false, hc]; linarith
  exact key _ rfl le_rfl

/-- C28: with static fractions that fit into the continental area, the land fraction and the fractions of all water
bodies add up to the continental fraction on every day, and the land fraction never exceeds it. -/
theorem C28_plain_sum (fs : FracStatic) (days : List LandDay)
    (hfit : fs.glolake + fs.reglake + fs.glowet + fs.loclake + fs.locwet ≤ fs.cont)
    (hlake : 0 ≤ fs.glolake + fs.reglake)
    (hd : ∀ d ∈ days, 0 ≤ d.swb ∧ d.swb ≤ (fs.loclake + fs.locwet + fs.glowet) / 100)
    (hstat : 0 ≤ fs.loclake + fs.locwet + fs.glowet) :
    let s := landRun fs false (landStartPlain fs) days
    s.cur + s.swb + (fs.glolake + fs.reglake) / 100 = fs.cont / 100 ∧ s.cur ≤ fs.cont / 100 := by
  have h := C28_plain_history fs days fun d hdd => (hd d hdd).2
  have hc : landFracPlain fs = (fs.cont - (fs.glolake + fs.reglake + fs.glowet + fs.loclake + fs.locwet)) / 100 :=
    clampNeg_of_nonneg (by apply div_nonneg <;> linarith)
  have hs : 0 ≤ (landRun fs false (landStartPlain fs) days).swb := by
    rcases List.eq_nil_or_concat days with rfl | ⟨ds, d, rfl⟩
    · simp only [landRun, List.foldl_nil, landStartPlain]; apply div_nonneg <;> linarith
    · simp only [landRun, List.foldl_append, List.concat_eq_append, List.foldl_cons, List.foldl_nil, landDay, landUpdate]
      exact (hd d (by simp)).1
  simp only at h ⊢
  rw [hc] at h
  constructor
  · linarith [h.1]
  · linarith [h.1, div_nonneg hlake (by norm_num : (0 : ℝ) ≤ 100)]

/-- C28 in a reservoir year: a larger reservoir takes its additional area from the land, unless the land is exhausted,
provided that the land has not grown overnight by more than the reservoir takes. -/
theorem C28_reservoir_year (fs : FracStatic) (glores swb : ℝ) (s : LandState) (hi : s.init = false)
    (hgrow : s.gloresPrev ≤ glores) (hroom : (glores - s.gloresPrev) / 100 ≤ s.cur)
    (hday : s.cur - (glores - s.gloresPrev) / 100 < s.prev ∨ glores = s.gloresPrev)
    (hswb : swb - s.swb ≤ s.cur - (glores - s.gloresPrev) / 100) (hpos : 0 ≤ s.gloresPrev) (hcur : 0 ≤ s.cur) :
    let s' := landDay fs true true glores swb s
    s'.cur + s'.swb + glores / 100 = s.cur + s.swb + s.gloresPrev / 100 ∧ s'.gloresPrev = glores := by
  have hyear : landYear fs true glores s =
      { s with cur := s.cur - (glores - s.gloresPrev) / 100, gloresChange := glores - s.gloresPrev } := by
    simp only [landYear, hi, Bool.or_false, Bool.false_eq_true, if_false, if_true, landFracYear]
    congr 1
    rcases hgrow.lt_or_eq with h | h
    · rw [if_pos (show glores - s.gloresPrev > 0 by linarith)]
      split_ifs with hp
      · exact clampNeg_of_nonneg (by linarith)
      · have : s.gloresPrev = 0 := le_antisymm (not_lt.mp hp) hpos
        rw [this] at hroom ⊢
        rw [clampNeg_of_nonneg] <;> simp only [sub_zero] at * <;> linarith
    · rw [← h, sub_self]
      simp only [gt_iff_lt, lt_self_iff_false, if_false, zero_div, sub_zero]
      exact clampNeg_of_nonneg hcur
  have hadapt : (landAdapt true glores (landYear fs true glores s)).1.cur = s.cur - (glores - s.gloresPrev) / 100 := by
    rw [hyear]
    simp only [landAdapt, if_true]
    rcases hday with h | h
    · rw [if_neg]
      rintro ⟨-, h2⟩
      linarith
    · rw [if_neg]
      rintro ⟨h1, -⟩
      linarith
  have hsw : (landAdapt true glores (landYear fs true glores s)).1.swb = s.swb := by
    rw [hyear]; simp [landAdapt]
  have hgp : (landAdapt true glores (landYear fs true glores s)).1.gloresPrev = glores := by
    simp [landAdapt]
  simp only [landDay, landUpdate, if_true, hadapt, hsw, hgp]
  rw [clampNeg_of_nonneg (by linarith)]
  refine ⟨by ring, trivial⟩

/-- The days of a run with reservoirs after its first: reservoirs never shrink, on the first day of an operation year the
land that the reservoir takes exceeds what the water bodies gave back overnight, and there is always enough land. -/
def ResDaysOk (fs : FracStatic) : LandState → List LandDay → Prop
  | _, [] => True
  | s, d :: ds =>
    (d.opt = true → s.gloresPrev ≤ d.glores ∧
      (s.cur - (d.glores - s.gloresPrev) / 100 < s.prev ∨ d.glores = s.gloresPrev) ∧
      (d.glores - s.gloresPrev) / 100 ≤ s.cur) ∧
    d.swb - s.swb ≤ s.cur - (if d.opt then (d.glores - s.gloresPrev) / 100 else 0) ∧
    ResDaysOk fs (landDay fs true d.opt d.glores d.swb s) ds

/-- C28 with reservoirs: along every such history land, local lakes, wetlands and reservoirs together keep the fraction
they started with. -/
theorem C28_reservoir_history (fs : FracStatic) (days : List LandDay) (s : LandState) (hi : s.init = false)
    (hg : 0 ≤ s.gloresPrev) (hc : 0 ≤ s.cur) (hok : ResDaysOk fs s days) :
    let r := landRun fs true s days
    r.cur + r.swb + r.gloresPrev / 100 = s.cur + s.swb + s.gloresPrev / 100 := by
  simp only [landRun]
  induction days generalizing s with
  | nil => rfl
  | cons d ds ih =>
    obtain ⟨h1, h2, h3⟩ := hok
    rw [List.foldl_cons]
    by_cases ho : d.opt = true
    · obtain ⟨g1, g2, g3⟩ := h1 ho
      rw [if_pos ho] at h2
      rw [ho] at h3 ⊢
      obtain ⟨k1, k2⟩ := C28_reservoir_year fs d.glores d.swb s hi g1 g3 g2 h2 hg hc
      have hinit : (landDay fs true true d.glores d.swb s).init = false := by
        simp [landDay, landUpdate, landAdapt, landYear, hi]
      rw [ih _ hinit (by rw [k2]; linarith) (clampNeg_nonneg _) h3, k2]
      exact k1
    · have ho' : d.opt = false := by simpa using ho
      rw [if_neg ho] at h2
      rw [ho'] at h3 ⊢
      have hday : landDay fs true false d.glores d.swb s = landUpdate d.swb s := by
        simp [landDay, landAdapt, landYear, hi]
      rw [hday] at h3 ⊢
      rw [ih (landUpdate d.swb s) hi hg (clampNeg_nonneg _) h3]
      simp only [landUpdate]
      rw [clampNeg_of_nonneg (by linarith)]
      ring

/-- C28 is violated when a run with reservoirs does not start on 1 January of an operation year: on the next 1 January
the reservoirs are taken for new ones and their area is subtracted from the land a second time. -/
theorem C28_violated_mid_year_start :
    ∃ fs : FracStatic, ∃ glores : ℝ, 0 < glores ∧
      let s1 := landDay fs true false glores ((fs.loclake + fs.locres + fs.locwet + fs.glowet) / 100) (landStartRes fs)
      let s2 := landDay fs true true glores ((fs.loclake + fs.locres + fs.locwet + fs.glowet) / 100) s1
      s1.cur = (fs.cont - fs.glolake - fs.glowet - fs.loclake - fs.locres - fs.locwet - glores) / 100 ∧
      s2.cur = s1.cur - glores / 100 := by
  refine ⟨⟨100, 0, 0, 0, 0, 0, 0⟩, 20, by norm_num, ?_, ?_⟩ <;>
    norm_num [landDay, landUpdate, landYear, landAdapt, landStartRes, landFracInitRes, landFracYear, clampNeg]

/-- C28 is violated in a reservoir year when the water bodies shrank overnight by more than the reservoir grows: the
land keeps yesterday's fraction, and land, water bodies and reservoir no longer fill the continental area. -/
theorem C28_violated_shrinking_wetland :
    ∃ (fs : FracStatic) (s : LandState) (glores : ℝ), s.init = false ∧ s.gloresPrev < glores ∧
      s.cur + s.swb + s.gloresPrev / 100 = 1 ∧
      (let s' := landDay fs true true glores s.swb s
       s'.cur + s'.swb + glores / 100 ≠ 1) := by
  refine ⟨⟨100, 0, 0, 30, 0, 0, 0⟩, ⟨0.8, 0.7, 0.7 / 0.8, 0.2, 0, 0, false⟩, 5, rfl, by norm_num, by norm_num, ?_⟩
  norm_num [landDay, landUpdate, landYear, landAdapt, landFracYear, clampNeg]

/-- C28: on the first day storages are not rescaled: the ratio of land fractions is one, or zero in a cell without
land, with and without reservoirs. -/
theorem C28_start (fs : FracStatic) (res opt : Bool) (glores : ℝ) :
    let s := if res then landYear fs opt glores (landStartRes fs) else landStartPlain fs
    (s.cur = 0 → s.ratio = 0) ∧ (s.cur ≠ 0 → s.ratio = 1) ∧
    (res = false → s.cur = max 0 ((fs.cont - fs.glolake - fs.reglake - fs.glowet - fs.loclake - fs.locwet) / 100)) ∧
    (res = true → s.cur = max 0 ((fs.cont - fs.glolake - fs.glowet - fs.loclake - fs.locres - fs.locwet - glores) / 100)) := by
  have hc : ∀ x : ℝ, clampNeg x = max 0 x := by
    intro x; unfold clampNeg
    by_cases h : x < 0
    · rw [if_pos h, max_eq_left h.le]
    · rw [if_neg h, max_eq_right (not_lt.mp h)]
  cases res
  · simp only [Bool.false_eq_true, if_false, landStartPlain, landFracPlain, hc]
    refine ⟨fun h => if_pos h, fun h => if_neg h, fun _ => ?_, fun h => absurd h (by simp)⟩
    congr 2; ring
  · simp only [if_true, landYear, landStartRes, Bool.or_true, landFracInitRes, hc]
    refine ⟨fun h => if_pos h, fun h => if_neg h, fun h => absurd h (by simp), fun _ => ?_⟩
    congr 2; ring

example := C28_start ⟨90, 10, 5, 5, 2, 3, 1⟩ true false 4

/-! ### Volumes -/

/-- C29: the daily rescaling keeps the volume: a storage `mm` over yesterday's land is, after multiplication with the
ratio, the same volume over today's land, as long as there is land. -/
theorem C29_rescale (swb : ℝ) (s : LandState) (mm area : ℝ) (h : (landUpdate swb s).cur ≠ 0) :
    (mm * (landUpdate swb s).ratio) * (landUpdate swb s).cur * area = mm * (landUpdate swb s).prev * area := by
  have h' : clampNeg (s.cur - (swb - s.swb)) ≠ 0 := h
  simp only [landUpdate]
  rw [if_pos h']
  field_simp

/-- C29: when the land disappears, the factor is zero and the volume is that of yesterday's land, which the routing
takes over with the previous land fraction (`waterbalance_lateral.py`: storage transfer times previous fraction). -/
theorem C29_land_lost (swb : ℝ) (s : LandState) (h : (landUpdate swb s).cur = 0) :
    (landUpdate swb s).ratio = 0 ∧ (landUpdate swb s).prev = s.cur := by
  have h' : clampNeg (s.cur - (swb - s.swb)) = 0 := h
  simp [landUpdate, h']

/-- C29 on the first day of a reservoir year, exact: with the state of the evening before and a land storage of `mm`,
the water on land and the water handed to the reservoir is the water there was, plus the defect
`mm * land * (ratio - 1)`, where `ratio` is the one of the last daily update: the code does not recompute it after the
reservoir has taken land. -/
theorem C29_reservoir_year_volume (fs : FracStatic) (glores mm area : ℝ) (s : LandState)
    (_hi : s.init = false)
    (hgrow : (landYear fs true glores s).gloresChange > 0)
    (hshrink : (landYear fs true glores s).cur < s.prev) (hprev : (landYear fs true glores s).prev = s.prev) :
    let a := landAdapt true glores (landYear fs true glores s)
    (mm * s.ratio) * a.1.cur * area + mm * a.2 * area
      = mm * s.prev * area + mm * a.1.cur * (s.ratio - 1) * area := by
  simp only [landAdapt, if_true, hprev]
  rw [if_neg (by rintro ⟨-, h2⟩; linarith), if_pos ⟨hgrow, by linarith⟩]
  ring

/-- C29: on the first day of a reservoir year the volume is kept exactly when the land fraction did not change
overnight or no land is left. -/
theorem C29_reservoir_year_exact_iff (fs : FracStatic) (glores mm area : ℝ) (s : LandState) (hmm : mm ≠ 0)
    (harea : area ≠ 0) (hi : s.init = false)
    (hgrow : (landYear fs true glores s).gloresChange > 0)
    (hshrink : (landYear fs true glores s).cur < s.prev) :
    let a := landAdapt true glores (landYear fs true glores s)
    (mm * s.ratio) * a.1.cur * area + mm * a.2 * area = mm * s.prev * area ↔ s.ratio = 1 ∨ a.1.cur = 0 := by
  have hprev : (landYear fs true glores s).prev = s.prev := by simp [landYear, hi]
  have h := C29_reservoir_year_volume fs glores mm area s hi hgrow hshrink hprev
  simp only at h ⊢
  rw [h]
  constructor
  · intro e
    have : mm * (landAdapt true glores (landYear fs true glores s)).1.cur * (s.ratio - 1) * area = 0 := by linarith
    simp only [mul_eq_zero, hmm, harea, or_false, false_or] at this
    rcases this with h1 | h1
    · right; exact h1
    · left; linarith
  · rintro (e | e)
    · rw [e]; ring
    · rw [e]; ring

/-- C29 is violated: the reservoir year starts after a day on which the wetlands shrank a little. -/
theorem C29_violated_reservoir_year :
    ∃ (fs : FracStatic) (s : LandState) (glores : ℝ), s.init = false ∧ s.ratio * s.cur = s.prev ∧
      (let a := landAdapt true glores (landYear fs true glores s)
       (100 * s.ratio) * a.1.cur + 100 * a.2 ≠ 100 * s.prev) := by
  refine ⟨⟨100, 0, 0, 30, 0, 0, 0⟩, ⟨0.8, 0.7, 0.875, 0.2, 0, 0, false⟩, 20, rfl, by norm_num, ?_⟩
  norm_num [landYear, landAdapt, landFracYear, clampNeg]

/-! ### Global lakes and the fractions used for potential evapotranspiration -/

/-- C37: a regulated lake belongs to the global lake exactly when reservoirs are not operated. -/
theorem C37_regulated_lake (ant resOpt : Bool) (lakeArea regArea : ℝ) (status : ℕ) :
    glolakeArea ant resOpt lakeArea regArea status
      = lakeArea + if ¬ (ant = true ∧ resOpt = true) ∧ status = 1 then regArea else 0 := by
  unfold glolakeArea
  cases ant <;> cases resOpt <;> by_cases h : status = 1 <;> simp [h]

/-! ### The hypotheses can be met -/

example := C28_nonneg ⟨100, 5, 0, 10, 5, 3, 0⟩ true (landStartRes ⟨100, 5, 0, 10, 5, 3, 0⟩)
  [⟨true, 2, 0.1⟩, ⟨false, 2, 0.15⟩] ⟨true, 4, 0.1⟩ ⟨le_rfl, le_rfl⟩
example := C28_plain_sum ⟨100, 5, 1, 10, 5, 3, 0⟩ [⟨false, 0, 0.1⟩, ⟨false, 0, 0.15⟩] (by norm_num) (by norm_num)
  (by intro d hd; simp at hd; rcases hd with rfl | rfl <;> norm_num) (by norm_num)
example := C28_reservoir_year ⟨100, 5, 1, 10, 5, 3, 0⟩ 6 0.14 ⟨0.7, 0.7, 1, 0.15, 2, 0, false⟩ rfl (by norm_num)
  (by norm_num) (by norm_num) (by norm_num) (by norm_num) (by norm_num)
example := C28_reservoir_history ⟨100, 5, 1, 10, 5, 3, 0⟩ [⟨false, 2, 0.15⟩, ⟨true, 6, 0.14⟩, ⟨false, 6, 0.13⟩]
  ⟨0.7, 0.7, 1, 0.15, 2, 0, false⟩ rfl (by norm_num) (by norm_num)
  (by norm_num [ResDaysOk, landDay, landUpdate, landYear, landAdapt, landFracYear, clampNeg])
example := C29_rescale 0.1 ⟨0.7, 0.7, 1, 0.15, 2, 0, false⟩ 30 3000 (by norm_num [landUpdate, clampNeg])
example := C29_reservoir_year_exact_iff ⟨100, 5, 1, 10, 5, 3, 0⟩ 6 30 3000 ⟨0.7, 0.7, 1, 0.15, 2, 0, false⟩
  (by norm_num) (by norm_num) rfl (by norm_num [landYear, landFracYear])
  (by norm_num [landYear, landFracYear, clampNeg])

end WG
