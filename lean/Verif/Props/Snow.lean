import Verif.Model.Snow
import Verif.Lemmas.Lists

/-! Properties C03 and C04: snow. -/

namespace WG

/-- C03, one band: yesterday's (rescaled) snow plus throughfall equals today's snow plus sublimation plus the
water passed on (melt and rain). No sign condition. -/
theorem C03_band_balance (p : SnowPar) (temp s : ℝ) :
    let o := bandStep p temp s
    s + p.throughfall = o.storage + o.sublimation + (o.melt + o.rain) := by
  simp only [bandStep]
  split_ifs <;> ring

/-- C03: in every band of the loop, whatever the threshold elevation is. -/
theorem C03_bandLoop_balance (p : SnowPar) (thresh : ℝ) (bands : List (ℝ × ℝ)) :
    List.Forall₂ (fun (o : BandOut) (b : ℝ × ℝ) =>
        b.2 + p.throughfall = o.storage + o.sublimation + (o.melt + o.rain))
      (bandLoop p thresh bands) bands := by
  induction bands generalizing thresh with
  | nil => exact List.Forall₂.nil
  | cons b bs ih => exact List.Forall₂.cons (C03_band_balance p _ _) (ih _)

theorem bandLoop_length (p : SnowPar) (thresh : ℝ) (bands : List (ℝ × ℝ)) :
    (bandLoop p thresh bands).length = bands.length :=
  (C03_bandLoop_balance p thresh bands).length_eq

private theorem zipWith_sub_sum (outs : List BandOut) (bs : List (ℝ × ℝ))
    (h : outs.length = bs.length) :
    (List.zipWith (fun (o : BandOut) b => o.storage - b.2) outs bs).sum =
      (outs.map (·.storage)).sum - (bs.map (·.2)).sum := by
  induction outs generalizing bs with
  | nil => cases bs <;> simp_all
  | cons o os ih =>
    cases bs with
    | nil => simp at h
    | cons b bs =>
      simp at h
      simp [ih bs h]
      ring

/-- C03, the cell: mean snow of yesterday (rescaled, residue flushed) plus throughfall equals mean snow of
today plus mean sublimation plus effective precipitation; the storage change handed on is exactly the
change of the mean; nothing is transferred. -/
theorem C03_snow_balance (p : SnowPar) (bands : List (ℝ × ℝ))
    (lsc frac ratio transfer minV : ℝ) (hfrac : 0 < frac) (hb : bands ≠ []) :
    let o := snowWaterBalance p bands lsc frac ratio transfer minV
    let before := mean (bands.map fun b => flush minV (b.2 * ratio))
    before + p.throughfall = o.storage + o.sublimation + o.effPrecip ∧
    o.landStorageChange = lsc + (o.storage - before) ∧
    o.transfer = transfer ∧ o.storage = mean o.bands ∧ o.bands.length = bands.length := by
  simp only [snowWaterBalance, gt_iff_lt, if_pos hfrac]
  have hbal := C03_bandLoop_balance p 0 (bands.map (rescaleBand ratio minV))
  set init := bands.map (rescaleBand ratio minV) with hinit
  set outs := bandLoop p 0 init with houts
  have hlen : outs.length = init.length := hbal.length_eq
  have hil : init.length = bands.length := by simp [hinit]
  have hbefore : (bands.map fun b => flush minV (b.2 * ratio)) = init.map (·.2) := by
    simp [hinit, rescaleBand, Function.comp_def]
  have hi : init ≠ [] := by simpa [hinit] using hb
  rw [hbefore]
  refine ⟨?_, ?_, trivial, trivial, by simp [hlen, hil]⟩
  · have h1 := mean_congr (f := fun o : BandOut => o.storage + o.sublimation + (o.melt + o.rain))
      (g := fun b : ℝ × ℝ => b.2 + p.throughfall) (hbal.imp fun _ _ h => h.symm)
    rw [mean_add _ _ (fun b : ℝ × ℝ => b.2), mean_const _ _ hi,
      mean_add _ _ (fun o : BandOut => o.storage + o.sublimation),
      mean_add _ _ (fun o : BandOut => o.storage)] at h1
    exact h1.symm
  · rw [zipWith_sub_sum _ _ hlen]
    simp only [mean, List.length_map, hlen, hil]
    ring

/-- C03 without land: the mean snow is handed over and every band is emptied. -/
theorem C03_snow_no_land (p : SnowPar) (bands : List (ℝ × ℝ))
    (lsc frac ratio transfer minV : ℝ) (hfrac : frac ≤ 0) :
    let o := snowWaterBalance p bands lsc frac ratio transfer minV
    o.transfer = transfer + mean (bands.map (·.2)) ∧ o.storage = 0 ∧ (∀ s ∈ o.bands, s = 0) ∧
    o.bands.length = bands.length ∧ o.landStorageChange = lsc ∧ o.effPrecip = 0 ∧ o.sublimation = 0 := by
  simp [snowWaterBalance, not_lt.mpr hfrac]

/-- A sample parameter set used for the non-vacuity examples. -/
noncomputable def samplePar : SnowPar :=
  { temperature := 270, precip := 5, throughfall := 4, petToSoil := 1, degreeday := 3, meanElev := 100,
    lapse := 0.006, freezeTemp := 273.15, meltTemp := 273.15 }

example : (snowWaterBalance samplePar [(100, 3), (200, 7)] 0 0.5 1 0 1e-15).bands.length = 2 :=
  (C03_snow_balance samplePar [(100, 3), (200, 7)] 0 0.5 1 0 1e-15 (by norm_num) (by simp)).2.2.2.2
example : (snowWaterBalance samplePar [(100, 3), (200, 7)] 0 0 1 0 1e-15).transfer = 5 := by
  rw [(C03_snow_no_land samplePar [(100, 3), (200, 7)] 0 0 1 0 1e-15 le_rfl).1]
  norm_num [mean]

/-- Physical parameters of the snow routine. -/
def SnowPar.Physical (p : SnowPar) : Prop :=
  0 ≤ p.precip ∧ 0 ≤ p.throughfall ∧ 0 ≤ p.petToSoil ∧ 0 ≤ p.degreeday

example : samplePar.Physical := by norm_num [SnowPar.Physical, samplePar]

/-- What C04 demands of one band that started with snow `s`. -/
def BandOut.Physical (p : SnowPar) (s : ℝ) (o : BandOut) : Prop :=
  0 ≤ o.storage ∧ 0 ≤ o.snowfall ∧ 0 ≤ o.sublimation ∧ 0 ≤ o.melt ∧ 0 ≤ o.rain ∧
  o.sublimation ≤ p.petToSoil ∧ o.sublimation ≤ s + p.throughfall ∧
  o.melt + o.sublimation ≤ s + p.throughfall ∧ o.rain ≤ p.throughfall ∧ o.snowfall ≤ p.precip ∧
  -- snow falls only at or below the freezing temperature, melts only above the melting temperature,
  -- and melts no faster than the degree-day rate
  (p.freezeTemp < o.temp → o.snowfall = 0 ∧ o.sublimation = 0 ∧ o.rain = p.throughfall) ∧
  (o.temp ≤ p.freezeTemp → o.snowfall = p.precip ∧ o.rain = 0 ∧
    o.sublimation = min p.petToSoil (s + p.throughfall)) ∧
  (o.temp ≤ p.meltTemp → o.melt = 0) ∧
  (p.meltTemp < o.temp → o.melt = min (o.storage + o.melt) (p.degreeday * (o.temp - p.meltTemp)))

theorem C04_band_physical (p : SnowPar) (temp s : ℝ) (hp : p.Physical) (hs : 0 ≤ s) :
    (bandStep p temp s).Physical p s ∧ (bandStep p temp s).temp = temp := by
  obtain ⟨h1, h2, h3, h4⟩ := hp
  have hd : p.meltTemp < temp → 0 ≤ p.degreeday * (temp - p.meltTemp) := fun h =>
    mul_nonneg h4 (by linarith)
  refine ⟨?_, rfl⟩
  simp only [bandStep, BandOut.Physical, min_def]
  generalize p.degreeday * (temp - p.meltTemp) = d at *
  by_cases hf : temp ≤ p.freezeTemp <;> by_cases hm : p.meltTemp < temp
  · have := hd hm
    simp only [if_pos hf, gt_iff_lt, if_pos hm]
    refine ⟨?_, ?_, ?_, ?_, ?_, ?_, ?_, ?_, ?_, ?_, ?_, ?_, ?_, ?_⟩ <;> intros <;>
      (try refine ⟨?_, ?_, ?_⟩) <;> (try split_ifs) <;> first | trivial | linarith
  · simp only [if_pos hf, gt_iff_lt, if_neg hm]
    refine ⟨?_, ?_, ?_, ?_, ?_, ?_, ?_, ?_, ?_, ?_, ?_, ?_, ?_, ?_⟩ <;> intros <;>
      (try refine ⟨?_, ?_, ?_⟩) <;> (try split_ifs) <;> first | trivial | linarith
  · have := hd hm
    simp only [if_neg hf, gt_iff_lt, if_pos hm]
    refine ⟨?_, ?_, ?_, ?_, ?_, ?_, ?_, ?_, ?_, ?_, ?_, ?_, ?_, ?_⟩ <;> intros <;>
      (try refine ⟨?_, ?_, ?_⟩) <;> (try split_ifs) <;> first | trivial | linarith
  · simp only [if_neg hf, gt_iff_lt, if_neg hm]
    refine ⟨?_, ?_, ?_, ?_, ?_, ?_, ?_, ?_, ?_, ?_, ?_, ?_, ?_, ?_⟩ <;> intros <;>
      (try refine ⟨?_, ?_, ?_⟩) <;> (try split_ifs) <;> first | trivial | linarith

/-- C04, every band. -/
theorem C04_bandLoop_physical (p : SnowPar) (hp : p.Physical) (thresh : ℝ) (bands : List (ℝ × ℝ))
    (hs : ∀ b ∈ bands, 0 ≤ b.2) :
    List.Forall₂ (fun (o : BandOut) (b : ℝ × ℝ) => o.Physical p b.2) (bandLoop p thresh bands) bands := by
  induction bands generalizing thresh with
  | nil => exact List.Forall₂.nil
  | cons b bs ih =>
    exact List.Forall₂.cons (C04_band_physical p _ _ hp (hs b (by simp))).1
      (ih _ fun x hx => hs x (by simp [hx]))

private theorem forall_of_forall₂ {α β : Type} {R : α → β → Prop} {Q : α → Prop} {l : List α}
    {k : List β} (h : List.Forall₂ R l k) (hq : ∀ a b, R a b → Q a) : ∀ a ∈ l, Q a := by
  induction h with
  | nil => simp
  | cons hr _ ih =>
    intro a ha
    simp at ha
    rcases ha with rfl | ha
    · exact hq _ _ hr
    · exact ih a ha

/-- C04, the cell: non-negative storages and fluxes, sublimation limited by the available energy, snowfall
limited by precipitation, snow cover a fraction, and the new bands can be fed to the next day. -/
theorem C04_snow_bounds (p : SnowPar) (bands : List (ℝ × ℝ)) (lsc frac ratio transfer minV : ℝ)
    (hp : p.Physical) (hr : 0 ≤ ratio) (hs : ∀ b ∈ bands, 0 ≤ b.2) :
    let o := snowWaterBalance p bands lsc frac ratio transfer minV
    (∀ s ∈ o.bands, 0 ≤ s) ∧ o.bands.length = bands.length ∧ 0 ≤ o.storage ∧ 0 ≤ o.snowfall ∧
    0 ≤ o.sublimation ∧ 0 ≤ o.melt ∧ 0 ≤ o.effPrecip ∧ o.melt ≤ o.effPrecip ∧
    o.sublimation ≤ p.petToSoil ∧ o.snowfall ≤ p.precip ∧ 0 ≤ o.coverFrac ∧ o.coverFrac ≤ 1 := by
  obtain ⟨hp1, hp2, hp3, hp4⟩ := id hp
  by_cases hfrac : 0 < frac
  · simp only [snowWaterBalance, gt_iff_lt, if_pos hfrac]
    have hinit : ∀ b ∈ bands.map (rescaleBand ratio minV), 0 ≤ b.2 := by
      intro b hb
      simp only [List.mem_map, rescaleBand] at hb
      obtain ⟨c, hc, rfl⟩ := hb
      have := hs c hc
      simp only [flush]
      split_ifs <;> positivity
    have hph := C04_bandLoop_physical p hp 0 _ hinit
    have hlen := bandLoop_length p 0 (bands.map (rescaleBand ratio minV))
    set outs := bandLoop p 0 (bands.map (rescaleBand ratio minV))
    have H : ∀ o ∈ outs, ∃ s, o.Physical p s := forall_of_forall₂ hph fun a b h => ⟨b.2, h⟩
    refine ⟨?_, by simpa using hlen, ?_, ?_, ?_, ?_, ?_, ?_, ?_, ?_, ?_, ?_⟩
    · intro s hs
      simp only [List.mem_map] at hs
      obtain ⟨o, ho, rfl⟩ := hs
      obtain ⟨s, h⟩ := H o ho
      exact h.1
    · exact mean_nonneg _ _ fun o ho => (H o ho).elim fun s h => h.1
    · exact mean_nonneg _ _ fun o ho => (H o ho).elim fun s h => h.2.1
    · exact mean_nonneg _ _ fun o ho => (H o ho).elim fun s h => h.2.2.1
    · exact mean_nonneg _ _ fun o ho => (H o ho).elim fun s h => h.2.2.2.1
    · exact mean_nonneg _ _ fun o ho => (H o ho).elim fun s h => add_nonneg h.2.2.2.1 h.2.2.2.2.1
    · exact mean_mono _ _ _ fun o ho => (H o ho).elim fun s h => by linarith [h.2.2.2.2.1]
    · exact mean_le _ _ _ hp3 fun o ho => (H o ho).elim fun s h => h.2.2.2.2.2.1
    · exact mean_le _ _ _ hp1 fun o ho => (H o ho).elim fun s h => h.2.2.2.2.2.2.2.2.2.1
    · exact mean_nonneg _ _ fun o ho => by split_ifs <;> norm_num
    · exact mean_le _ _ _ zero_le_one fun o ho => by split_ifs <;> norm_num
  · simp only [snowWaterBalance, gt_iff_lt, if_neg hfrac]
    simp [hp1, hp3]

example : ∀ b ∈ [((100 : ℝ), (3 : ℝ)), (200, 7)], 0 ≤ b.2 := by
  intro b hb; simp at hb; rcases hb with rfl | rfl <;> norm_num

/-- C04, snow cover: the reported snow-cover fraction times the number of elevation bands is the number of bands
whose new snow storage is positive (with and without land). -/
theorem C04_snow_cover (p : SnowPar) (bands : List (ℝ × ℝ)) (lsc frac ratio transfer minV : ℝ) :
    let o := snowWaterBalance p bands lsc frac ratio transfer minV
    o.coverFrac * bands.length = ((o.bands.countP fun s => decide (0 < s) : ℕ) : ℝ) := by
  by_cases hfrac : 0 < frac
  · simp only [snowWaterBalance, gt_iff_lt, if_pos hfrac]
    have hlen := bandLoop_length p 0 (bands.map (rescaleBand ratio minV))
    rw [List.length_map] at hlen
    generalize bandLoop p 0 (bands.map (rescaleBand ratio minV)) = outs at *
    rw [← hlen]
    have key : ∀ l : List BandOut, (l.map fun o => if 0 < o.storage then (1 : ℝ) else 0).sum =
        (((l.map (·.storage)).countP fun s => decide (0 < s) : ℕ) : ℝ) := by
      intro l
      induction l with
      | nil => simp
      | cons a l ih =>
        rw [List.map_cons, List.sum_cons, ih, List.map_cons, List.countP_cons]
        by_cases h : 0 < a.storage <;> simp [h, add_comm]
    unfold mean
    rw [key, List.length_map]
    rcases outs with _ | ⟨a, outs⟩
    · simp
    · rw [div_mul_cancel₀]
      simp only [List.length_cons, Nat.cast_add, Nat.cast_one]
      positivity
  · simp only [snowWaterBalance, gt_iff_lt, if_neg hfrac]
    have : (bands.map fun _ => (0 : ℝ)).countP (fun s => decide (0 < s)) = 0 := by
      rw [List.countP_eq_zero]
      intro a ha
      simp only [List.mem_map] at ha
      obtain ⟨_, _, rfl⟩ := ha
      simp
    rw [this]
    simp

/-- A day for the snow component: parameters, land fraction and area ratio. -/
structure SnowDay where
  par : SnowPar
  frac : ℝ
  ratio : ℝ

/-- The snow bands after a sequence of days (elevations are static data). -/
noncomputable def snowRun (elev : List ℝ) (minV : ℝ) (bands : List ℝ) : List SnowDay → List ℝ
  | [] => bands
  | d :: ds =>
    snowRun elev minV (snowWaterBalance d.par (elev.zip bands) 0 d.frac d.ratio 0 minV).bands ds

/-- C04, all histories: no sequence of days produces negative snow in any band. -/
theorem C04_snow_history (elev : List ℝ) (minV : ℝ) (bands : List ℝ) (hs : ∀ s ∈ bands, 0 ≤ s)
    (days : List SnowDay) (hd : ∀ d ∈ days, d.par.Physical ∧ 0 ≤ d.ratio) :
    ∀ s ∈ snowRun elev minV bands days, 0 ≤ s := by
  induction days generalizing bands with
  | nil => exact hs
  | cons d ds ih =>
    obtain ⟨h1, h2⟩ := hd d (by simp)
    refine ih _ ?_ fun x hx => hd x (by simp [hx])
    exact (C04_snow_bounds d.par (elev.zip bands) 0 d.frac d.ratio 0 minV h1 h2
      fun b hb => hs b.2 (List.of_mem_zip hb).2).1

example : ∀ d ∈ [SnowDay.mk samplePar 0.5 1], d.par.Physical ∧ 0 ≤ d.ratio := by
  intro d hd; simp at hd; subst hd; norm_num [SnowPar.Physical, samplePar]

/-- Specification of the accumulation limiter: a band is *saturated* if it held more than 1000 mm. -/
def Saturated (b : ℝ × ℝ) : Prop := b.2 > 1000

theorem bandLoop_append (p : SnowPar) (t : ℝ) (pre rest : List (ℝ × ℝ)) :
    ∃ t', bandLoop p t (pre ++ rest) = bandLoop p t pre ++ bandLoop p t' rest ∧
      ((∀ b ∈ pre, ¬ Saturated b) → t' = t) ∧ (0 < t → t' = t) := by
  induction pre generalizing t with
  | nil => exact ⟨t, by simp [bandLoop], fun _ => rfl, fun _ => rfl⟩
  | cons b bs ih =>
    obtain ⟨t', h1, h2, h3⟩ := ih (bandTemp p t b.1 b.2).2
    refine ⟨t', by simp [bandLoop, h1], ?_, ?_⟩
    · intro hb
      rw [h2 fun x hx => hb x (by simp [hx])]
      have : ¬ b.2 > 1000 := hb b (by simp)
      simp only [bandTemp, if_neg this]
    · intro ht
      have : (bandTemp p t b.1 b.2).2 = t := by
        simp only [bandTemp]; split_ifs <;> simp_all
      rw [h3 (by rw [this]; exact ht), this]

/-- C51: with elevations above sea level, every saturated band above the first saturated one gets the
temperature of the first saturated band's elevation, so that snow does not accumulate without end; the first
saturated band itself and all unsaturated bands keep the lapse-rate temperature. -/
theorem C51_limiter (p : SnowPar) (pre mid : List (ℝ × ℝ)) (first b : ℝ × ℝ) (post : List (ℝ × ℝ))
    (hpre : ∀ x ∈ pre, ¬ Saturated x) (hfirst : Saturated first) (helev : 0 < first.1) :
    ∃ outsPre outsMid outsPost oFirst oB,
      bandLoop p 0 (pre ++ first :: (mid ++ b :: post)) =
        outsPre ++ oFirst :: (outsMid ++ oB :: outsPost) ∧
      outsPre.length = pre.length ∧ outsMid.length = mid.length ∧
      outsPost.length = post.length ∧
      (oFirst : BandOut).temp = lapseTemp p first.1 ∧
      (Saturated b → (oB : BandOut).temp = lapseTemp p first.1) ∧
      (¬ Saturated b → oB.temp = lapseTemp p b.1) := by
  obtain ⟨t1, h1, h2, -⟩ := bandLoop_append p 0 pre (first :: (mid ++ b :: post))
  have ht1 := h2 hpre
  subst ht1
  have hf : bandTemp p 0 first.1 first.2 = (lapseTemp p first.1, first.1) := by
    have : first.2 > 1000 := hfirst
    simp [bandTemp, this]
  obtain ⟨t2, h3, -, h4⟩ := bandLoop_append p first.1 mid (b :: post)
  have ht2 := h4 helev
  subst ht2
  refine ⟨bandLoop p 0 pre, bandLoop p first.1 mid, bandLoop p (bandTemp p first.1 b.1 b.2).2 post,
    bandStep p (lapseTemp p first.1) first.2, bandStep p (bandTemp p first.1 b.1 b.2).1 b.2, ?_,
    bandLoop_length _ _ _, bandLoop_length _ _ _, bandLoop_length _ _ _, rfl, ?_, ?_⟩
  · rw [h1]
    simp only [bandLoop, hf, h3]
  · intro hb
    have : b.2 > 1000 := hb
    simp [bandStep, bandTemp, this, helev, helev.ne']
  · intro hb
    have : ¬ b.2 > 1000 := hb
    simp only [bandStep, bandTemp, if_neg this]

example : ∃ (pre : List (ℝ × ℝ)) (first : ℝ × ℝ), (∀ x ∈ pre, ¬ Saturated x) ∧ Saturated first ∧
    0 < first.1 ∧ pre ≠ [] :=
  ⟨[(10, 5)], (20, 1200), by norm_num [Saturated], by norm_num [Saturated], by norm_num, by simp⟩

/-- C51 is violated below sea level: when the first saturated band lies below sea level its elevation is
stored as a negative threshold, which no later band uses, so every higher saturated band keeps cooling with
altitude (`snow.py:175-180`). -/
theorem C51_limiter_violated_below_sea_level :
    ∃ (p : SnowPar) (first b : ℝ × ℝ), Saturated first ∧ Saturated b ∧ first.1 < b.1 ∧
      (bandLoop p 0 [first, b]).map (·.temp) = [lapseTemp p first.1, lapseTemp p b.1] ∧
      lapseTemp p b.1 < lapseTemp p first.1 := by
  refine ⟨samplePar, (-10, 1200), (500, 1200), ?_, ?_, ?_, ?_, ?_⟩ <;>
    norm_num [Saturated, bandLoop, bandTemp, bandStep, lapseTemp, samplePar]

/-- C51 is also violated exactly at sea level: threshold 0 is indistinguishable from "no threshold yet", so
the next saturated band replaces it and itself is not limited. -/
theorem C51_limiter_violated_at_sea_level :
    ∃ (p : SnowPar) (first b : ℝ × ℝ), Saturated first ∧ Saturated b ∧ first.1 < b.1 ∧
      first.1 = 0 ∧
      (bandLoop p 0 [first, b]).map (·.temp) = [lapseTemp p first.1, lapseTemp p b.1] ∧
      lapseTemp p b.1 < lapseTemp p first.1 := by
  refine ⟨samplePar, (0, 1200), (500, 1200), ?_, ?_, ?_, ?_, ?_, ?_⟩ <;>
    norm_num [Saturated, bandLoop, bandTemp, bandStep, lapseTemp, samplePar]

/-- The bands are stored from the lowest to the highest elevation. -/
def LowestFirst (e0 : ℝ) (bands : List (ℝ × ℝ)) : Prop := ∀ b ∈ bands, e0 ≤ b.1

private theorem loop_frozen (p : SnowPar) (e0 thresh : ℝ) (bands : List (ℝ × ℝ))
    (hl : 0 ≤ p.lapse) (hb : LowestFirst e0 bands) (ht : 0 < thresh → e0 ≤ thresh)
    (hfm : p.freezeTemp ≤ p.meltTemp) (hfz : lapseTemp p e0 ≤ p.freezeTemp) :
    ∀ o ∈ bandLoop p thresh bands, o.melt = 0 ∧ o.rain = 0 := by
  have mono : ∀ e, e0 ≤ e → lapseTemp p e ≤ p.freezeTemp := by
    intro e he
    have : lapseTemp p e ≤ lapseTemp p e0 := by
      unfold lapseTemp; nlinarith
    linarith
  have step : ∀ t s, t ≤ p.freezeTemp → (bandStep p t s).melt = 0 ∧ (bandStep p t s).rain = 0 := by
    intro t s h
    have : ¬ t > p.meltTemp := by linarith
    simp [bandStep, h, not_lt.mp this]
  induction bands generalizing thresh with
  | nil => simp [bandLoop]
  | cons b bs ih =>
    have hb0 : e0 ≤ b.1 := hb b (by simp)
    intro o ho
    simp only [bandLoop, List.mem_cons] at ho
    rcases ho with rfl | ho
    · apply step
      simp only [bandTemp]
      split_ifs <;> first | exact mono _ hb0 | exact mono _ (ht (by assumption))
    · refine ih _ (fun x hx => hb x (by simp [hx])) ?_ o ho
      simp only [bandTemp]
      split_ifs <;> first | exact fun _ => hb0 | exact ht

/-- C52: when even the lowest band is at or below freezing, no water reaches the soil: effective
precipitation is zero.  (The soil routine ignores effective precipitation on such days, so this is what makes
that safe.) -/
theorem C52_frozen_cell_passes_no_water (p : SnowPar) (first : ℝ × ℝ) (rest : List (ℝ × ℝ))
    (lsc frac ratio transfer minV : ℝ) (hfrac : 0 < frac) (hl : 0 ≤ p.lapse)
    (hfm : p.freezeTemp ≤ p.meltTemp) (hlow : ∀ b ∈ rest, first.1 ≤ b.1)
    (hfrozen : (snowWaterBalance p (first :: rest) lsc frac ratio transfer minV).maxTempElev
      ≤ p.freezeTemp) :
    (snowWaterBalance p (first :: rest) lsc frac ratio transfer minV).effPrecip = 0 ∧
    (snowWaterBalance p (first :: rest) lsc frac ratio transfer minV).melt = 0 := by
  have hmt : (snowWaterBalance p (first :: rest) lsc frac ratio transfer minV).maxTempElev
      = lapseTemp p first.1 := by
    simp only [snowWaterBalance, gt_iff_lt, if_pos hfrac, List.map_cons, bandLoop, List.head?_cons,
      Option.map_some, Option.getD_some, bandStep, bandTemp, rescaleBand]
    split_ifs <;> rfl
  rw [hmt] at hfrozen
  have H := loop_frozen p first.1 0 ((first :: rest).map (rescaleBand ratio minV)) hl
    (by
      intro b hb
      simp only [List.mem_map, rescaleBand] at hb
      obtain ⟨c, hc, rfl⟩ := hb
      simp only [List.mem_cons] at hc
      rcases hc with rfl | hc
      · exact le_rfl
      · exact hlow c hc)
    (fun h => absurd h (lt_irrefl _)) hfm hfrozen
  simp only [snowWaterBalance, gt_iff_lt, if_pos hfrac]
  constructor
  · rw [List.map_congr_left (g := fun _ => (0:ℝ)) fun o ho => by simp [H o ho]]
    simp [mean]
  · rw [List.map_congr_left (g := fun _ => (0:ℝ)) fun o ho => by simp [H o ho]]
    simp [mean]

example : (snowWaterBalance samplePar [(100, 3), (200, 7)] 0 0.5 1 0 0).maxTempElev
    ≤ samplePar.freezeTemp := by
  norm_num [snowWaterBalance, bandLoop, bandTemp, bandStep, lapseTemp, samplePar, rescaleBand, flush]

end WG
