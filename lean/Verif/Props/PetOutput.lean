import Verif.Model.PetOutput
import Verif.Lemmas.Calendar

/-!
# The potential evapotranspiration written to the output (C60)
-/

namespace WG

/-! ## Specification -/

/-- The static shares (percent) of a cell of the land surface with water fitting into the continental area of the cell,
in every year. -/
structure WaterFits (res : Bool) (fs : FracStatic) (glores : ℕ → ℝ) : Prop where
  cont : 0 < fs.cont
  glo : 0 ≤ fs.glolake
  reg : 0 ≤ fs.reglake
  loc : 0 ≤ fs.loclake
  lres : 0 ≤ fs.locres
  gres : ∀ y, 0 ≤ glores y
  fitsRes : res = true → ∀ y, fs.glolake + fs.loclake + fs.locres + glores y ≤ fs.cont
  fitsPlain : res = false → fs.glolake + fs.reglake + fs.loclake ≤ fs.cont

/-- Lakes and reservoirs, in percent of the cell: global lakes, local lakes as given, and the reservoirs of the year; with
reservoirs operated regulated lakes are part of the reservoirs and local reservoirs are local lakes. -/
noncomputable def standingWater (res : Bool) (fs : FracStatic) (glores : ℕ → ℝ) (year : ℕ) (localLakes : ℝ) : ℝ :=
  if res then fs.glolake + localLakes + glores year else fs.glolake + fs.reglake + localLakes

/-- Local lakes at full extent, in percent. -/
noncomputable def fullLocalLakes (res : Bool) (fs : FracStatic) : ℝ :=
  if res then fs.loclake + fs.locres else fs.loclake

/-! ## Lemmas -/

theorem freqGet_first (res : Bool) (fs : FracStatic) (g : ℕ → ℝ) (t : Date) (s : FreqState) (h : s.flag = true) :
    (freqGet res fs g t s).water = standingWater res fs g t.y (fullLocalLakes res fs) ∧
    (freqGet res fs g t s).land = fs.cont - (freqGet res fs g t s).water ∧ (freqGet res fs g t s).flag = false := by
  cases res <;> simp [freqGet, h, standingWater, fullLocalLakes, landWaterFreq, gloLakeShare, locLakeShare, gloresOfYear]

theorem freqGet_january (res : Bool) (fs : FracStatic) (g : ℕ → ℝ) (t : Date) (s : FreqState) (h : s.flag = false)
    (hm : t.m = 1) (hd : t.d = 1) :
    (freqGet res fs g t s).water = standingWater res fs g t.y (100 * s.updLoc) ∧
    (freqGet res fs g t s).land = fs.cont - (freqGet res fs g t s).water ∧ (freqGet res fs g t s).flag = false := by
  cases res <;>
    simp [freqGet, h, hm, hd, standingWater, landWaterFreq, gloLakeShare, gloresOfYear, mul_comm]

theorem freqGet_other (res : Bool) (fs : FracStatic) (g : ℕ → ℝ) (t : Date) (s : FreqState) (h : s.flag = false)
    (hm : ¬ (t.m = 1 ∧ t.d = 1)) : freqGet res fs g t s = s := by
  simp [freqGet, h, hm]

theorem freqRun_append (res : Bool) (fs : FracStatic) (g : ℕ → ℝ) (s : FreqState) (a b : List FreqDay) :
    freqRun res fs g s (a ++ b) = freqRun res fs g (freqRun res fs g s a) b := by
  simp [freqRun, List.foldl_append]

theorem freqRun_flag (res : Bool) (fs : FracStatic) (g : ℕ → ℝ) (s : FreqState) (days : List FreqDay)
    (h : s.flag = false) : (freqRun res fs g s days).flag = false := by
  induction days generalizing s with
  | nil => exact h
  | cons d ds ih =>
    refine ih _ ?_
    show (freqGet res fs g d.t s).flag = false
    by_cases hj : d.t.m = 1 ∧ d.t.d = 1
    · exact (freqGet_january res fs g d.t s h hj.1 hj.2).2.2
    · rw [freqGet_other res fs g d.t s h hj]; exact h

theorem freqRun_start_flag (res : Bool) (fs : FracStatic) (g : ℕ → ℝ) (days : List FreqDay) (h : days ≠ []) :
    (freqRun res fs g freqStart days).flag = false := by
  cases days with
  | nil => exact absurd rfl h
  | cons d ds =>
    refine freqRun_flag res fs g _ ds ?_
    exact (freqGet_first res fs g d.t freqStart rfl).2.2

theorem freqRun_quiet (res : Bool) (fs : FracStatic) (g : ℕ → ℝ) (s : FreqState) (days : List FreqDay)
    (h : s.flag = false) (hq : ∀ d ∈ days, ¬ (d.t.m = 1 ∧ d.t.d = 1)) :
    (freqRun res fs g s days).water = s.water ∧ (freqRun res fs g s days).land = s.land := by
  induction days generalizing s with
  | nil => exact ⟨rfl, rfl⟩
  | cons d ds ih =>
    have h1 : freqStep res fs g s d = freqUpdate d.loc s := by
      show freqUpdate d.loc (freqGet res fs g d.t s) = _
      rw [freqGet_other res fs g d.t s h (hq d (by simp))]
    have := ih (freqStep res fs g s d) (by rw [h1]; exact h) (fun x hx => hq x (by simp [hx]))
    rw [h1] at this
    show (freqRun res fs g (freqStep res fs g s d) ds).water = _ ∧ (freqRun res fs g (freqStep res fs g s d) ds).land = _
    rw [h1]
    exact this

theorem freqRun_updLoc (res : Bool) (fs : FracStatic) (g : ℕ → ℝ) (s : FreqState) (pre : List FreqDay) (d : FreqDay) :
    (freqRun res fs g s (pre ++ [d])).updLoc = d.loc := by
  rw [freqRun_append]; rfl

theorem standingWater_fits {res : Bool} {fs : FracStatic} {g : ℕ → ℝ} (hf : WaterFits res fs g) (y : ℕ) {x : ℝ}
    (h0 : 0 ≤ x) (h1 : x ≤ fullLocalLakes res fs) :
    0 ≤ standingWater res fs g y x ∧ standingWater res fs g y x ≤ fs.cont := by
  have a := hf.glo
  have b := hf.reg
  have c := hf.gres y
  cases res with
  | true =>
    have := hf.fitsRes rfl y
    simp only [standingWater, fullLocalLakes, if_true] at *
    constructor <;> linarith
  | false =>
    have := hf.fitsPlain rfl
    simp [standingWater, fullLocalLakes] at *
    constructor <;> linarith

/-! ## Theorems -/

/-- C60: on every day of every run, whatever the dates, land and water shares add up to the continental area of the
cell. -/
theorem C60_shares (res : Bool) (fs : FracStatic) (g : ℕ → ℝ) (days : List FreqDay) (h : days ≠ []) :
    (freqRun res fs g freqStart days).water + (freqRun res fs g freqStart days).land = fs.cont := by
  have key : ∀ (ds : List FreqDay) (s : FreqState), s.flag = false → s.water + s.land = fs.cont →
      (freqRun res fs g s ds).water + (freqRun res fs g s ds).land = fs.cont := by
    intro ds
    induction ds with
    | nil => intro s _ h; exact h
    | cons d ds ih =>
      intro s hs hw
      have hfl : (freqGet res fs g d.t s).flag = false ∧
          (freqGet res fs g d.t s).water + (freqGet res fs g d.t s).land = fs.cont := by
        by_cases hj : d.t.m = 1 ∧ d.t.d = 1
        · have := freqGet_january res fs g d.t s hs hj.1 hj.2
          exact ⟨this.2.2, by rw [this.2.1]; ring⟩
        · rw [freqGet_other res fs g d.t s hs hj]; exact ⟨hs, hw⟩
      exact ih (freqStep res fs g s d) hfl.1 hfl.2
  cases days with
  | nil => exact absurd rfl h
  | cons d ds =>
    have := freqGet_first res fs g d.t freqStart rfl
    refine key ds (freqStep res fs g freqStart d) this.2.2 ?_
    show (freqGet res fs g d.t freqStart).water + (freqGet res fs g d.t freqStart).land = _
    rw [this.2.1]; ring

/-- C60: the water share of the first simulated day is the full extent of lakes and the reservoirs of that year, and it
stays so until the next 1 January. -/
theorem C60_first_year (res : Bool) (fs : FracStatic) (g : ℕ → ℝ) (d : FreqDay) (ds : List FreqDay)
    (hq : ∀ x ∈ ds, ¬ (x.t.m = 1 ∧ x.t.d = 1)) :
    (freqRun res fs g freqStart (d :: ds)).water = standingWater res fs g d.t.y (fullLocalLakes res fs) := by
  have h1 := freqGet_first res fs g d.t freqStart rfl
  have := (freqRun_quiet res fs g (freqStep res fs g freqStart d) ds h1.2.2 hq).1
  exact this.trans h1.1

/-- C60: from a 1 January on (other than the first simulated day) the water share counts the local lakes as the day
before left them and the reservoirs of the new year, until the following 1 January. -/
theorem C60_later_years (res : Bool) (fs : FracStatic) (g : ℕ → ℝ) (pre : List FreqDay) (e d : FreqDay)
    (ds : List FreqDay) (hm : d.t.m = 1) (hd : d.t.d = 1) (hq : ∀ x ∈ ds, ¬ (x.t.m = 1 ∧ x.t.d = 1)) :
    (freqRun res fs g freqStart (pre ++ e :: d :: ds)).water = standingWater res fs g d.t.y (100 * e.loc) := by
  have hfl := freqRun_start_flag res fs g (pre ++ [e]) (by simp)
  have hup := freqRun_updLoc res fs g freqStart pre e
  have hsplit : pre ++ e :: d :: ds = (pre ++ [e]) ++ d :: ds := by simp
  rw [hsplit, freqRun_append]
  have h1 := freqGet_january res fs g d.t _ hfl hm hd
  have := (freqRun_quiet res fs g (freqStep res fs g (freqRun res fs g freqStart (pre ++ [e])) d) ds h1.2.2 hq).1
  rw [← hup]
  exact this.trans h1.1

/-- C60: every run has one of these two forms, so the two previous theorems give the water share of every day: after the
last 1 January that is not the first simulated day, or without one. -/
theorem C60_cases (days : List FreqDay) (h : days ≠ []) :
    (∃ d ds, days = d :: ds ∧ ∀ x ∈ ds, ¬ (x.t.m = 1 ∧ x.t.d = 1)) ∨
    (∃ pre e d ds, days = pre ++ e :: d :: ds ∧ d.t.m = 1 ∧ d.t.d = 1 ∧ ∀ x ∈ ds, ¬ (x.t.m = 1 ∧ x.t.d = 1)) := by
  cases days with
  | nil => exact absurd rfl h
  | cons d0 rest =>
    clear h
    induction rest using List.reverseRecOn with
    | nil => exact Or.inl ⟨d0, [], rfl, by simp⟩
    | append_singleton l x ih =>
      by_cases hj : x.t.m = 1 ∧ x.t.d = 1
      · right
        rcases List.eq_nil_or_concat l with rfl | ⟨l', e, rfl⟩
        · exact ⟨[], d0, x, [], by simp, hj.1, hj.2, by simp⟩
        · exact ⟨d0 :: l', e, x, [], by simp, hj.1, hj.2, by simp⟩
      · rcases ih with ⟨d, ds, he, hq⟩ | ⟨pre, e, d, ds, he, hm, hd, hq⟩
        · left
          refine ⟨d, ds ++ [x], ?_, ?_⟩
          · rw [← List.cons_append, he, List.cons_append]
          · intro y hy
            rcases List.mem_append.1 hy with hy | hy
            · exact hq y hy
            · rw [List.mem_singleton] at hy; subst hy; exact hj
        · right
          refine ⟨pre, e, d, ds ++ [x], ?_, hm, hd, ?_⟩
          · rw [← List.cons_append, he]; simp
          · intro y hy
            rcases List.mem_append.1 hy with hy | hy
            · exact hq y hy
            · rw [List.mem_singleton] at hy; subst hy; exact hj

/-- C60: if standing water fits into the continental area of the cell at full extent and the routing never reports more
local lakes than their full extent, the water share stays between nothing and the continental area in every run. -/
theorem C60_fits {res : Bool} {fs : FracStatic} {g : ℕ → ℝ} (hf : WaterFits res fs g) (days : List FreqDay)
    (h : days ≠ []) (hl : ∀ d ∈ days, 0 ≤ d.loc ∧ 100 * d.loc ≤ fullLocalLakes res fs) :
    0 ≤ (freqRun res fs g freqStart days).water ∧ (freqRun res fs g freqStart days).water ≤ fs.cont := by
  rcases C60_cases days h with ⟨d, ds, rfl, hq⟩ | ⟨pre, e, d, ds, rfl, hm, hd, hq⟩
  · rw [C60_first_year res fs g d ds hq]
    refine standingWater_fits hf _ ?_ le_rfl
    have a := hf.loc
    have b := hf.lres
    unfold fullLocalLakes
    split <;> linarith
  · rw [C60_later_years res fs g pre e d ds hm hd hq]
    have := hl e (by simp)
    exact standingWater_fits hf _ (by linarith [this.1]) this.2

/-- C60: then the potential evapotranspiration written for the cell is the mean of that of land and that of open water
weighted with their shares, hence never outside the two. -/
theorem C60_between {res : Bool} {fs : FracStatic} {g : ℕ → ℝ} (hf : WaterFits res fs g) (days : List FreqDay)
    (h : days ≠ []) (hl : ∀ d ∈ days, 0 ≤ d.loc ∧ 100 * d.loc ≤ fullLocalLakes res fs) (pet openPet : ℝ) :
    min pet openPet ≤ petOutput fs.cont (freqRun res fs g freqStart days) pet openPet ∧
    petOutput fs.cont (freqRun res fs g freqStart days) pet openPet ≤ max pet openPet := by
  have hs := C60_shares res fs g days h
  obtain ⟨h0, h1⟩ := C60_fits hf days h hl
  have hc := hf.cont
  set s := freqRun res fs g freqStart days
  have hland : s.land = fs.cont - s.water := by linarith
  have e : petOutput fs.cont s pet openPet = ((fs.cont - s.water) * pet + s.water * openPet) / fs.cont := by
    unfold petOutput; rw [hland]; field_simp
  rw [e, le_div_iff₀ hc, div_le_iff₀ hc]
  have a1 := min_le_left pet openPet
  have a2 := min_le_right pet openPet
  have b1 := le_max_left pet openPet
  have b2 := le_max_right pet openPet
  have c : 0 ≤ fs.cont - s.water := by linarith
  constructor
  · nlinarith [mul_le_mul_of_nonneg_left a1 c, mul_le_mul_of_nonneg_left a2 h0]
  · nlinarith [mul_le_mul_of_nonneg_left b1 c, mul_le_mul_of_nonneg_left b2 h0]

/-- C60: the potential evapotranspiration written, in numbers, with `w` the water share of the day. -/
theorem C60_output (res : Bool) (fs : FracStatic) (g : ℕ → ℝ) (days : List FreqDay) (h : days ≠ []) (hc : 0 < fs.cont)
    (pet openPet w : ℝ) (hw : (freqRun res fs g freqStart days).water = w) :
    petOutput fs.cont (freqRun res fs g freqStart days) pet openPet = pet + w / fs.cont * (openPet - pet) := by
  have hs := C60_shares res fs g days h
  set s := freqRun res fs g freqStart days
  have hland : s.land = fs.cont - w := by linarith
  unfold petOutput; rw [hland, hw]; field_simp; ring

/-- C60: on consecutive days the reservoirs counted are always those of the year of the day itself. -/
theorem C60_own_year (s : Date) (n : ℕ) (a : List Date) (d : Date) (ds : List Date)
    (he : daysFrom s n = a ++ d :: ds) (hq : ∀ x ∈ ds, ¬ (x.m = 1 ∧ x.d = 1)) :
    ∀ x ∈ ds, x.y = d.y := by
  have key : ∀ (k : ℕ) (s : Date) (ds : List Date), daysFrom s k = ds → (∀ x ∈ ds.tail, ¬ (x.m = 1 ∧ x.d = 1)) →
      ∀ x ∈ ds, x.y = s.y := by
    intro k
    induction k with
    | zero => intro s ds h _ x hx; subst h; simp [daysFrom] at hx
    | succ k ih =>
      intro s ds h hq x hx
      subst h
      simp only [daysFrom, List.tail_cons] at hq
      rcases List.mem_cons.1 hx with rfl | hx
      · rfl
      · have h1 := ih s.next (daysFrom s.next k) rfl (fun y hy => hq y (List.mem_of_mem_tail hy)) x hx
        rw [h1]
        have hk : s.next ∈ daysFrom s.next k := by
          cases k with
          | zero => simp [daysFrom] at hx
          | succ k => simp [daysFrom]
        have := hq _ hk
        unfold Date.next at this ⊢
        split
        · rfl
        · split
          · rfl
          · rename_i h1 h2
            rw [if_neg h1, if_neg h2] at this
            simp at this
  have key2 : ∀ (a : List Date) (k : ℕ) (s d : Date) (ds : List Date), daysFrom s k = a ++ d :: ds →
      ∃ j, daysFrom d j = d :: ds := by
    intro a
    induction a with
    | nil =>
      intro k s d ds h
      cases k with
      | zero => simp [daysFrom] at h
      | succ k =>
        simp only [daysFrom, List.nil_append, List.cons.injEq] at h
        obtain ⟨rfl, h⟩ := h
        exact ⟨k + 1, by simp [daysFrom, h]⟩
    | cons b a ih =>
      intro k s d ds h
      cases k with
      | zero => simp [daysFrom] at h
      | succ k =>
        simp only [daysFrom, List.cons_append, List.cons.injEq] at h
        exact ih k s.next d ds h.2
  obtain ⟨j, hj⟩ := key2 a n s d ds he
  intro x hx
  exact key j d (d :: ds) hj (by simpa using hq) x (by simp [hx])

/-- C60: finding.  Where the static data put more lakes into a cell than its continental area (the land area
fraction is then set to zero, not negative) the land share stays negative and the potential evapotranspiration written is
outside that of land and of open water: here 3 mm although land evaporates 1 mm and open water 2 mm. -/
theorem C60_violated_overfull :
    ∃ (fs : FracStatic) (g : ℕ → ℝ) (days : List FreqDay), 0 < fs.cont ∧ days ≠ [] ∧ landFracPlain fs = 0 ∧
      (freqRun false fs g freqStart days).land < 0 ∧
      petOutput fs.cont (freqRun false fs g freqStart days) 1 2 = 3 := by
  refine ⟨⟨20, 30, 0, 0, 0, 10, 0⟩, fun _ => 0, [⟨⟨1990, 1, 1⟩, 0.1⟩], by norm_num, by simp, ?_, ?_, ?_⟩
  · norm_num [landFracPlain, clampNeg]
  · norm_num [freqRun, freqStep, freqUpdate, freqGet, freqStart, landWaterFreq, gloLakeShare, locLakeShare, gloresOfYear]
  · norm_num [petOutput, freqRun, freqStep, freqUpdate, freqGet, freqStart, landWaterFreq, gloLakeShare, locLakeShare,
      gloresOfYear]

/-! ## Non-vacuity -/

/-- A cell: 90 % continental, 10 % global lakes, 5 % regulated lakes, 8 % local lakes and 2 % local reservoirs. -/
noncomputable def freqCell : FracStatic :=
  { cont := 90, glolake := 10, reglake := 5, glowet := 3, locwet := 2, loclake := 8, locres := 2 }

/-- Reservoirs grow from 6 % to 9 % in 1991. -/
noncomputable def freqRes (y : ℕ) : ℝ := if y < 1991 then 6 else 9

/-- Two days across a New Year; local lakes shrink. -/
noncomputable def freqDays : List FreqDay := [⟨⟨1990, 12, 31⟩, 0.06⟩, ⟨⟨1991, 1, 1⟩, 0.05⟩, ⟨⟨1991, 1, 2⟩, 0.07⟩]

example : WaterFits true freqCell freqRes := by
  constructor <;> try (norm_num [freqCell])
  · intro y; unfold freqRes; split <;> norm_num
  · intro y; unfold freqRes; split <;> norm_num

example : ∀ d ∈ freqDays, 0 ≤ d.loc ∧ 100 * d.loc ≤ fullLocalLakes true freqCell := by
  intro d hd
  simp only [freqDays, List.mem_cons, List.not_mem_nil, or_false] at hd
  rcases hd with rfl | rfl | rfl <;> norm_num [fullLocalLakes, freqCell]

/-- On 31 December: 10 + 10 + 6 percent; on the days after: 10 + 6 + 9. -/
example : (freqRun true freqCell freqRes freqStart (freqDays.take 1)).water = 26 ∧
    (freqRun true freqCell freqRes freqStart freqDays).water = 25 ∧
    (freqRun true freqCell freqRes freqStart freqDays).land = 65 := by
  have h1 : (freqRun true freqCell freqRes freqStart (freqDays.take 1)).water = 26 := by
    rw [show freqDays.take 1 = [⟨⟨1990, 12, 31⟩, 0.06⟩] from rfl, C60_first_year _ _ _ _ _ (by simp)]
    norm_num [standingWater, fullLocalLakes, freqCell, freqRes]
  have h2 : (freqRun true freqCell freqRes freqStart freqDays).water = 25 := by
    have := C60_later_years true freqCell freqRes [] ⟨⟨1990, 12, 31⟩, 0.06⟩ ⟨⟨1991, 1, 1⟩, 0.05⟩
      [⟨⟨1991, 1, 2⟩, 0.07⟩] rfl rfl (by simp)
    refine (show _ = _ from this).trans ?_
    norm_num [standingWater, freqCell, freqRes]
  refine ⟨h1, h2, ?_⟩
  have := C60_shares true freqCell freqRes freqDays (by simp [freqDays])
  rw [h2] at this
  norm_num [freqCell] at this ⊢
  linarith

/-- The consecutive days of the example of `C60_own_year`. -/
example : daysFrom ⟨1990, 12, 31⟩ 3 = [⟨1990, 12, 31⟩] ++ ⟨1991, 1, 1⟩ :: [⟨1991, 1, 2⟩] := by decide

end WG
