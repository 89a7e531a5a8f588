import Verif.Props.YearStart

/-! C71: the balance of a simulation over several years in which reservoirs come into operation. -/

namespace WG

/-- The same state, with yesterday's land fraction replaced by the one that the ratio used for the rescaling of the land
storages stands for (0 if there is no water on land). Nothing reads yesterday's land fraction before it is overwritten, unless no land is left. -/
noncomputable def eff (s : FullState) : FullState :=
  { s with land := { s.land with prev := if s.land.cur = 0 then s.land.prev
    else if s.vert.water = 0 then 0 else s.land.ratio * s.land.cur } }

theorem fullForcing_eff (w : Weather) (s : FullState) : fullForcing w (eff s).land = fullForcing w s.land := rfl

theorem fullVert_eff (p : FullPar) (w : Weather) (s : FullState) : fullVert p w (eff s) = fullVert p w s := rfl

theorem fullIn_eff (p : FullPar) (c : CellIn) (w : Weather) (s : FullState) : fullIn p c w (eff s) = fullIn p c w s := by
  unfold fullIn
  rw [fullVert_eff]
  by_cases h : s.land.cur = 0
  · simp [eff, h]
  · simp [eff, h]

theorem fullRec_eff (p : FullPar) (c : CellIn) (w : Weather) (s : FullState) (up : ℝ) (o : CellOut) :
    fullRec p c w (eff s) up o = fullRec p c w s up o := by
  unfold fullRec
  rw [fullVert_eff, fullIn_eff]
  rfl

theorem fullNext_eff (p : FullPar) (w : Weather) (s : FullState) (o : CellOut) :
    fullNext p w (eff s) o = fullNext p w s o := rfl

/-- A cell whose reservoir grows at the start of the year. -/
def Grows (g g' : ℝ) : Prop := g < g'

/-- What is assumed of a cell at the start of a reservoir year: it is initialised, `g` is the reservoir fraction of the
year before, reservoirs do not shrink, the new reservoir fits into the land of the cell and into what global lakes
leave, and it takes more land than the lakes and wetlands released overnight. -/
structure YearCellOk (fs : FracStatic) (g g' : ℝ) (l : LandState) : Prop where
  init : l.init = false
  last : l.gloresPrev = g
  nonneg : 0 ≤ g
  mono : g ≤ g'
  fits : fs.glolake + g' ≤ fs.cont
  land : g < g' → (g' - g) / 100 < l.cur
  released : g < g' → l.cur - (g' - g) / 100 < l.prev

section cell
variable {fs : FracStatic} {g g' : ℝ} {l : LandState}

theorem yearLand_cur (h : YearCellOk fs g g' l) (hcur : 0 ≤ l.cur) :
    (yearLand fs g' l).1.cur = l.cur - (g' - g) / 100 ∧ (yearLand fs g' l).1.prev = l.prev ∧
    (yearLand fs g' l).1.ratio = l.ratio ∧ (yearLand fs g' l).1.swb = l.swb ∧ (yearLand fs g' l).1.init = false ∧
    (yearLand fs g' l).1.gloresPrev = g' ∧
    (yearLand fs g' l).2 = if g < g' then l.prev - (yearLand fs g' l).1.cur else 0 := by
  rcases h.mono.eq_or_lt with e | hlt
  · subst e
    unfold yearLand landAdapt landYear landFracYear
    simp [h.init, h.last, clampNeg_of_nonneg hcur]
  · have h1 := h.land hlt
    have h2 := h.released hlt
    have hcl : clampNeg (l.cur - (g' - g) / 100) = l.cur - (g' - g) / 100 := clampNeg_of_nonneg (by linarith)
    have hnew : (if g > 0 then l.cur - (g' - g) / 100 else l.cur - g' / 100) = l.cur - (g' - g) / 100 := by
      split_ifs with h0
      · rfl
      · have : g = 0 := le_antisymm (not_lt.mp h0) h.nonneg
        rw [this, sub_zero]
    have hy : landYear fs true g' l = { l with cur := l.cur - (g' - g) / 100, gloresChange := g' - g } := by
      unfold landYear landFracYear
      simp only [h.init, h.last, Bool.or_false, if_true, Bool.false_eq_true, if_false, hnew, gt_iff_lt, sub_pos, if_pos hlt, hcl]
    unfold yearLand
    rw [hy]
    unfold landAdapt
    simp only [if_true, gt_iff_lt, sub_pos, hlt, true_and, h.init]
    rw [if_neg (by linarith), if_pos (by linarith)]
    simp

/-- The part of the static data of a cell that does not change between years. -/
structure SameOpen (c c' : CellIn) : Prop where
  locLake : c.locLake = c'.locLake
  locWet : c.locWet = c'.locWet
  gloWet : c.gloWet = c'.gloWet
  redExp : c.redExp = c'.redExp
  corr : c.corr = c'.corr
  sink : c.sink = c'.sink

theorem openFrac_sameOpen {c c' : CellIn} (h : SameOpen c c') (st : CellState) : openFrac c st = openFrac c' st := by
  unfold openFrac
  rw [h.locLake, h.locWet, h.gloWet, h.redExp]

/-- The state of a cell after the start of a year, when its reservoir contains `r`. -/
noncomputable def yearState (fs : FracStatic) (g' r : ℝ) (s : FullState) : FullState :=
  { s with land := (yearLand fs g' s.land).1, lat := { s.lat with res := r } }

variable {v : VertPar} {a : ℝ} {c c' : CellIn} {s : FullState}

theorem resLandWater_eq {fs : FracStatic} {g g' : ℝ} (h : fs.glolake + g' ≤ fs.cont) (hm : g ≤ g') :
    resLandWater fs g' = resLandWater fs g - (g' - g) / 100 := by
  unfold resLandWater
  rw [clampNeg_of_nonneg (by linarith [h] : 0 ≤ (fs.cont - fs.glolake - g') / 100),
    clampNeg_of_nonneg (by linarith [h, hm] : 0 ≤ (fs.cont - fs.glolake - g) / 100)]
  ring

theorem year_cur_bounds (hs : FullOk ⟨v, a, resLandWater fs g⟩ c s) (hy : YearCellOk fs g g' s.land) (hc : SameOpen c c')
    (hg : GoodCell ⟨v, a, resLandWater fs g'⟩ c') : 0 ≤ s.land.cur ∧ s.land.cur ≤ resLandWater fs g := by
  obtain ⟨o1, o2⟩ := openFrac_bounds c' hg.lat s.lat
  have e := resLandWater_eq hy.fits hy.mono
  have h1 := hs.cover
  have h2 := hs.swb
  have h3 := hg.fit
  rw [openFrac_sameOpen hc] at h2
  simp only at h1 h3
  have := hy.mono
  exact ⟨by linarith, by linarith⟩

theorem year_fullOk (hs : FullOk ⟨v, a, resLandWater fs g⟩ c s) (hy : YearCellOk fs g g' s.land) (hc : SameOpen c c')
    (hg : GoodCell ⟨v, a, resLandWater fs g'⟩ c') (r : ℝ)
    (hlat : ({ s.lat with res := r } : CellState).Ok c') :
    FullOk ⟨v, a, resLandWater fs g'⟩ c' (eff (yearState fs g' r s)) := by
  obtain ⟨b0, b1⟩ := year_cur_bounds hs hy hc hg
  obtain ⟨k1, k2, k3, k4, -, -, -⟩ := yearLand_cur hy b0
  have e := resLandWater_eq hy.fits hy.mono
  have hcov := hs.cover
  have hsw := hs.swb
  simp only at hcov
  have hpos : (yearLand fs g' s.land).1.cur = 0 → s.land.cur = 0 ∧ g = g' := by
    intro h0
    rcases hy.mono.eq_or_lt with h | h
    · subst h; rw [k1] at h0; exact ⟨by linarith, rfl⟩
    · have := hy.land h; rw [k1] at h0; linarith
  refine ⟨hs.vert, hlat, ?_, ?_, ?_, ?_, ?_, ?_⟩
  · change (yearLand fs g' s.land).1.swb = openFrac c' _
    rw [k4, hsw, openFrac_sameOpen hc]; rfl
  · change (yearLand fs g' s.land).1.cur + (yearLand fs g' s.land).1.swb = resLandWater fs g'
    rw [k1, k4]; linarith
  · change 0 ≤ if (yearLand fs g' s.land).1.cur = 0 then (yearLand fs g' s.land).1.prev
      else if s.vert.water = 0 then 0 else (yearLand fs g' s.land).1.ratio * (yearLand fs g' s.land).1.cur
    split_ifs with h0 hw
    · rw [k2]; exact hs.prev0
    · exact le_rfl
    · rw [k3, k1]
      apply mul_nonneg hs.ratio0
      rcases hy.mono.eq_or_lt with h | h
      · subst h; linarith
      · linarith [hy.land h]
  · change (if (yearLand fs g' s.land).1.cur = 0 then (yearLand fs g' s.land).1.prev
      else if s.vert.water = 0 then 0 else (yearLand fs g' s.land).1.ratio * (yearLand fs g' s.land).1.cur)
        ≤ resLandWater fs g'
    have h1 := hs.prev1
    simp only at h1
    split_ifs with h0 hw
    · rw [k2, ← (hpos h0).2]; exact h1
    · exact clampNeg_nonneg _
    · rw [k3, k1]
      rcases hy.mono.eq_or_lt with h | h
      · subst h
        have hr := (hs.ratio (fun h0' => h0 (by rw [k1, h0']; ring))).resolve_right hw
        rw [e]
        linarith
      · have hl := hy.land h
        have hr := (hs.ratio (by linarith)).resolve_right hw
        have hcp : 0 < s.land.cur := by linarith
        have hd : 0 ≤ (g' - g) / 100 := by linarith
        have hrat : s.land.ratio = s.land.prev / s.land.cur := by field_simp; linarith
        rw [hrat, e, div_mul_eq_mul_div, div_le_iff₀ hcp]
        generalize (g' - g) / 100 = D at hl hd
        have q1 : s.land.prev * (s.land.cur - D) ≤ resLandWater fs g * (s.land.cur - D) :=
          mul_le_mul_of_nonneg_right h1 (by linarith)
        have q2 : D * s.land.cur ≤ D * resLandWater fs g := mul_le_mul_of_nonneg_left b1 hd
        nlinarith
  · change 0 ≤ (yearLand fs g' s.land).1.ratio
    rw [k3]; exact hs.ratio0
  · intro h0
    by_cases hw : s.vert.water = 0
    · right; exact hw
    · left
      change _ = if (yearLand fs g' s.land).1.cur = 0 then _ else if s.vert.water = 0 then _ else _
      rw [if_neg (show ¬ (yearLand fs g' s.land).1.cur = 0 from h0), if_neg hw]
      rfl

/-- What the start of the year adds to the water of a cell (km³): what its reservoir gets minus what its land loses, and
the error of rescaling the storages of the remaining land with yesterday's ratio. -/
noncomputable def yearGap (fs : FracStatic) (g' area r : ℝ) (s : FullState) : ℝ :=
  (r - s.lat.res) - yearLost area fs g' s
    + if s.land.gloresPrev < g' then
        s.vert.water * 1e-6 * area * (yearLand fs g' s.land).1.cur * (s.land.ratio - 1) else 0

theorem year_tws (hs : FullOk ⟨v, a, resLandWater fs g⟩ c s) (hy : YearCellOk fs g g' s.land) (hc : SameOpen c c')
    (hg : GoodCell ⟨v, a, resLandWater fs g'⟩ c') (r : ℝ)
    (hsnow : s.vert.canopy + s.vert.snow + s.vert.soil = s.vert.water) :
    twsBefore ⟨v, a, resLandWater fs g'⟩ (eff (yearState fs g' r s))
      = twsBefore ⟨v, a, resLandWater fs g⟩ s + yearGap fs g' a r s := by
  obtain ⟨b0, -⟩ := year_cur_bounds hs hy hc hg
  obtain ⟨k1, k2, k3, k4, -, -, k7⟩ := yearLand_cur hy b0
  have hlost : yearLost a fs g' s = s.vert.water * 1e-6 * a * (yearLand fs g' s.land).2 := by
    unfold yearLost; rw [← hsnow]; ring
  unfold twsBefore yearGap
  rw [hlost, hy.last]
  have hlat : (eff (yearState fs g' r s)).lat.total = s.lat.total + (r - s.lat.res) := by
    simp only [eff, yearState, CellState.total]; ring
  have hw : (eff (yearState fs g' r s)).vert = s.vert := rfl
  have hp : (eff (yearState fs g' r s)).land.prev = if (yearLand fs g' s.land).1.cur = 0 then (yearLand fs g' s.land).1.prev
      else if s.vert.water = 0 then 0 else (yearLand fs g' s.land).1.ratio * (yearLand fs g' s.land).1.cur := rfl
  rw [hlat, hw, hp]
  simp only
  by_cases hz : s.vert.water = 0
  · rw [hz]; simp
  rw [if_neg hz]
  rcases hy.mono.eq_or_lt with h | h
  · subst h
    rw [if_neg (lt_irrefl g)] at k7
    rw [if_neg (lt_irrefl g), k7]
    by_cases h0 : (yearLand fs g s.land).1.cur = 0
    · rw [if_pos h0, k2]; ring
    · rw [if_neg h0, k3, k1]
      have hr := (hs.ratio (fun h0' => h0 (by rw [k1, h0']; ring))).resolve_right hz
      have : s.land.ratio * (s.land.cur - (g - g) / 100) = s.land.prev := by rw [← hr]; ring
      rw [this]; ring
  · rw [if_pos h] at k7
    rw [if_pos h, k7]
    have hpos : 0 < (yearLand fs g' s.land).1.cur := by rw [k1]; linarith [hy.land h]
    rw [if_neg hpos.ne', k3]
    ring

end cell

section sim
variable {δ : Type} (order : List (Cell × Cell)) (I : δ → Prop)

open Classical in
/-- `eff` in all simulated cells. -/
noncomputable def effSim (s : Sim δ) : Sim δ :=
  { s with state := fun x => if x ∈ order.map Prod.fst then eff (s.state x) else s.state x }

variable (par : Cell → FullPar) (lat0 : Cell → CellIn)

theorem effSim_of_mem (s : Sim δ) {x : Cell} (hx : x ∈ order.map Prod.fst) :
    (effSim order s).state x = eff (s.state x) := if_pos hx

theorem simIn_eff (d : SimDay δ) (s : Sim δ) : simIn par d (effSim order s) = simIn par d s := by
  funext x
  unfold simIn effSim
  simp only
  split_ifs
  · exact fullIn_eff ..
  · rfl

theorem simNet_eff (d : SimDay δ) (s : Sim δ) : simNet par order d (effSim order s) = simNet par order d s := by
  unfold simNet
  rw [simIn_eff]
  have : (fun x => ((effSim order s).state x).lat) = fun x => (s.state x).lat := by
    funext x
    unfold effSim
    simp only
    split_ifs <;> rfl
  rw [this]
  rfl

theorem dayOk_eff (d : SimDay δ) (s : Sim δ) (hd : d.Ok par lat0 order I s) : d.Ok par lat0 order I (effSim order s) := by
  refine ⟨fun x hx => ?_, ?_, hd.start, hd.close⟩
  · obtain ⟨g1, g2, g3, g4⟩ := hd.cells x hx
    refine ⟨g1, g2, ?_, by rw [simIn_eff]; exact g4⟩
    rw [effSim_of_mem order s hx]
    exact g3
  · rw [simIn_eff]; exact hd.ledger

theorem simDay_eff (h : Sound order) (hcorr : ∀ x ∈ order.map Prod.fst, 0 < (lat0 x).corr) (d : SimDay δ) (s : Sim δ)
    (hs : (effSim order s).Ok par lat0 order I) (hd : d.Ok par lat0 order I s) :
    simDay par order d (effSim order s) = simDay par order d s := by
  have hcell := (simDay_cell par lat0 order I h hcorr d (effSim order s) hs (dayOk_eff order I par lat0 d s hd)).2
  have hout : ∀ x ∈ order.map Prod.fst, ∃ o, (simNet par order d s).ledger.out x = some o := by
    intro x hx
    obtain ⟨dem, keep, -, -, -, -, k5⟩ := hcell x hx
    simp only [simDay, simNet_eff] at k5
    cases ho : (simNet par order d s).ledger.out x with
    | none => rw [ho] at k5; simp at k5
    | some o => exact ⟨o, rfl⟩
  unfold simDay
  rw [simNet_eff]
  simp only
  congr 1
  · congr 1
    funext x
    by_cases hx : x ∈ order.map Prod.fst
    · obtain ⟨o, ho⟩ := hout x hx
      rw [ho, effSim_of_mem order s hx]
      rfl
    · have : (effSim order s).state x = s.state x := if_neg hx
      rw [this]
  · funext x
    by_cases hx : x ∈ order.map Prod.fst
    · obtain ⟨o, ho⟩ := hout x hx
      rw [ho, effSim_of_mem order s hx]
      simp only [Option.map_some]
      rw [fullRec_eff]
      rfl
    · have : (effSim order s).state x = s.state x := if_neg hx
      rw [this]
      rfl

theorem daysOk_eff (h : Sound order) (hcorr : ∀ x ∈ order.map Prod.fst, 0 < (lat0 x).corr) (days : List (SimDay δ))
    (s : Sim δ) (hs : (effSim order s).Ok par lat0 order I) (hd : SimDaysOk par lat0 order I s days) :
    SimDaysOk par lat0 order I (effSim order s) days := by
  cases days with
  | nil => trivial
  | cons d ds =>
    refine ⟨dayOk_eff order I par lat0 d s hd.1, ?_⟩
    rw [simDay_eff order I par lat0 h hcorr d s hs hd.1]
    exact hd.2

theorem simRun_eff (h : Sound order) (hcorr : ∀ x ∈ order.map Prod.fst, 0 < (lat0 x).corr) (days : List (SimDay δ))
    (hne : days ≠ []) (s : Sim δ) (hs : (effSim order s).Ok par lat0 order I) (hd : SimDaysOk par lat0 order I s days) :
    simRun par order (effSim order s) days = simRun par order s days := by
  cases days with
  | nil => exact absurd rfl hne
  | cons d ds =>
    simp only [simRun]
    rw [simDay_eff order I par lat0 h hcorr d s hs hd.1]

/-- After at least one day, the storage before the next day is the last one recorded, and the mean snow storage is the
mean over the bands. -/
theorem run_end (h : Sound order) (hcorr : ∀ x ∈ order.map Prod.fst, 0 < (lat0 x).corr) (days : List (SimDay δ))
    (hne : days ≠ []) (s : Sim δ) (hs : s.Ok par lat0 order I) (hd : SimDaysOk par lat0 order I s days)
    (x : Cell) (hx : x ∈ order.map Prod.fst) (z : ℝ) :
    (((series par order s days x).getLast?.map (·.tws)).getD z)
      = twsBefore (par x) ((simRun par order s days).1.state x) ∧
    (let v := ((simRun par order s days).1.state x).vert; v.canopy + v.snow + v.soil = v.water) := by
  induction days generalizing s z with
  | nil => exact absurd rfl hne
  | cons d ds ih =>
    obtain ⟨dem, keep, k1, k2, k3, k4, k5⟩ := (simDay_cell par lat0 order I h hcorr d s hs hd.1).2 x hx
    obtain ⟨g1, g2, g3, g4⟩ := hd.1.cells x hx
    have hf := FullOk_same g2 (hs.2 x hx)
    have hser : series par order s (d :: ds) x = fullRec (par x) (d.lateral s.demand x) (d.weather x) (s.state x)
        ((simNet par order d s).up x) (cellDay (simIn par d s x) (s.state x).lat ((simNet par order d s).up x) dem keep)
        :: series par order (simDay par order d s).1 ds x := by
      simp only [series, simRun]
      rw [List.filterMap_cons, k5]
    rw [hser, getLast_tws]
    have htws := (C50_cell_state (par x) (d.lateral s.demand x) (d.weather x) (s.state x) g1 hf g3 _ dem keep k2 k1 g4).2
    cases ds with
    | nil =>
      simp only [simRun]
      constructor
      · rw [k4]
        exact htws.symm
      · rw [k4]
        exact next_snow _ _ _ hf.vert
    | cons e es =>
      exact ih (by simp) _ (simDay_ok par lat0 order I h hcorr d s hs hd.1) hd.2 _

/-- The reservoir fraction remembered from the last 1 January does not change from day to day. -/
theorem run_land (days : List (SimDay δ)) (s : Sim δ) (x : Cell) :
    ((simRun par order s days).1.state x).land.init = (s.state x).land.init ∧
    ((simRun par order s days).1.state x).land.gloresPrev = (s.state x).land.gloresPrev := by
  induction days generalizing s with
  | nil => exact ⟨rfl, rfl⟩
  | cons d ds ih =>
    simp only [simRun]
    rw [(ih _).1, (ih _).2]
    simp only [simDay]
    cases (simNet par order d s).ledger.out x with
    | none => exact ⟨rfl, rfl⟩
    | some o => exact ⟨rfl, rfl⟩

end sim

/-! ### Several years -/

/-- What is assumed of the data of a cell and of its land at the start of a reservoir year: reservoirs do not shrink, the
new reservoir fits into the land of the cell and into what global lakes leave, and it takes more land than the lakes
and wetlands released overnight. -/
structure YearFits (fs : FracStatic) (g g' : ℝ) (l : LandState) : Prop where
  nonneg : 0 ≤ g
  mono : g ≤ g'
  fits : fs.glolake + g' ≤ fs.cont
  land : g < g' → (g' - g) / 100 < l.cur
  released : g < g' → l.cur - (g' - g) / 100 < l.prev

section span
variable {δ : Type} (G : Grid) (order : List (Cell × Cell)) (I : δ → Prop)

/-- The start of the year `y`, in which the cells are described by `lat1`, after a year with reservoir fractions `g` and
cells described by `lat0`: lakes and wetlands of the cells are the same, reservoirs and global lakes may be
different, and their storages (with the water handed over) are within their limits. -/
def YearOk (g : Cell → ℝ) (lat0 : Cell → CellIn) (y : ResYear δ) (lat1 : Cell → CellIn) (s : Sim δ) : Prop :=
  ∀ x ∈ order.map Prod.fst, YearFits (G.frac x) (g x) (y.glores x) (s.state x).land ∧ SameOpen (lat0 x) (lat1 x) ∧
    GoodCell (G.par y.glores x) (lat1 x) ∧ ((yearStart G y s).state x).lat.Ok (lat1 x)

/-- Sensible days and years, one after the other, with at least one day in every year. -/
def SpanOk : (Cell → ℝ) → (Cell → CellIn) → List (SimDay δ) → Sim δ → List (ResYear δ × (Cell → CellIn)) → Prop
  | g, lat0, days, s, [] => days ≠ [] ∧ SimDaysOk (G.par g) lat0 order I s days
  | g, lat0, days, s, y :: ys => days ≠ [] ∧ SimDaysOk (G.par g) lat0 order I s days ∧
      (let r := (simRun (G.par g) order s days).1
       YearOk G order g lat0 y.1 y.2 r ∧ SpanOk y.1.glores y.2 y.1.days (yearStart G y.1 r) ys)

/-- The reservoir fractions of the last 1 January are remembered. -/
def Started (g : Cell → ℝ) (s : Sim δ) : Prop :=
  ∀ x ∈ order.map Prod.fst, (s.state x).land.init = false ∧ (s.state x).land.gloresPrev = g x

/-- What the starts of the years add to the water of a cell (km³). -/
noncomputable def spanGap : (Cell → ℝ) → List (SimDay δ) → Sim δ → List (ResYear δ) → Cell → ℝ
  | _, _, _, [], _ => 0
  | g, days, s, y :: ys, x =>
    let r := (simRun (G.par g) order s days).1
    yearGap (G.frac x) (y.glores x) (G.area x) ((yearStart G y r).state x).lat.res (r.state x)
      + spanGap y.glores y.days (yearStart G y r) ys x

/-- The residues that may be flushed in a cell (km³). -/
noncomputable def spanTol : (Cell → ℝ) → (Cell → CellIn) → List (SimDay δ) → List (ResYear δ × (Cell → CellIn)) → Cell → ℝ
  | g, lat0, days, [], x => flushTol (G.par g x) (lat0 x) * days.length
  | g, lat0, days, y :: ys, x =>
    flushTol (G.par g x) (lat0 x) * days.length + spanTol y.1.glores y.2 y.1.days ys x

/-- The records of a cell over all years. -/
noncomputable def spanSeries (g : Cell → ℝ) (days : List (SimDay δ)) (s : Sim δ) (years : List (ResYear δ)) (x : Cell) :
    List DayRec :=
  (simSpan G order g days s years).2.filterMap (· x)

theorem simSpan_congr (g : Cell → ℝ) (days : List (SimDay δ)) (s s' : Sim δ) (years : List (ResYear δ))
    (h : simRun (G.par g) order s days = simRun (G.par g) order s' days) :
    simSpan G order g days s years = simSpan G order g days s' years ∧
    spanGap G order g days s years = spanGap G order g days s' years := by
  cases years with
  | nil => exact ⟨h, rfl⟩
  | cons y ys =>
    constructor
    · simp only [simSpan, h]
    · funext x; simp only [spanGap, h]

theorem spanOk_eff (h : Sound order) (g : Cell → ℝ) (lat0 : Cell → CellIn)
    (hcorr : ∀ x ∈ order.map Prod.fst, 0 < (lat0 x).corr) (days : List (SimDay δ)) (s : Sim δ)
    (years : List (ResYear δ × (Cell → CellIn))) (hs : (effSim order s).Ok (G.par g) lat0 order I)
    (ho : SpanOk G order I g lat0 days s years) : SpanOk G order I g lat0 days (effSim order s) years := by
  cases years with
  | nil => exact ⟨ho.1, daysOk_eff order I _ lat0 h hcorr days s hs ho.2⟩
  | cons y ys =>
    obtain ⟨h1, h2, h3⟩ := ho
    refine ⟨h1, daysOk_eff order I _ lat0 h hcorr days s hs h2, ?_⟩
    rw [simRun_eff order I _ lat0 h hcorr days h1 s hs h2]
    exact h3

theorem yearStart_ok (g : Cell → ℝ) (lat0 lat1 : Cell → CellIn) (y : ResYear δ) (s : Sim δ)
    (hs : s.Ok (G.par g) lat0 order I) (hst : Started order g s) (hy : YearOk G order g lat0 y lat1 s) :
    (effSim order (yearStart G y s)).Ok (G.par y.glores) lat1 order I ∧
    Started order y.glores (effSim order (yearStart G y s)) := by
  have hc : ∀ x ∈ order.map Prod.fst, YearCellOk (G.frac x) (g x) (y.glores x) (s.state x).land := by
    intro x hx
    obtain ⟨h1, -⟩ := hy x hx
    exact ⟨(hst x hx).1, (hst x hx).2, h1.nonneg, h1.mono, h1.fits, h1.land, h1.released⟩
  constructor
  · refine ⟨hs.1, fun x hx => ?_⟩
    obtain ⟨-, h2, h3, h4⟩ := hy x hx
    rw [effSim_of_mem order _ hx]
    exact year_fullOk (hs.2 x hx) (hc x hx) h2 h3 _ h4
  · intro x hx
    obtain ⟨-, h2, h3, -⟩ := hy x hx
    rw [effSim_of_mem order _ hx]
    have b := year_cur_bounds (hs.2 x hx) (hc x hx) h2 h3
    obtain ⟨-, -, -, -, k5, k6, -⟩ := yearLand_cur (hc x hx) b.1
    exact ⟨k5, k6⟩

/-- `P` holds of a cell in all years. -/
def AllYears (P : FullPar → CellIn → Prop) (g : Cell → ℝ) (lat0 : Cell → CellIn) (years : List (ResYear δ × (Cell → CellIn)))
    (x : Cell) : Prop :=
  P (G.par g x) (lat0 x) ∧ ∀ y ∈ years, P (G.par y.1.glores x) (y.2 x)

/-- C71 for a cell, in general: see `C71_cell`. -/
theorem span_error (h : Sound order) (years : List (ResYear δ × (Cell → CellIn))) (g : Cell → ℝ) (lat0 : Cell → CellIn)
    (hcorr : ∀ x ∈ order.map Prod.fst, 0 < (lat0 x).corr)
    (hsink : ∀ x ∈ order.map Prod.fst, (lat0 x).sink = true → (lat0 x).corr = 1)
    (days : List (SimDay δ)) (s : Sim δ) (hs : s.Ok (G.par g) lat0 order I) (hst : Started order g s)
    (ho : SpanOk G order I g lat0 days s years) (x : Cell) (hx : x ∈ order.map Prod.fst) :
    let recs := spanSeries G order g days s (years.map Prod.fst) x
    let e := (recs.map (dayNet (lat0 x).corr)).sum
        - ((recs.getLast?.map (·.tws)).getD (twsBefore (G.par g x) (s.state x)) - twsBefore (G.par g x) (s.state x))
        + spanGap G order g days s (years.map Prod.fst) x
    ((AllYears G LandStays g lat0 years x → -spanTol G g lat0 days years x ≤ e) ∧
      (AllYears G Closing g lat0 years x → e ≤ spanTol G g lat0 days years x)) ∧
    recs.length = days.length + (years.map fun y => y.1.days.length).sum := by
  induction years generalizing g lat0 days s with
  | nil =>
    obtain ⟨c1, c2⟩ := series_errors (G.par g) lat0 order I h hcorr hsink days s hs ho.2 x hx
    have c3 := errors_sum c1
    rw [c2] at c3
    simp only [List.map_nil, spanGap, spanTol, add_zero, List.sum_nil]
    exact ⟨⟨fun hl => c3.1 hl.1, fun hl => c3.2 hl.1⟩, c2⟩
  | cons y ys ih =>
    obtain ⟨h1, h2, h3, h4⟩ := ho
    set r := (simRun (G.par g) order s days).1 with hr
    obtain ⟨c1, c2⟩ := series_errors (G.par g) lat0 order I h hcorr hsink days s hs h2 x hx
    have c3 := errors_sum c1
    rw [c2] at c3
    obtain ⟨e1, e2⟩ := run_end order I (G.par g) lat0 h hcorr days h1 s hs h2 x hx (twsBefore (G.par g x) (s.state x))
    rw [e1] at c3
    have hrok : r.Ok (G.par g) lat0 order I := C54_simulation_states (G.par g) lat0 order I h hcorr days s hs h2
    have hrst : Started order g r := by
      intro z hz
      obtain ⟨q1, q2⟩ := run_land order (G.par g) days s z
      exact ⟨q1.trans (hst z hz).1, q2.trans (hst z hz).2⟩
    obtain ⟨hok', hst'⟩ := yearStart_ok G order I g lat0 y.2 y.1 r hrok hrst h3
    have hcorr' : ∀ z ∈ order.map Prod.fst, 0 < (y.2 z).corr := fun z hz => by
      rw [← (h3 z hz).2.1.corr]; exact hcorr z hz
    have hsink' : ∀ z ∈ order.map Prod.fst, (y.2 z).sink = true → (y.2 z).corr = 1 := fun z hz => by
      rw [← (h3 z hz).2.1.corr, ← (h3 z hz).2.1.sink]; exact hsink z hz
    obtain ⟨i1, i2⟩ := ih y.1.glores y.2 hcorr' hsink' y.1.days (effSim order (yearStart G y.1 r)) hok' hst'
      (spanOk_eff G order I h y.1.glores y.2 hcorr' y.1.days _ ys hok' h4)
    have hne : y.1.days ≠ [] ∧ SimDaysOk (G.par y.1.glores) y.2 order I (yearStart G y.1 r) y.1.days := by
      cases ys with
      | nil => exact h4
      | cons z zs => exact ⟨h4.1, h4.2.1⟩
    have hrun := simRun_eff order I (G.par y.1.glores) y.2 h hcorr' y.1.days hne.1 _ hok' hne.2
    obtain ⟨j1, j2⟩ := simSpan_congr G order y.1.glores y.1.days _ _ (ys.map Prod.fst) hrun
    have hser' : spanSeries G order y.1.glores y.1.days (effSim order (yearStart G y.1 r)) (ys.map Prod.fst) x
        = spanSeries G order y.1.glores y.1.days (yearStart G y.1 r) (ys.map Prod.fst) x := by
      unfold spanSeries; rw [j1]
    rw [j2] at i1
    rw [hser'] at i1 i2
    have hser : spanSeries G order g days s ((y :: ys).map Prod.fst) x
        = series (G.par g) order s days x
          ++ spanSeries G order y.1.glores y.1.days (yearStart G y.1 r) (ys.map Prod.fst) x := by
      simp only [spanSeries, series, List.map_cons, simSpan, List.filterMap_append]
      rfl
    have hc : YearCellOk (G.frac x) (g x) (y.1.glores x) (r.state x).land := by
      obtain ⟨q1, -⟩ := h3 x hx
      exact ⟨(hrst x hx).1, (hrst x hx).2, q1.nonneg, q1.mono, q1.fits, q1.land, q1.released⟩
    have htws := year_tws (hrok.2 x hx) hc (h3 x hx).2.1 (h3 x hx).2.2.1
      ((yearStart G y.1 r).state x).lat.res e2
    have hstate : (effSim order (yearStart G y.1 r)).state x
        = eff (yearState (G.frac x) (y.1.glores x) ((yearStart G y.1 r).state x).lat.res (r.state x)) := by
      rw [effSim_of_mem order _ hx]; rfl
    have htws' : twsBefore (G.par y.1.glores x) ((effSim order (yearStart G y.1 r)).state x)
        = twsBefore (G.par g x) (r.state x)
          + yearGap (G.frac x) (y.1.glores x) (G.area x) ((yearStart G y.1 r).state x).lat.res (r.state x) := by
      rw [hstate]; exact htws
    rw [htws', ← (h3 x hx).2.1.corr] at i1
    have hlast : ∀ z z' : ℝ, ((spanSeries G order g days s ((y :: ys).map Prod.fst) x).getLast?.map (·.tws)).getD z
        = ((spanSeries G order y.1.glores y.1.days (yearStart G y.1 r) (ys.map Prod.fst) x).getLast?.map (·.tws)).getD z' := by
      intro z z'
      rw [hser, List.getLast?_append]
      cases hl : (spanSeries G order y.1.glores y.1.days (yearStart G y.1 r) (ys.map Prod.fst) x).getLast? with
      | none =>
        rw [List.getLast?_eq_none_iff] at hl
        rw [hl] at i2
        simp only [List.length_nil] at i2
        have := List.length_pos_of_ne_nil hne.1
        omega
      | some l => rfl
    constructor
    · rw [hlast _ (twsBefore (G.par g x) (r.state x)
          + yearGap (G.frac x) (y.1.glores x) (G.area x) ((yearStart G y.1 r).state x).lat.res (r.state x)), hser,
        List.map_append, List.sum_append]
      simp only [List.map_cons, spanGap, spanTol, ← hr]
      have hall : ∀ P : FullPar → CellIn → Prop, AllYears G P g lat0 (y :: ys) x →
          P (G.par g x) (lat0 x) ∧ AllYears G P y.1.glores y.2 ys x := fun P hP =>
        ⟨hP.1, hP.2 y (by simp), fun z hz => hP.2 z (by simp [hz])⟩
      constructor
      · intro hl
        obtain ⟨l1, l2⟩ := hall _ hl
        linarith [i1.1 l2, c3.1 l1]
      · intro hl
        obtain ⟨l1, l2⟩ := hall _ hl
        linarith [i1.2 l2, c3.2 l1]
    · rw [hser, List.length_append, c2, i2]
      simp only [List.map_cons, List.sum_cons]

/-- C71 for a cell: over any number of years, the recorded fluxes and the change of the recorded storage agree up to
flushed residues and what the starts of the years added. -/
theorem C71_cell (h : Sound order) (years : List (ResYear δ × (Cell → CellIn))) (g : Cell → ℝ) (lat0 : Cell → CellIn)
    (hcorr : ∀ x ∈ order.map Prod.fst, 0 < (lat0 x).corr)
    (hsink : ∀ x ∈ order.map Prod.fst, (lat0 x).sink = true → (lat0 x).corr = 1)
    (days : List (SimDay δ)) (s : Sim δ) (hs : s.Ok (G.par g) lat0 order I) (hst : Started order g s)
    (ho : SpanOk G order I g lat0 days s years) (x : Cell) (hx : x ∈ order.map Prod.fst)
    (hcl : AllYears G Closing g lat0 years x) :
    let recs := spanSeries G order g days s (years.map Prod.fst) x
    |(recs.map (dayNet (lat0 x).corr)).sum
        - ((recs.getLast?.map (·.tws)).getD (twsBefore (G.par g x) (s.state x)) - twsBefore (G.par g x) (s.state x))
        + spanGap G order g days s (years.map Prod.fst) x| ≤ spanTol G g lat0 days years x ∧
    recs.length = days.length + (years.map fun y => y.1.days.length).sum := by
  obtain ⟨⟨h1, h2⟩, h3⟩ := span_error G order I h years g lat0 hcorr hsink days s hs hst ho x hx
  exact ⟨abs_le.mpr ⟨h1 ⟨hcl.1.stays, fun y hy => (hcl.2 y hy).stays⟩, h2 hcl⟩, h3⟩

/-- C71 for a cell with any areal correction factor whose land is never flooded altogether: no water is created but by the starts of the
years. -/
theorem C71_cell_no_gain (h : Sound order) (years : List (ResYear δ × (Cell → CellIn))) (g : Cell → ℝ) (lat0 : Cell → CellIn)
    (hcorr : ∀ x ∈ order.map Prod.fst, 0 < (lat0 x).corr)
    (hsink : ∀ x ∈ order.map Prod.fst, (lat0 x).sink = true → (lat0 x).corr = 1)
    (days : List (SimDay δ)) (s : Sim δ) (hs : s.Ok (G.par g) lat0 order I) (hst : Started order g s)
    (ho : SpanOk G order I g lat0 days s years) (x : Cell) (hx : x ∈ order.map Prod.fst)
    (hl : AllYears G LandStays g lat0 years x) :
    let recs := spanSeries G order g days s (years.map Prod.fst) x
    (recs.getLast?.map (·.tws)).getD (twsBefore (G.par g x) (s.state x)) - twsBefore (G.par g x) (s.state x)
      ≤ (recs.map (dayNet (lat0 x).corr)).sum + spanGap G order g days s (years.map Prod.fst) x + spanTol G g lat0 days years x := by
  have := (span_error G order I h years g lat0 hcorr hsink days s hs hst ho x hx).1.1 hl
  simp only at this ⊢
  linarith

/-- **C71.** For every simulation over any number of years in which reservoirs come into operation, the long-term error
that the balance tool computes is, up to the volume of flushed residues, minus what the starts of the years
added. -/
theorem C71_simulation (h : Sound order) (years : List (ResYear δ × (Cell → CellIn))) (g : Cell → ℝ)
    (lat0 : Cell → CellIn) (hcorr : ∀ x ∈ order.map Prod.fst, 0 < (lat0 x).corr)
    (hsink : ∀ x ∈ order.map Prod.fst, (lat0 x).sink = true → (lat0 x).corr = 1)
    (days : List (SimDay δ)) (s : Sim δ) (hs : s.Ok (G.par g) lat0 order I) (hst : Started order g s)
    (ho : SpanOk G order I g lat0 days s years) (cells : List Cell) (hcells : ∀ x ∈ cells, x ∈ order.map Prod.fst ∧ AllYears G Closing g lat0 years x)
    (n : ℕ) (recs : Cell → List (List DayRec))
    (hrec : ∀ x ∈ cells, (recs x).flatten = spanSeries G order g days s (years.map Prod.fst) x ∧ (recs x).length = n) :
    |balanceError cells (fun x => (lat0 x).corr) (fun x => twsBefore (G.par g x) (s.state x)) n recs
      + (cells.map (spanGap G order g days s (years.map Prod.fst))).sum / n|
      ≤ (cells.map (spanTol G g lat0 days years)).sum / n := by
  rw [balanceError_eq cells _ _ n recs fun x hx => (hrec x hx).2, ← add_div, abs_div, Nat.abs_cast]
  apply div_le_div_of_nonneg_right _ (Nat.cast_nonneg n)
  rw [← List.sum_map_add]
  have hk := abs_sum_le cells (fun x => ((recs x).flatten.map (dayNet (lat0 x).corr)).sum
      - (lastTws (twsBefore (G.par g x) (s.state x)) (recs x) - twsBefore (G.par g x) (s.state x))
      + spanGap G order g days s (years.map Prod.fst) x) (fun _ => 0) (spanTol G g lat0 days years) fun x hx => by
    have := (C71_cell G order I h years g lat0 hcorr hsink days s hs hst ho x (hcells x hx).1 (hcells x hx).2).1
    unfold lastTws
    rw [(hrec x hx).1, sub_zero]
    exact this
  simpa using hk

/-- The error made at the start of a year by rescaling the storages of the remaining land with yesterday's ratio (km³). -/
noncomputable def rescaleGap (y : ResYear δ) (s : Sim δ) (x : Cell) : ℝ :=
  if (s.state x).land.gloresPrev < y.glores x then
    (s.state x).vert.water * 1e-6 * G.area x * (yearLand (G.frac x) (y.glores x) (s.state x).land).1.cur
      * ((s.state x).land.ratio - 1)
  else 0

open Classical in
/-- C71, the start of a year on the whole grid: the water added is the sum of the rescaling errors, minus the water of
the lost land of units that have no reservoir to receive it. -/
theorem C71_year_total (hn : G.cells.Nodup) (y : ResYear δ) (s : Sim δ) :
    (G.cells.map fun x => yearGap (G.frac x) (y.glores x) (G.area x) ((yearStart G y s).state x).lat.res (s.state x)).sum
      = (G.cells.map (rescaleGap G y s)).sum
        - (G.cells.map fun x => if Served G.cells G.assign y.resArea x then 0
            else yearLost (G.area x) (G.frac x) (y.glores x) (s.state x)).sum := by
  have hv := C70_volume G.cells G.assign y.resArea
    (fun z => yearLost (G.area z) (G.frac z) (y.glores z) (s.state z)) hn fun z => (s.state z).lat.res
  have hsplit : ∀ l : List Cell, (l.map fun x => if Served G.cells G.assign y.resArea x then
        yearLost (G.area x) (G.frac x) (y.glores x) (s.state x) else 0).sum
      = (l.map fun x => yearLost (G.area x) (G.frac x) (y.glores x) (s.state x)).sum
        - (l.map fun x => if Served G.cells G.assign y.resArea x then 0
            else yearLost (G.area x) (G.frac x) (y.glores x) (s.state x)).sum := by
    intro l
    rw [← list_sum_sub]
    congr 1
    apply List.map_congr_left
    intro x _
    split_ifs <;> ring
  rw [hsplit] at hv
  have hg : ∀ l : List Cell, (l.map fun x =>
      yearGap (G.frac x) (y.glores x) (G.area x) ((yearStart G y s).state x).lat.res (s.state x)).sum
      = (l.map fun x => ((yearStart G y s).state x).lat.res).sum - (l.map fun x => (s.state x).lat.res).sum
        - (l.map fun x => yearLost (G.area x) (G.frac x) (y.glores x) (s.state x)).sum
        + (l.map (rescaleGap G y s)).sum := by
    intro l
    rw [← list_sum_sub, ← list_sum_sub, ← List.sum_map_add]
    rfl
  rw [hg]
  have hres : (G.cells.map fun x => ((yearStart G y s).state x).lat.res)
      = G.cells.map (handLost G.cells G.assign y.resArea
          (fun z => yearLost (G.area z) (G.frac z) (y.glores z) (s.state z)) fun z => (s.state z).lat.res) := rfl
  rw [hres, hv]
  ring

/-- At the start of every year, the water of lost land has a reservoir to go to, and in the cells in which a reservoir
grows the land fraction did not change overnight (or there is no water on land). -/
def SpanExact : (Cell → ℝ) → List (SimDay δ) → Sim δ → List (ResYear δ) → Prop
  | _, _, _, [] => True
  | g, days, s, y :: ys =>
    let r := (simRun (G.par g) order s days).1
    (∀ x ∈ G.cells, yearLost (G.area x) (G.frac x) (y.glores x) (r.state x) ≠ 0 → Served G.cells G.assign y.resArea x) ∧
    (∀ x ∈ G.cells, (r.state x).land.gloresPrev < y.glores x → (r.state x).land.ratio = 1 ∨ (r.state x).vert.water = 0) ∧
    SpanExact y.glores y.days (yearStart G y r) ys

/-- C71: when the land fraction of the cells in which a reservoir grows did not change overnight, and the water of the
lost land has a reservoir to go to, the water on the grid is kept over all years. -/
theorem C71_exact (hn : G.cells.Nodup) (g : Cell → ℝ) (days : List (SimDay δ)) (s : Sim δ) (years : List (ResYear δ))
    (he : SpanExact G order g days s years) : (G.cells.map (spanGap G order g days s years)).sum = 0 := by
  classical
  induction years generalizing g days s with
  | nil =>
    apply List.sum_eq_zero
    intro v hv
    obtain ⟨x, -, rfl⟩ := List.mem_map.mp hv
    rfl
  | cons y ys ih =>
    obtain ⟨h1, h2, h3⟩ := he
    simp only [spanGap]
    rw [List.sum_map_add, C71_year_total G hn, ih _ _ _ h3]
    have z1 : (G.cells.map (rescaleGap G y (simRun (G.par g) order s days).1)).sum = 0 := by
      apply List.sum_eq_zero
      intro v hv
      obtain ⟨x, hx, rfl⟩ := List.mem_map.mp hv
      unfold rescaleGap
      split_ifs with hl
      · rcases h2 x hx hl with q | q <;> rw [q] <;> ring
      · rfl
    have z2 : (G.cells.map fun x => if Served G.cells G.assign y.resArea x then 0
            else yearLost (G.area x) (G.frac x) (y.glores x) ((simRun (G.par g) order s days).1.state x)).sum = 0 := by
      apply List.sum_eq_zero
      intro v hv
      obtain ⟨x, hx, rfl⟩ := List.mem_map.mp hv
      split_ifs with hsv
      · rfl
      · by_contra hne
        exact hsv (h1 x hx hne)
    rw [z1, z2]
    ring

/-- C71: then the error of the tool over the whole grid is at most the volume of the flushed residues. -/
theorem C71_closes (h : Sound order) (years : List (ResYear δ × (Cell → CellIn))) (g : Cell → ℝ)
    (lat0 : Cell → CellIn) (hcorr : ∀ x ∈ order.map Prod.fst, 0 < (lat0 x).corr)
    (hsink : ∀ x ∈ order.map Prod.fst, (lat0 x).sink = true → (lat0 x).corr = 1)
    (days : List (SimDay δ)) (s : Sim δ) (hs : s.Ok (G.par g) lat0 order I) (hst : Started order g s)
    (ho : SpanOk G order I g lat0 days s years) (hn : G.cells.Nodup)
    (hcells : ∀ x ∈ G.cells, x ∈ order.map Prod.fst ∧ AllYears G Closing g lat0 years x)
    (he : SpanExact G order g days s (years.map Prod.fst)) (n : ℕ) (recs : Cell → List (List DayRec))
    (hrec : ∀ x ∈ G.cells, (recs x).flatten = spanSeries G order g days s (years.map Prod.fst) x ∧ (recs x).length = n) :
    |balanceError G.cells (fun x => (lat0 x).corr) (fun x => twsBefore (G.par g x) (s.state x)) n recs|
      ≤ (G.cells.map (spanTol G g lat0 days years)).sum / n := by
  have hk := C71_simulation G order I h years g lat0 hcorr hsink days s hs hst ho G.cells hcells n recs hrec
  rwa [C71_exact G order hn g days s _ he, zero_div, add_zero] at hk

/-- C71 fails in a cell in which the new reservoir takes all the land there is: the water of the lost land is handed to
the reservoir, and on the same day the column hands it to the lateral balance as well. -/
theorem C71_violated_all_land (fs : FracStatic) (g' : ℝ) (p : FullPar) (c : CellIn) (w : Weather) (s : FullState) (r : ℝ)
    (hi : s.land.init = false) (hgrow : s.land.gloresPrev < g') (hp : 0 < s.land.prev)
    (hcur : (landYear fs true g' s.land).cur = 0) (hv : s.vert.Ok p.vert)
    (hsnow : s.vert.canopy + s.vert.snow + s.vert.soil = s.vert.water) :
    yearLost p.area fs g' s = s.vert.water * 1e-6 * p.area * s.land.prev ∧
    (fullIn p c w (yearState fs g' r s)).runoff
      = s.vert.water * p.vert.cfa * p.area * 1e-6 * s.land.prev := by
  have hch : (landYear fs true g' s.land).gloresChange > 0 := by
    unfold landYear landFracYear; simp [hi, hgrow]
  have hpr : (landYear fs true g' s.land).prev = s.land.prev := by unfold landYear; simp [hi]
  have hland : (yearLand fs g' s.land).1.cur = 0 ∧ (yearLand fs g' s.land).2 = s.land.prev ∧
      (yearLand fs g' s.land).1.prev = s.land.prev := by
    unfold yearLand landAdapt
    simp only [if_true, hpr, hcur, zero_sub]
    rw [if_neg (by rintro ⟨-, h⟩; linarith), if_pos ⟨hch, by linarith⟩]
    exact ⟨rfl, by ring, trivial⟩
  constructor
  · unfold yearLost
    rw [hland.2.1, ← hsnow]; ring
  · have ht := (C29_vertical_no_land p.vert (fullForcing w (yearState fs g' r s).land) s.vert hv
      (show (yearLand fs g' s.land).1.cur ≤ 0 from hland.1.le)).1
    change (if (yearLand fs g' s.land).1.cur = 0 then (fullVert p w (yearState fs g' r s)).transfer * p.area * 1e-6 *
      (yearLand fs g' s.land).1.prev else _) = _
    rw [if_pos hland.1, hland.2.2, show (fullVert p w (yearState fs g' r s)).transfer = s.vert.water * p.vert.cfa from ht]

end span

/-- C71: the first day of a simulation that starts on 1 January of a reservoir year meets the conditions, if the water
bodies of the cell fit into it; land and groundwater are empty. -/
theorem C71_first_day (fs : FracStatic) (g a : ℝ) (v : VertPar) (c : CellIn) (res river : ℝ)
    (hg : GoodCell ⟨v, a, resLandWater fs g⟩ c)
    (h1 : c.locLake.frac = (fs.loclake + fs.locres) / 100) (h2 : c.locWet.frac = fs.locwet / 100)
    (h3 : c.gloWet.frac = fs.glowet / 100)
    (hfit : fs.glolake + fs.glowet + (fs.loclake + fs.locres) + fs.locwet + g ≤ fs.cont)
    (hres : 0 < c.resArea → 0 ≤ res ∧ res ≤ c.han.cap) (hriver : 0 ≤ river) :
    let s := freshFull fs g v c res river
    FullOk ⟨v, a, resLandWater fs g⟩ c s ∧ s.land.init = false ∧ s.land.gloresPrev = g ∧
      s.vert.water = 0 ∧ s.lat.gw = 0 := by
  have hp := hg.lat
  have hsum : 0 ≤ c.locLake.frac + c.locWet.frac + c.gloWet.frac := by
    have := hp.locLake.frac; have := hp.locWet.frac; have := hp.gloWet.frac; linarith
  have hcur : clampNeg ((fs.cont - (fs.glolake + fs.glowet + (fs.loclake + fs.locres) + fs.locwet + g)) / 100)
      = (fs.cont - (fs.glolake + fs.glowet + (fs.loclake + fs.locres) + fs.locwet + g)) / 100 :=
    clampNeg_of_nonneg (by linarith)
  have hlw : resLandWater fs g = (fs.cont - fs.glolake - g) / 100 := by
    unfold resLandWater
    exact clampNeg_of_nonneg (by rw [h1, h2, h3] at hsum; linarith)
  have hl : (yearLand fs g (landStartRes fs)).1 = { landStartRes fs with
      cur := (fs.cont - (fs.glolake + fs.glowet + (fs.loclake + fs.locres) + fs.locwet + g)) / 100
      ratio := if (fs.cont - (fs.glolake + fs.glowet + (fs.loclake + fs.locres) + fs.locwet + g)) / 100 = 0 then 0 else 1
      prev := 0, init := false, gloresPrev := g } := by
    unfold yearLand landAdapt landYear landFracInitRes
    rw [hcur]
    simp [landStartRes]
  have hw : (freshFull fs g v c res river).vert.water = 0 := by
    simp [freshFull, VertState.water, mean]
  have hred : ∀ (b : Body) (k : Swb), b.Physical → 0 < b.frac → swbRedfactor b.maxStorage b.maxStorage c.redExp k = 1 := by
    intro b k _ _
    unfold swbRedfactor
    simp only [sub_self, abs_zero, zero_div]
    rw [Real.zero_rpow hp.redExp.ne']
    norm_num
  refine ⟨⟨?_, ?_, ?_, ?_, ?_, ?_, ?_, ?_⟩, ?_, ?_, hw, rfl⟩
  · refine ⟨by simp [freshFull], le_rfl, ?_, by simp [freshFull], le_rfl, hg.soil.le⟩
    simp [freshFull]
  · refine ⟨fun h => ?_, fun h => ?_, fun h => ?_, hres, fun h => ?_, hriver⟩
    · have := hp.locLake.storage h
      exact ⟨by change -_ ≤ c.locLake.maxStorage; linarith, le_rfl⟩
    · have := hp.locWet.storage h
      exact ⟨this.le, le_rfl⟩
    · have := hp.maxGlolake h
      exact ⟨by change -_ ≤ c.maxGlolake; linarith, le_rfl⟩
    · have := hp.gloWet.storage h
      exact ⟨this.le, le_rfl⟩
  · change (yearLand fs g (landStartRes fs)).1.swb = _
    rw [hl]
    have key : ∀ (b : Body) (k : Swb), b.Physical →
        (if b.frac > 0 then swbRedfactor b.maxStorage b.maxStorage c.redExp k * b.frac else 0) = b.frac := by
      intro b k hb
      split_ifs with h
      · rw [hred b k hb h, one_mul]
      · exact le_antisymm hb.frac (not_lt.mp h)
    unfold openFrac
    simp only [freshFull, landStartRes]
    rw [key _ _ hp.locLake, key _ _ hp.locWet, key _ _ hp.gloWet, h1, h2, h3]
    ring
  · change (yearLand fs g (landStartRes fs)).1.cur + (yearLand fs g (landStartRes fs)).1.swb = resLandWater fs g
    rw [hl, hlw]
    simp only [landStartRes]
    ring
  · change 0 ≤ (yearLand fs g (landStartRes fs)).1.prev
    rw [hl]
  · change (yearLand fs g (landStartRes fs)).1.prev ≤ resLandWater fs g
    rw [hl]; exact clampNeg_nonneg _
  · change 0 ≤ (yearLand fs g (landStartRes fs)).1.ratio
    rw [hl]
    simp only
    split_ifs <;> norm_num
  · intro _; exact .inr hw
  · change (yearLand fs g (landStartRes fs)).1.init = false
    rw [hl]
  · change (yearLand fs g (landStartRes fs)).1.gloresPrev = g
    rw [hl]

theorem yearLost_nonneg (fs : FracStatic) (g' area : ℝ) (q : VertPar) (s : FullState) (hv : s.vert.Ok q)
    (hsnow : s.vert.canopy + s.vert.snow + s.vert.soil = s.vert.water) (ha : 0 ≤ area) : 0 ≤ yearLost area fs g' s := by
  have h2 : 0 ≤ (yearLand fs g' s.land).2 := by
    unfold yearLand landAdapt
    simp only [if_true]
    split_ifs with h
    · linarith [h.2]
    · exact le_rfl
  have e : yearLost area fs g' s = s.vert.water * (1e-6 * area * (yearLand fs g' s.land).2) := by
    unfold yearLost; rw [← hsnow]; ring
  rw [e]
  exact mul_nonneg (vert_water_nonneg hv) (mul_nonneg (mul_nonneg (by norm_num) ha) h2)

/-! ### The hypotheses are met -/

/-- Three cells of the same unit, between a cell of another unit and one without a unit. -/
noncomputable def exGrid : Grid :=
  { cells := [(1, 1), (2, 2), (1, 2)], frac := fun _ => ⟨100, 10, 0, 0, 0, 2, 0⟩
    assign := fun x => if x = (1, 1) then (1 : ℤ) else if x = (1, 2) then (2 : ℤ) else ⊤
    vert := fun _ => sampleVert, area := fun _ => 2000 }

theorem exGrid_par : exGrid.par (fun _ => 0) = fun _ => exFull := by
  funext x
  unfold Grid.par exGrid exFull resLandWater clampNeg
  norm_num

/-- A dark day. -/
noncomputable def darkWeather : Weather := ⟨280, 0, 0, 10⟩

theorem darkWeather_ok (p : FullPar) (hp : p.vert = sampleVert) (s : FullState) : WeatherOk p darkWeather s := by
  have ht : PhysicalTemp darkWeather.temperature := sampleVertForcing_ok.temp
  refine ⟨ht, by norm_num [darkWeather], ?_⟩
  have e : (fullVert p darkWeather s).pet = ptOne darkWeather.temperature p.vert.alpha
      (netRadiation p.vert.rad darkWeather.temperature darkWeather.swDown darkWeather.lwDown s.vert.snow).1 := rfl
  rw [e, hp, ((C09_pet_sign _ _ _ ht (by norm_num [sampleVert])).2.1).mpr]
  · norm_num [sampleVert]
  · rw [(C09_net_radiation _ _ _ _ _).1]
    norm_num [darkWeather, sampleVert]

/-- The first year has one day, and so has the second one, in which a new reservoir takes 3 % of the third cell. -/
noncomputable def exYear (L : CellIn) (cap : Cell → ℝ) : ResYear Unit :=
  { glores := fun x => if x = (1, 2) then 3 else 0
    resArea := fun _ => 50
    days := [{ exDay with weather := fun _ => darkWeather
                          lateral := fun _ x => { L with han := { L.han with cap := cap x } } }] }

/-- A basin of three cells described by `L` that can be simulated for the two years. -/
structure ExCell (L : CellIn) (s0 : FullState) : Prop where
  good : GoodCell exFull L
  ok : FullOk exFull L s0
  weather : WeatherOk exFull exWeather s0
  init : s0.land.init = false
  last : s0.land.gloresPrev = 0
  corr : L.corr = 1
  noWet : L.gloWet.frac = 0
  small : L.locLake.frac + L.locWet.frac + L.gloWet.frac ≤ 0.02
  cur : 0.88 ≤ s0.land.cur
  res : 0 < L.resArea

noncomputable def exDayOf (L : CellIn) : SimDay Unit := { exDay with lateral := fun _ _ => L }

noncomputable def exSimOf (s0 : FullState) : Sim Unit := ⟨(), fun _ => s0⟩

def exO : List (Cell × Cell) := [((1, 1), (1, 2)), ((2, 2), (1, 2)), ((1, 2), (0, 0))]

section ex
variable {L : CellIn} {s0 : FullState}

theorem exSpan_start (hL : ExCell L s0) : (exSimOf s0).Ok (exGrid.par fun _ => 0) (fun _ => L) exO
    (fun _ : Unit => True) ∧ Started exO (fun _ => 0) (exSimOf s0) := by
  rw [exGrid_par]
  exact ⟨⟨trivial, fun _ _ => hL.ok⟩, fun _ _ => ⟨hL.init, hL.last⟩⟩

theorem exSpan_day (hL : ExCell L s0) :
    SimDaysOk (exGrid.par fun _ => 0) (fun _ => L) exO (fun _ : Unit => True) (exSimOf s0) [exDayOf L] := by
  rw [exGrid_par]
  exact ⟨⟨fun _ _ => ⟨hL.good, ⟨⟨rfl, rfl, rfl, rfl, rfl, rfl, rfl⟩, rfl, rfl, rfl, rfl⟩, hL.weather,
      fun hf => absurd hf (by rw [show (simIn _ _ _ _).gloWet.frac = L.gloWet.frac from rfl, hL.noWet]; exact lt_irrefl _)⟩,
    ⟨fun _ _ _ _ _ _ _ _ => trivial, fun _ _ _ _ => by norm_num [exDayOf, exDay]⟩, fun _ _ => trivial, fun _ _ => trivial⟩,
    trivial⟩

/-- The hypotheses of `C71_simulation` are met by two years in a basin of three cells: the reservoir of the third cell
takes land from it, and has the capacity for the water it gets. -/
theorem exSpan_ok (hL : ExCell L s0) : ∃ cap : Cell → ℝ, SpanOk exGrid exO
    (fun _ : Unit => True) (fun _ => 0) (fun _ => L) [exDayOf L] (exSimOf s0)
    [(exYear L cap, fun x => { L with han := { L.han with cap := cap x } })] := by
  have hd := exSpan_day hL
  have hcorr : ∀ x ∈ exO.map Prod.fst, 0 < ((fun _ => L : Cell → CellIn) x).corr := by
    intro x _; simp only; rw [hL.corr]; norm_num
  set r := (simRun (exGrid.par fun _ => 0) exO (exSimOf s0) [exDayOf L]).1 with hr
  have hrok := C54_simulation_states (exGrid.par fun _ => 0) (fun _ => L) exO (fun _ : Unit => True) exOrder_sound hcorr
    [exDayOf L] (exSimOf s0) (exSpan_start hL).1 hd
  rw [← hr] at hrok
  set res : Cell → ℝ := fun x => ((yearStart exGrid (exYear L fun _ => 0) r).state x).lat.res with hres
  have h3 := hL.small
  have hgl : ∀ x, (exYear L fun x => |res x| + 1).glores x = 0 ∨ (exYear L fun x => |res x| + 1).glores x = 3 := by
    intro x
    unfold exYear
    simp only
    split_ifs
    · exact .inr rfl
    · exact .inl rfl
  have hgood : ∀ x, GoodCell (exGrid.par (exYear L fun x => |res x| + 1).glores x)
      { L with han := { L.han with cap := |res x| + 1 } } := by
    intro x
    have hg := hgl x
    have hlw : resLandWater (exGrid.frac x) ((exYear L fun x => |res x| + 1).glores x) = 0.9 ∨
        resLandWater (exGrid.frac x) ((exYear L fun x => |res x| + 1).glores x) = 0.87 := by
      rcases hg with h | h <;> rw [h] <;> unfold resLandWater clampNeg exGrid <;> norm_num
    exact
      { vert := sampleVert_ok
        soil := by norm_num [Grid.par, exGrid, sampleVert]
        area := by norm_num [Grid.par, exGrid]
        lat := { hL.good.lat with cap := fun _ => by positivity }
        locLake := hL.good.locLake
        locWet := hL.good.locWet
        gloWet := hL.good.gloWet
        fit := by
          change L.locLake.frac + L.locWet.frac + L.gloWet.frac ≤ resLandWater _ _
          rcases hlw with h | h <;> rw [h] <;> linarith }
  refine ⟨fun x => |res x| + 1, by simp, hd, ?_, by simp [exYear], ?_⟩
  · intro x hx
    have hf := hrok.2 x hx
    rw [exGrid_par] at hf
    obtain ⟨o1, o2⟩ := openFrac_bounds L hL.good.lat (r.state x).lat
    have h1 := hf.cover
    have h2 := hf.swb
    have h4 : exFull.landWater = 0.9 := rfl
    have hprev : (r.state x).land.prev = s0.land.cur := by
      obtain ⟨dem, keep, -, -, -, k4, -⟩ := (simDay_cell (exGrid.par fun _ => 0) (fun _ => L) exO (fun _ : Unit => True)
        exOrder_sound hcorr (exDayOf L) (exSimOf s0) (exSpan_start hL).1 hd.1).2 x hx
      rw [hr]
      simp only [simRun]
      rw [k4]
      rfl
    have hg := hgl x
    have hpos : (0 : ℝ) ≤ ((yearStart exGrid (exYear L fun _ => 0) r).state x).lat.res := by
      refine le_trans (hf.lat.res hL.res).1 (C70_mono exGrid.cells exGrid.assign _ _ (fun z => (r.state z).lat.res) ?_ x)
      intro z hz
      have hz' : z ∈ exO.map Prod.fst := by
        simpa [exO, exGrid] using hz
      exact yearLost_nonneg _ _ _ _ _ (hrok.2 z hz').vert
        (run_end exO (fun _ : Unit => True) _ _ exOrder_sound hcorr [exDayOf L] (by simp) (exSimOf s0) (exSpan_start hL).1 hd z hz' 0).2
        (by norm_num [exGrid])
    refine ⟨⟨le_rfl, ?_, ?_, ?_, ?_⟩, ⟨rfl, rfl, rfl, rfl, rfl, rfl⟩, ?_, ?_⟩
    · rcases hg with h | h
      · rw [h]
      · rw [h]; norm_num
    · rcases hg with h | h <;> rw [h] <;> norm_num [exGrid]
    · intro _
      rcases hg with h | h <;> rw [h] <;> linarith
    · intro h0
      rcases hg with h | h
      · rw [h] at h0; exact absurd h0 (lt_irrefl _)
      · rw [h, hprev]; have := hL.cur; linarith
    · exact hgood x
    · exact { hf.lat with res := fun _ => ⟨hpos, by
        change res x ≤ |res x| + 1
        linarith [le_abs_self (res x)]⟩ }
  · exact ⟨⟨fun x hx => ⟨hgood x, ⟨⟨rfl, rfl, rfl, rfl, rfl, rfl, rfl⟩, rfl, rfl, rfl, rfl⟩, darkWeather_ok _ rfl _,
        fun hf => absurd hf (by
          rw [show (simIn _ _ _ _).gloWet.frac = L.gloWet.frac from rfl, hL.noWet]; exact lt_irrefl _)⟩,
      ⟨fun _ _ _ _ _ _ _ _ => trivial, fun _ _ _ _ => by norm_num [exDay]⟩, fun _ _ => trivial, fun _ _ => trivial⟩, trivial⟩

end ex

theorem exCell_lake : ExCell exLat exFullState where
  good := exLat_good
  ok := exFullState_ok
  weather := exWeather_ok
  init := rfl
  last := rfl
  corr := rfl
  noWet := rfl
  small := by norm_num [exLat, exCell]
  cur := by norm_num [exFullState]
  res := by norm_num [exLat, exCell]

example : ∃ (years : List (ResYear Unit × (Cell → CellIn))), years ≠ [] ∧ ∀ (n : ℕ) (recs : Cell → List (List DayRec)),
    (∀ x ∈ exGrid.cells, (recs x).flatten = spanSeries exGrid exO (fun _ => 0) [exDayOf exLat] (exSimOf exFullState)
      (years.map Prod.fst) x ∧ (recs x).length = n) →
    |balanceError exGrid.cells (fun _ => exLat.corr)
        (fun x => twsBefore (exGrid.par (fun _ => 0) x) ((exSimOf exFullState).state x)) n recs
      + (exGrid.cells.map (spanGap exGrid exO (fun _ => 0) [exDayOf exLat] (exSimOf exFullState) (years.map Prod.fst))).sum / n|
      ≤ (exGrid.cells.map (spanTol exGrid (fun _ => 0) (fun _ => exLat) [exDayOf exLat] years)).sum / n := by
  obtain ⟨cap, h⟩ := exSpan_ok exCell_lake
  exact ⟨_, by simp, fun n recs hrec => C71_simulation exGrid exO (fun _ => True) exOrder_sound _ _ (fun _ => exLat)
    (by intro x _; norm_num [exLat, exCell]) (by intro x _ h; simp [exLat, exCell] at h) _ _ (exSpan_start exCell_lake).1
    (exSpan_start exCell_lake).2 h exGrid.cells
    (fun x hx => ⟨by revert x; decide, closing_one rfl _, fun _ _ => closing_one rfl _⟩) n recs hrec⟩

example := fun x hx => (exSpan_ok exCell_lake).imp fun cap h => C71_cell_no_gain exGrid exO (fun _ => True) exOrder_sound _ _
  (fun _ => exLat) (by intro x _; norm_num [exLat, exCell]) (by intro x _ h; simp [exLat, exCell] at h) _ _
  (exSpan_start exCell_lake).1 (exSpan_start exCell_lake).2 h x hx
  ⟨(closing_one rfl _).stays, fun _ _ => (closing_one rfl _).stays⟩

/-- The same cell without local lakes: its land fraction does not change from day to day. -/
noncomputable def exLandLat : CellIn := { exLat with locLake := ⟨0, 0, 0⟩ }

noncomputable def exLandState : FullState :=
  { exFullState with land := ⟨0.9, 0.9, 1, 0, 0, 0, false⟩, lat := { exFullState.lat with locLake := 0 } }

theorem exCell_land : ExCell exLandLat exLandState where
  good :=
    { exLat_good with
      lat := { exLat_good.lat with locLake := by constructor <;> norm_num [exLandLat] }
      locLake := fun h => absurd h (by norm_num [exLandLat])
      fit := by norm_num [exLandLat, exLat, exCell, exFull] }
  ok :=
    { vert := sampleVertState_ok
      lat := { exFullState_ok.lat with locLake := fun h => absurd h (by norm_num [exLandLat]) }
      swb := by norm_num [exLandState, openFrac, exLandLat, exLat, exCell]
      cover := by norm_num [exLandState, exFull]
      prev0 := by norm_num [exLandState]
      prev1 := by norm_num [exLandState, exFull]
      ratio0 := by norm_num [exLandState]
      ratio := by intro _; left; norm_num [exLandState] }
  weather := exWeather_ok
  init := rfl
  last := rfl
  corr := rfl
  noWet := rfl
  small := by norm_num [exLandLat, exLat, exCell]
  cur := by norm_num [exLandState]
  res := by norm_num [exLandLat, exLat, exCell]

theorem exLand_exact (cap : Cell → ℝ) :
    SpanExact exGrid exO (fun _ => 0) [exDayOf exLandLat] (exSimOf exLandState) [exYear exLandLat cap] := by
  have hd := exSpan_day exCell_land
  have hcorr : ∀ x ∈ exO.map Prod.fst, 0 < ((fun _ => exLandLat : Cell → CellIn) x).corr := by
    intro x _; norm_num [exLandLat, exLat, exCell]
  have hrok := C54_simulation_states (exGrid.par fun _ => 0) (fun _ => exLandLat) exO (fun _ : Unit => True) exOrder_sound
    hcorr [exDayOf exLandLat] (exSimOf exLandState) (exSpan_start exCell_land).1 hd
  refine ⟨fun x hx hl => ?_, fun x hx _ => ?_, trivial⟩
  · by_cases hx2 : x = (1, 2)
    · subst hx2
      refine ⟨⟨(1, 1), by simp [exGrid], ?_⟩, ⟨(2, 2), by simp [exGrid], ?_⟩, (1, 2), by simp [exGrid], rfl,
        by norm_num [exYear]⟩
      · simp only [exGrid, if_true]
        exact WithTop.coe_lt_coe.mpr (by norm_num)
      · exact WithTop.coe_lt_top _
    · exfalso
      apply hl
      obtain ⟨q1, q2⟩ := run_land exO (exGrid.par fun _ => 0) [exDayOf exLandLat] (exSimOf exLandState) x
      have q3 : (exYear exLandLat cap).glores x = 0 := if_neg hx2
      have : (yearLand (exGrid.frac x) 0
          ((simRun (exGrid.par fun _ => 0) exO (exSimOf exLandState) [exDayOf exLandLat]).1.state x).land).2 = 0 := by
        unfold yearLand landAdapt landYear landFracYear
        rw [q1, q2]
        simp [exSimOf, exLandState]
      unfold yearLost
      rw [q3, this]
      ring
  · have hx' : x ∈ exO.map Prod.fst := by simpa [exO, exGrid] using hx
    have hf := hrok.2 x hx'
    rw [exGrid_par] at hf
    have h1 := hf.cover
    have h2 := hf.swb
    have h3 : openFrac exLandLat ((simRun (exGrid.par fun _ => 0) exO (exSimOf exLandState) [exDayOf exLandLat]).1.state x).lat
        = 0 := by norm_num [openFrac, exLandLat, exLat, exCell]
    have h4 : exFull.landWater = 0.9 := rfl
    have hprev : ((simRun (exGrid.par fun _ => 0) exO (exSimOf exLandState) [exDayOf exLandLat]).1.state x).land.prev = 0.9 := by
      obtain ⟨dem, keep, -, -, -, k4, -⟩ := (simDay_cell (exGrid.par fun _ => 0) (fun _ => exLandLat) exO
        (fun _ : Unit => True) exOrder_sound hcorr (exDayOf exLandLat) (exSimOf exLandState) (exSpan_start exCell_land).1 hd.1).2 x hx'
      simp only [simRun]
      rw [k4]
      rfl
    rw [exGrid_par] at *
    have hcur : ((simRun (fun _ => exFull) exO (exSimOf exLandState) [exDayOf exLandLat]).1.state x).land.cur = 0.9 := by
      linarith
    rcases hf.ratio (by rw [hcur]; norm_num) with h | h
    · left
      rw [hcur, hprev] at h
      linarith
    · exact .inr h

example : ∃ (years : List (ResYear Unit × (Cell → CellIn))), years ≠ [] ∧ ∀ (n : ℕ) (recs : Cell → List (List DayRec)),
    (∀ x ∈ exGrid.cells, (recs x).flatten = spanSeries exGrid exO (fun _ => 0) [exDayOf exLandLat] (exSimOf exLandState)
      (years.map Prod.fst) x ∧ (recs x).length = n) →
    |balanceError exGrid.cells (fun _ => exLandLat.corr)
        (fun x => twsBefore (exGrid.par (fun _ => 0) x) ((exSimOf exLandState).state x)) n recs|
      ≤ (exGrid.cells.map (spanTol exGrid (fun _ => 0) (fun _ => exLandLat) [exDayOf exLandLat] years)).sum / n := by
  obtain ⟨cap, h⟩ := exSpan_ok exCell_land
  exact ⟨_, by simp, fun n recs hrec => C71_closes exGrid exO (fun _ => True) exOrder_sound _ _ (fun _ => exLandLat)
    (by intro x _; norm_num [exLandLat, exLat, exCell]) (by intro x _ h; simp [exLandLat, exLat, exCell] at h) _ _
    (exSpan_start exCell_land).1 (exSpan_start exCell_land).2 h (by decide)
    (fun x hx => ⟨by revert x; decide, closing_one rfl _, fun _ _ => closing_one rfl _⟩) (exLand_exact cap) n recs hrec⟩

example := C71_violated_all_land ⟨100, 10, 0, 0, 0, 0, 0⟩ 90 exFull exLandLat exWeather exLandState 1 rfl
  (by norm_num [exLandState]) (by norm_num [exLandState])
  (by norm_num [landYear, landFracYear, exLandState, clampNeg]) sampleVertState_ok
  (by norm_num [exLandState, exFullState, sampleVertState, VertState.water, mean])

example := C71_first_day ⟨100, 10, 0, 0, 0, 2, 0⟩ 0 2000 sampleVert exLat 1.5 0.01
  (by
    have h : resLandWater ⟨100, 10, 0, 0, 0, 2, 0⟩ 0 = 0.9 := by norm_num [resLandWater, clampNeg]
    rw [h]; exact exLat_good)
  (by norm_num [exLat, exCell]) (by norm_num [exLat, exCell]) (by norm_num [exLat]) (by norm_num)
  (fun _ => by norm_num [exLat, exCell]) (by norm_num)

end WG
