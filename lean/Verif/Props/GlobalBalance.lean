import Verif.Model.GlobalBalance
import Verif.Model.Output
import Verif.Props.Vertical
import Verif.Props.LandFrac
import Verif.Props.Network

/-!
# C50: the global water balance closes

From the outputs of a simulation the tool computes precipitation minus streamflow into the oceans minus
evapotranspiration and consumptive use minus storage change.  The theorems follow the water through a whole cell
(`C50_cell_day`), through all cells and days (`C50_simulation`) and through the arithmetic of the tool (`C50_tool`).
-/

namespace WG

/-! ### Specification -/

open Classical in
/-- Fraction of the cell covered by local lakes, local wetlands and global wetlands, from their storages. -/
noncomputable def openFrac (c : CellIn) (st : CellState) : ℝ :=
  (if c.locLake.frac > 0 then swbRedfactor st.locLake c.locLake.maxStorage c.redExp .localLake * c.locLake.frac else 0)
  + (if c.locWet.frac > 0 then swbRedfactor st.locWet c.locWet.maxStorage c.redExp .localWetland * c.locWet.frac else 0)
  + (if c.gloWet.frac > 0 then swbRedfactor st.gloWet c.gloWet.maxStorage c.redExp .globalWetland * c.gloWet.frac else 0)

/-- Sensible static data of a cell: the areas of the water bodies are their fractions of the cell, and the bodies fit into
what global lakes and reservoirs leave. -/
structure GoodCell (p : FullPar) (c : CellIn) : Prop where
  vert : p.vert.Ok
  soil : 0 < p.vert.maxSoil
  area : 0 ≤ p.area
  lat : c.Physical
  locLake : 0 < c.locLake.frac → c.locLake.maxArea = c.locLake.frac * p.area
  locWet : 0 < c.locWet.frac → c.locWet.maxArea = c.locWet.frac * p.area
  gloWet : 0 < c.gloWet.frac → c.gloWet.maxArea = c.gloWet.frac * p.area
  fit : c.locLake.frac + c.locWet.frac + c.gloWet.frac ≤ p.landWater

/-- A cell whose land keeps its water: an areal correction factor of at most one, and land that is never flooded altogether unless
the factor is one (the water on vanishing land is handed to the lateral balance multiplied by the factor). -/
structure Closing (p : FullPar) (c : CellIn) : Prop where
  cfa : p.vert.cfa ≤ 1
  land : p.vert.cfa = 1 ∨ p.landWater = 0 ∨ c.locLake.frac + c.locWet.frac + c.gloWet.frac < p.landWater

/-- A cell whose land does not create water: with an areal correction factor above one it is never flooded altogether. -/
def LandStays (p : FullPar) (c : CellIn) : Prop :=
  p.vert.cfa ≤ 1 ∨ p.landWater = 0 ∨ c.locLake.frac + c.locWet.frac + c.gloWet.frac < p.landWater

theorem closing_one {p : FullPar} (h : p.vert.cfa = 1) (c : CellIn) : Closing p c := ⟨h.le, Or.inl h⟩

theorem Closing.stays {p : FullPar} {c : CellIn} (h : Closing p c) : LandStays p c := Or.inl h.cfa

/-- A sensible state: the land fraction is what the water bodies leave, and the ratio is that of yesterday's and
today's land (unless nothing is stored on land). -/
structure FullOk (p : FullPar) (c : CellIn) (s : FullState) : Prop where
  vert : s.vert.Ok p.vert
  lat : s.lat.Ok c
  swb : s.land.swb = openFrac c s.lat
  cover : s.land.cur + s.land.swb = p.landWater
  prev0 : 0 ≤ s.land.prev
  prev1 : s.land.prev ≤ p.landWater
  ratio0 : 0 ≤ s.land.ratio
  ratio : s.land.cur ≠ 0 → s.land.ratio * s.land.cur = s.land.prev ∨ s.vert.water = 0

/-- Total water storage of the cell before the day. -/
noncomputable def twsBefore (p : FullPar) (s : FullState) : ℝ :=
  s.lat.total + s.vert.water * (1e-6 * s.land.prev * p.area)

/-- Sensible weather for the cell. -/
def WeatherOk (p : FullPar) (w : Weather) (s : FullState) : Prop :=
  PhysicalTemp w.temperature ∧ 0 ≤ w.precip ∧ (fullVert p w s).pet ≤ p.vert.maxDailyPet

/-- The water a cell can lose or gain per day by flushing residues smaller than `minV`. -/
noncomputable def flushTol (p : FullPar) (c : CellIn) : ℝ :=
  (2 + (1 ⊔ p.vert.cfa)) * (p.vert.minV ⊔ 0) * (1e-6 * p.landWater * p.area) + (if 0 < c.resArea then c.minV else 0)

/-- What a day may leave unexplained in a cell: water may appear only up to flushed residues if the land stays, and may get lost only
up to flushed residues if the cell is closing. -/
def DayError (p : FullPar) (c : CellIn) (e : ℝ) : Prop :=
  (LandStays p c → -flushTol p c ≤ e) ∧ (Closing p c → e ≤ flushTol p c)

theorem DayError.abs {p : FullPar} {c : CellIn} {e : ℝ} (h : DayError p c e) (hc : Closing p c) : |e| ≤ flushTol p c :=
  abs_le.mpr ⟨h.1 hc.stays, h.2 hc⟩

section cell
variable (p : FullPar) (c : CellIn) (w : Weather) (s : FullState)

theorem openFrac_bounds (h : c.Physical) (st : CellState) :
    0 ≤ openFrac c st ∧ openFrac c st ≤ c.locLake.frac + c.locWet.frac + c.gloWet.frac := by
  have key : ∀ (b : Body) (x : ℝ) (k : Swb), 0 ≤ b.frac →
      0 ≤ (if b.frac > 0 then swbRedfactor x b.maxStorage c.redExp k * b.frac else 0) ∧
      (if b.frac > 0 then swbRedfactor x b.maxStorage c.redExp k * b.frac else 0) ≤ b.frac := by
    intro b x k hb
    have hr := C12_fraction x b.maxStorage c.redExp k
    split_ifs with hf
    · exact ⟨mul_nonneg hr.1 hb, by nlinarith [hr.2]⟩
    · exact ⟨le_rfl, hb⟩
  obtain ⟨a1, a2⟩ := key c.locLake st.locLake .localLake h.locLake.frac
  obtain ⟨b1, b2⟩ := key c.locWet st.locWet .localWetland h.locWet.frac
  obtain ⟨d1, d2⟩ := key c.gloWet st.gloWet .globalWetland h.gloWet.frac
  unfold openFrac
  constructor
  · convert add_nonneg (add_nonneg a1 b1) d1
  · convert add_le_add (add_le_add a2 b2) d2

/-- The area fractions a cell reports are those of its new storages. -/
theorem newFrac_eq (st : CellState) (up dem : ℝ) (keep : ℝ → ℝ) :
    let o := cellDay c st up dem keep
    o.locLakeFrac + o.locWetFrac + o.gloWetFrac = openFrac c o.state := by
  intro o
  have h1 : o.locLakeFrac = if c.locLake.frac > 0 then
      swbRedfactor o.state.locLake c.locLake.maxStorage c.redExp .localLake * c.locLake.frac else 0 := by
    change (cellTapped c st up dem keep).2.2.1 = if c.locLake.frac > 0 then
      swbRedfactor (cellTapped c st up dem keep).1 c.locLake.maxStorage c.redExp .localLake * c.locLake.frac else 0
    unfold cellTapped
    by_cases ht : cellTap c st up dem keep
    · rw [if_pos ht, if_pos ht.2.1]; rfl
    · rw [if_neg ht]
      by_cases hf : c.locLake.frac > 0
      · rw [if_pos hf]; unfold cellLocLake bodyDay; rw [if_pos hf]; rfl
      · rw [if_neg hf]; unfold cellLocLake bodyDay; rw [if_neg hf]
  have h2 : o.locWetFrac = if c.locWet.frac > 0 then
      swbRedfactor o.state.locWet c.locWet.maxStorage c.redExp .localWetland * c.locWet.frac else 0 := by
    change (cellLocWet c st).newFrac = if c.locWet.frac > 0 then
      swbRedfactor (cellLocWet c st).storage c.locWet.maxStorage c.redExp .localWetland * c.locWet.frac else 0
    unfold cellLocWet bodyDay
    by_cases hf : c.locWet.frac > 0
    · simp only [if_pos hf]; rfl
    · simp only [if_neg hf]
  have h3 : o.gloWetFrac = if c.gloWet.frac > 0 then
      swbRedfactor o.state.gloWet c.gloWet.maxStorage c.redExp .globalWetland * c.gloWet.frac else 0 := by
    change (cellGloWet c st up dem).newFrac = if c.gloWet.frac > 0 then
      swbRedfactor (cellGloWet c st up dem).storage c.gloWet.maxStorage c.redExp .globalWetland * c.gloWet.frac else 0
    unfold cellGloWet bodyDay
    by_cases hf : c.gloWet.frac > 0
    · simp only [if_pos hf]; rfl
    · simp only [if_neg hf]
  rw [h1, h2, h3]
  rfl

theorem fullForcing_ok (hw : WeatherOk p w s) (hs : FullOk p c s) : (fullForcing w s.land).Ok p.vert s.vert :=
  ⟨hw.1, hw.2.1, hs.ratio0, hw.2.2⟩

theorem land_facts (hg : GoodCell p c) (hs : FullOk p c s) :
    0 ≤ s.land.cur ∧ s.land.cur ≤ p.landWater := by
  obtain ⟨o1, o2⟩ := openFrac_bounds c hg.lat s.lat
  have h1 := hs.cover
  have h2 := hs.swb
  have h3 := hg.fit
  exact ⟨by linarith, by linarith⟩

/-- When the land is flooded altogether, the day before had none or the fractions of the open water are those of the whole land. -/
theorem flooded (hg : GoodCell p c) (hs : FullOk p c s) (h0 : s.land.cur = 0) :
    (LandStays p c → p.vert.cfa ≤ 1 ∨ s.land.prev = 0) ∧ (Closing p c → p.vert.cfa = 1 ∨ s.land.prev = 0) := by
  obtain ⟨o1, o2⟩ := openFrac_bounds c hg.lat s.lat
  have h1 := hs.cover
  have h2 := hs.swb
  have h3 := hg.fit
  have hz : p.landWater = 0 → s.land.prev = 0 := fun h => by have := hs.prev0; have := hs.prev1; linarith
  constructor
  · rintro (h | h | h)
    · exact Or.inl h
    · exact Or.inr (hz h)
    · exfalso; linarith
  · rintro ⟨-, h | h | h⟩
    · exact Or.inl h
    · exact Or.inr (hz h)
    · exfalso; linarith

theorem vert_water_nonneg {q : VertPar} {v : VertState} (h : v.Ok q) : 0 ≤ v.water := by
  unfold VertState.water mean
  have := h.canopy
  have := h.soil0
  have := div_nonneg (List.sum_nonneg h.bands) (Nat.cast_nonneg (α := ℝ) v.bands.length)
  linarith

/-- The inputs the lateral balance gets from the column are physical. -/
theorem fullIn_physical (hg : GoodCell p c) (hs : FullOk p c s) (hw : WeatherOk p w s) : (fullIn p c w s).Physical := by
  have hf := fullForcing_ok p c w s hw hs
  have hv := C54_vertical_step p.vert (fullForcing w s.land) s.vert hg.vert hf hs.vert
  obtain ⟨l1, -⟩ := land_facts p c s hg hs
  have hpet : 0 ≤ (fullVert p w s).openPet := (C09_pet_sign _ _ _ hf.temp hg.vert.alpha).1
  have ha := hg.area
  refine ⟨mul_nonneg hw.2.1 (by norm_num), mul_nonneg hpet (by norm_num), ?_, hg.lat.minV, hg.lat.factor, hg.lat.swbK,
    hg.lat.gwConst, hg.lat.redExp, hg.lat.len, hg.lat.locLake, hg.lat.locWet, hg.lat.gloWet, hg.lat.maxGlolake, hg.lat.cap⟩
  change 0 ≤ if s.land.cur = 0 then (fullVert p w s).transfer * p.area * 1e-6 * s.land.prev
      else (fullVert p w s).surfaceRunoff * p.area * 1e-6 * s.land.cur
  split_ifs with h0
  · have ht := (C29_vertical_no_land p.vert (fullForcing w s.land) s.vert hs.vert (le_of_eq h0)).1
    have hwat := vert_water_nonneg hs.vert
    have hc := hg.vert.cfa
    have : 0 ≤ (fullVert p w s).transfer := by
      change 0 ≤ (vertCell p.vert (fullForcing w s.land) s.vert).transfer
      rw [ht]; positivity
    have := hs.prev0
    positivity
  · have : 0 ≤ (fullVert p w s).surfaceRunoff := hv.2.2.1
    positivity

theorem flush_err (m x : ℝ) : |flush m x - x| ≤ m ⊔ 0 := by
  unfold flush
  split_ifs with h
  · rw [zero_sub, abs_neg]; exact h.trans (le_max_left _ _)
  · simp

theorem rescaled_err (q : VertPar) (f : VertForcing) (v : VertState) :
    |rescaledWater q f v - v.water * f.ratio| ≤ 2 * (q.minV ⊔ 0) := by
  have h0 : 0 ≤ q.minV ⊔ 0 := le_max_right _ _
  have hb : |mean (v.bands.map fun b => flush q.minV (b * f.ratio)) - mean v.bands * f.ratio| ≤ q.minV ⊔ 0 := by
    have hsum : ∀ l : List ℝ, |(l.map fun b => flush q.minV (b * f.ratio)).sum - l.sum * f.ratio|
        ≤ l.length * (q.minV ⊔ 0) := by
      intro l
      induction l with
      | nil => simp
      | cons a l ih =>
        have h1 := flush_err q.minV (a * f.ratio)
        simp only [List.map_cons, List.sum_cons, List.length_cons, Nat.cast_add, Nat.cast_one]
        have : flush q.minV (a * f.ratio) + (l.map fun b => flush q.minV (b * f.ratio)).sum - (a + l.sum) * f.ratio
          = (flush q.minV (a * f.ratio) - a * f.ratio)
            + ((l.map fun b => flush q.minV (b * f.ratio)).sum - l.sum * f.ratio) := by ring
        rw [this]
        refine (abs_add_le _ _).trans ?_
        linarith
    unfold mean
    rw [List.length_map]
    rcases Nat.eq_zero_or_pos v.bands.length with hn | hn
    · rw [hn]; simp
    · have hn' : (0 : ℝ) < v.bands.length := by exact_mod_cast hn
      rw [div_mul_eq_mul_div, ← sub_div, abs_div, abs_of_pos hn', div_le_iff₀ hn']
      have := hsum v.bands
      linarith
  have hc := flush_err q.minV (v.canopy * f.ratio)
  unfold rescaledWater VertState.water
  have : flush q.minV (v.canopy * f.ratio) + mean (v.bands.map fun b => flush q.minV (b * f.ratio)) + v.soil * f.ratio
      - (v.canopy + mean v.bands + v.soil) * f.ratio
    = (flush q.minV (v.canopy * f.ratio) - v.canopy * f.ratio)
      + (mean (v.bands.map fun b => flush q.minV (b * f.ratio)) - mean v.bands * f.ratio) := by ring
  rw [this]
  refine (abs_add_le _ _).trans ?_
  linarith

/-- The mean snow storage is the mean over the bands. -/
theorem next_snow (q : VertPar) (f : VertForcing) (v : VertState) (hv : v.Ok q) :
    (vertCell q f v).next.canopy + (vertCell q f v).next.snow + (vertCell q f v).next.soil
      = (vertCell q f v).next.water := by
  unfold VertState.water
  have : (vertCell q f v).next.snow = mean (vertCell q f v).next.bands := by
    by_cases hl : f.frac ≤ 0
    · obtain ⟨-, -, h1, -, h2, -⟩ := C29_vertical_no_land q f v hv hl
      rw [h2]
      unfold mean
      have : (vertCell q f v).next.bands.sum = 0 := List.sum_eq_zero h1
      rw [this, zero_div]
    · simp only [vertCell, snowWaterBalance]
      rw [if_pos (not_le.mp hl)]
  rw [this]

/-- The column of the day in volumes: precipitation on land is evapotranspiration, runoff and recharge handed to the
lateral balance, and storage change, up to flushed residues. -/
theorem column_volume (hg : GoodCell p c) (hs : FullOk p c s) (hw : WeatherOk p w s) :
    let ci := fullIn p c w s
    let v := fullVert p w s
    let T := (2 + (1 ⊔ p.vert.cfa)) * (p.vert.minV ⊔ 0) * (1e-6 * p.landWater * p.area)
    let e := w.precip * (1e-6 * s.land.cur * p.area) - (ci.runoff + ci.recharge + v.landAet * 1e-6 * s.land.cur * p.area
      + ((v.next.canopy + v.next.snow + v.next.soil) * (1e-6 * s.land.cur * p.area)
          - s.vert.water * (1e-6 * s.land.prev * p.area)))
    (LandStays p c → -T ≤ e) ∧ (Closing p c → e ≤ T) := by
  intro ci v T e
  have hf := fullForcing_ok p c w s hw hs
  obtain ⟨l1, l2⟩ := land_facts p c s hg hs
  have ha := hg.area
  have hm : 0 ≤ p.vert.minV ⊔ 0 := le_max_right _ _
  have hlw : 0 ≤ p.landWater := l1.trans l2
  have hv : v.next.canopy + v.next.snow + v.next.soil = v.next.water :=
    next_snow p.vert (fullForcing w s.land) s.vert hs.vert
  have hc1 : 1 ≤ 1 ⊔ p.vert.cfa := le_max_left _ _
  have hT : 0 ≤ T := by change 0 ≤ (2 + (1 ⊔ p.vert.cfa)) * (p.vert.minV ⊔ 0) * (1e-6 * p.landWater * p.area); positivity
  simp only [e]
  rw [hv]
  by_cases h0 : s.land.cur = 0
  · obtain ⟨t1, -, -, -, -, t2, t3, t4⟩ :=
      C29_vertical_no_land p.vert (fullForcing w s.land) s.vert hs.vert (le_of_eq h0)
    have e1 : ci.runoff = s.vert.water * p.vert.cfa * p.area * 1e-6 * s.land.prev := by
      change (if s.land.cur = 0 then v.transfer * p.area * 1e-6 * s.land.prev
        else v.surfaceRunoff * p.area * 1e-6 * s.land.cur) = _
      rw [if_pos h0, show v.transfer = s.vert.water * p.vert.cfa from t1]
    have e2 : ci.recharge = 0 := by
      change v.recharge * p.area * 1e-6 * s.land.cur = 0
      rw [h0, mul_zero]
    rw [e1, e2, h0]
    have : w.precip * (1e-6 * 0 * p.area) - (s.vert.water * p.vert.cfa * p.area * 1e-6 * s.land.prev + 0
        + v.landAet * 1e-6 * 0 * p.area + (v.next.water * (1e-6 * 0 * p.area)
        - s.vert.water * (1e-6 * s.land.prev * p.area)))
        = s.vert.water * (1 - p.vert.cfa) * s.land.prev * (1e-6 * p.area) := by ring
    rw [this]
    have hwat := vert_water_nonneg hs.vert
    have hprev := hs.prev0
    obtain ⟨f1, f2⟩ := flooded p c s hg hs h0
    constructor
    · intro hl
      have hz : 0 ≤ s.vert.water * (1 - p.vert.cfa) * s.land.prev * (1e-6 * p.area) := by
        rcases f1 hl with h | h
        · have : 0 ≤ 1 - p.vert.cfa := by linarith
          positivity
        · rw [h]; simp
      linarith
    · intro hl
      have hz : s.vert.water * (1 - p.vert.cfa) * s.land.prev * (1e-6 * p.area) = 0 := by
        rcases f2 hl with h | h <;> rw [h] <;> ring
      linarith
  · have hpos : 0 < s.land.cur := lt_of_le_of_ne l1 (Ne.symm h0)
    obtain ⟨e, leak, he, hl0, hlk, hbal⟩ :=
      C07_column_balance p.vert (fullForcing w s.land) s.vert hg.vert hf hs.vert hpos hg.soil
    have hr := rescaled_err p.vert (fullForcing w s.land) s.vert
    have e1 : ci.runoff = v.surfaceRunoff * p.area * 1e-6 * s.land.cur := by
      change (if s.land.cur = 0 then v.transfer * p.area * 1e-6 * s.land.prev
        else v.surfaceRunoff * p.area * 1e-6 * s.land.cur) = _
      rw [if_neg h0]
    have e2 : ci.recharge = v.recharge * p.area * 1e-6 * s.land.cur := rfl
    have e3 : s.vert.water * s.land.prev = s.vert.water * (s.land.ratio * s.land.cur) := by
      rcases hs.ratio h0 with h | h
      · rw [h]
      · rw [h]; ring
    have hbal' : w.precip = v.surfaceRunoff + v.recharge + v.landAet
        + (v.next.water - rescaledWater p.vert (fullForcing w s.land) s.vert) + leak + e := hbal
    have hr' : |rescaledWater p.vert (fullForcing w s.land) s.vert - s.vert.water * s.land.ratio|
        ≤ 2 * (p.vert.minV ⊔ 0) := hr
    generalize rescaledWater p.vert (fullForcing w s.land) s.vert = R at hbal' hr'
    rw [e1, e2]
    have : w.precip * (1e-6 * s.land.cur * p.area) - (v.surfaceRunoff * p.area * 1e-6 * s.land.cur
        + v.recharge * p.area * 1e-6 * s.land.cur + v.landAet * 1e-6 * s.land.cur * p.area
        + (v.next.water * (1e-6 * s.land.cur * p.area) - s.vert.water * (1e-6 * s.land.prev * p.area)))
        = (e - (R - s.vert.water * s.land.ratio)) * (1e-6 * s.land.cur * p.area) + leak * (1e-6 * s.land.cur * p.area) := by
      have e4 : s.vert.water * (1e-6 * s.land.prev * p.area)
          = s.vert.water * (s.land.ratio * s.land.cur) * (1e-6 * p.area) := by rw [← e3]; ring
      rw [e4, hbal']; ring
    rw [this]
    have he' : |e| ≤ (1 ⊔ p.vert.cfa) * (p.vert.minV ⊔ 0) := he.trans (mul_le_mul_of_nonneg_right (le_max_right _ _) hm)
    have hsum : |e - (R - s.vert.water * s.land.ratio)| ≤ (2 + (1 ⊔ p.vert.cfa)) * (p.vert.minV ⊔ 0) :=
      (abs_sub _ _).trans (by linarith)
    have hvol : 1e-6 * s.land.cur * p.area ≤ 1e-6 * p.landWater * p.area := by
      apply mul_le_mul_of_nonneg_right _ ha
      exact mul_le_mul_of_nonneg_left l2 (by norm_num)
    have hbound : |(e - (R - s.vert.water * s.land.ratio)) * (1e-6 * s.land.cur * p.area)| ≤ T := by
      rw [abs_mul, abs_of_nonneg (by positivity : 0 ≤ 1e-6 * s.land.cur * p.area)]
      exact mul_le_mul hsum hvol (by positivity) (by positivity)
    rw [abs_le] at hbound
    have hleak : 0 ≤ leak * (1e-6 * s.land.cur * p.area) := by positivity
    refine ⟨fun _ => by linarith [hbound.1], fun hl => ?_⟩
    rw [hlk hl.cfa]
    linarith [hbound.2]

/-- What the land column leaves unexplained, as a volume. -/
noncomputable def columnError : ℝ :=
  w.precip * (1e-6 * s.land.cur * p.area) - ((fullIn p c w s).runoff + (fullIn p c w s).recharge
    + (fullVert p w s).landAet * 1e-6 * s.land.cur * p.area
    + (((fullVert p w s).next.canopy + (fullVert p w s).next.snow + (fullVert p w s).next.soil)
        * (1e-6 * s.land.cur * p.area) - s.vert.water * (1e-6 * s.land.prev * p.area)))

/-- What a day of a cell leaves unexplained is what its land column leaves unexplained, up to the residue flushed in the reservoir. -/
theorem cell_day_split (hg : GoodCell p c) (hs : FullOk p c s) (hw : WeatherOk p w s) (up dem : ℝ) (keep : ℝ → ℝ)
    (hup : 0 ≤ up) (hcorr : c.corr ≠ 0) (hd : 0 < c.glolakeArea → 0 ≤ dem) :
    let o := cellDay (fullIn p c w s) s.lat up dem keep
    let r := fullRec p c w s up o
    |r.precip - (r.aet + (r.dis.getD 0 - up) + (o.streamflow / c.corr - o.streamflow) + (r.tws - twsBefore p s))
      - columnError p c w s| ≤ if 0 < c.resArea then c.minV else 0 := by
  intro o r
  have hp := fullIn_physical p c w s hg hs hw
  have hok : s.lat.Ok (fullIn p c w s) :=
    ⟨hs.lat.locLake, hs.lat.locWet, hs.lat.gloLake, hs.lat.res, hs.lat.gloWet, hs.lat.river⟩
  have hlat := C25_cell_balance_corrected (fullIn p c w s) s.lat up dem keep hp hok hup hcorr hd
  simp only at hlat
  change |(fullIn p c w s).runoff + (fullIn p c w s).recharge + o.precipSwb - (o.state.total - s.lat.total
    + o.cellRunoff + o.evapTotal + (o.streamflow / c.corr - o.streamflow))|
    ≤ if 0 < c.resArea then c.minV else 0 at hlat
  -- precipitation on the open water of local bodies
  have harea : o.precipSwb = w.precip * 1e-6 * (openFrac c s.lat * p.area)
      + (if c.glolakeArea > 0 then w.precip * 1e-6 * c.glolakeArea else 0)
      + (if c.resArea > 0 then w.precip * 1e-6 * c.resArea else 0) := by
    have a1 : (if c.locLake.frac > 0 then
        lakeArea .localLake ((fullIn p c w s).lakeIn c.locLake 0 0 0) s.lat.locLake else 0)
        = (if c.locLake.frac > 0 then
          swbRedfactor s.lat.locLake c.locLake.maxStorage c.redExp .localLake * c.locLake.frac else 0) * p.area := by
      by_cases hf : c.locLake.frac > 0
      · rw [if_pos hf, if_pos hf]
        change lakeRed .localLake _ _ * c.locLake.maxArea = _
        rw [hg.locLake hf, ← mul_assoc]; rfl
      · rw [if_neg hf, if_neg hf, zero_mul]
    have a2 : (if c.locWet.frac > 0 then
        lakeArea .localWetland ((fullIn p c w s).lakeIn c.locWet 0 0 0) s.lat.locWet else 0)
        = (if c.locWet.frac > 0 then
          swbRedfactor s.lat.locWet c.locWet.maxStorage c.redExp .localWetland * c.locWet.frac else 0) * p.area := by
      by_cases hf : c.locWet.frac > 0
      · rw [if_pos hf, if_pos hf]
        change lakeRed .localWetland _ _ * c.locWet.maxArea = _
        rw [hg.locWet hf, ← mul_assoc]; rfl
      · rw [if_neg hf, if_neg hf, zero_mul]
    have a3 : (if c.gloWet.frac > 0 then
        lakeArea .globalWetland ((fullIn p c w s).lakeIn c.gloWet 0 0 0) s.lat.gloWet else 0)
        = (if c.gloWet.frac > 0 then
          swbRedfactor s.lat.gloWet c.gloWet.maxStorage c.redExp .globalWetland * c.gloWet.frac else 0) * p.area := by
      by_cases hf : c.gloWet.frac > 0
      · rw [if_pos hf, if_pos hf]
        change lakeRed .globalWetland _ _ * c.gloWet.maxArea = _
        rw [hg.gloWet hf, ← mul_assoc]; rfl
      · rw [if_neg hf, if_neg hf, zero_mul]
    change w.precip * 1e-6 *
      ((if c.locLake.frac > 0 then lakeArea .localLake ((fullIn p c w s).lakeIn c.locLake 0 0 0) s.lat.locLake else 0)
       + (if c.locWet.frac > 0 then lakeArea .localWetland ((fullIn p c w s).lakeIn c.locWet 0 0 0) s.lat.locWet else 0)
       + (if c.gloWet.frac > 0 then lakeArea .globalWetland ((fullIn p c w s).lakeIn c.gloWet 0 0 0) s.lat.gloWet else 0)
       + (if c.glolakeArea > 0 then c.glolakeArea else 0) + (if c.resArea > 0 then c.resArea else 0)) = _
    rw [a1, a2, a3]
    have b1 : (if c.glolakeArea > 0 then w.precip * 1e-6 * c.glolakeArea else 0)
      = w.precip * 1e-6 * (if c.glolakeArea > 0 then c.glolakeArea else 0) := by split_ifs <;> ring
    have b2 : (if c.resArea > 0 then w.precip * 1e-6 * c.resArea else 0)
      = w.precip * 1e-6 * (if c.resArea > 0 then c.resArea else 0) := by split_ifs <;> ring
    rw [b1, b2]
    unfold openFrac
    ring
  have hrun : o.cellRunoff = r.dis.getD 0 - up := by
    change (if c.sink then -1 * up else o.streamflow - up) = (if c.sink then none else some o.streamflow : Option ℝ).getD 0 - up
    cases c.sink <;> simp
  have hrp : r.precip = p.landWater * (w.precip * 1e-6) * p.area
      + (if c.glolakeArea > 0 then w.precip * 1e-6 * c.glolakeArea else 0)
      + (if c.resArea > 0 then w.precip * 1e-6 * c.resArea else 0) := rfl
  have hra : r.aet = o.evapTotal + (fullVert p w s).landAet * 1e-6 * s.land.cur * p.area := rfl
  have hrt : r.tws = o.state.total + ((fullVert p w s).next.canopy + (fullVert p w s).next.snow
      + (fullVert p w s).next.soil) * (1e-6 * s.land.cur * p.area) := rfl
  have hcover : p.landWater = s.land.cur + openFrac c s.lat := by rw [← hs.swb]; exact hs.cover.symm
  have hsplit : r.precip - (r.aet + (r.dis.getD 0 - up) + (o.streamflow / c.corr - o.streamflow) + (r.tws - twsBefore p s))
      - columnError p c w s
      = (fullIn p c w s).runoff + (fullIn p c w s).recharge + o.precipSwb - (o.state.total - s.lat.total
            + o.cellRunoff + o.evapTotal + (o.streamflow / c.corr - o.streamflow)) := by
    rw [hrp, hra, hrt, hrun, harea, hcover]
    unfold twsBefore columnError
    ring
  rw [hsplit]
  exact hlat

/-- One day of one cell, in general: see `C50_cell_day` and `C50_cell_no_gain`. -/
theorem cell_day_error (hg : GoodCell p c) (hs : FullOk p c s) (hw : WeatherOk p w s) (up dem : ℝ) (keep : ℝ → ℝ)
    (hup : 0 ≤ up) (hcorr : c.corr ≠ 0) (hd : 0 < c.glolakeArea → 0 ≤ dem) :
    let o := cellDay (fullIn p c w s) s.lat up dem keep
    let r := fullRec p c w s up o
    DayError p c
      (r.precip - (r.aet + (r.dis.getD 0 - up) + (o.streamflow / c.corr - o.streamflow) + (r.tws - twsBefore p s))) := by
  intro o r
  have hsplit := cell_day_split p c w s hg hs hw up dem keep hup hcorr hd
  obtain ⟨c1, c2⟩ := column_volume p c w s hg hs hw
  simp only at hsplit
  rw [abs_le] at hsplit
  unfold DayError flushTol
  unfold columnError at hsplit
  exact ⟨fun hl => by linarith [c1 hl, hsplit.1], fun hl => by linarith [c2 hl, hsplit.2]⟩

/-- C50, one day of one cell: what the outputs of the day say about a cell adds up. Consistent precipitation is
evapotranspiration with consumptive use, plus streamflow minus inflow (in an inland sink minus the inflow, because the
streamflow is evaporated), plus the storage change since the day before, plus what the station correction added to or
took from the streamflow; only residues below the smallest storage volume can get lost. -/
theorem C50_cell_day (hg : GoodCell p c) (hcl : Closing p c) (hs : FullOk p c s) (hw : WeatherOk p w s) (up dem : ℝ)
    (keep : ℝ → ℝ) (hup : 0 ≤ up) (hcorr : c.corr ≠ 0) (hd : 0 < c.glolakeArea → 0 ≤ dem) :
    let o := cellDay (fullIn p c w s) s.lat up dem keep
    let r := fullRec p c w s up o
    |r.precip - (r.aet + (r.dis.getD 0 - up) + (o.streamflow / c.corr - o.streamflow) + (r.tws - twsBefore p s))|
      ≤ flushTol p c :=
  (cell_day_error p c w s hg hs hw up dem keep hup hcorr hd).abs hcl

/-- C50 for every areal correction factor: a cell whose land is not flooded altogether never creates water, up to the residues. With a
factor above one it can lose water (`C07_violated_cfa_above_one`). -/
theorem C50_cell_no_gain (hg : GoodCell p c) (hl : LandStays p c) (hs : FullOk p c s) (hw : WeatherOk p w s) (up dem : ℝ)
    (keep : ℝ → ℝ) (hup : 0 ≤ up) (hcorr : c.corr ≠ 0) (hd : 0 < c.glolakeArea → 0 ≤ dem) :
    let o := cellDay (fullIn p c w s) s.lat up dem keep
    let r := fullRec p c w s up o
    r.aet + (r.dis.getD 0 - up) + (o.streamflow / c.corr - o.streamflow) + (r.tws - twsBefore p s)
      ≤ r.precip + flushTol p c := by
  intro o r
  have := (cell_day_error p c w s hg hs hw up dem keep hup hcorr hd).1 hl
  change -flushTol p c ≤ r.precip - (r.aet + (r.dis.getD 0 - up) + (o.streamflow / c.corr - o.streamflow)
    + (r.tws - twsBefore p s)) at this
  linarith

/-- C50 fails on the day on which the land of a cell vanishes under water, if the areal correction factor is not one: the water that was
stored on the land is handed to the water bodies multiplied by the factor.  With a factor above one this much water is created, with a
factor below one this much is lost. -/
theorem C50_violated_vanishing_land (hg : GoodCell p c) (hs : FullOk p c s) (hw : WeatherOk p w s) (up dem : ℝ)
    (keep : ℝ → ℝ) (hup : 0 ≤ up) (hcorr : c.corr ≠ 0) (hd : 0 < c.glolakeArea → 0 ≤ dem) (h0 : s.land.cur = 0) :
    let o := cellDay (fullIn p c w s) s.lat up dem keep
    let r := fullRec p c w s up o
    |r.aet + (r.dis.getD 0 - up) + (o.streamflow / c.corr - o.streamflow) + (r.tws - twsBefore p s) - r.precip
      - (p.vert.cfa - 1) * s.vert.water * (1e-6 * s.land.prev * p.area)| ≤ if 0 < c.resArea then c.minV else 0 := by
  intro o r
  have hsplit := cell_day_split p c w s hg hs hw up dem keep hup hcorr hd
  obtain ⟨t1, -⟩ := C29_vertical_no_land p.vert (fullForcing w s.land) s.vert hs.vert (le_of_eq h0)
  have e1 : (fullIn p c w s).runoff = s.vert.water * p.vert.cfa * p.area * 1e-6 * s.land.prev := by
    change (if s.land.cur = 0 then (fullVert p w s).transfer * p.area * 1e-6 * s.land.prev
      else (fullVert p w s).surfaceRunoff * p.area * 1e-6 * s.land.cur) = _
    rw [if_pos h0, show (fullVert p w s).transfer = s.vert.water * p.vert.cfa from t1]
  have e2 : (fullIn p c w s).recharge = 0 := by
    change (fullVert p w s).recharge * p.area * 1e-6 * s.land.cur = 0
    rw [h0, mul_zero]
  have e : columnError p c w s = -((p.vert.cfa - 1) * s.vert.water * (1e-6 * s.land.prev * p.area)) := by
    unfold columnError
    rw [e1, e2, h0]
    ring
  simp only at hsplit
  rw [e, abs_le] at hsplit
  change -(if 0 < c.resArea then c.minV else 0) ≤ r.precip - (r.aet + (r.dis.getD 0 - up)
    + (o.streamflow / c.corr - o.streamflow) + (r.tws - twsBefore p s)) - _ ∧ r.precip - (r.aet + (r.dis.getD 0 - up)
    + (o.streamflow / c.corr - o.streamflow) + (r.tws - twsBefore p s)) - _ ≤ _ at hsplit
  rw [abs_le]
  exact ⟨by linarith [hsplit.2], by linarith [hsplit.1]⟩

/-- The state stays sensible, and the storage reported for the day is the one the next day starts from. -/
theorem C50_cell_state (hg : GoodCell p c) (hs : FullOk p c s) (hw : WeatherOk p w s) (up dem : ℝ) (keep : ℝ → ℝ)
    (hup : 0 ≤ up) (hd : 0 < c.glolakeArea → 0 ≤ dem) (hdeep : (fullIn p c w s).WetDeep) :
    let o := cellDay (fullIn p c w s) s.lat up dem keep
    FullOk p c (fullNext p w s o) ∧ twsBefore p (fullNext p w s o) = (fullRec p c w s up o).tws := by
  intro o
  have hp := fullIn_physical p c w s hg hs hw
  have hf := fullForcing_ok p c w s hw hs
  have hok : s.lat.Ok (fullIn p c w s) :=
    ⟨hs.lat.locLake, hs.lat.locWet, hs.lat.gloLake, hs.lat.res, hs.lat.gloWet, hs.lat.river⟩
  have hlat : o.state.Ok (fullIn p c w s) := C25_state (fullIn p c w s) s.lat up dem keep hp hok hup hd hdeep
  have hvert := (C54_vertical_step p.vert (fullForcing w s.land) s.vert hg.vert hf hs.vert).1
  obtain ⟨l1, l2⟩ := land_facts p c s hg hs
  have hnew : o.locLakeFrac + o.locWetFrac + o.gloWetFrac = openFrac c o.state :=
    newFrac_eq (fullIn p c w s) s.lat up dem keep
  obtain ⟨o1, o2⟩ := openFrac_bounds c hg.lat o.state
  have hfit := hg.fit
  have hcover := hs.cover
  have hcur : clampNeg (s.land.cur - (openFrac c o.state - s.land.swb)) = p.landWater - openFrac c o.state := by
    unfold clampNeg
    rw [if_neg (by linarith)]; linarith
  have hland : (fullNext p w s o).land = { s.land with
      swb := openFrac c o.state, prev := s.land.cur, cur := p.landWater - openFrac c o.state,
      ratio := if p.landWater - openFrac c o.state ≠ 0 then s.land.cur / (p.landWater - openFrac c o.state) else 0 } := by
    simp only [fullNext, hnew, landUpdate, hcur]
  refine ⟨⟨hvert, ⟨hlat.locLake, hlat.locWet, hlat.gloLake, hlat.res, hlat.gloWet, hlat.river⟩, ?_, ?_, ?_, ?_, ?_, ?_⟩, ?_⟩
  · rw [hland]; rfl
  · rw [hland]; simp
  · rw [hland]; exact l1
  · rw [hland]; exact l2
  · rw [hland]
    simp only
    split_ifs with hz
    · exact div_nonneg l1 (by linarith)
    · exact le_rfl
  · rw [hland]
    intro hz
    left
    simp only at hz ⊢
    rw [if_pos hz]; field_simp
  · have hsn := next_snow p.vert (fullForcing w s.land) s.vert hs.vert
    have hpr : (fullNext p w s o).land.prev = s.land.cur := by rw [hland]
    unfold twsBefore
    rw [hpr]
    change o.state.total + (fullVert p w s).next.water * _ = o.state.total + _ * _
    rw [show (fullVert p w s).next.canopy + (fullVert p w s).next.snow + (fullVert p w s).next.soil
      = (fullVert p w s).next.water from hsn]

end cell

/-! ### The arithmetic of the tool -/

/-- The contribution of a day to the balance of a cell, without storages. -/
noncomputable def dayNet (cfs : ℝ) (d : DayRec) : ℝ :=
  d.precip - d.aet - (d.dis.getD 0 - d.up) - (d.dis.getD 0 / cfs - d.dis.getD 0)

/-- The records of a cell close from day to day up to `tol`, starting from the storage `prev`. -/
def Closes (cfs tol : ℝ) : ℝ → List DayRec → Prop
  | _, [] => True
  | prev, d :: ds => |dayNet cfs d - (d.tws - prev)| ≤ tol ∧ Closes cfs tol d.tws ds

/-- What the records of a cell leave unexplained on each day, starting from the storage `prev`. -/
noncomputable def dayErrors (cfs : ℝ) : ℝ → List DayRec → List ℝ
  | _, [] => []
  | prev, d :: ds => (dayNet cfs d - (d.tws - prev)) :: dayErrors cfs d.tws ds

theorem closes_iff (cfs tol : ℝ) (ds : List DayRec) (prev : ℝ) : Closes cfs tol prev ds ↔ ∀ e ∈ dayErrors cfs prev ds, |e| ≤ tol := by
  induction ds generalizing prev with
  | nil => simp [Closes, dayErrors]
  | cons d ds ih => simp only [Closes, dayErrors, List.forall_mem_cons, ih]

theorem getLast_tws (d : DayRec) (ds : List DayRec) (prev : ℝ) :
    ((d :: ds).getLast?.map (·.tws)).getD prev = (ds.getLast?.map (·.tws)).getD d.tws := by
  cases ds with
  | nil => simp
  | cons e es =>
    rw [List.getLast?_cons_cons]
    cases hl : (e :: es).getLast? with
    | none => simp at hl
    | some l => rfl

theorem closes_sum (cfs tol : ℝ) (ds : List DayRec) (prev : ℝ) (h : Closes cfs tol prev ds) :
    |(ds.map (dayNet cfs)).sum - ((ds.getLast?.map (·.tws)).getD prev - prev)| ≤ tol * ds.length := by
  induction ds generalizing prev with
  | nil => simp
  | cons d ds ih =>
    obtain ⟨h1, h2⟩ := h
    have := ih d.tws h2
    rw [getLast_tws]
    simp only [List.map_cons, List.sum_cons, List.length_cons, Nat.cast_add, Nat.cast_one]
    rw [abs_le] at h1 this ⊢
    constructor <;> linarith [h1.1, h1.2, this.1, this.2]

theorem dayErrors_sum (cfs : ℝ) (ds : List DayRec) (prev : ℝ) :
    (dayErrors cfs prev ds).sum = (ds.map (dayNet cfs)).sum - ((ds.getLast?.map (·.tws)).getD prev - prev) ∧
    (dayErrors cfs prev ds).length = ds.length := by
  induction ds generalizing prev with
  | nil => simp [dayErrors]
  | cons d ds ih =>
    obtain ⟨h1, h2⟩ := ih d.tws
    rw [getLast_tws]
    simp only [dayErrors, List.map_cons, List.sum_cons, List.length_cons, h1, h2, and_true]
    ring

theorem errors_sum {p : FullPar} {c : CellIn} {cfs prev : ℝ} {ds : List DayRec} (h : ∀ e ∈ dayErrors cfs prev ds, DayError p c e) :
    (LandStays p c → -(flushTol p c * ds.length) ≤ (ds.map (dayNet cfs)).sum - ((ds.getLast?.map (·.tws)).getD prev - prev)) ∧
    (Closing p c → (ds.map (dayNet cfs)).sum - ((ds.getLast?.map (·.tws)).getD prev - prev) ≤ flushTol p c * ds.length) := by
  obtain ⟨e1, e2⟩ := dayErrors_sum cfs ds prev
  rw [← e1, ← e2]
  generalize dayErrors cfs prev ds = l at h
  constructor
  · intro hl
    induction l with
    | nil => simp
    | cons e l ih =>
      have := ih fun y hy => h y (by simp [hy])
      have := (h e (by simp)).1 hl
      simp only [List.length_cons, List.sum_cons, Nat.cast_add, Nat.cast_one]
      linarith
  · intro hl
    induction l with
    | nil => simp
    | cons e l ih =>
      have := ih fun y hy => h y (by simp [hy])
      have := (h e (by simp)).2 hl
      simp only [List.length_cons, List.sum_cons, Nat.cast_add, Nat.cast_one]
      linarith

theorem annualMean_flatten (q : DayRec → Option ℝ) (years : List (List DayRec)) :
    annualMean q years = ((years.flatten.map fun d => (q d).getD 0).sum) / years.length := by
  unfold annualMean
  congr 1
  induction years with
  | nil => simp
  | cons y ys ih => simp only [List.map_cons, List.sum_cons, List.flatten_cons, List.map_append, List.sum_append, ih]

theorem dayNet_sum (cfs : ℝ) (l : List DayRec) :
    (l.map (dayNet cfs)).sum = (l.map fun d => d.precip).sum - (l.map fun d => d.aet).sum
      - ((l.map fun d => d.dis.getD 0).sum - (l.map fun d => d.up).sum)
      - ((l.map fun d => d.dis.getD 0).sum / cfs - (l.map fun d => d.dis.getD 0).sum) := by
  induction l with
  | nil => simp
  | cons d l ih => simp only [List.map_cons, List.sum_cons, ih, dayNet]; ring

/-- The error the tool prints is the sum over the cells of their own balances, per year. -/
theorem balanceError_eq (cells : List Cell) (cfs prev : Cell → ℝ) (n : ℕ) (recs : Cell → List (List DayRec))
    (hlen : ∀ x ∈ cells, (recs x).length = n) :
    balanceError cells cfs prev n recs = ((cells.map fun x => ((recs x).flatten.map (dayNet (cfs x))).sum
      - (lastTws (prev x) (recs x) - prev x)).sum) / n := by
  unfold balanceError
  simp only
  induction cells with
  | nil => simp
  | cons x xs ih =>
    have ih := ih fun y hy => hlen y (by simp [hy])
    have hx := hlen x (by simp)
    simp only [List.map_cons, List.sum_cons]
    rw [add_div, ← ih]
    simp only [annualMean_flatten, hx, Option.getD_some, dayNet_sum]
    ring

/-- C50, the tool: when the outputs of every cell close from day to day up to `tol`, the long-term average error that
the tool prints is at most the sum of these tolerances over the cells times the number of days per year. With
`tol = 0` it is exactly 0. -/
theorem C50_tool (cells : List Cell) (cfs prev tol : Cell → ℝ) (n days : ℕ) (recs : Cell → List (List DayRec))
    (hlen : ∀ x ∈ cells, (recs x).length = n ∧ (recs x).flatten.length = days)
    (h : ∀ x ∈ cells, Closes (cfs x) (tol x) (prev x) (recs x).flatten) :
    |balanceError cells cfs prev n recs| ≤ (cells.map tol).sum * days / n := by
  rw [balanceError_eq cells cfs prev n recs fun x hx => (hlen x hx).1, abs_div, Nat.abs_cast]
  apply div_le_div_of_nonneg_right _ (Nat.cast_nonneg n)
  rw [list_sum_sub]
  refine (abs_sum_le cells _ _ (fun x => tol x * days) fun x hx => ?_).trans (le_of_eq ?_)
  · have := closes_sum (cfs x) (tol x) _ _ (h x hx)
    rw [(hlen x hx).2] at this
    exact this
  · exact List.sum_map_mul_right cells tol (days : ℝ)

/-- C50, the tool: when no cell creates more than `tol` of water on a day, the error that the tool prints is not below minus the sum of
these tolerances: it shows a gain only where there is one. -/
theorem C50_tool_no_gain (cells : List Cell) (cfs prev tol : Cell → ℝ) (n days : ℕ) (recs : Cell → List (List DayRec))
    (hlen : ∀ x ∈ cells, (recs x).length = n ∧ (recs x).flatten.length = days)
    (h : ∀ x ∈ cells, ∀ e ∈ dayErrors (cfs x) (prev x) (recs x).flatten, -tol x ≤ e) :
    -((cells.map tol).sum * days / n) ≤ balanceError cells cfs prev n recs := by
  rw [balanceError_eq cells cfs prev n recs fun x hx => (hlen x hx).1, ← neg_div]
  apply div_le_div_of_nonneg_right _ (Nat.cast_nonneg n)
  have hsum : -((cells.map tol).sum * (days : ℝ)) = (cells.map fun x => -(tol x * days)).sum := by
    induction cells with
    | nil => simp
    | cons y ys ih =>
      have := ih (fun x hx => hlen x (by simp [hx])) fun x hx => h x (by simp [hx])
      simp only [List.map_cons, List.sum_cons]
      linarith
  rw [hsum]
  refine List.sum_le_sum fun x hx => ?_
  obtain ⟨e1, e2⟩ := dayErrors_sum (cfs x) (recs x).flatten (prev x)
  have hle : ∀ l : List ℝ, (∀ e ∈ l, -tol x ≤ e) → -(tol x * l.length) ≤ l.sum := by
    intro l hl
    induction l with
    | nil => simp
    | cons e l ih =>
      have := ih fun y hy => hl y (by simp [hy])
      have := hl e (by simp)
      simp only [List.length_cons, List.sum_cons, Nat.cast_add, Nat.cast_one]
      linarith
  have := hle _ (h x hx)
  rw [e1, e2, (hlen x hx).2] at this
  exact this

/-- C50: the number of years must be that of the data. If the period asked for is longer than the data, fluxes are
averaged over the years of the data but the storage change over the years asked for, and a balance that closes
exactly is reported with an error. -/
theorem C50_violated_incomplete_period :
    ∃ recs : Cell → List (List DayRec), (∀ x, Closes 1 0 10 (recs x).flatten) ∧
      balanceError [(1, 1)] (fun _ => 1) (fun _ => 10) 1 recs = 0 ∧
      balanceError [(1, 1)] (fun _ => 1) (fun _ => 10) 2 recs = 2.5 := by
  refine ⟨fun _ => [[⟨7, 2, some 0, 0, 15⟩]], fun _ => ?_, ?_, ?_⟩
  · simp only [List.flatten_cons, List.flatten_nil, List.append_nil, Closes, dayNet, Option.getD_some]
    norm_num
  · norm_num [balanceError, annualMean, lastTws]
  · norm_num [balanceError, annualMean, lastTws]

/-- C50, units: what is saved in base units is turned back into the volumes of the model. -/
theorem C50_units (area cf x : ℝ) (ha : 0 < area) (hc : 0 < cf) :
    toolFlux area cf (baseUnits .lbFlux "consistent-precipitation" area cf x) = x ∧
    toolFlux area cf (baseUnits .lbFlux "evap-total" area cf x) = x ∧
    toolDis (baseUnits .lbFlux "dis" area cf x) = x ∧
    toolDis (baseUnits .lbFlux "dis-from-upstream" area cf x) = x ∧
    toolStorage area cf (baseUnits .lbStorage "tws" area cf x) = x := by
  refine ⟨?_, ?_, ?_, ?_, ?_⟩ <;> simp [toolFlux, toolDis, toolStorage, baseUnits] <;> field_simp <;> norm_num
  all_goals ring

example := C50_units 3000 80 0.7 (by norm_num) (by norm_num)

/-! ### The whole simulation -/

/-- Inputs of different days that describe the same cell. -/
structure SameCell (c c' : CellIn) : Prop where
  bodies : SameBodies c c'
  redExp : c.redExp = c'.redExp
  corr : c.corr = c'.corr
  sink : c.sink = c'.sink
  minV : c.minV = c'.minV

theorem openFrac_same {c c' : CellIn} (h : SameCell c c') (st : CellState) : openFrac c st = openFrac c' st := by
  unfold openFrac
  rw [h.bodies.locLake, h.bodies.locWet, h.bodies.gloWet, h.redExp]

theorem SameCell.symm {c c' : CellIn} (h : SameCell c c') : SameCell c' c :=
  ⟨h.1.symm, h.2.symm, h.3.symm, h.4.symm, h.5.symm⟩

theorem FullOk_same {p : FullPar} {c c' : CellIn} {s : FullState} (h : SameCell c c') (hs : FullOk p c s) :
    FullOk p c' s :=
  ⟨hs.vert, Ok_same h.bodies hs.lat, by rw [← openFrac_same h]; exact hs.swb, hs.cover, hs.prev0, hs.prev1, hs.ratio0,
    hs.ratio⟩

theorem DayError_same {p : FullPar} {c c' : CellIn} (h : SameCell c c') (e : ℝ) : DayError p c e = DayError p c' e := by
  have hT : flushTol p c = flushTol p c' := by unfold flushTol; rw [h.bodies.resArea, h.minV]
  have hl : LandStays p c = LandStays p c' := by
    unfold LandStays; rw [h.bodies.locLake, h.bodies.locWet, h.bodies.gloWet]
  have hc : Closing p c ↔ Closing p c' := by
    constructor <;> rintro ⟨h1, h2⟩
    · exact ⟨h1, by rw [← h.bodies.locLake, ← h.bodies.locWet, ← h.bodies.gloWet]; exact h2⟩
    · exact ⟨h1, by rw [h.bodies.locLake, h.bodies.locWet, h.bodies.gloWet]; exact h2⟩
  unfold DayError
  rw [hT, hl, propext hc]

section sim
variable {δ : Type} (par : Cell → FullPar) (lat0 : Cell → CellIn) (order : List (Cell × Cell)) (I : δ → Prop)

/-- A sensible day in the state `s`: sensible weather, cells described by `lat0`, global wetlands that do not run dry
within the day, and a demand ledger that never asks a global lake for a negative amount. -/
structure SimDay.Ok (d : SimDay δ) (s : Sim δ) : Prop where
  cells : ∀ x ∈ order.map Prod.fst, GoodCell (par x) (d.lateral s.demand x) ∧ SameCell (lat0 x) (d.lateral s.demand x) ∧
    WeatherOk (par x) (d.weather x) (s.state x) ∧ (simIn par d s x).WetDeep
  ledger : LedgerOk (simIn par d s) d.get d.upd I
  start : ∀ l, I l → I (d.start l)
  close : ∀ l, I l → I (d.close l)

/-- A sensible state of the simulation. -/
def Sim.Ok (s : Sim δ) : Prop := I s.demand ∧ ∀ x ∈ order.map Prod.fst, FullOk (par x) (lat0 x) (s.state x)

/-- Sensible days, one after the other. -/
def SimDaysOk : Sim δ → List (SimDay δ) → Prop
  | _, [] => True
  | s, d :: ds => d.Ok par lat0 order I s ∧ SimDaysOk (simDay par order d s).1 ds

/-- The records of a cell. -/
noncomputable def series (s : Sim δ) (days : List (SimDay δ)) (x : Cell) : List DayRec :=
  (simRun par order s days).2.filterMap (· x)

theorem simDay_cell (h : Sound order) (hcorr : ∀ x ∈ order.map Prod.fst, 0 < (lat0 x).corr) (d : SimDay δ) (s : Sim δ)
    (hs : s.Ok par lat0 order I) (hd : d.Ok par lat0 order I s) :
    I (simNet par order d s).ledger.demand ∧ ∀ x ∈ order.map Prod.fst, ∃ dem keep,
      let up := (simNet par order d s).up x
      let o := cellDay (simIn par d s x) (s.state x).lat up dem keep
      (0 < (d.lateral s.demand x).glolakeArea → 0 ≤ dem) ∧ 0 ≤ up ∧ (simNet par order d s).flow x = o.streamflow ∧
      (simDay par order d s).1.state x = fullNext (par x) (d.weather x) (s.state x) o ∧
      (simDay par order d s).2 x = some (fullRec (par x) (d.lateral s.demand x) (d.weather x) (s.state x) up o) := by
  have hc : ∀ x ∈ order.map Prod.fst, (simIn par d s x).Physical ∧ (s.state x).lat.Ok (simIn par d s x) ∧
      0 ≤ (simIn par d s x).corr := by
    intro x hx
    obtain ⟨g1, g2, g3, -⟩ := hd.cells x hx
    have hf := FullOk_same g2 (hs.2 x hx)
    refine ⟨fullIn_physical _ _ _ _ g1 hf g3,
      ⟨hf.lat.locLake, hf.lat.locWet, hf.lat.gloLake, hf.lat.res, hf.lat.gloWet, hf.lat.river⟩, ?_⟩
    change 0 ≤ (d.lateral s.demand x).corr
    rw [← g2.corr]; exact (hcorr x hx).le
  obtain ⟨h1, -, -, h4⟩ := basin_inv (simIn par d s) d.get d.upd I hd.ledger order h (d.start s.demand) (hd.start _ hs.1)
    (fun x => (s.state x).lat) hc
  refine ⟨h1, fun x hx => ?_⟩
  obtain ⟨dem, keep, k1, k2, k3, -, k5⟩ := h4 x hx
  refine ⟨dem, keep, k1, k2, k5, ?_, ?_⟩
  · simp only [simDay]
    rw [show (simNet par order d s).ledger.out x = _ from k3]
    rfl
  · simp only [simDay]
    rw [show (simNet par order d s).ledger.out x = _ from k3]
    rfl

theorem simDay_ok (h : Sound order) (hcorr : ∀ x ∈ order.map Prod.fst, 0 < (lat0 x).corr) (d : SimDay δ) (s : Sim δ)
    (hs : s.Ok par lat0 order I) (hd : d.Ok par lat0 order I s) : (simDay par order d s).1.Ok par lat0 order I := by
  obtain ⟨h1, h2⟩ := simDay_cell par lat0 order I h hcorr d s hs hd
  refine ⟨hd.close _ h1, fun x hx => ?_⟩
  obtain ⟨dem, keep, k1, k2, -, k4, -⟩ := h2 x hx
  obtain ⟨g1, g2, g3, g4⟩ := hd.cells x hx
  rw [k4]
  exact FullOk_same g2.symm
    (C50_cell_state (par x) (d.lateral s.demand x) (d.weather x) (s.state x) g1 (FullOk_same g2 (hs.2 x hx)) g3 _ dem keep k2 k1 g4).1

/-- C50, C54 for the whole model: over any number of days, in all cells, the storages stay physical, the land fraction
is what the water bodies leave, and the cell's fractions add up. -/
theorem C54_simulation_states (h : Sound order) (hcorr : ∀ x ∈ order.map Prod.fst, 0 < (lat0 x).corr)
    (days : List (SimDay δ)) (s : Sim δ) (hs : s.Ok par lat0 order I) (hd : SimDaysOk par lat0 order I s days) :
    (simRun par order s days).1.Ok par lat0 order I := by
  induction days generalizing s with
  | nil => exact hs
  | cons d ds ih => exact ih _ (simDay_ok par lat0 order I h hcorr d s hs hd.1) hd.2

/-- What the records of a cell leave unexplained. -/
theorem series_errors (h : Sound order) (hcorr : ∀ x ∈ order.map Prod.fst, 0 < (lat0 x).corr)
    (hsink : ∀ x ∈ order.map Prod.fst, (lat0 x).sink = true → (lat0 x).corr = 1)
    (days : List (SimDay δ)) (s : Sim δ) (hs : s.Ok par lat0 order I) (hd : SimDaysOk par lat0 order I s days)
    (x : Cell) (hx : x ∈ order.map Prod.fst) :
    (∀ e ∈ dayErrors (lat0 x).corr (twsBefore (par x) (s.state x)) (series par order s days x), DayError (par x) (lat0 x) e) ∧
    (series par order s days x).length = days.length := by
  induction days generalizing s with
  | nil => exact ⟨by simp [series, simRun, dayErrors], rfl⟩
  | cons d ds ih =>
    obtain ⟨i1, i2⟩ := ih _ (simDay_ok par lat0 order I h hcorr d s hs hd.1) hd.2
    obtain ⟨dem, keep, k1, k2, k3, k4, k5⟩ := (simDay_cell par lat0 order I h hcorr d s hs hd.1).2 x hx
    obtain ⟨g1, g2, g3, g4⟩ := hd.1.cells x hx
    have hf := FullOk_same g2 (hs.2 x hx)
    have hser : series par order s (d :: ds) x = fullRec (par x) (d.lateral s.demand x) (d.weather x) (s.state x)
        ((simNet par order d s).up x) (cellDay (simIn par d s x) (s.state x).lat ((simNet par order d s).up x) dem keep)
        :: series par order (simDay par order d s).1 ds x := by
      simp only [series, simRun]
      rw [List.filterMap_cons, k5]
    have hbal := cell_day_error (par x) (d.lateral s.demand x) (d.weather x) (s.state x) g1 hf g3 _ dem keep k2
      (by rw [← g2.corr]; exact (hcorr x hx).ne') k1
    have htws := (C50_cell_state (par x) (d.lateral s.demand x) (d.weather x) (s.state x) g1 hf g3 _ dem keep k2 k1 g4).2
    have htol : ∀ e, DayError (par x) (d.lateral s.demand x) e = DayError (par x) (lat0 x) e := DayError_same g2.symm
    simp only at hbal htws
    rw [htol] at hbal
    rw [hser]
    constructor
    · simp only [dayErrors, List.forall_mem_cons]
      refine ⟨?_, ?_⟩
      · set o := cellDay (simIn par d s x) (s.state x).lat ((simNet par order d s).up x) dem keep with ho
        have hdis : (fullRec (par x) (d.lateral s.demand x) (d.weather x) (s.state x) ((simNet par order d s).up x) o).dis
            = if (d.lateral s.demand x).sink then none else some o.streamflow := rfl
        have hu : (fullRec (par x) (d.lateral s.demand x) (d.weather x) (s.state x) ((simNet par order d s).up x) o).up
            = (simNet par order d s).up x := rfl
        have hcs : o.streamflow / (d.lateral s.demand x).corr - o.streamflow
            = (if (d.lateral s.demand x).sink then none else some o.streamflow : Option ℝ).getD 0 / (lat0 x).corr
              - (if (d.lateral s.demand x).sink then none else some o.streamflow : Option ℝ).getD 0 := by
          rw [← g2.corr]
          by_cases hk : (d.lateral s.demand x).sink = true
          · rw [hsink x hx (by rw [g2.sink]; exact hk)]; simp [hk]
          · rw [if_neg hk]; rfl
        generalize hR : fullRec (par x) (d.lateral s.demand x) (d.weather x) (s.state x) ((simNet par order d s).up x) o = R
          at hdis hu
        replace hbal : DayError (par x) (lat0 x) (R.precip - (R.aet + (R.dis.getD 0 - (simNet par order d s).up x)
          + (o.streamflow / (d.lateral s.demand x).corr - o.streamflow) + (R.tws - twsBefore (par x) (s.state x)))) := by
          rw [← hR]; exact hbal
        rw [hcs, ← hdis] at hbal
        refine Eq.mp (congrArg _ ?_) hbal
        unfold dayNet
        rw [hu]
        ring
      · have e : twsBefore (par x) ((simDay par order d s).1.state x)
            = (fullRec (par x) (d.lateral s.demand x) (d.weather x) (s.state x) ((simNet par order d s).up x)
              (cellDay (simIn par d s x) (s.state x).lat ((simNet par order d s).up x) dem keep)).tws := by
          rw [k4]; exact htws
        rw [e] at i1
        exact i1
    · rw [List.length_cons, i2, List.length_cons]

/-- The records of a closing cell close from day to day. -/
theorem series_closes (h : Sound order) (hcorr : ∀ x ∈ order.map Prod.fst, 0 < (lat0 x).corr)
    (hsink : ∀ x ∈ order.map Prod.fst, (lat0 x).sink = true → (lat0 x).corr = 1)
    (days : List (SimDay δ)) (s : Sim δ) (hs : s.Ok par lat0 order I) (hd : SimDaysOk par lat0 order I s days)
    (x : Cell) (hx : x ∈ order.map Prod.fst) (hcl : Closing (par x) (lat0 x)) :
    Closes (lat0 x).corr (flushTol (par x) (lat0 x)) (twsBefore (par x) (s.state x)) (series par order s days x) ∧
    (series par order s days x).length = days.length := by
  obtain ⟨h1, h2⟩ := series_errors par lat0 order I h hcorr hsink days s hs hd x hx
  exact ⟨(closes_iff _ _ _ _).mpr fun e he => (h1 e he).abs hcl, h2⟩

/-- **C50.** For every simulation — any basin, any number of days, any weather, any demand and any way cells exchange
demand — the long-term balance error that the tool computes from the outputs (precipitation, evapotranspiration with
consumptive use, streamflow, streamflow from upstream, total water storage), however the days are grouped into `n`
years, is at most the volume of the residues that may be flushed. -/
theorem C50_simulation (h : Sound order) (hcorr : ∀ x ∈ order.map Prod.fst, 0 < (lat0 x).corr)
    (hsink : ∀ x ∈ order.map Prod.fst, (lat0 x).sink = true → (lat0 x).corr = 1)
    (days : List (SimDay δ)) (s : Sim δ) (hs : s.Ok par lat0 order I) (hd : SimDaysOk par lat0 order I s days)
    (cells : List Cell) (hcells : ∀ x ∈ cells, x ∈ order.map Prod.fst ∧ Closing (par x) (lat0 x)) (n : ℕ) (recs : Cell → List (List DayRec))
    (hrec : ∀ x ∈ cells, (recs x).flatten = series par order s days x ∧ (recs x).length = n) :
    |balanceError cells (fun x => (lat0 x).corr) (fun x => twsBefore (par x) (s.state x)) n recs|
      ≤ (cells.map fun x => flushTol (par x) (lat0 x)).sum * days.length / n := by
  apply C50_tool
  · intro x hx
    refine ⟨(hrec x hx).2, ?_⟩
    rw [(hrec x hx).1]
    exact (series_closes par lat0 order I h hcorr hsink days s hs hd x (hcells x hx).1 (hcells x hx).2).2
  · intro x hx
    rw [(hrec x hx).1]
    exact (series_closes par lat0 order I h hcorr hsink days s hs hd x (hcells x hx).1 (hcells x hx).2).1

/-- **C50.** For every simulation and every areal correction factor: the balance error that the tool computes for cells whose land is
not flooded altogether is not below minus the volume of the residues; water is never created. -/
theorem C50_simulation_no_gain (h : Sound order) (hcorr : ∀ x ∈ order.map Prod.fst, 0 < (lat0 x).corr)
    (hsink : ∀ x ∈ order.map Prod.fst, (lat0 x).sink = true → (lat0 x).corr = 1)
    (days : List (SimDay δ)) (s : Sim δ) (hs : s.Ok par lat0 order I) (hd : SimDaysOk par lat0 order I s days)
    (cells : List Cell) (hcells : ∀ x ∈ cells, x ∈ order.map Prod.fst ∧ LandStays (par x) (lat0 x)) (n : ℕ)
    (recs : Cell → List (List DayRec))
    (hrec : ∀ x ∈ cells, (recs x).flatten = series par order s days x ∧ (recs x).length = n) :
    -((cells.map fun x => flushTol (par x) (lat0 x)).sum * days.length / n)
      ≤ balanceError cells (fun x => (lat0 x).corr) (fun x => twsBefore (par x) (s.state x)) n recs := by
  apply C50_tool_no_gain
  · intro x hx
    refine ⟨(hrec x hx).2, ?_⟩
    rw [(hrec x hx).1]
    exact (series_errors par lat0 order I h hcorr hsink days s hs hd x (hcells x hx).1).2
  · intro x hx
    rw [(hrec x hx).1]
    intro e he
    exact ((series_errors par lat0 order I h hcorr hsink days s hs hd x (hcells x hx).1).1 e he).1 (hcells x hx).2

/-- C50, what the tool calls streamflow into the oceans: on every day the sum of streamflow minus streamflow from
upstream over all cells is the streamflow of the cells that have no downstream cell and are no inland sinks. -/
theorem C50_ocean (h : Sound order) (hcorr : ∀ x ∈ order.map Prod.fst, 0 < (lat0 x).corr)
    (hends : ∀ e ∈ order, (lat0 e.1).sink = true → ¬ drains e.2) (d : SimDay δ) (s : Sim δ)
    (hs : s.Ok par lat0 order I) (hd : d.Ok par lat0 order I s) :
    ((order.map Prod.fst).map fun x => (((simDay par order d s).2 x).map fun r => r.dis.getD 0 - r.up).getD 0).sum
      = ((order.filter fun e => ¬ (drains e.2 ∧ e.2 ∈ order.map Prod.fst)).map fun e =>
          if (lat0 e.1).sink then 0 else (simNet par order d s).flow e.1).sum := by
  have hcell := (simDay_cell par lat0 order I h hcorr d s hs hd).2
  have hpt : ∀ x ∈ order.map Prod.fst, (((simDay par order d s).2 x).map fun r => r.dis.getD 0 - r.up).getD 0
      = (if (lat0 x).sink then 0 else (simNet par order d s).flow x) - (simNet par order d s).up x := by
    intro x hx
    obtain ⟨dem, keep, -, -, k3, -, k5⟩ := hcell x hx
    obtain ⟨-, g2, -⟩ := hd.cells x hx
    rw [k5, k3, g2.sink]
    change (if (d.lateral s.demand x).sink then none else some _ : Option ℝ).getD 0 - _ = _
    cases (d.lateral s.demand x).sink <;> rfl
  rw [List.map_congr_left hpt, list_sum_sub]
  have hloss := C26_no_loss (basinNode (simIn par d s) d.get d.upd) order h
    ⟨d.start s.demand, fun x => (s.state x).lat, fun _ => none⟩
  change ((order.map Prod.fst).map (simNet par order d s).flow).sum
    = ((order.map Prod.fst).map (simNet par order d s).up).sum
      + ((order.filter fun e => ¬ (drains e.2 ∧ e.2 ∈ order.map Prod.fst)).map fun e =>
          (simNet par order d s).flow e.1).sum at hloss
  have hsinks : ((order.map Prod.fst).map fun x => if (lat0 x).sink then 0 else (simNet par order d s).flow x).sum
      - ((order.filter fun e => ¬ (drains e.2 ∧ e.2 ∈ order.map Prod.fst)).map fun e =>
          if (lat0 e.1).sink then 0 else (simNet par order d s).flow e.1).sum
      = ((order.map Prod.fst).map (simNet par order d s).flow).sum
        - ((order.filter fun e => ¬ (drains e.2 ∧ e.2 ∈ order.map Prod.fst)).map fun e =>
          (simNet par order d s).flow e.1).sum := by
    generalize (simNet par order d s).flow = fl
    rw [List.map_map, List.map_map,
      sum_filter_split order (fun e => drains e.2 ∧ e.2 ∈ order.map Prod.fst) (fl ∘ Prod.fst),
      sum_filter_split order (fun e => drains e.2 ∧ e.2 ∈ order.map Prod.fst)
        ((fun x => if (lat0 x).sink = true then 0 else fl x) ∘ Prod.fst)]
    have hin : (order.filter fun e => drains e.2 ∧ e.2 ∈ order.map Prod.fst).map
        ((fun x => if (lat0 x).sink = true then 0 else fl x) ∘ Prod.fst)
        = (order.filter fun e => drains e.2 ∧ e.2 ∈ order.map Prod.fst).map (fl ∘ Prod.fst) := by
      apply List.map_congr_left
      intro e he
      rw [List.mem_filter] at he
      have hdr := of_decide_eq_true he.2
      have : ¬ (lat0 e.1).sink = true := fun hk => hends e he.1 hk hdr.1
      simp only [Function.comp, if_neg this]
    rw [hin]
    simp only [Function.comp_def]
    ring
  linarith

end sim

/-- C50 fails in an inland sink with a station correction factor other than 1: the streamflow is missing in the
outputs, so the tool leaves out the correction although the evapotranspiration contains the corrected streamflow. The
error of the day is what the correction took away (up to flushed residues). -/
theorem C50_violated_inland_sink (p : FullPar) (c : CellIn) (w : Weather) (s : FullState) (hg : GoodCell p c)
    (hcl : Closing p c) (hs : FullOk p c s) (hw : WeatherOk p w s) (up dem : ℝ) (keep : ℝ → ℝ) (hup : 0 ≤ up) (hcorr : 0 < c.corr)
    (hd : 0 < c.glolakeArea → 0 ≤ dem) (hsink : c.sink = true) :
    let o := cellDay (fullIn p c w s) s.lat up dem keep
    let r := fullRec p c w s up o
    let e := dayNet c.corr r - (r.tws - twsBefore p s)
    |e - (o.streamflow / c.corr - o.streamflow)| ≤ flushTol p c ∧
    (flushTol p c = 0 → (e = 0 ↔ o.streamflow = 0 ∨ c.corr = 1)) := by
  intro o r e
  have hbal := C50_cell_day p c w s hg hcl hs hw up dem keep hup hcorr.ne' hd
  have hdis : r.dis = none := by
    change (if c.sink then none else some o.streamflow) = none
    rw [hsink]; rfl
  have hu : r.up = up := rfl
  replace hbal : |r.precip - (r.aet + (r.dis.getD 0 - up) + (o.streamflow / c.corr - o.streamflow)
      + (r.tws - twsBefore p s))| ≤ flushTol p c := hbal
  have he : e - (o.streamflow / c.corr - o.streamflow)
      = r.precip - (r.aet + (r.dis.getD 0 - up) + (o.streamflow / c.corr - o.streamflow) + (r.tws - twsBefore p s)) := by
    change dayNet c.corr r - (r.tws - twsBefore p s) - _ = _
    unfold dayNet
    rw [hdis, hu]
    simp only [Option.getD_none, zero_div]
    ring
  rw [← he] at hbal
  refine ⟨hbal, fun h0 => ?_⟩
  rw [h0] at hbal
  have hz : e = o.streamflow / c.corr - o.streamflow := by linarith [abs_nonpos_iff.mp hbal]
  rw [hz, sub_eq_zero, div_eq_iff hcorr.ne']
  constructor
  · intro h1
    by_cases hq : o.streamflow = 0
    · exact Or.inl hq
    · right
      have : o.streamflow * (c.corr - 1) = 0 := by linarith
      rcases mul_eq_zero.mp this with h2 | h2
      · exact absurd h2 hq
      · linarith
  · rintro (h1 | h1) <;> rw [h1] <;> ring

/-! ### The hypotheses are met -/

/-- A cell of 2000 km² with the sample column, a local lake, a global lake and a reservoir. -/
noncomputable def exFull : FullPar := ⟨sampleVert, 2000, 0.9⟩

noncomputable def exLat : CellIn := { exCell with gloWet := ⟨0, 0, 0⟩ }

noncomputable def exFullState : FullState :=
  { vert := sampleVertState, land := ⟨0.88, 0.88, 1, 0.02, 0, 0, false⟩, lat := { exState with locLake := 0.2 } }

noncomputable def exWeather : Weather := ⟨280, 200, 300, 10⟩

theorem exLat_good : GoodCell exFull exLat where
  vert := sampleVert_ok
  soil := by norm_num [exFull, sampleVert]
  area := by norm_num [exFull]
  lat := by constructor <;> (try unfold exLat exCell) <;> (try constructor) <;> norm_num
  locLake := by norm_num [exLat, exCell, exFull]
  locWet := by norm_num [exLat, exCell]
  gloWet := by norm_num [exLat, exCell]
  fit := by norm_num [exLat, exCell, exFull]

theorem exFull_closing (c : CellIn) : Closing exFull c := ⟨by norm_num [exFull, sampleVert], Or.inl (by norm_num [exFull, sampleVert])⟩

theorem exFullState_ok : FullOk exFull exLat exFullState where
  vert := sampleVertState_ok
  lat := by constructor <;> (try unfold exLat exCell) <;> (try unfold exFullState exState) <;> norm_num
  swb := by norm_num [exFullState, openFrac, exLat, exCell, exState, swbRedfactor, nFactor]
  cover := by norm_num [exFullState, exFull]
  prev0 := by norm_num [exFullState]
  prev1 := by norm_num [exFullState, exFull]
  ratio0 := by norm_num [exFullState]
  ratio := by intro _; left; norm_num [exFullState]

theorem exWeather_ok : WeatherOk exFull exWeather exFullState :=
  ⟨sampleVertForcing_ok.temp, by norm_num [exWeather], sampleVertForcing_ok.petMax⟩

noncomputable def exDay : SimDay Unit :=
  { weather := fun _ => exWeather, lateral := fun _ _ => exLat, start := id, get := fun _ _ => (0.3, id), upd := fun d _ _ => d,
    close := id }

noncomputable def exSim : Sim Unit := ⟨(), fun _ => exFullState⟩

/-- The simulation of a day in a basin of three cells meets the hypotheses of `C50_simulation`. -/
example (recs : Cell → List (List DayRec))
    (hrec : ∀ x, recs x = [series (fun _ => exFull) [((1, 1), (1, 2)), ((2, 2), (1, 2)), ((1, 2), (0, 0))] exSim [exDay] x]) :=
  C50_simulation (fun _ => exFull) (fun _ => exLat) [((1, 1), (1, 2)), ((2, 2), (1, 2)), ((1, 2), (0, 0))]
    (fun _ : Unit => True) exOrder_sound (by intro x _; norm_num [exLat, exCell]) (by intro x _ h; simp [exLat, exCell] at h)
    [exDay] exSim ⟨trivial, fun _ _ => exFullState_ok⟩
    ⟨⟨fun _ _ => ⟨exLat_good, ⟨⟨rfl, rfl, rfl, rfl, rfl, rfl, rfl⟩, rfl, rfl, rfl, rfl⟩, exWeather_ok,
        fun hf => absurd hf (by norm_num [simIn, fullIn, exDay, exLat])⟩,
      ⟨fun _ _ _ _ _ _ _ _ => trivial, fun _ _ _ _ => by norm_num [exDay]⟩, fun _ _ => trivial, fun _ _ => trivial⟩, trivial⟩
    [(1, 1), (2, 2), (1, 2)] (fun x hx => ⟨by revert x; decide, exFull_closing _⟩) 1 recs (fun x _ => ⟨by rw [hrec x]; simp, by rw [hrec x]; rfl⟩)

/-- The same column with an areal correction factor above one, as in 2983 of the shipped cells. -/
noncomputable def exWide : FullPar := ⟨{ sampleVert with cfa := 1.2 }, 2000, 0.9⟩

theorem exWide_good : GoodCell exWide exLat :=
  { exLat_good with
    vert := { sampleVert_ok with cfa := by norm_num [exWide] }
    soil := by norm_num [exWide, sampleVert]
    area := by norm_num [exWide]
    locLake := by norm_num [exLat, exCell, exWide]
    fit := by norm_num [exLat, exCell, exWide] }

theorem exWide_stays : LandStays exWide exLat := Or.inr (Or.inr (by norm_num [exWide, exLat, exCell]))

theorem exWideState_ok : FullOk exWide exLat exFullState :=
  { exFullState_ok with
    vert := { sampleVertState_ok with }
    cover := by norm_num [exFullState, exWide]
    prev1 := by norm_num [exFullState, exWide] }

theorem exWideWeather_ok : WeatherOk exWide exWeather exFullState :=
  ⟨sampleVertForcing_ok.temp, by norm_num [exWeather], sampleVertForcing_ok.petMax⟩

example := C50_cell_no_gain exWide exLat exWeather exFullState exWide_good exWide_stays exWideState_ok exWideWeather_ok 1 0.3 id
  (by norm_num) (by norm_num [exLat, exCell]) (fun _ => by norm_num)

/-- The simulation of a day in the basin of three cells with the factor above one meets the hypotheses of `C50_simulation_no_gain`. -/
example (recs : Cell → List (List DayRec))
    (hrec : ∀ x, recs x = [series (fun _ => exWide) [((1, 1), (1, 2)), ((2, 2), (1, 2)), ((1, 2), (0, 0))] exSim [exDay] x]) :=
  C50_simulation_no_gain (fun _ => exWide) (fun _ => exLat) [((1, 1), (1, 2)), ((2, 2), (1, 2)), ((1, 2), (0, 0))]
    (fun _ : Unit => True) exOrder_sound (by intro x _; norm_num [exLat, exCell]) (by intro x _ h; simp [exLat, exCell] at h)
    [exDay] exSim ⟨trivial, fun _ _ => exWideState_ok⟩
    ⟨⟨fun _ _ => ⟨exWide_good, ⟨⟨rfl, rfl, rfl, rfl, rfl, rfl, rfl⟩, rfl, rfl, rfl, rfl⟩, exWideWeather_ok,
        fun hf => absurd hf (by norm_num [simIn, fullIn, exDay, exLat])⟩,
      ⟨fun _ _ _ _ _ _ _ _ => trivial, fun _ _ _ _ => by norm_num [exDay]⟩, fun _ _ => trivial, fun _ _ => trivial⟩, trivial⟩
    [(1, 1), (2, 2), (1, 2)] (fun x hx => ⟨by revert x; decide, exWide_stays⟩) 1 recs (fun x _ => ⟨by rw [hrec x]; simp, by rw [hrec x]; rfl⟩)

/-- A cell that is a local lake altogether when the lake is full, with a factor of 1.2. -/
noncomputable def lakeFull : FullPar := ⟨{ sampleVert with cfa := 1.2 }, 2000, 0.02⟩

/-- The lake has filled up the day before, and stands on what was half of the cell. -/
noncomputable def lakeFullState : FullState :=
  { exFullState with land := ⟨0, 0.01, 1, 0.02, 0, 0, false⟩ }

example : lakeFullState.land.cur = 0 ∧ 0 < (lakeFull.vert.cfa - 1) * lakeFullState.vert.water * (1e-6 * lakeFullState.land.prev * lakeFull.area) ∧
    GoodCell lakeFull exLat ∧ FullOk lakeFull exLat lakeFullState ∧ WeatherOk lakeFull exWeather lakeFullState :=
  ⟨rfl, by norm_num [lakeFull, lakeFullState, exFullState, sampleVertState, VertState.water, mean, VertState.snow],
    { exWide_good with
      soil := by norm_num [lakeFull, sampleVert]
      fit := by norm_num [exLat, exCell, lakeFull] },
    { exWideState_ok with
      cover := by norm_num [lakeFullState, lakeFull]
      prev0 := by norm_num [lakeFullState]
      prev1 := by norm_num [lakeFullState, lakeFull]
      ratio0 := by norm_num [lakeFullState]
      ratio := by intro h; exact absurd rfl h },
    sampleVertForcing_ok.temp, by norm_num [exWeather], sampleVertForcing_ok.petMax⟩

example := C50_violated_inland_sink exFull { exLat with sink := true, corr := 0.5 } exWeather exFullState
  { exLat_good with lat := { exLat_good.lat with } } (exFull_closing _) { exFullState_ok with lat := { exFullState_ok.lat with } } exWeather_ok
  1 0 id (by norm_num) (by norm_num) (fun _ => le_rfl) rfl

end WG
