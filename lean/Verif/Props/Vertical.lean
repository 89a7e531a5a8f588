import Verif.Model.Vertical
import Verif.Props.Radiation
import Verif.Props.Lai
import Verif.Props.Canopy
import Verif.Props.Snow
import Verif.Props.Soil

/-! The whole vertical water balance of a cell: properties C07, C53, C54, C27 (vertical part). -/

namespace WG

/-- Sensible static data of a cell. -/
structure VertPar.Ok (p : VertPar) : Prop where
  alpha : 0 < p.alpha
  lai : p.lai.Ok
  minLai : 0 ≤ p.lai.minLai
  coef : 0 ≤ p.coef
  degreeday : 0 ≤ p.degreeday
  fracBuiltup0 : 0 ≤ p.fracBuiltup
  fracBuiltup1 : p.fracBuiltup ≤ 1
  builtup : p.builtup ≤ 1
  gamma : 0 ≤ p.gamma
  maxRecharge : 0 ≤ p.maxRecharge
  factor0 : 0 ≤ p.rechargeFactor
  factor1 : p.rechargeFactor ≤ 1
  maxSoil : 0 ≤ p.maxSoil
  cfa : 0 < p.cfa
  lapse : 0 ≤ p.lapse
  freeze : p.freezeTemp ≤ p.meltTemp
  /-- there is at least one elevation band and the first one is the lowest -/
  lowest : ∃ e es, p.elevs = e :: es ∧ ∀ x ∈ es, e ≤ x

/-- Sensible weather of a day; the last condition says that the day's evapotranspiration capacity does not exceed
the cell's maximum daily PET. -/
structure VertForcing.Ok (p : VertPar) (s : VertState) (f : VertForcing) : Prop where
  temp : PhysicalTemp f.temperature
  precip : 0 ≤ f.precip
  ratio : 0 ≤ f.ratio
  petMax : (vertCell p f s).pet ≤ p.maxDailyPet

/-- A physically possible state. -/
structure VertState.Ok (p : VertPar) (s : VertState) : Prop where
  days : 0 ≤ s.lai.days
  canopy : 0 ≤ s.canopy
  bands : ∀ x ∈ s.bands, 0 ≤ x
  len : s.bands.length = p.elevs.length
  soil0 : 0 ≤ s.soil
  soil1 : s.soil ≤ p.maxSoil

/-- Water stored on and in the land surface of the cell (mm). -/
noncomputable def VertState.water (s : VertState) : ℝ := s.canopy + mean s.bands + s.soil

/-- The water stored before the day, expressed per unit of the land area of the day, with residues flushed. -/
noncomputable def rescaledWater (p : VertPar) (f : VertForcing) (s : VertState) : ℝ :=
  flush p.minV (s.canopy * f.ratio) + mean (s.bands.map fun b => flush p.minV (b * f.ratio)) + s.soil * f.ratio

/-- The water left on the cell, per unit of the land area of the day. -/
theorem C29_flush_exact (p : VertPar) (f : VertForcing) (s : VertState) (hm : p.minV ≤ 0) :
    rescaledWater p f s = s.water * f.ratio := by
  have fl : ∀ x, flush p.minV x = x := by
    intro x
    unfold flush
    split_ifs with h
    · have := abs_nonneg x
      have : |x| = 0 := by linarith
      exact (abs_eq_zero.mp this).symm
    · rfl
  unfold rescaledWater VertState.water
  simp only [fl, mean, List.length_map]
  rw [List.sum_map_mul_right]
  simp
  ring

section cell
variable (p : VertPar) (f : VertForcing) (s : VertState)

/-- The canopy of the cell on the day (`waterbalance_vertical.py:147-168`). -/
noncomputable abbrev colCanopy : CanopyOut :=
  canopyWaterBalance s.canopy (laiStep p.lai { s.lai with lai := 0 } f.temperature f.precip).lai
    (vertCell p f s).pet f.precip f.frac f.ratio p.coef p.minV
/-- What the snow balance of the day is given (`waterbalance_vertical.py:173-207`). -/
noncomputable abbrev colSnowPar : SnowPar :=
  { temperature := f.temperature, precip := f.precip, throughfall := (colCanopy p f s).throughfall,
    petToSoil := (colCanopy p f s).petToSoil, degreeday := p.degreeday, meanElev := p.meanElev, lapse := p.lapse,
    freezeTemp := p.freezeTemp, meltTemp := p.meltTemp }
/-- The snow of the cell on the day (`waterbalance_vertical.py:173-207`). -/
noncomputable abbrev colSnow : SnowOut :=
  snowWaterBalance (colSnowPar p f s) (p.elevs.zip s.bands) (colCanopy p f s).landStorageChange f.frac f.ratio
    (colCanopy p f s).transfer p.minV
/-- Water that reaches the soil and immediate runoff (`waterbalance_vertical.py:213-222`). -/
noncomputable abbrev colSplit : ℝ × ℝ := immediateRunoff (colSnow p f s).effPrecip p.fracBuiltup p.builtup
/-- What the soil balance of the day is given (`waterbalance_vertical.py:225-264`). -/
noncomputable abbrev colSoilIn : SoilIn :=
  { petToSoil := (colCanopy p f s).petToSoil, frac := f.frac, ratio := f.ratio, maxTempElev := (colSnow p f s).maxTempElev,
    canopyEvap := (colCanopy p f s).evap, effPrecip := (colSplit p f s).1, precip := f.precip, immediate := (colSplit p f s).2,
    landStorageChange := (colSnow p f s).landStorageChange, sublimation := (colSnow p f s).sublimation,
    transfer := (colSnow p f s).transfer,
    freezeTemp := p.freezeTemp, gamma := p.gamma, maxDailyPet := p.maxDailyPet,
    humidArid := p.lai.humidArid, texture := p.texture, drainage := p.drainage,
    maxRecharge := p.maxRecharge, rechargeFactor := p.rechargeFactor, critPrecip := p.critPrecip,
    maxSoil := p.maxSoil, cfa := p.cfa, minV := p.minV }

theorem column_pet_nonneg (hp : p.Ok) (hf : f.Ok p s) : 0 ≤ (vertCell p f s).pet :=
  (C09_pet_sign _ _ _ hf.temp hp.alpha).1

theorem column_canopy_ok (hp : p.Ok) (hf : f.Ok p s) (hs : s.Ok p) :
    0 ≤ (colCanopy p f s).storage ∧ 0 ≤ (colCanopy p f s).throughfall ∧ 0 ≤ (colCanopy p f s).evap ∧ 0 ≤ (colCanopy p f s).petToSoil ∧
    (colCanopy p f s).evap ≤ (vertCell p f s).pet ∧
    (0 < f.frac → (colCanopy p f s).evap + (colCanopy p f s).petToSoil = (vertCell p f s).pet) := by
  have h := C02_canopy_bounds s.canopy (laiStep p.lai { s.lai with lai := 0 } f.temperature f.precip).lai
    (vertCell p f s).pet f.precip f.frac f.ratio p.coef p.minV hs.canopy (column_pet_nonneg p f s hp hf) hf.precip
    hf.ratio hp.coef
  exact ⟨h.1, h.2.1, h.2.2.1, h.2.2.2.1, h.2.2.2.2.1, h.2.2.2.2.2.1⟩

theorem column_snowPar_ok (hp : p.Ok) (hf : f.Ok p s) (hs : s.Ok p) : (colSnowPar p f s).Physical :=
  ⟨hf.precip, (column_canopy_ok p f s hp hf hs).2.1, (column_canopy_ok p f s hp hf hs).2.2.2.1, hp.degreeday⟩

theorem column_snow_ok (hp : p.Ok) (hf : f.Ok p s) (hs : s.Ok p) :
    (∀ x ∈ (colSnow p f s).bands, 0 ≤ x) ∧ (colSnow p f s).bands.length = p.elevs.length ∧
    0 ≤ (colSnow p f s).sublimation ∧ 0 ≤ (colSnow p f s).effPrecip ∧
    (colSnow p f s).sublimation ≤ (colCanopy p f s).petToSoil := by
  have h := C04_snow_bounds (colSnowPar p f s) (p.elevs.zip s.bands) (colCanopy p f s).landStorageChange f.frac f.ratio
    (colCanopy p f s).transfer p.minV (column_snowPar_ok p f s hp hf hs) hf.ratio
    (fun b hb => hs.bands b.2 (List.of_mem_zip hb).2)
  refine ⟨h.1, ?_, h.2.2.2.2.1, h.2.2.2.2.2.2.1, h.2.2.2.2.2.2.2.2.1⟩
  rw [h.2.1, List.length_zip, hs.len, min_self]

theorem column_soil_ok (hp : p.Ok) (hf : f.Ok p s) (hs : s.Ok p) : (colSoilIn p f s).Physical := by
  have hc := column_canopy_ok p f s hp hf hs
  have hn := column_snow_ok p f s hp hf hs
  have hm := (C06_immediate_runoff (colSnow p f s).effPrecip p.fracBuiltup p.builtup).2.2 hn.2.2.2.1
    hp.fracBuiltup0 hp.fracBuiltup1 hp.builtup
  exact ⟨hc.2.2.2.1, hf.ratio, hc.2.2.1, hc.2.2.2.2.1.trans hf.petMax, hm.1, hm.2, hn.2.2.1, hp.gamma,
    hp.maxRecharge, hp.factor0, hp.factor1, hp.maxSoil, hp.cfa⟩

/-- C54, one day: a physically possible state stays physically possible, and all fluxes are non-negative. -/
theorem C54_vertical_step (hp : p.Ok) (hf : f.Ok p s) (hs : s.Ok p) :
    (vertCell p f s).next.Ok p ∧ 0 ≤ (vertCell p f s).recharge ∧ 0 ≤ (vertCell p f s).surfaceRunoff ∧
    0 ≤ (vertCell p f s).canopyEvap ∧ 0 ≤ (vertCell p f s).sublimation ∧ 0 ≤ (vertCell p f s).landAet ∧
    p.lai.minLai ≤ (vertCell p f s).next.lai.lai ∧ (vertCell p f s).next.lai.lai ≤ p.lai.maxLai ∧
    (vertCell p f s).next.canopy ≤ max (p.coef * (vertCell p f s).next.lai.lai)
      (s.canopy * f.ratio) := by
  have hl := C08_lai_step p.lai hp.lai { s.lai with lai := 0 } hs.days f.temperature f.precip
  have hc := column_canopy_ok p f s hp hf hs
  have hn := column_snow_ok p f s hp hf hs
  have hso := column_soil_ok p f s hp hf hs
  have h5 := C05_soil_bounds (colSoilIn p f s) hso s.soil hs.soil0
  have h6 := C06_runoff_split (colSoilIn p f s) hso s.soil hs.soil0
  refine ⟨⟨hl.days, hc.1, hn.1, hn.2.1, h5.1, h5.2⟩, h6.2.1, h6.1, hc.2.2.1, hn.2.2.1, ?_, hl.lower, hl.upper,
    ?_⟩
  · change 0 ≤ (soilWaterBalance (colSoilIn p f s) s.soil).landAet
    unfold soilWaterBalance
    split_ifs
    · simp only
      split_ifs with h
      · exact le_rfl
      · exact not_lt.mp h
    · exact le_rfl
  · have hb := C02_canopy_bounds s.canopy (laiStep p.lai { s.lai with lai := 0 } f.temperature f.precip).lai
      (vertCell p f s).pet f.precip f.frac f.ratio p.coef p.minV hs.canopy (column_pet_nonneg p f s hp hf) hf.precip
      hf.ratio hp.coef
    change (colCanopy p f s).storage ≤ max (p.coef * (laiStep p.lai { s.lai with lai := 0 } f.temperature f.precip).lai) _
    have hr : 0 ≤ s.canopy * f.ratio := mul_nonneg hs.canopy hf.ratio
    by_cases hfr : 0 < f.frac
    · by_cases hla : 0 < (laiStep p.lai { s.lai with lai := 0 } f.temperature f.precip).lai
      · exact le_max_of_le_left (by have := hb.2.2.2.2.2.2.1 hfr hla; have := hb.2.2.1; linarith)
      · refine le_max_of_le_right ?_
        rw [hb.2.2.2.2.2.2.2 hfr (not_lt.mp hla)]
        unfold flush
        split_ifs
        · exact hr
        · exact le_rfl
    · rw [(C01_canopy_no_land _ _ _ _ _ _ _ _ (not_lt.mp hfr)).2.1]
      exact le_max_of_le_right hr

/-- What canopy, snow and the urban split deliver to the soil: nothing where the soil is frozen, and the balance of the
water above the soil is closed. -/
theorem column_close (hp : p.Ok) (hs : s.Ok p) (hland : 0 < f.frac) :
    ((colSoilIn p f s).maxTempElev ≤ (colSoilIn p f s).freezeTemp →
      (colSoilIn p f s).effPrecip = 0 ∧ (colSoilIn p f s).immediate = 0) ∧
    (colSoilIn p f s).precip = (colSoilIn p f s).canopyEvap + (colSoilIn p f s).sublimation +
      (colSoilIn p f s).landStorageChange + (colSoilIn p f s).effPrecip + (colSoilIn p f s).immediate ∧
    (colSnow p f s).storage = mean (colSnow p f s).bands ∧
    (colSnow p f s).landStorageChange = (colCanopy p f s).landStorageChange +
      ((colSnow p f s).storage - mean (s.bands.map fun b => flush p.minV (b * f.ratio))) ∧
    (colCanopy p f s).landStorageChange = (colCanopy p f s).storage - flush p.minV (s.canopy * f.ratio) := by
  obtain ⟨el, es, hel, hlow⟩ := hp.lowest
  obtain ⟨b0, bs, hbs⟩ : ∃ b0 bs, s.bands = b0 :: bs := by
    have := hs.len
    rw [hel] at this
    cases hb : s.bands with
    | nil => rw [hb] at this; simp at this
    | cons a l => exact ⟨a, l, rfl⟩
  have hzip : p.elevs.zip s.bands = (el, b0) :: es.zip bs := by rw [hel, hbs]; rfl
  have hcb := C01_canopy_balance s.canopy (laiStep p.lai { s.lai with lai := 0 } f.temperature f.precip).lai
    (vertCell p f s).pet f.precip f.frac f.ratio p.coef p.minV hland
  have hsb := C03_snow_balance (colSnowPar p f s) (p.elevs.zip s.bands) (colCanopy p f s).landStorageChange f.frac f.ratio
    (colCanopy p f s).transfer p.minV hland (by rw [hzip]; simp)
  have hmb := (C06_immediate_runoff (colSnow p f s).effPrecip p.fracBuiltup p.builtup).1
  have hfroz : (colSoilIn p f s).maxTempElev ≤ (colSoilIn p f s).freezeTemp →
      (colSoilIn p f s).effPrecip = 0 ∧ (colSoilIn p f s).immediate = 0 := by
    intro h
    have h52 := C52_frozen_cell_passes_no_water (colSnowPar p f s) (el, b0) (es.zip bs) (colCanopy p f s).landStorageChange
      f.frac f.ratio (colCanopy p f s).transfer p.minV hland hp.lapse hp.freeze
      (fun b hb => hlow b.1 (List.of_mem_zip hb).1) (by rw [← hzip]; exact h)
    rw [← hzip] at h52
    change (immediateRunoff (colSnow p f s).effPrecip p.fracBuiltup p.builtup).1 = 0 ∧
      (immediateRunoff (colSnow p f s).effPrecip p.fracBuiltup p.builtup).2 = 0
    have h0 : (colSnow p f s).effPrecip = 0 := h52.1
    rw [h0]
    simp [immediateRunoff]
  have hbefore : ((p.elevs.zip s.bands).map fun b => flush p.minV (b.2 * f.ratio)) =
      s.bands.map fun b => flush p.minV (b * f.ratio) := by
    have : (p.elevs.zip s.bands).map Prod.snd = s.bands := List.map_snd_zip hs.len.le
    conv_rhs => rw [← this]
    rw [List.map_map]
    rfl
  simp only [hbefore] at hsb
  obtain ⟨hs1, hs2, hs3, hs4, hs5⟩ := hsb
  obtain ⟨hc1, hc2, hc3⟩ := hcb
  have hclose : (colSoilIn p f s).precip = (colSoilIn p f s).canopyEvap + (colSoilIn p f s).sublimation +
      (colSoilIn p f s).landStorageChange + (colSoilIn p f s).effPrecip + (colSoilIn p f s).immediate := by
    change f.precip = (colCanopy p f s).evap + (colSnow p f s).sublimation + (colSnow p f s).landStorageChange +
      (colSplit p f s).1 + (colSplit p f s).2
    change _ + (colCanopy p f s).throughfall = (colSnow p f s).storage + (colSnow p f s).sublimation + (colSnow p f s).effPrecip at hs1
    change (colSnow p f s).landStorageChange = _ at hs2
    linarith
  exact ⟨hfroz, hclose, hs4, hs2, hc2⟩

/-- C07 for the whole land column: on every day and for every land cell with soil, precipitation equals
evapotranspiration plus surface runoff plus groundwater recharge plus the change of canopy, snow and soil
storage (the storage before the day taken per unit of today's land area); `e` is the flushed residue and `leak`
can be positive only for correction factors above 1. -/
theorem C07_column_balance (hp : p.Ok) (hf : f.Ok p s) (hs : s.Ok p) (hland : 0 < f.frac)
    (hsoil : 0 < p.maxSoil) :
    let o := vertCell p f s
    ∃ e leak, |e| ≤ p.cfa * (p.minV ⊔ 0) ∧ 0 ≤ leak ∧ (p.cfa ≤ 1 → leak = 0) ∧
      f.precip = o.surfaceRunoff + o.recharge + o.landAet +
        (o.next.water - rescaledWater p f s) + leak + e := by
  have hso := column_soil_ok p f s hp hf hs
  obtain ⟨hfroz, hclose, hs4, hs2, hc2⟩ := column_close p f s hp hs hland
  obtain ⟨e, leak, he, hl0, hl1, -, -, -, hbal⟩ :=
    C07_soil_closure (colSoilIn p f s) hso s.soil hs.soil0 hland hsoil hfroz hclose
  refine ⟨e, leak, he, hl0, hl1, ?_⟩
  have hsplit := (C06_runoff_split (colSoilIn p f s) hso s.soil hs.soil0).2.2.1
  have e1 : (vertCell p f s).surfaceRunoff + (vertCell p f s).recharge =
    (soilWaterBalance (colSoilIn p f s) s.soil).total := hsplit
  have e2 : (vertCell p f s).landAet = (soilWaterBalance (colSoilIn p f s) s.soil).landAet := rfl
  have e3 : (vertCell p f s).next.water = (colCanopy p f s).storage + mean (colSnow p f s).bands +
    (soilWaterBalance (colSoilIn p f s) s.soil).soil := rfl
  change (colSnow p f s).storage = mean (colSnow p f s).bands at hs4
  change (colSnow p f s).landStorageChange = _ at hs2
  have e4 : (colSoilIn p f s).landStorageChange = (colSnow p f s).landStorageChange := rfl
  have e5 : (colSoilIn p f s).ratio = f.ratio := rfl
  have e6 : (colSoilIn p f s).precip = f.precip := rfl
  rw [e4, e5, e6] at hbal
  rw [e1, e2, e3, rescaledWater, ← hs4]
  linarith

/-- C29: when the land of a cell has disappeared, all the water of canopy, snow and soil is handed over (times
the areal correction factor) and nothing stays behind, no evapotranspiration and no runoff are produced. -/
theorem C29_vertical_no_land (hs : s.Ok p) (hland : f.frac ≤ 0) :
    let o := vertCell p f s
    o.transfer = s.water * p.cfa ∧ o.next.canopy = 0 ∧ (∀ b ∈ o.next.bands, b = 0) ∧ o.next.soil = 0 ∧
    o.next.snow = 0 ∧ o.landAet = 0 ∧ o.surfaceRunoff = 0 ∧ o.recharge = 0 := by
  have hc := C01_canopy_no_land s.canopy (laiStep p.lai { s.lai with lai := 0 } f.temperature f.precip).lai
    (vertCell p f s).pet f.precip f.frac f.ratio p.coef p.minV hland
  have hn := C03_snow_no_land (colSnowPar p f s) (p.elevs.zip s.bands) (colCanopy p f s).landStorageChange f.frac f.ratio
    (colCanopy p f s).transfer p.minV hland
  have ho := C29_soil_no_land (colSoilIn p f s) s.soil hland
  have hz : (p.elevs.zip s.bands).map (fun b => b.2) = s.bands := List.map_snd_zip hs.len.le
  rw [hz] at hn
  refine ⟨?_, hc.2.1, hn.2.2.1, ho.2.1, hn.2.1, ?_, ho.2.2, ?_⟩
  · change (soilWaterBalance (colSoilIn p f s) s.soil).transfer = _
    rw [ho.1]
    change ((colSnow p f s).transfer + s.soil) * p.cfa = _
    rw [show (colSnow p f s).transfer = _ from hn.1, show (colCanopy p f s).transfer = _ from hc.1]
    rfl
  · change (soilWaterBalance (colSoilIn p f s) s.soil).landAet = 0
    have : ¬ (colSoilIn p f s).frac > 0 := not_lt.mpr hland
    simp only [soilWaterBalance, if_neg this]
  · change (soilWaterBalance (colSoilIn p f s) s.soil).recharge = 0
    have : ¬ (colSoilIn p f s).frac > 0 := not_lt.mpr hland
    simp only [soilWaterBalance, if_neg this]

end cell

/-- The forcing of a history is sensible on every day (the last condition of `VertForcing.Ok` looks at the state
reached on that day). -/
def ForcingOk (p : VertPar) : VertState → List VertForcing → Prop
  | _, [] => True
  | s, f :: fs => f.Ok p s ∧ ForcingOk p (vertCell p f s).next fs

/-- C54: along every history of weather and of land-area changes the stored water of canopy, snow (every band)
and soil stays within its physical range. -/
theorem C54_vertical_history (p : VertPar) (hp : p.Ok) (s : VertState) (hs : s.Ok p) (fs : List VertForcing)
    (hf : ForcingOk p s fs) : (vertRun p s fs).Ok p := by
  induction fs generalizing s with
  | nil => exact hs
  | cons f fs ih => exact ih _ (C54_vertical_step p f s hp hf.1 hs).1 hf.2

/-- Sum over a history of a quantity of each day. -/
noncomputable def vertSum (p : VertPar) (q : VertForcing → VertOut → ℝ) : VertState → List VertForcing → ℝ
  | _, [] => 0
  | s, f :: fs => q f (vertCell p f s) + vertSum p q (vertCell p f s).next fs

/-- C07, long-term water balance of a land cell: over any number of days with constant land area and a correction
factor up to 1, total precipitation equals total evapotranspiration plus surface runoff plus recharge plus the
storage change between the first and the last day (no residues are flushed when `minV ≤ 0`). -/
theorem C07_longterm_balance (p : VertPar) (hp : p.Ok) (hsoil : 0 < p.maxSoil) (hcfa : p.cfa ≤ 1)
    (hmin : p.minV ≤ 0) (s : VertState) (hs : s.Ok p) (fs : List VertForcing) (hf : ForcingOk p s fs)
    (hland : ∀ f ∈ fs, 0 < f.frac ∧ f.ratio = 1) :
    vertSum p (fun f _ => f.precip) s fs =
      vertSum p (fun _ o => o.surfaceRunoff + o.recharge + o.landAet) s fs
        + ((vertRun p s fs).water - s.water) := by
  induction fs generalizing s with
  | nil => simp [vertSum, vertRun]
  | cons f fs ih =>
    obtain ⟨hl, hr⟩ := hland f (by simp)
    obtain ⟨e, leak, he, -, hlk, hbal⟩ := C07_column_balance p f s hp hf.1 hs hl hsoil
    have he0 : e = 0 := by
      rw [max_eq_right hmin, mul_zero] at he
      exact abs_nonpos_iff.mp he
    rw [hlk hcfa, he0, C29_flush_exact p f s hmin, hr] at hbal
    have := ih _ (C54_vertical_step p f s hp hf.1 hs).1 hf.2 fun x hx => hland x (by simp [hx])
    simp only [vertSum, vertRun]
    linarith

/-- C53: the evapotranspiration of land is limited by the water that was there: with a correction factor up to 1
runoff, recharge and evapotranspiration together never exceed the day's precipitation plus the stored water
(plus the flushed residue). -/
theorem C53_no_water_from_nothing (p : VertPar) (f : VertForcing) (s : VertState) (hp : p.Ok) (hf : f.Ok p s)
    (hs : s.Ok p) (hland : 0 < f.frac) (hsoil : 0 < p.maxSoil) :
    let o := vertCell p f s
    o.surfaceRunoff + o.recharge + o.landAet ≤ f.precip + rescaledWater p f s + p.cfa * (p.minV ⊔ 0) := by
  obtain ⟨e, leak, he, hl0, -, hbal⟩ := C07_column_balance p f s hp hf hs hland hsoil
  have hn := (C54_vertical_step p f s hp hf hs).1
  have hw : 0 ≤ (vertCell p f s).next.water := by
    unfold VertState.water
    have := hn.canopy
    have := hn.soil0
    have hm : 0 ≤ mean (vertCell p f s).next.bands := by
      unfold mean
      exact div_nonneg (List.sum_nonneg hn.bands) (Nat.cast_nonneg _)
    linarith
  have := neg_abs_le e
  simp only
  linarith

/-- C27 (vertical balance), one pass of the loop: with a routing order that lists every cell once, the result in
a listed cell of the basin is that of the cell on its own, all other cells stay masked. -/
theorem C27_vertical_grid {κ : Type} [DecidableEq κ] (par : κ → VertPar) (frc : κ → VertForcing)
    (basin : κ → Bool) (order : List κ) (hnd : order.Nodup) (st : κ → VertState) (c : κ) :
    (vertLoop par frc basin order ⟨st, fun _ => none⟩).out c =
      if c ∈ order ∧ basin c = true then some (vertCell (par c) (frc c) (st c)) else none := by
  have gen : ∀ (order : List κ) (g : VertGrid κ), order.Nodup →
      (vertLoop par frc basin order g).out c =
        if c ∈ order ∧ basin c = true then some (vertCell (par c) (frc c) (g.state c)) else g.out c := by
    intro order
    induction order with
    | nil => intro g _; simp [vertLoop]
    | cons d ds ih =>
      intro g hnd
      obtain ⟨hd, hds⟩ := List.nodup_cons.mp hnd
      simp only [vertLoop]
      by_cases hb : basin d = true
      · rw [if_pos hb, ih _ hds]
        by_cases hcd : c = d
        · subst hcd
          simp [hd, hb]
        · simp [hcd]
      · rw [if_neg hb, ih _ hds]
        by_cases hcd : c = d
        · subst hcd
          simp [hd, hb]
        · simp [hcd]
  exact gen order ⟨st, fun _ => none⟩ hnd

/-- C27: the leaf-area counters, which the loop updates in place in the arrays handed in, are after the pass
those of the new day in every listed cell of the basin and untouched elsewhere; nothing else in these arrays
changes. -/
theorem C27_vertical_counters {κ : Type} [DecidableEq κ] (par : κ → VertPar) (frc : κ → VertForcing)
    (basin : κ → Bool) (order : List κ) (hnd : order.Nodup) (st : κ → VertState) (c : κ) :
    (vertLoop par frc basin order ⟨st, fun _ => none⟩).state c =
      if c ∈ order ∧ basin c = true then
        { st c with lai := (vertCell (par c) (frc c) (st c)).next.lai } else st c := by
  have gen : ∀ (order : List κ) (g : VertGrid κ), order.Nodup →
      (vertLoop par frc basin order g).state c =
        if c ∈ order ∧ basin c = true then
          { g.state c with lai := (vertCell (par c) (frc c) (g.state c)).next.lai } else g.state c := by
    intro order
    induction order with
    | nil => intro g _; simp [vertLoop]
    | cons d ds ih =>
      intro g hnd
      obtain ⟨hd, hds⟩ := List.nodup_cons.mp hnd
      simp only [vertLoop]
      by_cases hb : basin d = true
      · rw [if_pos hb, ih _ hds]
        by_cases hcd : c = d
        · subst hcd
          simp [hd, hb]
        · simp [hcd]
      · rw [if_neg hb, ih _ hds]
        by_cases hcd : c = d
        · subst hcd
          simp [hd, hb]
        · simp [hcd]
  exact gen order ⟨st, fun _ => none⟩ hnd

/-- C27: the result does not depend on the order in which the cells are visited. -/
theorem C27_vertical_order_irrelevant {κ : Type} [DecidableEq κ] (par : κ → VertPar) (frc : κ → VertForcing)
    (basin : κ → Bool) (o1 o2 : List κ) (h1 : o1.Nodup) (hp : o1.Perm o2) (st : κ → VertState) :
    (vertLoop par frc basin o1 ⟨st, fun _ => none⟩).out = (vertLoop par frc basin o2 ⟨st, fun _ => none⟩).out := by
  funext c
  rw [C27_vertical_grid par frc basin o1 h1, C27_vertical_grid par frc basin o2 (hp.nodup_iff.mp h1)]
  simp [hp.mem_iff]

/-- C27: the result in a cell does not depend on the data of any other cell, and a basin run gives in the cells of
the basin exactly what a global run gives. -/
theorem C27_vertical_local {κ : Type} [DecidableEq κ] (par par' : κ → VertPar) (frc frc' : κ → VertForcing)
    (basin : κ → Bool) (order : List κ) (hnd : order.Nodup) (st st' : κ → VertState) (c : κ)
    (hpar : par c = par' c) (hfrc : frc c = frc' c) (hst : st c = st' c) (hb : basin c = true) :
    (vertLoop par frc basin order ⟨st, fun _ => none⟩).out c =
      (vertLoop par' frc' (fun _ => true) order ⟨st', fun _ => none⟩).out c := by
  rw [C27_vertical_grid par frc basin order hnd, C27_vertical_grid par' frc' _ order hnd, hpar, hfrc, hst, hb]

/-- C09, whole cell: the land evapotranspiration of a day comes from the land net radiation, whose albedo is that
of snow iff the snow storage at the end of the previous day exceeds the threshold; open-water evapotranspiration
comes from the open-water net radiation and does not depend on the snow. -/
theorem C09_cell_pet (p : VertPar) (f : VertForcing) (s : VertState) (ht : PhysicalTemp f.temperature) :
    let l : ℝ := if f.temperature ≤ 273.15 then 2.835 else 2.501 - 0.002361 * (f.temperature - 273.15)
    let g : ℝ := 0.0016286 * 101.3 / l
    let sl : ℝ := 4098 * satPressure (f.temperature - 273.15) / (f.temperature - 273.15 + 237.3) ^ 2
    let a := if p.rad.snowAlbedoThresh < s.snow then p.rad.snowAlbedo else p.rad.albedo
    let up := p.rad.emissivity * 5.67e-8 * f.temperature ^ 4
    let o := vertCell p f s
    o.netRad = (1 - a) * f.swDown + f.lwDown - up ∧
    o.pet = p.alpha * (sl / (sl + g)) * (0.0864 * max o.netRad 0 / l) ∧
    o.openPet = p.alpha * (sl / (sl + g)) *
      (0.0864 * max ((1 - p.rad.openwaterAlbedo) * f.swDown + f.lwDown - up) 0 / l) := by
  intro l g sl a up o
  have h1 := (C09_net_radiation p.rad f.temperature f.swDown f.lwDown s.snow).1
  have h2 := C09_priestley_taylor p.rad f.temperature p.alpha f.swDown f.lwDown s.snow ht
  have e : o.netRad = (1 - a) * f.swDown + f.lwDown - up := h1
  refine ⟨e, ?_, h2.2⟩
  rw [e]
  exact h2.1

/-- C55: evaporation from canopy, snow and soil of one day is at most twice the potential evapotranspiration, and
at most the potential evapotranspiration when nothing sublimates or the soil does not evaporate. -/
theorem C55_evaporation_bound (p : VertPar) (f : VertForcing) (s : VertState) (hp : p.Ok) (hf : f.Ok p s)
    (hs : s.Ok p) (hland : 0 < f.frac) :
    let o := vertCell p f s
    o.canopyEvap + o.sublimation + o.soilEvap ≤ 2 * o.pet ∧
    (o.sublimation = 0 ∨ o.soilEvap = 0 → o.canopyEvap + o.sublimation + o.soilEvap ≤ o.pet) := by
  have hc := column_canopy_ok p f s hp hf hs
  have hn := column_snow_ok p f s hp hf hs
  have hl := soilLand_facts (colSoilIn p f s) (column_soil_ok p f s hp hf hs) s.soil hs.soil0
  have h1 := hc.2.2.2.2.2 hland
  have h2 : (vertCell p f s).soilEvap ≤ (colCanopy p f s).petToSoil := by
    change (soilWaterBalance (colSoilIn p f s) s.soil).soilEvap ≤ _
    have : (colSoilIn p f s).frac > 0 := hland
    simp only [soilWaterBalance, if_pos this]
    exact hl.2.2.2.2.2.1
  have h3 : (vertCell p f s).sublimation ≤ (colCanopy p f s).petToSoil := hn.2.2.2.2
  have h4 : (vertCell p f s).canopyEvap = (colCanopy p f s).evap := rfl
  have h5 := hc.2.2.1
  simp only
  rw [h4]
  refine ⟨by linarith, ?_⟩
  rintro (h | h) <;> rw [h] <;> linarith

/-! ### A concrete cell that meets the hypotheses -/

/-- Deciduous forest at 100 m with two elevation bands. -/
noncomputable def sampleVert : VertPar :=
  { rad := { snowAlbedoThresh := 3, openwaterAlbedo := 0.08, snowAlbedo := 0.406, albedo := 0.13,
             emissivity := 0.99 }
    alpha := 1.26, lai := sampleLai, coef := 0.3, minV := 0, degreeday := 1.5, meanElev := 100,
    elevs := [50, 150], lapse := 0.006, freezeTemp := 273.15, meltTemp := 273.15, fracBuiltup := 0.5,
    builtup := 0.1, gamma := 2, maxDailyPet := 15, texture := 20, drainage := 1, maxRecharge := 3,
    rechargeFactor := 0.5, critPrecip := 12.5, maxSoil := 200, cfa := 1 }

noncomputable def sampleVertState : VertState :=
  { lai := laiInit, canopy := 0.5, snow := 5, bands := [4, 6], soil := 100 }

noncomputable def sampleVertForcing : VertForcing :=
  { temperature := 280, swDown := 200, lwDown := 300, precip := 10, frac := 0.8, ratio := 1 }

theorem sampleVert_ok : sampleVert.Ok where
  alpha := by norm_num [sampleVert]
  lai := sampleLai_ok
  minLai := by norm_num [sampleVert, sampleLai]
  coef := by norm_num [sampleVert]
  degreeday := by norm_num [sampleVert]
  fracBuiltup0 := by norm_num [sampleVert]
  fracBuiltup1 := by norm_num [sampleVert]
  builtup := by norm_num [sampleVert]
  gamma := by norm_num [sampleVert]
  maxRecharge := by norm_num [sampleVert]
  factor0 := by norm_num [sampleVert]
  factor1 := by norm_num [sampleVert]
  maxSoil := by norm_num [sampleVert]
  cfa := by norm_num [sampleVert]
  lapse := by norm_num [sampleVert]
  freeze := by norm_num [sampleVert]
  lowest := ⟨50, [150], rfl, by intro x hx; simp at hx; subst hx; norm_num⟩

theorem sampleVertState_ok : sampleVertState.Ok sampleVert :=
  ⟨by norm_num [sampleVertState, laiInit], by norm_num [sampleVertState],
   by intro x hx; simp [sampleVertState] at hx; rcases hx with rfl | rfl <;> norm_num,
   by simp [sampleVertState, sampleVert], by norm_num [sampleVertState],
   by norm_num [sampleVertState, sampleVert]⟩

theorem sampleVertForcing_ok : sampleVertForcing.Ok sampleVert sampleVertState := by
  have ht : PhysicalTemp sampleVertForcing.temperature := by
    constructor <;> norm_num [sampleVertForcing]
  refine ⟨ht, by norm_num [sampleVertForcing], by norm_num [sampleVertForcing], ?_⟩
  have hnet : (netRadiation sampleVert.rad sampleVertForcing.temperature sampleVertForcing.swDown
      sampleVertForcing.lwDown sampleVertState.snow).1 = 0.594 * 200 + 300 - 0.99 * 5.67e-8 * 280 ^ 4 := by
    rw [(C09_net_radiation _ _ _ _ _).1]
    norm_num [sampleVert, sampleVertForcing, sampleVertState]
  have h := (C09_pet_sign _ _ (netRadiation sampleVert.rad sampleVertForcing.temperature
    sampleVertForcing.swDown sampleVertForcing.lwDown sampleVertState.snow).1 ht sampleVert_ok.alpha).2.2
    (by rw [hnet]; norm_num)
  refine (h.trans_le ?_).le
  rw [hnet]
  norm_num [sampleVert, sampleVertForcing, latentHeat]

example : (vertRun sampleVert sampleVertState [sampleVertForcing]).Ok sampleVert :=
  C54_vertical_history _ sampleVert_ok _ sampleVertState_ok _ ⟨sampleVertForcing_ok, trivial⟩

example : vertSum sampleVert (fun f _ => f.precip) sampleVertState [sampleVertForcing] = 10 := by
  norm_num [vertSum, sampleVertForcing]

example := C07_longterm_balance sampleVert sampleVert_ok (by norm_num [sampleVert]) (by norm_num [sampleVert])
  (by norm_num [sampleVert]) sampleVertState sampleVertState_ok [sampleVertForcing]
  ⟨sampleVertForcing_ok, trivial⟩ (by intro f hf; simp at hf; subst hf; norm_num [sampleVertForcing])

/-- A glacier-type cell (no leaves) with a warm valley and a frozen summit. -/
noncomputable def mountainVert : VertPar :=
  { sampleVert with
    lai := { initialDays := 0, minLai := 0, maxLai := 0, landCover := some 15, humidArid := 0 }
    elevs := [0, 10000], meanElev := 0, lapse := 0.006, builtup := 0, gamma := 1, rechargeFactor := 0 }

noncomputable def mountainState : VertState :=
  { lai := laiInit, canopy := 0, snow := 50, bands := [0, 100], soil := 200 }

noncomputable def mountainForcing : VertForcing := { sampleVertForcing with precip := 0 }

/-- C55 violated as a limit by the potential: `pet_to_soil` is used in full by the sublimation of the frozen
bands (`snow.py:189-196`) and once more by the soil (`soil.py:241-243`), so that a cell with a warm valley and a
frozen summit evaporates one and a half times its potential evapotranspiration. -/
theorem C55_violated_evaporation_exceeds_potential :
    mountainVert.Ok ∧ mountainState.Ok mountainVert ∧ mountainForcing.Ok mountainVert mountainState ∧
    let o := vertCell mountainVert mountainForcing mountainState
    0 < o.pet ∧ o.sublimation = o.pet / 2 ∧ o.soilEvap = o.pet ∧ o.pet < o.sublimation + o.soilEvap := by
  have ht : PhysicalTemp mountainForcing.temperature := by
    constructor <;> norm_num [sampleVertForcing, mountainForcing]
  have ha : 0 < mountainVert.alpha := by norm_num [mountainVert, sampleVert]
  have hnet : (netRadiation mountainVert.rad mountainForcing.temperature mountainForcing.swDown
      mountainForcing.lwDown mountainState.snow).1 = 0.594 * 200 + 300 - 0.99 * 5.67e-8 * 280 ^ 4 := by
    rw [(C09_net_radiation _ _ _ _ _).1]
    norm_num [sampleVert, mountainVert, sampleVertForcing, mountainForcing, mountainState]
  have h := C09_pet_sign _ _ (netRadiation mountainVert.rad mountainForcing.temperature
    mountainForcing.swDown mountainForcing.lwDown mountainState.snow).1 ht ha
  have hpos : 0 < (vertCell mountainVert mountainForcing mountainState).pet := by
    refine lt_of_le_of_ne h.1 fun h0 => ?_
    have := h.2.1.mp h0.symm
    rw [hnet] at this
    norm_num at this
  have hle : (vertCell mountainVert mountainForcing mountainState).pet < 15 := by
    refine (h.2.2 (by rw [hnet]; norm_num)).trans_le ?_
    rw [hnet]
    norm_num [sampleVert, mountainVert, mountainForcing, sampleVertForcing, latentHeat]
  have hok := sampleVert_ok
  have hlai : (laiStep mountainVert.lai { mountainState.lai with lai := 0 } mountainForcing.temperature
      mountainForcing.precip).lai = 0 := by
    norm_num [laiStep, mountainVert, mountainState, laiInit, mountainForcing, sampleVertForcing]
  have hC : colCanopy mountainVert mountainForcing mountainState =
      { storage := 0, throughfall := 0, evap := 0,
        petToSoil := (vertCell mountainVert mountainForcing mountainState).pet,
        landStorageChange := 0, transfer := 0 } := by
    unfold colCanopy canopyWaterBalance
    rw [hlai]
    have : ¬ (vertCell mountainVert mountainForcing mountainState).pet < 0 := not_lt.mpr hpos.le
    generalize (vertCell mountainVert mountainForcing mountainState).pet = pet at *
    norm_num [this, mountainForcing, sampleVertForcing, mountainState, mountainVert, sampleVert]
  have hsub : (vertCell mountainVert mountainForcing mountainState).sublimation =
      (vertCell mountainVert mountainForcing mountainState).pet / 2 := by
    change (colSnow mountainVert mountainForcing mountainState).sublimation = _
    have h100 : (vertCell mountainVert mountainForcing mountainState).pet < 100 := by linarith
    unfold colSnow colSnowPar
    simp only [hC]
    generalize (vertCell mountainVert mountainForcing mountainState).pet = pet at *
    norm_num [snowWaterBalance, bandLoop, bandTemp, bandStep, lapseTemp, rescaleBand, flush, mean,
      mountainForcing, sampleVertForcing, mountainState, mountainVert, sampleVert, h100]
  have heff : (colSnow mountainVert mountainForcing mountainState).effPrecip = 0 ∧
      (colSnow mountainVert mountainForcing mountainState).maxTempElev = 280 := by
    have h100 : (vertCell mountainVert mountainForcing mountainState).pet < 100 := by linarith
    unfold colSnow colSnowPar
    simp only [hC]
    generalize (vertCell mountainVert mountainForcing mountainState).pet = pet at *
    norm_num [snowWaterBalance, bandLoop, bandTemp, bandStep, lapseTemp, rescaleBand, flush, mean,
      mountainForcing, sampleVertForcing, mountainState, mountainVert, sampleVert, h100]
  have hevap : (vertCell mountainVert mountainForcing mountainState).soilEvap =
      (vertCell mountainVert mountainForcing mountainState).pet := by
    change (soilWaterBalance (colSoilIn mountainVert mountainForcing mountainState) mountainState.soil).soilEvap = _
    unfold colSoilIn colSplit
    simp only [hC, heff]
    generalize (vertCell mountainVert mountainForcing mountainState).pet = pet at *
    norm_num [soilWaterBalance, soilLand, soilActive, immediateRunoff,
      mountainForcing, sampleVertForcing, mountainState, mountainVert, sampleVert]
    rw [min_eq_left hle.le]
    split_ifs with h1 h2 <;> try linarith
  refine ⟨?_, ?_, ?_, hpos, hsub, hevap, by rw [hsub, hevap]; linarith⟩
  · exact { hok with
      lai := ⟨by norm_num [mountainVert], by norm_num [mountainVert], by simp [mountainVert]⟩
      minLai := by norm_num [mountainVert]
      builtup := by norm_num [mountainVert]
      gamma := by norm_num [mountainVert]
      factor0 := by norm_num [mountainVert]
      factor1 := by norm_num [mountainVert]
      lowest := ⟨0, [10000], rfl, by intro x hx; simp at hx; subst hx; norm_num⟩ }
  · exact ⟨by norm_num [mountainState, laiInit], by norm_num [mountainState],
      by intro x hx; simp [mountainState] at hx; rcases hx with rfl | rfl <;> norm_num,
      by simp [mountainState, mountainVert], by norm_num [mountainState],
      by norm_num [mountainState, mountainVert, sampleVert]⟩
  · exact ⟨ht, by norm_num [mountainForcing], by norm_num [mountainForcing, sampleVertForcing],
      hle.le.trans (by norm_num [mountainVert, sampleVert])⟩

end WG
