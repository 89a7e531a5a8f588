import Verif.Props.Vertical
import Verif.Model.FloatVert
import Verif.Props.RoundingLand
import Verif.Props.Lai

/-!
C65 and C67, the whole vertical water balance in rounded arithmetic: potential evapotranspiration and leaf area index are computed, not
assumed.
-/

namespace WG
open Arith

variable {A : Arith} {u η : ℝ} (hA : A.Ok) (hn : A.Near u η)

/-! ### Without rounding it is the model -/

theorem netRadiationR_exact (p : RadPar) (t sw lw sn : ℝ) : netRadiationR exact p t sw lw sn = netRadiation p t sw lw sn := by
  simp [netRadiationR, netRadiation, exact, Arith.add, Arith.sub, Arith.mul]

theorem ptOneR_exact (t alpha net : ℝ) : ptOneR exact t alpha net = ptOne t alpha net := by
  simp [ptOneR, ptOne, exact, Arith.add, Arith.sub, Arith.mul, Arith.div, slopeOfSatR, slopeOfSat, latentHeatR, latentHeat,
    psyConstR, psyConst, celsiusR, sq]

theorem laiStepR_exact (p : LaiPar) (s : LaiState) (t pr : ℝ) : laiStepR exact p s t pr = laiStep p s t pr := by
  unfold laiStepR laiStep
  cases p.landCover <;> rfl

/-- C65: without rounding, the vertical balance in rounded arithmetic is the vertical balance of the other properties. -/
theorem C65_exact_vertical (p : VertPar) (f : VertForcing) (s : VertState) : vertCellR exact p f s = vertCell p f s := by
  have i : ∀ x y z, immediateR exact x y z = immediateRunoff x y z := fun _ _ _ => rfl
  simp only [vertCellR, vertForcingR, VertState.land, landDayR, vertCell, netRadiationR_exact, ptOneR_exact, laiStepR_exact,
    C65_exact_canopy, C65_exact_snow, C65_exact_soil, i, priestleyTaylor]

/-! ### Potential evapotranspiration -/

include hA hn in
theorem latentHeatR_pos (t : ℝ) (ht : t ≤ 673) (hu : u ≤ 1 / 100) (hη : η ≤ 1 / 100000) : 1 ≤ latentHeatR A t := by
  have f1 := one_F hA
  have f2 : A.F 2 := by have := hA.nat 2 (by norm_num); simpa [F] using this
  have f400 : A.F 400 := by have := hA.nat 400 (by norm_num); simpa [F] using this
  have f273 : A.F 273 := by have := hA.nat 273 (by norm_num); simpa [F] using this
  unfold latentHeatR
  simp only
  have h273 : 273 ≤ A.rnd 273.15 := le_rnd hA f273 (by norm_num)
  have hc : celsiusR A t ≤ 400 := rnd_le hA f400 (by linarith)
  split_ifs with h
  · have h1 : 2 ≤ A.rnd 2.501 := le_rnd hA f2 (by norm_num)
    have h2 : A.rnd 0.002361 ≤ 1 / 400 := by
      have := hn.near 0.002361
      rw [abs_of_pos (by norm_num : (0 : ℝ) < 0.002361)] at this
      have := (abs_le.mp this).2
      nlinarith [hn.u0]
    have h3 : A.mul (A.rnd 0.002361) (celsiusR A t) ≤ 1 := by
      refine rnd_le hA f1 ?_
      have h0 : 0 ≤ A.rnd 0.002361 := rnd_nonneg hA (by norm_num)
      nlinarith
    exact le_rnd hA f1 (by linarith)
  · exact le_rnd hA f1 (by norm_num)

include hA in
theorem slopeOfSatR_nonneg (t : ℝ) : 0 ≤ slopeOfSatR A t := by
  unfold slopeOfSatR
  refine div_nonneg hA (mul_nonneg hA (by norm_num) (mul_nonneg hA (rnd_nonneg hA (by norm_num)) (hA.exp_nonneg _))) ?_
  exact rnd_nonneg hA (mul_self_nonneg _)

include hA hn in
/-- C65: potential evapotranspiration is a machine number that is not negative, whatever the radiation, at every temperature
below 673 K. -/
theorem C65_pet (t alpha net : ℝ) (halpha : 0 ≤ alpha) (ht : t ≤ 673) (hu : u ≤ 1 / 100) (hη : η ≤ 1 / 100000) :
    0 ≤ ptOneR A t alpha net ∧ A.F (ptOneR A t alpha net) := by
  have hl := latentHeatR_pos hA hn t ht hu hη
  have hs := slopeOfSatR_nonneg hA t
  unfold ptOneR
  simp only
  split_ifs with h
  · exact ⟨le_rfl, zero_F hA⟩
  · have hp : 0 ≤ psyConstR A t :=
      div_nonneg hA (mul_nonneg hA (rnd_nonneg hA (by norm_num)) (rnd_nonneg hA (by norm_num))) (by linarith)
    exact ⟨mul_nonneg hA halpha (div_nonneg hA (mul_nonneg hA hs (not_le.mp h).le) (add_nonneg hA hs hp)), mul_F hA _ _⟩

/-! ### Leaf area index -/

include hA hn in
/-- One line of the leaf area index in rounded arithmetic. -/
theorem lai_line (a b : ℝ) (k : ℤ) (L : ℝ) (hL : A.F L) (h0 : 0 ≤ a) (hab : a ≤ b) (hbL : b ≤ L) (hk : 0 ≤ k ∧ k ≤ 30)
    (hu : u ≤ 1 / 100) (hη : η ≤ L / 100) :
    |A.mul (A.div (A.sub b a) 30) k - (b - a) / 30 * k| ≤ 4 * (u * L + η) + 30 * η ∧
    0 ≤ A.mul (A.div (A.sub b a) 30) k ∧ A.mul (A.div (A.sub b a) 30) k ≤ 2 * L := by
  have hL0 : 0 ≤ L := by linarith
  have hη0 := hn.η0
  have hE : 0 ≤ u * L := _root_.mul_nonneg hn.u0 hL0
  have k0 : (0 : ℝ) ≤ k := by exact_mod_cast hk.1
  have k1 : (k : ℝ) ≤ 30 := by exact_mod_cast hk.2
  obtain ⟨b1, e1⟩ := hn.op hA hL (x := b - a) (by rw [abs_of_nonneg (by linarith)]; linarith)
  have d0 : 0 ≤ A.sub b a := sub_nonneg hA hab
  change |A.sub b a| ≤ _ at b1
  change |A.sub b a - _| ≤ _ at e1
  generalize A.sub b a = d at *
  have d1 := (le_abs_self _).trans b1
  have e2 := hn.err (K := L / 30) (x := d / 30) (by rw [abs_of_nonneg (by positivity)]; linarith)
  have q0 : 0 ≤ A.div d 30 := div_nonneg hA d0 (by norm_num)
  change |A.div d 30 - _| ≤ _ at e2
  generalize A.div d 30 = q at *
  have e1' := abs_le.mp e1
  have e2' := abs_le.mp e2
  have huL : u * L ≤ 1 / 100 * L := mul_le_mul_of_nonneg_right hu hL0
  have hqk : q * k ≤ 30 * q := by nlinarith
  have hq : 30 * q ≤ 2 * L - L / 2 := by nlinarith
  have e3 := hn.err (K := 2 * L) (x := q * k) (by rw [abs_of_nonneg (by positivity)]; linarith)
  have m0 : 0 ≤ A.mul q k := mul_nonneg hA q0 k0
  change |A.mul q k - _| ≤ _ at e3
  have e3' := abs_le.mp e3
  have h2 := hn.dbl L hL
  refine ⟨?_, m0, rnd_le hA h2 (by linarith)⟩
  have h5 : |q * k - (b - a) / 30 * k| ≤ 2 * (u * L + η) + 30 * η - η := by
    rw [← sub_mul, abs_mul, abs_of_nonneg k0]
    have : |q - (b - a) / 30| ≤ (u * L + η) / 30 + (u * (L / 30) + η) := by
      rw [abs_le]; constructor <;> linarith
    calc |q - (b - a) / 30| * k ≤ ((u * L + η) / 30 + (u * (L / 30) + η)) * 30 :=
          mul_le_mul this k1 k0 (by have := hn.u0; positivity)
      _ ≤ _ := by linarith
  rw [abs_le] at h5 ⊢
  constructor <;> linarith [h5.1, h5.2]

/-- The leaf area index is between its bounds up to `e`; the day counter is not negative. -/
structure LaiState.Within (p : LaiPar) (e : ℝ) (s : LaiState) : Prop where
  lower : p.minLai - e ≤ s.lai
  upper : s.lai ≤ p.maxLai + e
  days : 0 ≤ s.days

include hA hn in
/-- C65: whatever the weather, the leaf area index in rounded arithmetic is between its bounds up to seven roundings. -/
theorem C65_lai (p : LaiPar) (hp : p.Ok) (hmin : 0 ≤ p.minLai) (L : ℝ) (hL : A.F L) (hmax : p.maxLai ≤ L) (hu : u ≤ 1 / 100)
    (hη : η ≤ L / 100) (s : LaiState) (hs : 0 ≤ s.days) (t prec : ℝ) :
    (laiStepR A p s t prec).Within p (7 * (u * L + η) + 30 * η) := by
  have h1 := hp.order
  have h2 := hp.init
  have hL0 : 0 ≤ L := by linarith
  have hη0 := hn.η0
  have hE : 0 ≤ u * L := _root_.mul_nonneg hn.u0 hL0
  have he : 0 ≤ 7 * (u * L + η) + 30 * η := by linarith
  obtain ⟨lc, hlc⟩ := Option.ne_none_iff_exists'.mp hp.land
  have hdecl : ∀ (d : ℤ) (c : ℝ) (g : Bool), 0 ≤ d → d ≤ 30 → LaiState.Within p (7 * (u * L + η) + 30 * η)
      { lai := laiFallR A p d, days := d, cumPrecip := c, grown := g } := by
    intro d c g h0 h30
    obtain ⟨e1, m0, m1⟩ := lai_line hA hn p.minLai p.maxLai (30 - d) L hL hmin h1 hmax ⟨by omega, by omega⟩ hu hη
    unfold laiFallR
    generalize A.mul (A.div (A.sub p.maxLai p.minLai) 30) ((30 - d : ℤ) : ℝ) = x at *
    have e2 := hn.err (K := 2 * L) (x := p.maxLai - x) (abs_le.mpr ⟨by linarith, by linarith⟩)
    change |A.sub _ _ - _| ≤ _ at e2
    have d0 : (0 : ℝ) ≤ d := by exact_mod_cast h0
    have d1 : (d : ℝ) ≤ 30 := by exact_mod_cast h30
    have k0 : (0 : ℝ) ≤ (p.maxLai - p.minLai) / 30 * ((30 - d : ℤ) : ℝ) :=
      _root_.mul_nonneg (by linarith) (by push_cast; linarith)
    have k1 : (p.maxLai - p.minLai) / 30 * ((30 - d : ℤ) : ℝ) ≤ p.maxLai - p.minLai := by
      push_cast; nlinarith
    rw [abs_le] at e1 e2
    exact ⟨by dsimp only; linarith [e1.1, e1.2, e2.1, e2.2], by dsimp only; linarith [e1.1, e1.2, e2.1, e2.2], h0⟩
  have hgrow : ∀ (d : ℤ) (c : ℝ), p.initialDays ≤ d → (laiGrowR A p d c).Within p (7 * (u * L + η) + 30 * η) := by
    intro d c hd
    unfold laiGrowR
    split_ifs with hc
    · exact ⟨by dsimp only; linarith, by dsimp only; linarith, by dsimp only; omega⟩
    · obtain ⟨e1, m0, m1⟩ := lai_line hA hn p.minLai p.maxLai (d - p.initialDays) L hL hmin h1 hmax ⟨by omega, by omega⟩ hu hη
      generalize A.mul (A.div (A.sub p.maxLai p.minLai) 30) ((d - p.initialDays : ℤ) : ℝ) = x at *
      have e2 := hn.err (K := 3 * L) (x := p.minLai + x) (abs_le.mpr ⟨by linarith, by linarith⟩)
      change |A.add _ _ - _| ≤ _ at e2
      have d0 : (0 : ℝ) ≤ ((d - p.initialDays : ℤ) : ℝ) := by exact_mod_cast (by omega : 0 ≤ d - p.initialDays)
      have d1 : ((d - p.initialDays : ℤ) : ℝ) ≤ 30 := by exact_mod_cast (by omega : d - p.initialDays ≤ 30)
      have k0 : (0 : ℝ) ≤ (p.maxLai - p.minLai) / 30 * ((d - p.initialDays : ℤ) : ℝ) := _root_.mul_nonneg (by linarith) d0
      have k1 : (p.maxLai - p.minLai) / 30 * ((d - p.initialDays : ℤ) : ℝ) ≤ p.maxLai - p.minLai := by nlinarith
      rw [abs_le] at e1 e2
      exact ⟨by dsimp only; linarith [e1.1, e1.2, e2.1, e2.2], by dsimp only; linarith [e1.1, e1.2, e2.1, e2.2],
        by dsimp only; omega⟩
  have hlo : p.minLai - (7 * (u * L + η) + 30 * η) ≤ p.minLai := by linarith
  have hlo' : p.minLai - (7 * (u * L + η) + 30 * η) ≤ p.maxLai := by linarith
  have hup : p.minLai ≤ p.maxLai + (7 * (u * L + η) + 30 * η) := by linarith
  have hup' : p.maxLai ≤ p.maxLai + (7 * (u * L + η) + 30 * η) := by linarith
  simp only [laiStepR, hlc]
  by_cases ht : t > A.rnd 281.15
  · simp only [if_pos ht]
    by_cases hg : s.grown = false
    · simp only [if_pos hg]
      split_ifs with ha hb
      · exact hgrow _ _ (by omega)
      · exact ⟨hlo, hup, h2⟩
      · exact ⟨hlo, hup, by simp only; omega⟩
    · simp only [if_neg hg]
      by_cases h30 : s.days ≤ 30
      · simp only [if_pos h30]
        exact hdecl _ _ _ (by split_ifs <;> omega) (by split_ifs <;> omega)
      · simp only [if_neg h30]
        exact ⟨hlo', hup', by simp only; split_ifs <;> omega⟩
  · simp only [if_neg ht]
    by_cases hg : s.grown = false
    · simp only [if_pos hg]
      split_ifs with ha hb
      · exact hgrow _ _ (by omega)
      · exact ⟨hlo, hup, h2⟩
      · exact ⟨hlo, hup, by simp only; omega⟩
    · simp only [if_neg hg]
      by_cases h30 : s.days ≤ 30
      · simp only [if_pos h30]
        exact hdecl _ _ _ (by split_ifs <;> omega) (by split_ifs <;> omega)
      · simp only [if_neg h30]
        exact ⟨hlo', hup', by simp only; omega⟩

/-! ### Days of a cell -/

/-- Physical weather of a day: precipitation is a machine number that is not negative, less than 673 K. -/
structure WeatherR (A : Arith) (f : VertForcing) : Prop where
  precip : 0 ≤ f.precip ∧ A.F f.precip
  temperature : f.temperature ≤ 673
  ratio : 0 ≤ f.ratio

/-- The land forcings that the vertical balance computes, day by day. -/
noncomputable def vertDays (A : Arith) (p : VertPar) : VertState → List VertForcing → List LandDayF
  | _, [] => []
  | s, f :: fs => vertForcingR A p f s :: vertDays A p (vertCellR A p f s).next fs

/-- The state after a number of days. -/
noncomputable def vertEnd (A : Arith) (p : VertPar) (s : VertState) (fs : List VertForcing) : VertState :=
  fs.foldl (fun s f => (vertCellR A p f s).next) s

theorem vertRunR_land (p : VertPar) (fs : List VertForcing) : ∀ s : VertState,
    (vertRunR A p s fs).map (fun o => o.surfaceRunoff + o.recharge + o.landAet) =
      (landRunR A p s.land (vertDays A p s fs)).map (fun o => o.soil.surfaceRunoff + o.soil.recharge + o.soil.landAet) ∧
    (vertEnd A p s fs).land = landEnd A p s.land (vertDays A p s fs) ∧
    (vertDays A p s fs).map (·.precip) = fs.map (·.precip) ∧ (vertDays A p s fs).length = fs.length := by
  induction fs with
  | nil => intro s; exact ⟨rfl, rfl, rfl, rfl⟩
  | cons f fs ih =>
    intro s
    obtain ⟨h1, h2, h3, h4⟩ := ih (vertCellR A p f s).next
    have hl : (vertCellR A p f s).next.land = (landDayR A p (vertForcingR A p f s) s.land).next := rfl
    rw [hl] at h1 h2
    refine ⟨?_, ?_, ?_, ?_⟩
    · simp only [vertRunR, vertDays, landRunR, List.map_cons]
      rw [h1]; rfl
    · simp only [vertEnd, landEnd, vertDays, List.foldl_cons] at h2 ⊢
      exact h2
    · simp only [vertDays, List.map_cons, h3]; rfl
    · simp only [vertDays, List.length_cons, h4]

include hA hn in
/-- C65: the whole vertical balance, for every weather and any number of days: potential evapotranspiration of land and open
water, snow, fluxes and storages are not negative, the soil holds at most its capacity, the snow cover is at most one. -/
theorem C65_vertical_run (p : VertPar) (hp : LandParOk A p) (halpha : 0 ≤ p.alpha) (hu : u ≤ 1 / 100) (hη : η ≤ 1 / 100000)
    (fs : List VertForcing) (hf : ∀ f ∈ fs, WeatherR A f) : ∀ s : VertState, LandStoreOk p.maxSoil s.land →
    ∀ o ∈ vertRunR A p s fs, LandStoreOk p.maxSoil o.next.land ∧ (0 ≤ o.pet ∧ 0 ≤ o.openPet) ∧
      (0 ≤ o.throughfall ∧ 0 ≤ o.canopyEvap) ∧
      (0 ≤ o.next.snow ∧ 0 ≤ o.snowfall ∧ 0 ≤ o.sublimation ∧ 0 ≤ o.melt ∧ 0 ≤ o.coverFrac ∧ o.coverFrac ≤ 1) ∧
      (0 ≤ o.recharge ∧ 0 ≤ o.surfaceRunoff ∧ 0 ≤ o.landAet) := by
  induction fs with
  | nil => intro s _; simp [vertRunR]
  | cons f fs ih =>
    intro s hs
    have hw := hf f (by simp)
    have hpet : ∀ net, 0 ≤ ptOneR A f.temperature p.alpha net ∧ A.F (ptOneR A f.temperature p.alpha net) := fun net =>
      C65_pet hA hn f.temperature p.alpha net halpha hw.temperature hu hη
    obtain ⟨h1, h2, h3, h4⟩ := landDayR_ok hA p hp (vertForcingR A p f s) ⟨hw.precip, hpet _, hw.ratio⟩ s.land hs
    simp only [vertRunR, List.forall_mem_cons]
    exact ⟨⟨h4, ⟨(hpet _).1, (hpet _).1⟩, ⟨h1.throughfall, h1.evap⟩, ⟨h2.storage, h2.snowfall, h2.sublimation, h2.melt,
      h2.cover.1, h2.cover.2⟩, h3.recharge, h3.surfaceRunoff, h3.landAet⟩, ih (fun g hg => hf g (by simp [hg])) _ h4⟩

include hA hn in
/-- C67: the whole vertical balance over any number of days of unchanged land area: precipitation and the water at the start are
surface runoff, groundwater recharge, land evapotranspiration and the water at the end, up to the error of `C67_land_day` for every
day. Potential evapotranspiration and leaf area index are those the code computes. -/
theorem C67_vertical_run (p : VertPar) (hp : LandParOk A p) (hc : LandCloses p) (halpha : 0 ≤ p.alpha) (hlai : p.lai.Ok)
    (hmin : 0 ≤ p.lai.minLai) (fs : List VertForcing) (S C P : ℕ) (s : VertState) (hs : LandStoreOk p.maxSoil s.land)
    (hdays : 0 ≤ s.lai.days) (hlen : s.bands.length = p.elevs.length) (hb : ∀ b ∈ s.bands, b ≤ S) (hcan : s.canopy ≤ C)
    (hmax : p.maxSoil ≤ S) (hfit : p.elevs.length * (S + fs.length * (C + P)) ≤ 2 ^ 53) (hu : u ≤ 1 / 100)
    (hη : η ≤ 1 / 100000) (L : ℕ) (hL : 1 ≤ L ∧ L ≤ 2 ^ 53) (hmaxLai : p.lai.maxLai ≤ L)
    (hcap : p.coef * (p.lai.maxLai + (7 * (u * L + η) + 30 * η)) ≤ C)
    (hf : ∀ f ∈ fs, WeatherR A f ∧ 0 < f.frac ∧ f.ratio = 1 ∧ f.precip ≤ P) (hpetS : p.maxDailyPet ≤ S)
    (hpet : ∀ d ∈ vertDays A p s fs, d.pet ≤ p.maxDailyPet) :
    |(fs.map (·.precip)).sum + landWater s.land -
      (((vertRunR A p s fs).map fun o => o.surfaceRunoff + o.recharge + o.landAet).sum + landWater (vertEnd A p s fs).land)| ≤
      fs.length * (3 * max p.minV 0 + (2 * p.elevs.length + 185) * (u * (S + fs.length * (C + P)) + η)) := by
  obtain ⟨h1, h2, h3, h4⟩ := vertRunR_land (A := A) p fs s
  have hplain : ∀ (fs : List VertForcing) (s : VertState), 0 ≤ s.lai.days →
      (∀ f ∈ fs, WeatherR A f ∧ 0 < f.frac ∧ f.ratio = 1 ∧ f.precip ≤ P) →
      (∀ d ∈ vertDays A p s fs, d.pet ≤ p.maxDailyPet) → ∀ d ∈ vertDays A p s fs, PlainDay A p d S C P := by
    intro fs
    induction fs with
    | nil => intro s _ _ _ d hd; simp [vertDays] at hd
    | cons f fs ih =>
      intro s hdays hf hpet d hd
      simp only [vertDays, List.mem_cons] at hd
      have hLF : A.F (L : ℝ) := hA.nat L hL.2
      have hL1 : (1 : ℝ) ≤ L := by exact_mod_cast hL.1
      have hlw := C65_lai hA hn p.lai hlai hmin L hLF hmaxLai hu (by linarith) { s.lai with lai := 0 } hdays f.temperature f.precip
      rcases hd with rfl | hd
      · obtain ⟨w1, w2, w3, w4⟩ := hf f (by simp)
        have hp1 := hpet (vertForcingR A p f s) (by simp [vertDays])
        refine ⟨⟨w1.precip, C65_pet hA hn _ _ _ halpha w1.temperature hu hη, w1.ratio⟩, w2, w3, ?_, w4, hp1.trans hpetS, hp1⟩
        exact (mul_le_mul_of_nonneg_left hlw.upper hp.coef).trans hcap
      · exact ih _ hlw.days (fun g hg => hf g (by simp [hg])) (fun d hd => hpet d (by simp [vertDays, hd])) d hd
  have h := C67_land_run hA hn p hp hc (vertDays A p s fs) S C P s.land hs hlen hb hcan hmax (hplain fs s hdays hf hpet)
    (by rw [h4]; exact hfit) hu (by linarith)
  rw [h3, h4, ← h1, ← h2] at h
  exact h

/-! ### Examples -/

example : 0 ≤ ptOneR binary64 300 1.26 150 :=
  (C65_pet binary64_ok binary64_near 300 1.26 150 (by norm_num) (by norm_num) (by norm_num [zpow_neg])
    ((zpow_le_zpow_right₀ (by norm_num) (by norm_num : (-1075 : ℤ) ≤ -20)).trans (by norm_num [zpow_neg]))).1

theorem tiny_eta : (2 : ℝ) ^ (-1075 : ℤ) ≤ 1 / 100000 :=
  (zpow_le_zpow_right₀ (by norm_num) (by norm_num : (-1075 : ℤ) ≤ -20)).trans (by norm_num [zpow_neg])

theorem tiny_u : (2 : ℝ) ^ (-53 : ℤ) ≤ 1 / 100 := by norm_num [zpow_neg]

theorem sampleVert_landOk : LandParOk binary64 sampleVert ∧ LandCloses sampleVert := by
  have f200 : binary64.F 200 := by exact_mod_cast nat64 200 (by norm_num)
  have f3 : binary64.F 3 := by exact_mod_cast nat64 3 (by norm_num)
  refine ⟨by constructor <;> norm_num [sampleVert, f200, f3], ?_⟩
  refine ⟨rfl, by norm_num [sampleVert], by norm_num [sampleVert], by norm_num [sampleVert],
    by norm_num [sampleVert], le_rfl, 50, [150], rfl, ?_⟩
  intro e he
  fin_cases he; norm_num

theorem sampleState_landOk : LandStoreOk sampleVert.maxSoil sampleVertState.land := by
  constructor <;> norm_num [sampleVert, sampleVertState, VertState.land]

/-- The leaf area index of the deciduous forest on a warm day. -/
example : (laiStepR binary64 sampleLai laiInit 290 10).lai ≤ sampleLai.maxLai + 1 := by
  have f8 : binary64.F 8 := by exact_mod_cast nat64 8 (by norm_num)
  have h := (C65_lai binary64_ok binary64_near sampleLai sampleLai_ok (by norm_num [sampleLai]) 8 f8 (by norm_num [sampleLai])
    tiny_u (tiny_eta.trans (by norm_num)) laiInit (by norm_num [laiInit]) 290 10).upper
  have := tiny_eta
  have hu : (2 : ℝ) ^ (-53 : ℤ) ≤ 1 / 10000 := by norm_num [zpow_neg]
  generalize (2 : ℝ) ^ (-1075 : ℤ) = e at *
  generalize (2 : ℝ) ^ (-53 : ℤ) = v at *
  linarith

/-- A warm and sunny day. -/
example : ∀ o ∈ vertRunR binary64 sampleVert sampleVertState [sampleVertForcing, sampleVertForcing], 0 ≤ o.openPet := by
  have f10 : binary64.F 10 := by exact_mod_cast nat64 10 (by norm_num)
  intro o ho
  refine (C65_vertical_run binary64_ok binary64_near sampleVert sampleVert_landOk.1 (by norm_num [sampleVert]) tiny_u tiny_eta
    [sampleVertForcing, sampleVertForcing] ?_ sampleVertState sampleState_landOk o ho).2.1.2
  intro f hf
  have : f = sampleVertForcing := by simpa using hf
  subst this
  exact ⟨⟨by norm_num [sampleVertForcing], f10⟩, by norm_num [sampleVertForcing], by norm_num [sampleVertForcing]⟩

/-- A day of the polar night: ten millimetres of snow, no radiation. -/
noncomputable def polarNight : VertForcing :=
  { temperature := 260, swDown := 0, lwDown := 0, precip := 10, frac := 0.8, ratio := 1 }

theorem polarNight_pet (s : VertState) : (vertForcingR binary64 sampleVert polarNight s).pet = 0 := by
  have hA := binary64_ok
  have z : binary64.rnd 0 = 0 := zero_F hA
  have hl := latentHeatR_pos hA binary64_near 260 (by norm_num) tiny_u tiny_eta
  have hup : 0 ≤ binary64.mul sampleVert.rad.emissivity (binary64.mul (binary64.rnd 5.67e-08) (binary64.pow 260 4)) :=
    mul_nonneg hA (by norm_num [sampleVert]) (mul_nonneg hA (rnd_nonneg hA (by norm_num)) (hA.pow_nonneg _ _ (by norm_num)))
  have hnet : (netRadiationR binary64 sampleVert.rad polarNight.temperature polarNight.swDown polarNight.lwDown s.snow).1 ≤ 0 := by
    simp only [netRadiationR, polarNight]
    have h0 : ∀ x, binary64.mul 0 x = 0 := fun x => by unfold Arith.mul; rw [zero_mul, z]
    rw [h0]
    exact rnd_nonpos hA (by rw [zero_add]; exact rnd_nonpos hA (by linarith))
  simp only [vertForcingR, ptOneR]
  generalize (netRadiationR binary64 sampleVert.rad polarNight.temperature polarNight.swDown polarNight.lwDown s.snow).1 = n at *
  rw [if_pos]
  have h1 : binary64.mul n (binary64.rnd 0.0864) ≤ 0 :=
    rnd_nonpos hA (mul_nonpos_of_nonpos_of_nonneg hnet (rnd_nonneg hA (by norm_num)))
  refine rnd_nonpos hA (div_nonpos_of_nonpos_of_nonneg h1 ?_)
  have : (1 : ℝ) ≤ latentHeatR binary64 polarNight.temperature := hl
  linarith

example : |(10 + (10 + 0)) + landWater sampleVertState.land -
    (((vertRunR binary64 sampleVert sampleVertState [polarNight, polarNight]).map fun o =>
        o.surfaceRunoff + o.recharge + o.landAet).sum +
      landWater (vertEnd binary64 sampleVert sampleVertState [polarNight, polarNight]).land)| ≤ 1e-8 := by
  have f10 : binary64.F 10 := by exact_mod_cast nat64 10 (by norm_num)
  have hu : (2 : ℝ) ^ (-53 : ℤ) ≤ 1 / 10 ^ 15 := by norm_num [zpow_neg]
  have hη : (2 : ℝ) ^ (-1075 : ℤ) ≤ 1 / 10 ^ 15 :=
    (zpow_le_zpow_right₀ (by norm_num) (by norm_num : (-1075 : ℤ) ≤ -53)).trans hu
  have h := C67_vertical_run binary64_ok binary64_near sampleVert sampleVert_landOk.1 sampleVert_landOk.2 (by norm_num [sampleVert])
    sampleLai_ok (by norm_num [sampleVert, sampleLai]) [polarNight, polarNight] 500 4 10 sampleVertState sampleState_landOk
    (by norm_num [sampleVertState, laiInit]) rfl (by norm_num [sampleVertState]) (by norm_num [sampleVertState])
    (by norm_num [sampleVert]) (by norm_num [sampleVert]) tiny_u tiny_eta 8 (by norm_num) (by norm_num [sampleVert, sampleLai])
    (by
      generalize (2 : ℝ) ^ (-1075 : ℤ) = e at *
      generalize (2 : ℝ) ^ (-53 : ℤ) = v at *
      norm_num [sampleVert, sampleLai] at *
      linarith)
    (by
      intro f hf
      have : f = polarNight := by simpa using hf
      subst this
      exact ⟨⟨⟨by norm_num [polarNight], f10⟩, by norm_num [polarNight], by norm_num [polarNight]⟩, by norm_num [polarNight], rfl,
        by norm_num [polarNight]⟩)
    (by norm_num [sampleVert])
    (by
      intro d hd
      simp only [vertDays, List.mem_cons, List.not_mem_nil, or_false] at hd
      rcases hd with rfl | rfl <;> rw [polarNight_pet] <;> norm_num [sampleVert])
  refine le_trans (le_of_eq ?_) (h.trans ?_)
  · simp only [List.map_cons, List.map_nil, List.sum_cons, List.sum_nil]; rfl
  · have e0 : max sampleVert.minV 0 = 0 := by norm_num [sampleVert]
    have e1 : (sampleVert.elevs.length : ℝ) = 2 := by norm_num [sampleVert]
    rw [e0, e1]
    simp only [List.length_cons, List.length_nil]
    generalize (2 : ℝ) ^ (-1075 : ℤ) = e at *
    generalize (2 : ℝ) ^ (-53 : ℤ) = v at *
    norm_num at *
    linarith

end WG
