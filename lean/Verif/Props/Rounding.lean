import Verif.Props.Float
import Verif.Props.Soil

/-!
# C67: the water balances close up to the rounding of the arithmetic

For every arithmetic whose rounding has a relative error of at most `u` and an absolute error of at most `η` where numbers
underflow (binary64: `u = 2⁻⁵³`, `η = 2⁻¹⁰⁷⁵`), and for inputs not larger than a machine number `M`, the water of each storage
routine is accounted for up to a fixed number of roundings of a number of size `M`.
-/

namespace WG

/-- Accuracy of an arithmetic.  Doubling is exact. -/
structure Arith.Near (A : Arith) (u η : ℝ) : Prop where
  u0 : 0 ≤ u
  η0 : 0 ≤ η
  near : ∀ x, |A.rnd x - x| ≤ u * |x| + η
  dbl : ∀ x, A.F x → A.F (2 * x)

theorem nearestEven_err (x : ℝ) : |(nearestEven x : ℝ) - x| ≤ 1 / 2 := by
  have h1 := Int.fract_add_floor x
  have h2 := Int.fract_nonneg x
  have h3 := Int.fract_lt_one x
  have hc : (nearestEven x : ℝ) = ⌊x⌋ ∧ Int.fract x ≤ 1 / 2 ∨ (nearestEven x : ℝ) = ⌊x⌋ + 1 ∧ 1 / 2 ≤ Int.fract x := by
    unfold nearestEven
    split_ifs with a b c
    · exact Or.inl ⟨rfl, a.le⟩
    · exact Or.inr ⟨by push_cast; rfl, b.le⟩
    · exact Or.inl ⟨rfl, not_lt.mp b⟩
    · exact Or.inr ⟨by push_cast; rfl, not_lt.mp a⟩
  rcases hc with ⟨h, h'⟩ | ⟨h, h'⟩ <;> rw [h, abs_le] <;> constructor <;> linarith

theorem roundPos_err {x : ℝ} (hx : 0 ≤ x) : |roundPos x - x| ≤ 2 ^ (-53 : ℤ) * x + 2 ^ (-1075 : ℤ) := by
  rcases hx.eq_or_lt with h0 | h0
  · rw [← h0, roundPos_zero]; norm_num
  have hp := zpow2_pos (lastBit x)
  have h1 : roundPos x - x = ((nearestEven (x / 2 ^ lastBit x) : ℝ) - x / 2 ^ lastBit x) * 2 ^ lastBit x := by
    unfold roundPos; field_simp
  have h2 : |roundPos x - x| ≤ 1 / 2 * 2 ^ lastBit x := by
    rw [h1, abs_mul, abs_of_pos hp]
    exact mul_le_mul_of_nonneg_right (nearestEven_err _) hp.le
  have h3 : (1 : ℝ) / 2 * 2 ^ lastBit x ≤ 2 ^ (-53 : ℤ) * x + 2 ^ (-1075 : ℤ) := by
    have e0 : (0 : ℝ) < 2 ^ (-1075 : ℤ) := zpow2_pos _
    have e1 : (0 : ℝ) < 2 ^ (-53 : ℤ) := zpow2_pos _
    have half : ∀ n : ℤ, (1 : ℝ) / 2 * 2 ^ n = 2 ^ (n - 1) := by
      intro n; rw [zpow_sub₀ (by norm_num), zpow_one]; ring
    rcases le_total (Int.log 2 x - 52) (-1074) with h | h
    · have : lastBit x = -1074 := max_eq_right h
      rw [this, half]
      have : (0 : ℝ) ≤ 2 ^ (-53 : ℤ) * x := by positivity
      norm_num at this ⊢
      linarith
    · have hl : lastBit x = Int.log 2 x - 52 := max_eq_left h
      rw [hl, half]
      have hb := (log_bounds h0).1
      have : (2 : ℝ) ^ (Int.log 2 x - 52 - 1) = 2 ^ (-53 : ℤ) * 2 ^ Int.log 2 x := by
        rw [← zpow_add₀ (by norm_num)]; congr 1; ring
      rw [this]
      have := mul_le_mul_of_nonneg_left hb e1.le
      linarith
  exact h2.trans h3

theorem fl64_err (x : ℝ) : |fl64 x - x| ≤ 2 ^ (-53 : ℤ) * |x| + 2 ^ (-1075 : ℤ) := by
  by_cases h : x < 0
  · have := roundPos_err (x := -x) (by linarith)
    simp only [fl64, if_pos h]
    rw [abs_of_neg h, show -roundPos (-x) - x = -(roundPos (-x) - -x) by ring, abs_neg]
    exact this
  · simp only [fl64, if_neg h]
    rw [abs_of_nonneg (not_lt.mp h)]
    exact roundPos_err (not_lt.mp h)

theorem fl64_dbl (x : ℝ) (h : fl64 x = x) : fl64 (2 * x) = 2 * x := by
  have pos : ∀ y : ℝ, 0 ≤ y → fl64 y = y → fl64 (2 * y) = 2 * y := by
    intro y hy hF
    obtain ⟨n, hn, e, hl⟩ := roundPos_form hy
    rw [fl64_nonneg hy] at hF
    have : 2 * y = ((n : ℤ) : ℝ) * 2 ^ (lastBit y + 1) := by
      rw [zpow_add₀ (by norm_num), zpow_one]
      rw [hF] at e
      push_cast
      linarith
    rw [this]
    exact fl64_fix n _ (by rw [abs_of_nonneg (by positivity)]; exact_mod_cast hn) (by omega)
  rcases le_total 0 x with hx | hx
  · exact pos x hx h
  · have := pos (-x) (by linarith) (by rw [fl64_neg, h])
    rw [show 2 * -x = -(2 * x) by ring, fl64_neg] at this
    linarith

/-- The accuracy of binary64. -/
theorem binary64_near : binary64.Near (2 ^ (-53 : ℤ)) (2 ^ (-1075 : ℤ)) where
  u0 := (zpow2_pos _).le
  η0 := (zpow2_pos _).le
  near := fl64_err
  dbl := fl64_dbl

/-- Exact reals. -/
theorem exact_near : exact.Near 0 0 where
  u0 := le_rfl
  η0 := le_rfl
  near := fun x => by simp [exact]
  dbl := fun x _ => by simp [Arith.F, exact]

namespace Arith
variable {A : Arith} {u η : ℝ}

theorem Near.op (hn : A.Near u η) (hA : A.Ok) {K x : ℝ} (hK : A.F K) (hx : |x| ≤ K) :
    |A.rnd x| ≤ K ∧ |A.rnd x - x| ≤ u * K + η := by
  rw [abs_le] at hx
  refine ⟨abs_le.mpr ⟨le_rnd hA (neg_F hA hK) hx.1, rnd_le hA hK hx.2⟩, (hn.near x).trans ?_⟩
  have := mul_le_mul_of_nonneg_left (abs_le.mpr hx) hn.u0
  linarith

theorem Near.err (hn : A.Near u η) {K x : ℝ} (hx : |x| ≤ K) : |A.rnd x - x| ≤ u * K + η := by
  have := hn.near x
  have := mul_le_mul_of_nonneg_left hx hn.u0
  linarith
end Arith

open Arith

variable {A : Arith} {u η : ℝ} (hA : A.Ok) (hn : A.Near u η)

theorem flush_dist (m x : ℝ) : |flush m x - x| ≤ max m 0 := by
  unfold flush
  split_ifs with h
  · rw [zero_sub, abs_neg]; exact h.trans (le_max_left _ _)
  · rw [sub_self, abs_zero]; exact le_max_right _ _

include hA hn in
/-- C67, canopy: precipitation is throughfall, evaporation and change of storage, up to the amount below which the storage
is set to zero and five roundings. -/
theorem C67_canopy (storage lai pet precip frac ratio coef minV M : ℝ) (hM : A.F M)
    (hs : 0 ≤ storage) (hpet : 0 ≤ pet) (hp : 0 ≤ precip) (hpF : A.F precip) (hr : 0 ≤ ratio) (hcoef : 0 ≤ coef)
    (hf : 0 < frac) (h1 : storage * ratio ≤ M) (h2 : precip ≤ M) (h3 : coef * lai ≤ M) :
    let o := canopyR A storage lai pet precip frac ratio coef minV
    |precip - o.throughfall - o.evap - (o.storage - storage * ratio)| ≤ max minV 0 + 5 * (u * M + η) := by
  intro o
  have hM0 : 0 ≤ M := hp.trans h2
  have hE : 0 ≤ u * M + η := by have := mul_nonneg hn.u0 hM0; linarith [hn.η0]
  obtain ⟨b0, e0⟩ := hn.op hA (x := storage * ratio) hM (by rw [abs_of_nonneg (by positivity)]; exact h1)
  have f0 := flush_dist minV (A.mul storage ratio)
  have s0n : 0 ≤ flush minV (A.mul storage ratio) := flush_nonneg' (mul_nonneg hA hs hr)
  have s0M : flush minV (A.mul storage ratio) ≤ M := by
    unfold flush; split_ifs
    · exact hM0
    · exact (le_abs_self _).trans b0
  have d0 : |flush minV (A.mul storage ratio) - storage * ratio| ≤ max minV 0 + (u * M + η) := by
    refine (abs_sub_le _ (A.mul storage ratio) _).trans ?_
    have : |A.mul storage ratio - storage * ratio| ≤ u * M + η := e0
    linarith
  have core : |precip - o.throughfall - o.evap - (o.storage - flush minV (A.mul storage ratio))|
      ≤ 4 * (u * M + η) := by
    simp only [o, canopyR, if_pos hf]
    generalize flush minV (A.mul storage ratio) = s0 at *
    by_cases hlai : lai > 0
    · simp only [if_pos hlai]
      have hmn : 0 ≤ A.mul coef lai := mul_nonneg hA hcoef hlai.le
      have hmF : A.F (A.mul coef lai) := mul_F hA _ _
      have hmM : A.mul coef lai ≤ M := rnd_le hA hM h3
      generalize A.mul coef lai = m at hmn hmF hmM
      -- evaporation
      have key : ∀ s1 ev : ℝ, 0 ≤ s1 → s1 ≤ M → 0 ≤ ev →
          |s1 - (if ev > s1 then s1 else ev) - (if ev > s1 then 0 else A.sub s1 ev)| ≤ u * M + η := by
        intro s1 ev a1 a2 a3
        split_ifs with h
        · simpa using hE
        · have := hn.err (K := M) (x := s1 - ev) (abs_le.mpr ⟨by linarith, by linarith⟩)
          rw [abs_sub_comm] at this
          exact this
      have evn : ∀ s1 : ℝ, 0 ≤ s1 → 0 ≤ (if m > 0 then A.mul pet (A.pow (A.div s1 m) (A.div 2 3)) else 0) := by
        intro s1 h
        split_ifs
        · exact mul_nonneg hA hpet (hA.pow_nonneg _ _ (div_nonneg hA h hmn))
        · exact le_rfl
      by_cases hc : precip < A.sub m s0
      · simp only [if_pos hc]
        have hle := le_of_lt_rnd hA hpF hc
        obtain ⟨b1, e1⟩ := hn.op hA (x := s0 + precip) hM (by rw [abs_of_nonneg (by linarith)]; linarith)
        have k := key (A.add s0 precip) _ (add_nonneg hA s0n hp) ((le_abs_self _).trans b1)
          (evn _ (add_nonneg hA s0n hp))
        have e1' : |A.add s0 precip - (s0 + precip)| ≤ u * M + η := e1
        rw [abs_le] at *
        constructor <;> linarith
      · simp only [if_neg hc]
        obtain ⟨b1, e1⟩ := hn.op hA (x := m - s0) hM (abs_le.mpr ⟨by linarith, by linarith⟩)
        change |A.sub m s0| ≤ M at b1
        change |A.sub m s0 - (m - s0)| ≤ u * M + η at e1
        have e2 : |A.sub precip (A.sub m s0) - (precip - A.sub m s0)| ≤ u * (2 * M) + η :=
          hn.err (abs_le.mpr ⟨by linarith [(abs_le.mp b1).2], by linarith [(abs_le.mp b1).1]⟩)
        have k := key m _ hmn hmM (evn _ hmn)
        have := hn.η0
        rw [abs_le] at *
        constructor <;> linarith
    · simp only [if_neg hlai]
      simp only [sub_self, abs_zero]; linarith
  calc |precip - o.throughfall - o.evap - (o.storage - storage * ratio)|
      = |(precip - o.throughfall - o.evap - (o.storage - flush minV (A.mul storage ratio)))
          - (flush minV (A.mul storage ratio) - storage * ratio)| := by congr 1; ring
    _ ≤ _ := (abs_sub _ _).trans (by linarith)

include hA hn in
/-- C67, snow band: the snow of an elevation band and the throughfall are rain, sublimation, melt and the new snow, up to three
roundings. -/
theorem C67_snow_band (p : SnowPar) (temp s M : ℝ) (hM : A.F M) (hs : 0 ≤ s) (ht : 0 ≤ p.throughfall)
    (hpet : 0 ≤ p.petToSoil) (hd : 0 ≤ p.degreeday) (h : s + p.throughfall ≤ M) :
    let o := bandStepR A p temp s
    |s + p.throughfall - o.rain - o.sublimation - o.melt - o.storage| ≤ 3 * (u * M + η) := by
  intro o
  have hE : 0 ≤ u * M + η := by have := mul_nonneg hn.u0 (show 0 ≤ M by linarith); linarith [hn.η0]
  have melt : ∀ s2 : ℝ, 0 ≤ s2 → s2 ≤ M →
      |s2 - (if temp > p.meltTemp then (if s2 > 0 then
          (if (if temp > p.meltTemp then (if s2 > 0 then A.mul p.degreeday (A.sub temp p.meltTemp) else 0) else 0) > s2
            then s2
            else (if temp > p.meltTemp then (if s2 > 0 then A.mul p.degreeday (A.sub temp p.meltTemp) else 0) else 0))
          else 0) else 0)
        - (if temp > p.meltTemp then (if s2 > 0 then
          (if (if temp > p.meltTemp then (if s2 > 0 then A.mul p.degreeday (A.sub temp p.meltTemp) else 0) else 0) > s2
            then 0
            else A.sub s2 (if temp > p.meltTemp then
              (if s2 > 0 then A.mul p.degreeday (A.sub temp p.meltTemp) else 0) else 0))
          else s2) else s2)| ≤ u * M + η := by
    intro s2 a1 a2
    by_cases hT : temp > p.meltTemp
    · by_cases h2 : s2 > 0
      · simp only [if_pos hT, if_pos h2]
        have hm : 0 ≤ A.mul p.degreeday (A.sub temp p.meltTemp) := mul_nonneg hA hd (sub_nonneg hA hT.le)
        generalize A.mul p.degreeday (A.sub temp p.meltTemp) = mm at hm
        split_ifs with hc
        · simpa using hE
        · have := hn.err (K := M) (x := s2 - mm) (abs_le.mpr ⟨by linarith, by linarith⟩)
          rw [abs_sub_comm] at this
          exact this
      · simp only [if_pos hT, if_neg h2]; simpa using hE
    · simp only [if_neg hT]; simpa using hE
  simp only [o, bandStepR]
  by_cases hfr : temp ≤ p.freezeTemp
  · simp only [if_pos hfr]
    obtain ⟨b1, e1⟩ := hn.op hA (x := s + p.throughfall) hM (by rw [abs_of_nonneg (by linarith)]; exact h)
    change |A.add s p.throughfall| ≤ M at b1
    change |A.add s p.throughfall - (s + p.throughfall)| ≤ u * M + η at e1
    have s1n : 0 ≤ A.add s p.throughfall := add_nonneg hA hs ht
    have s1M := (le_abs_self _).trans b1
    generalize A.add s p.throughfall = s1 at *
    by_cases hc : s1 > p.petToSoil
    · simp only [if_pos hc]
      obtain ⟨b2, e2⟩ := hn.op hA (x := s1 - p.petToSoil) hM (abs_le.mpr ⟨by linarith, by linarith⟩)
      have k := melt (A.sub s1 p.petToSoil) (sub_nonneg hA hc.le) ((le_abs_self _).trans b2)
      change |A.sub s1 p.petToSoil - (s1 - p.petToSoil)| ≤ u * M + η at e2
      rw [abs_le] at *
      constructor <;> linarith
    · simp only [if_neg hc]
      have k := melt 0 le_rfl (by linarith)
      rw [abs_le] at *
      constructor <;> linarith
  · simp only [if_neg hfr]
    have k := melt s hs (by linarith)
    rw [abs_le] at *
    constructor <;> linarith

include hn in
/-- C67: immediate runoff from built-up land and the rest are the effective precipitation, up to one rounding. -/
theorem C67_immediate (eff frac builtup M : ℝ) (h : |eff - (immediateR A eff frac builtup).2| ≤ M) :
    |eff - (immediateR A eff frac builtup).1 - (immediateR A eff frac builtup).2| ≤ u * M + η := by
  have hE : 0 ≤ u * M + η := by
    have := mul_nonneg hn.u0 ((abs_nonneg _).trans h); linarith [hn.η0]
  by_cases hb : builtup > 0
  · simp only [immediateR, if_pos hb] at h ⊢
    have := hn.err h
    rw [abs_sub_comm] at this
    rw [show eff - A.sub eff (A.mul (A.mul frac eff) builtup) - A.mul (A.mul frac eff) builtup
      = eff - A.mul (A.mul frac eff) builtup - A.sub eff (A.mul (A.mul frac eff) builtup) by ring]
    exact this
  · simp only [immediateR, if_neg hb]; simpa using hE

/-! ### Groundwater -/

include hn in
/-- C67, groundwater: the new storage is the old plus net inflow minus discharge, up to five roundings, however inaccurate
the exponential function. -/
theorem C67_groundwater (prev netIn k M : ℝ) (h1 : |prev| ≤ M) (h2 : |netIn| ≤ M)
    (h3 : |(gwStorageR A prev netIn k).1| ≤ M) (hu : u ≤ 1 / 4) (hη : η ≤ M / 2) :
    |prev + netIn - (gwStorageR A prev netIn k).2 - (gwStorageR A prev netIn k).1| ≤ 6 * (u * M + η) := by
  have hM : 0 ≤ M := (abs_nonneg _).trans h1
  have hE : 0 ≤ u * M := mul_nonneg hn.u0 hM
  have hη0 := hn.η0
  simp only [gwStorageR] at h3 ⊢
  generalize A.add (A.mul prev (A.exp (A.mul (-1) k))) _ = cur at *
  by_cases hq : A.add (A.sub prev cur) netIn ≤ 0
  · simp only [if_pos hq] at h3 ⊢
    have e := hn.err (K := 2 * M) (x := prev + netIn) ((abs_add_le _ _).trans (by linarith))
    change |A.add prev netIn - _| ≤ _ at e
    rw [abs_le] at *
    constructor <;> linarith
  · simp only [if_neg hq] at h3 ⊢
    have e1 := hn.err (K := 2 * M) (x := prev - cur) ((abs_sub _ _).trans (by linarith))
    change |A.sub prev cur - _| ≤ _ at e1
    have hb : |A.sub prev cur| ≤ 3 * M := by
      have : |prev - cur| ≤ 2 * M := (abs_sub _ _).trans (by linarith)
      have hx : u * (2 * M) ≤ M / 2 := by nlinarith
      have := abs_le.mp this
      rw [abs_le] at e1 ⊢
      constructor <;> linarith
    have e2 := hn.err (K := 4 * M) (x := A.sub prev cur + netIn) ((abs_add_le _ _).trans (by linarith))
    change |A.add (A.sub prev cur) netIn - _| ≤ _ at e2
    rw [abs_le] at *
    constructor <;> linarith

/-- Storage and discharge on consecutive days with the given net inflows and outflow coefficient,
`waterbalance_lateral.py:764`. -/
noncomputable def gwRunR (A : Arith) (k : ℝ) : ℝ → List ℝ → List (ℝ × ℝ)
  | _, [] => []
  | s, x :: xs => gwStorageR A s x k :: gwRunR A k (gwStorageR A s x k).1 xs

include hn in
/-- C67, groundwater over time: after any number of days the error in the balance of storage, inflow and discharge is at most
six roundings a day. -/
theorem C67_groundwater_run (k M : ℝ) (hu : u ≤ 1 / 4) (hη : η ≤ M / 2) (xs : List ℝ) : ∀ s : ℝ, |s| ≤ M →
    (∀ x ∈ xs, |x| ≤ M) → (∀ o ∈ gwRunR A k s xs, |o.1| ≤ M) →
    |s + xs.sum - ((gwRunR A k s xs).map Prod.snd).sum - (((gwRunR A k s xs).map Prod.fst).getLastD s)|
      ≤ xs.length * (6 * (u * M + η)) := by
  induction xs with
  | nil => intro s _ _ _; simp [gwRunR]
  | cons x xs ih =>
    intro s hs hx ho
    simp only [gwRunR, List.mem_cons, forall_eq_or_imp] at hx ho
    have h1 := C67_groundwater hn s x k M hs hx.1 ho.1 hu hη
    have h2 := ih _ ho.1 hx.2 ho.2
    simp only [gwRunR, List.map_cons, List.sum_cons, List.getLastD_cons, List.length_cons]
    push_cast
    generalize (gwStorageR A s x k).1 = s1 at *
    rw [abs_le] at *
    constructor <;> linarith

/-! ### Lakes and wetlands -/

/-- The volumes of a day of a lake or wetland are not larger than `M`. -/
structure LakeSize (A : Arith) (kind : LakeKind) (i : LakeIn) (s M : ℝ) : Prop where
  machine : A.F M
  storage : |s| ≤ M
  max : 0 ≤ i.maxStorage ∧ i.maxStorage ≤ M
  inflow : 0 ≤ i.inflow ∧ i.inflow ≤ M
  precip : 0 ≤ i.precip * lakeAreaR A kind i s ∧ i.precip * lakeAreaR A kind i s ≤ M
  evap : 0 ≤ lakeEvapR A kind i s * lakeAreaR A kind i s ∧ lakeEvapR A kind i s * lakeAreaR A kind i s ≤ M
  gwr : 0 ≤ lakeGwrR A kind i s ∧ lakeGwrR A kind i s ≤ M
  demand : 0 ≤ lakeDemandR A kind i ∧ lakeDemandR A kind i ≤ M

section
variable (kind : LakeKind) (i : LakeIn) (s M : ℝ) (hz : LakeSize A kind i s M)
include hA hn hz

omit hA hn in
theorem lakeSize_nonneg : 0 ≤ M := (abs_nonneg _).trans hz.storage

theorem lakeTotalInR_err : (0 ≤ lakeTotalInR A kind i s ∧ lakeTotalInR A kind i s ≤ 2 * M) ∧
    |lakeTotalInR A kind i s - (i.inflow + i.precip * lakeAreaR A kind i s)| ≤ 3 * (u * M + η) := by
  have hM := lakeSize_nonneg kind i s M hz
  have h2 := hn.dbl M hz.machine
  have p := hz.precip
  have q := hz.inflow
  obtain ⟨b1, e1⟩ := hn.op hA (x := i.precip * lakeAreaR A kind i s) hz.machine (by rw [abs_of_nonneg p.1]; exact p.2)
  change |A.mul i.precip (lakeAreaR A kind i s)| ≤ M at b1
  change |A.mul i.precip (lakeAreaR A kind i s) - _| ≤ _ at e1
  have n1 : 0 ≤ A.mul i.precip (lakeAreaR A kind i s) := rnd_nonneg hA p.1
  unfold lakeTotalInR
  generalize A.mul i.precip (lakeAreaR A kind i s) = a at *
  rw [abs_of_nonneg n1] at b1
  obtain ⟨b2, e2⟩ := hn.op hA (x := i.inflow + a) h2 (by rw [abs_of_nonneg (by linarith)]; linarith)
  change |A.add i.inflow a| ≤ _ at b2
  change |A.add i.inflow a - _| ≤ _ at e2
  refine ⟨⟨rnd_nonneg hA (by linarith), (le_abs_self _).trans b2⟩, ?_⟩
  have := hn.η0
  rw [abs_le] at *
  constructor <;> linarith

theorem lakePetR_err : (0 ≤ lakePetR A kind i s ∧ lakePetR A kind i s ≤ 4 * M) ∧
    |lakePetR A kind i s - (lakeEvapR A kind i s * lakeAreaR A kind i s + lakeGwrR A kind i s + lakeDemandR A kind i)|
      ≤ 6 * (u * M + η) := by
  have hM := lakeSize_nonneg kind i s M hz
  have h2 := hn.dbl M hz.machine
  have h4 : A.F (4 * M) := by have := hn.dbl _ h2; rwa [show 2 * (2 * M) = 4 * M by ring] at this
  have p := hz.evap
  have g := hz.gwr
  have d := hz.demand
  obtain ⟨b1, e1⟩ := hn.op hA (x := lakeEvapR A kind i s * lakeAreaR A kind i s) hz.machine
    (by rw [abs_of_nonneg p.1]; exact p.2)
  change |A.mul (lakeEvapR A kind i s) (lakeAreaR A kind i s)| ≤ M at b1
  change |A.mul (lakeEvapR A kind i s) (lakeAreaR A kind i s) - _| ≤ _ at e1
  have n1 : 0 ≤ A.mul (lakeEvapR A kind i s) (lakeAreaR A kind i s) := rnd_nonneg hA p.1
  unfold lakePetR
  generalize A.mul (lakeEvapR A kind i s) (lakeAreaR A kind i s) = a at *
  rw [abs_of_nonneg n1] at b1
  obtain ⟨b2, e2⟩ := hn.op hA (x := a + lakeGwrR A kind i s) h2 (by rw [abs_of_nonneg (by linarith)]; linarith)
  change |A.add a (lakeGwrR A kind i s)| ≤ _ at b2
  change |A.add a (lakeGwrR A kind i s) - _| ≤ _ at e2
  have n2 : 0 ≤ A.add a (lakeGwrR A kind i s) := rnd_nonneg hA (by linarith)
  generalize A.add a (lakeGwrR A kind i s) = b at *
  rw [abs_of_nonneg n2] at b2
  have e3 := hn.err (K := 3 * M) (x := b + lakeDemandR A kind i) (by rw [abs_of_nonneg (by linarith)]; linarith)
  change |A.add b (lakeDemandR A kind i) - _| ≤ _ at e3
  have b3 : A.add b (lakeDemandR A kind i) ≤ 4 * M := rnd_le hA h4 (by linarith)
  refine ⟨⟨rnd_nonneg hA (by linarith), b3⟩, ?_⟩
  have := hn.η0
  rw [abs_le] at *
  constructor <;> linarith

/-- C67, local lakes and local wetlands: on a day on which the losses are met, the old storage and the inflows are the new
storage, the outflow and the losses, up to 36 roundings. -/
theorem C67_local_lake (hk : kind = .localLake ∨ kind = .localWetland) (hkc : 0 ≤ i.k)
    (hshort : ¬ lakePetR A kind i s > lakePetMaxR A kind i s) :
    |s + i.inflow + i.precip * lakeAreaR A kind i s
      - ((lakeSOR A kind i s).1 + (lakeSOR A kind i s).2 + lakeEvapR A kind i s * lakeAreaR A kind i s
        + lakeGwrR A kind i s + lakeDemandR A kind i)| ≤ 36 * (u * M + η) := by
  have hM := lakeSize_nonneg kind i s M hz
  have hE : 0 ≤ u * M := mul_nonneg hn.u0 hM
  have hη := hn.η0
  have h2 := hn.dbl M hz.machine
  have h4 : A.F (4 * M) := by have := hn.dbl _ h2; rwa [show 2 * (2 * M) = 4 * M by ring] at this
  obtain ⟨⟨t0, t1⟩, et⟩ := lakeTotalInR_err hA hn kind i s M hz
  obtain ⟨⟨p0, p1⟩, ep⟩ := lakePetR_err hA hn kind i s M hz
  have hso : lakeSOR A kind i s = localSOR A kind i s := by rcases hk with rfl | rfl <;> rfl
  rw [hso]
  simp only [localSOR, if_neg hshort]
  have hs := hz.storage
  generalize lakeTotalInR A kind i s = tin at *
  generalize lakePetR A kind i s = pet at *
  have hx3 : |s + tin| ≤ 3 * M := (abs_add_le _ _).trans (by rw [abs_of_nonneg t0]; linarith)
  have ex := hn.err hx3
  change |A.add s tin - _| ≤ _ at ex
  have bx : |A.add s tin| ≤ 4 * M := (hn.op hA h4 (hx3.trans (by linarith))).1
  generalize A.add s tin = x at *
  obtain ⟨b0, e0⟩ : A.sub x pet ≤ 4 * M ∧ |A.sub x pet - (x - pet)| ≤ u * (8 * M) + η :=
    ⟨rnd_le hA h4 (by linarith [(abs_le.mp bx).2]),
     hn.err ((abs_sub _ _).trans (by rw [abs_of_nonneg p0]; linarith))⟩
  have hF0 : A.F (A.sub x pet) := sub_F hA _ _
  generalize A.sub x pet = st0 at *
  generalize hwhich : (if kind = .localLake then s else st0) = which
  generalize (if kind = .localLake then i.lakeExp else i.wetlandExp) = ex'
  have hout : 0 ≤ (if which > 0 then
      (if st0 ≤ 0 then 0 else if A.mul (A.mul i.k which) (A.pow (A.div which i.maxStorage) ex') > st0 then st0
        else A.mul (A.mul i.k which) (A.pow (A.div which i.maxStorage) ex')) else 0) ∧
      ((if which > 0 then
      (if st0 ≤ 0 then 0 else if A.mul (A.mul i.k which) (A.pow (A.div which i.maxStorage) ex') > st0 then st0
        else A.mul (A.mul i.k which) (A.pow (A.div which i.maxStorage) ex')) else 0) ≤ st0 ∨
       (if which > 0 then
      (if st0 ≤ 0 then 0 else if A.mul (A.mul i.k which) (A.pow (A.div which i.maxStorage) ex') > st0 then st0
        else A.mul (A.mul i.k which) (A.pow (A.div which i.maxStorage) ex')) else 0) = 0) := by
    by_cases hw : which > 0
    · have ho : 0 ≤ A.mul (A.mul i.k which) (A.pow (A.div which i.maxStorage) ex') :=
        mul_nonneg hA (mul_nonneg hA hkc hw.le) (hA.pow_nonneg _ _ (div_nonneg hA hw.le hz.max.1))
      simp only [if_pos hw]
      generalize A.mul (A.mul i.k which) (A.pow (A.div which i.maxStorage) ex') = o at *
      split_ifs with a b
      · exact ⟨le_rfl, Or.inr rfl⟩
      · exact ⟨(not_le.mp a).le, Or.inl le_rfl⟩
      · exact ⟨ho, Or.inl (not_lt.mp b)⟩
    · simp only [if_neg hw]; exact ⟨le_rfl, Or.inr trivial⟩
  generalize (if which > 0 then
      (if st0 ≤ 0 then 0 else if A.mul (A.mul i.k which) (A.pow (A.div which i.maxStorage) ex') > st0 then st0
        else A.mul (A.mul i.k which) (A.pow (A.div which i.maxStorage) ex')) else 0) = out0 at *
  obtain ⟨o0, o1⟩ := hout
  have e1 : |A.sub st0 out0 - (st0 - out0)| ≤ u * (4 * M) + η := by
    rcases o1 with h | h
    · exact hn.err (abs_le.mpr ⟨by linarith, by linarith⟩)
    · have : A.sub st0 out0 = st0 := by rw [h]; unfold Arith.sub; rw [sub_zero]; exact hF0
      rw [this, h]; simp only [sub_zero, sub_self, abs_zero]; linarith
  have b1 : A.sub st0 out0 ≤ 4 * M := rnd_le hA h4 (by linarith)
  generalize A.sub st0 out0 = st1 at *
  have hmx := hz.max
  by_cases hc : st1 > i.maxStorage
  · simp only [if_pos hc]
    have ho4 : out0 ≤ 4 * M := by rcases o1 with h | h <;> linarith
    obtain ⟨b2, e2⟩ := hn.op hA (x := st1 - i.maxStorage) h4 (abs_le.mpr ⟨by linarith, by linarith⟩)
    change |A.sub st1 i.maxStorage| ≤ _ at b2
    change |A.sub st1 i.maxStorage - _| ≤ _ at e2
    have n2 : 0 ≤ A.sub st1 i.maxStorage := sub_nonneg hA hc.le
    generalize A.sub st1 i.maxStorage = ov at *
    have e3 := hn.err (K := 8 * M) (x := out0 + ov) (abs_le.mpr ⟨by linarith, by linarith [(abs_le.mp b2).2]⟩)
    change |A.add out0 ov - _| ≤ _ at e3
    rw [abs_le] at *
    constructor <;> linarith
  · simp only [if_neg hc]
    rw [abs_le] at *
    constructor <;> linarith

/-- C67, local lakes: the lower limit, minus the capacity, can be missed only by 17 roundings (see `C65_violated_lake_floor`). -/
theorem C67_local_lake_floor (hk : kind = .localLake) :
    -i.maxStorage - 17 * (u * M + η) ≤ (lakeSOR A kind i s).1 := by
  have hM := lakeSize_nonneg kind i s M hz
  have hE : 0 ≤ u * M := mul_nonneg hn.u0 hM
  have hη := hn.η0
  have hmx := hz.max
  subst hk
  have h2 := hn.dbl M hz.machine
  have h4 : A.F (4 * M) := by have := hn.dbl _ h2; rwa [show 2 * (2 * M) = 4 * M by ring] at this
  obtain ⟨⟨t0, t1⟩, -⟩ := lakeTotalInR_err hA hn _ i s M hz
  have hs := hz.storage
  -- the storage before the outflow
  have hst0 : ∀ st0 : ℝ, st0 = (if lakePetR A .localLake i s > lakePetMaxR A .localLake i s then lakeLimit .localLake i
      else A.sub (A.add s (lakeTotalInR A .localLake i s)) (lakePetR A .localLake i s)) →
      -i.maxStorage - 17 * (u * M + η) ≤ st0 := by
    rintro _ rfl
    split_ifs with hc
    · simp only [lakeLimit]; linarith
    · have hle := not_lt.mp hc
      simp only [lakePetMaxR] at hle
      obtain ⟨⟨p0, p1⟩, -⟩ := lakePetR_err hA hn _ i s M hz
      generalize lakeTotalInR A .localLake i s = tin at *
      generalize lakePetR A .localLake i s = pet at *
      obtain ⟨b1, e1⟩ := hn.op hA (x := s + i.maxStorage) h2 ((abs_add_le _ _).trans (by
        rw [abs_of_nonneg hmx.1]; linarith))
      change |A.add s i.maxStorage| ≤ _ at b1
      change |A.add s i.maxStorage - _| ≤ _ at e1
      generalize A.add s i.maxStorage = y at *
      have e2 := hn.err (K := 4 * M) (x := y + tin) ((abs_add_le _ _).trans (by rw [abs_of_nonneg t0]; linarith))
      change |A.add y tin - _| ≤ _ at e2
      have hx3 : |s + tin| ≤ 3 * M := (abs_add_le _ _).trans (by rw [abs_of_nonneg t0]; linarith)
      have e3 := hn.err hx3
      change |A.add s tin - _| ≤ _ at e3
      have bx : |A.add s tin| ≤ 4 * M := (hn.op hA h4 (hx3.trans (by linarith))).1
      generalize A.add s tin = x at *
      have e4 := hn.err (K := 8 * M) (x := x - pet) ((abs_sub _ _).trans (by rw [abs_of_nonneg p0]; linarith))
      change |A.sub x pet - _| ≤ _ at e4
      generalize A.add y tin = z at *
      generalize A.sub x pet = w at *
      rw [abs_le] at *
      linarith
  simp only [lakeSOR, localSOR]
  have h0 := hst0 _ rfl
  have hF0 : A.F (if lakePetR A .localLake i s > lakePetMaxR A .localLake i s then lakeLimit .localLake i
      else A.sub (A.add s (lakeTotalInR A .localLake i s)) (lakePetR A .localLake i s)) ∨
      (if lakePetR A .localLake i s > lakePetMaxR A .localLake i s then lakeLimit .localLake i
      else A.sub (A.add s (lakeTotalInR A .localLake i s)) (lakePetR A .localLake i s)) = -i.maxStorage := by
    split_ifs
    · exact Or.inr (by simp [lakeLimit])
    · exact Or.inl (sub_F hA _ _)
  generalize (if lakePetR A .localLake i s > lakePetMaxR A .localLake i s then lakeLimit .localLake i
      else A.sub (A.add s (lakeTotalInR A .localLake i s)) (lakePetR A .localLake i s)) = st0 at *
  simp only [if_true]
  have fin : ∀ out0 : ℝ, (out0 = 0 ∨ out0 ≤ st0) →
      -i.maxStorage - 17 * (u * M + η) ≤ (if A.sub st0 out0 > i.maxStorage then
        (i.maxStorage, A.add out0 (A.sub (A.sub st0 out0) i.maxStorage)) else (A.sub st0 out0, out0)).1 := by
    intro out0 ho
    by_cases hc : A.sub st0 out0 > i.maxStorage
    · simp only [if_pos hc]; linarith
    · simp only [if_neg hc]
      rcases ho with rfl | ho
      · unfold Arith.sub; rw [sub_zero]
        rcases hF0 with hF | hF
        · rw [hF]; exact h0
        · rw [hF, hA.neg]
          have := hn.err (K := M) (x := i.maxStorage) (by rw [abs_of_nonneg hmx.1]; exact hmx.2)
          have := (abs_le.mp this).2
          linarith
      · have : 0 ≤ A.sub st0 out0 := sub_nonneg hA ho
        linarith
  apply fin
  by_cases hw : s > 0
  · simp only [if_pos hw]
    split_ifs with a b
    · exact Or.inl rfl
    · exact Or.inr le_rfl
    · exact Or.inr (not_lt.mp b)
  · simp only [if_neg hw]; exact Or.inl trivial

/-- C67, global lakes and wetlands: on a day on which the losses are met, the balance closes up to 48 roundings, however
inaccurate the exponential function. -/
theorem C67_global_lake (hk : kind = .globalLake ∨ kind = .globalWetland)
    (hshort : ¬ lakePetR A kind i s > lakePetMaxR A kind i s) (han : |lakeAnalyticR A kind i s| ≤ M) :
    |s + i.inflow + i.precip * lakeAreaR A kind i s
      - ((lakeSOR A kind i s).1 + (lakeSOR A kind i s).2 + lakeEvapR A kind i s * lakeAreaR A kind i s
        + lakeGwrR A kind i s + lakeDemandR A kind i)| ≤ 48 * (u * M + η) := by
  have hM := lakeSize_nonneg kind i s M hz
  have hE : 0 ≤ u * M := mul_nonneg hn.u0 hM
  have hη := hn.η0
  have hmx := hz.max
  have h2 := hn.dbl M hz.machine
  have h4 : A.F (4 * M) := by have := hn.dbl _ h2; rwa [show 2 * (2 * M) = 4 * M by ring] at this
  have h8 : A.F (8 * M) := by have := hn.dbl _ h4; rwa [show 2 * (4 * M) = 8 * M by ring] at this
  have h16 : A.F (16 * M) := by have := hn.dbl _ h8; rwa [show 2 * (8 * M) = 16 * M by ring] at this
  obtain ⟨⟨t0, t1⟩, et⟩ := lakeTotalInR_err hA hn kind i s M hz
  obtain ⟨⟨p0, p1⟩, ep⟩ := lakePetR_err hA hn kind i s M hz
  have hs := hz.storage
  obtain ⟨bn, en⟩ := hn.op hA (x := lakeTotalInR A kind i s - lakePetR A kind i s) h4
    (abs_le.mpr ⟨by linarith, by linarith⟩)
  change |lakeNetInR A kind i s| ≤ _ at bn
  change |lakeNetInR A kind i s - _| ≤ _ at en
  have h5 : |lakeNetInR A kind i s + s| ≤ 5 * M := (abs_add_le _ _).trans (by linarith)
  have ex := hn.err h5
  change |A.add (lakeNetInR A kind i s) s - _| ≤ _ at ex
  have bx : |A.add (lakeNetInR A kind i s) s| ≤ 8 * M := (hn.op hA h8 (h5.trans (by linarith))).1
  -- outflow and storage without the cut at zero
  have main : ∀ st0 : ℝ, |st0| ≤ M →
      |A.add (lakeNetInR A kind i s) s
        - (if st0 > i.maxStorage then i.maxStorage else st0)
        - (if st0 > i.maxStorage then A.add (A.sub (A.add (lakeNetInR A kind i s) s) st0) (A.sub st0 i.maxStorage)
            else A.sub (A.add (lakeNetInR A kind i s) s) st0)| ≤ 28 * (u * M + η) := by
    intro st0 ha
    generalize A.add (lakeNetInR A kind i s) s = x at *
    have h9 : |x - st0| ≤ 9 * M := (abs_sub _ _).trans (by linarith)
    have e0 := hn.err h9
    change |A.sub x st0 - _| ≤ _ at e0
    have b0 : |A.sub x st0| ≤ 16 * M := (hn.op hA h16 (h9.trans (by linarith))).1
    generalize A.sub x st0 = out0 at *
    by_cases hc : st0 > i.maxStorage
    · simp only [if_pos hc]
      have ha' := abs_le.mp ha
      obtain ⟨b1, e1⟩ := hn.op hA (x := st0 - i.maxStorage) hz.machine (abs_le.mpr ⟨by linarith, by linarith⟩)
      change |A.sub st0 i.maxStorage| ≤ _ at b1
      change |A.sub st0 i.maxStorage - _| ≤ _ at e1
      generalize A.sub st0 i.maxStorage = ov at *
      have e2 := hn.err (K := 17 * M) (x := out0 + ov) ((abs_add_le _ _).trans (by linarith))
      change |A.add out0 ov - _| ≤ _ at e2
      rw [abs_le] at *
      constructor <;> linarith
    · simp only [if_neg hc]
      rw [abs_le] at *
      constructor <;> linarith
  have m := main _ han
  rcases hk with rfl | rfl
  · simp only [lakeSOR, globalLakeSOR, if_neg hshort]
    generalize A.add (lakeNetInR A .globalLake i s) s = x at *
    generalize lakeAnalyticR A .globalLake i s = st0 at *
    split_ifs at m ⊢ <;> (rw [abs_le] at *; constructor <;> linarith)
  · simp only [lakeSOR, globalWetlandSOR, if_neg hshort]
    generalize A.add (lakeNetInR A .globalWetland i s) s = x at *
    generalize lakeAnalyticR A .globalWetland i s = st0 at *
    split_ifs at m ⊢ <;> (rw [abs_le] at *; constructor <;> linarith)

end

/-! ### Reservoirs -/

/-- The volumes of a day of a reservoir are not larger than `M`; `release` is the answer of the release rule. -/
structure ResSize (A : Arith) (i : ResIn) (s : ℝ) (release : ℝ → ℝ) (M : ℝ) : Prop where
  machine : A.F M
  storage : 0 ≤ s ∧ s ≤ M
  cap : 0 ≤ i.han.cap ∧ i.han.cap ≤ M
  inflow : 0 ≤ i.han.inflow ∧ i.han.inflow ≤ M
  precip : 0 ≤ i.precip * i.area ∧ i.precip * i.area ≤ M
  evap : 0 ≤ resEvapR A i s * i.area ∧ resEvapR A i s * i.area ≤ M
  gwr : 0 ≤ resGwrR A i s ∧ resGwrR A i s ≤ M
  demand : |resDemandR A i| ≤ M
  release1 : A.mul (release (resBeforeReleaseR A i s)) (A.div 86400 1e9) ≤ M
  release2 : A.mul (A.mul (A.rnd 0.1) (release (resBeforeReleaseR A i s))) (A.div 86400 1e9) ≤ M

section
variable (hA : A.Ok) (hn : A.Near u η)
include hA hn

theorem resAbstractR_err (d st cap M : ℝ) (hM : A.F M) (hst : 0 ≤ st ∧ st ≤ 4 * M) (hF : A.F st) (hd : |d| ≤ M)
    (hcap : 0 ≤ cap ∧ cap ≤ M) :
    (0 ≤ (resAbstractR A d st cap).1 ∧ (resAbstractR A d st cap).1 ≤ 8 * M) ∧
    |st - (d - (resAbstractR A d st cap).2) - (resAbstractR A d st cap).1| ≤ 5 * (u * M + η) := by
  have hM0 : 0 ≤ M := (abs_nonneg _).trans hd
  have hE : 0 ≤ u * M := mul_nonneg hn.u0 hM0
  have hη := hn.η0
  have h2 := hn.dbl M hM
  have h4 : A.F (4 * M) := by have := hn.dbl _ h2; rwa [show 2 * (2 * M) = 4 * M by ring] at this
  have h8 : A.F (8 * M) := by have := hn.dbl _ h4; rwa [show 2 * (4 * M) = 8 * M by ring] at this
  have hd' := abs_le.mp hd
  have hc0 : 0 ≤ A.mul (A.rnd 0.1) cap := mul_nonneg hA (rnd_nonneg hA (by norm_num)) hcap.1
  have hcM : A.mul (A.rnd 0.1) cap ≤ M :=
    rnd_le hA hM (by nlinarith [rnd_le_one hA (x := 0.1) (by norm_num), rnd_nonneg hA (x := 0.1) (by norm_num)])
  unfold resAbstractR
  generalize A.mul (A.rnd 0.1) cap = c at *
  by_cases hneg : d < 0
  · simp only [if_pos hneg]
    obtain ⟨b, -⟩ := hn.op hA (x := st - d) h8 (abs_le.mpr ⟨by linarith, by linarith⟩)
    have e := hn.err (K := 5 * M) (x := st - d) (abs_le.mpr ⟨by linarith, by linarith⟩)
    change |A.sub st d| ≤ _ at b
    change |A.sub st d - _| ≤ _ at e
    refine ⟨⟨sub_nonneg hA (by linarith), (le_abs_self _).trans b⟩, ?_⟩
    generalize A.sub st d = r at *
    rw [abs_le] at *
    constructor <;> linarith
  · simp only [if_neg hneg]
    have hd0 := not_lt.mp hneg
    by_cases hgt : st > c
    · simp only [if_pos hgt]
      obtain ⟨b, e⟩ := hn.op hA (x := st - c) h4 (abs_le.mpr ⟨by linarith, by linarith⟩)
      change |A.sub st c| ≤ _ at b
      change |A.sub st c - _| ≤ _ at e
      have yst : A.sub st c ≤ st := rnd_le hA hF (by linarith)
      have y0 : 0 ≤ A.sub st c := sub_nonneg hA hgt.le
      generalize A.sub st c = y at *
      by_cases hlt : d < y
      · simp only [if_pos hlt]
        obtain ⟨b1, e1⟩ := hn.op hA (x := st - d) h4 (abs_le.mpr ⟨by linarith, by linarith⟩)
        change |A.sub st d| ≤ _ at b1
        change |A.sub st d - _| ≤ _ at e1
        refine ⟨⟨sub_nonneg hA (by linarith), by linarith [(le_abs_self _).trans b1]⟩, ?_⟩
        generalize A.sub st d = r at *
        rw [abs_le] at *
        constructor <;> linarith
      · simp only [if_neg hlt]
        have e1 := hn.err (K := M) (x := d - y) (abs_le.mpr ⟨by linarith, by linarith⟩)
        change |A.sub d y - _| ≤ _ at e1
        refine ⟨⟨hc0, by linarith⟩, ?_⟩
        generalize A.sub d y = r at *
        rw [abs_le] at *
        constructor <;> linarith
    · simp only [if_neg hgt]
      refine ⟨⟨hst.1, by linarith⟩, ?_⟩
      rw [abs_le]
      constructor <;> linarith

theorem resReleaseR_err (st release cap M : ℝ) (hM : A.F M) (hst : 0 ≤ st ∧ st ≤ 8 * M)
    (hcap : 0 ≤ cap ∧ cap ≤ M) (hr1 : A.mul release (A.div 86400 1e9) ≤ M)
    (hr2 : A.mul (A.mul (A.rnd 0.1) release) (A.div 86400 1e9) ≤ M) :
    |st - (resReleaseR A st release cap).2 - (resReleaseR A st release cap).1| ≤ 25 * (u * M + η) := by
  have hM0 : 0 ≤ M := hcap.1.trans hcap.2
  have hE : 0 ≤ u * M := mul_nonneg hn.u0 hM0
  have hη := hn.η0
  have h2 := hn.dbl M hM
  have h4 : A.F (4 * M) := by have := hn.dbl _ h2; rwa [show 2 * (2 * M) = 4 * M by ring] at this
  have h8 : A.F (8 * M) := by have := hn.dbl _ h4; rwa [show 2 * (4 * M) = 8 * M by ring] at this
  unfold resReleaseR
  have ho : (if st ≥ A.mul cap (A.rnd 0.1) then A.mul release (A.div 86400 1e9)
      else A.mul (A.mul (A.rnd 0.1) release) (A.div 86400 1e9)) ≤ M := by split_ifs <;> assumption
  generalize (if st ≥ A.mul cap (A.rnd 0.1) then A.mul release (A.div 86400 1e9)
      else A.mul (A.mul (A.rnd 0.1) release) (A.div 86400 1e9)) = o at *
  simp only
  have ho1 : 0 ≤ (if o < 0 then 0 else o) ∧ (if o < 0 then 0 else o) ≤ M := by
    split_ifs with h
    · exact ⟨le_rfl, hM0⟩
    · exact ⟨not_lt.mp h, ho⟩
  generalize (if o < 0 then 0 else o) = o1 at *
  obtain ⟨b, e⟩ := hn.op hA (x := st - o1) h8 (abs_le.mpr ⟨by linarith, by linarith⟩)
  change |A.sub st o1| ≤ _ at b
  change |A.sub st o1 - _| ≤ _ at e
  have lo : -M ≤ A.sub st o1 := le_rnd hA (neg_F hA hM) (by linarith)
  generalize A.sub st o1 = st1 at *
  have b' := abs_le.mp b
  by_cases hov : st1 > cap
  · simp only [if_pos hov]
    have hn0 : ¬ cap < 0 := not_lt.mpr hcap.1
    simp only [if_neg hn0]
    obtain ⟨b1, e1⟩ := hn.op hA (x := st1 - cap) h8 (abs_le.mpr ⟨by linarith, by linarith⟩)
    change |A.sub st1 cap| ≤ _ at b1
    change |A.sub st1 cap - _| ≤ _ at e1
    generalize A.sub st1 cap = ov at *
    have e2 := hn.err (K := 9 * M) (x := o1 + ov) ((abs_add_le _ _).trans (by rw [abs_of_nonneg ho1.1]; linarith))
    change |A.add o1 ov - _| ≤ _ at e2
    rw [abs_le] at *
    constructor <;> linarith
  · simp only [if_neg hov]
    by_cases hneg : st1 < 0
    · simp only [if_pos hneg]
      have e1 := hn.err (K := M) (x := o1 + st1) (abs_le.mpr ⟨by linarith, by linarith⟩)
      change |A.add o1 st1 - _| ≤ _ at e1
      rw [abs_le] at *
      constructor <;> linarith
    · simp only [if_neg hneg]
      rw [abs_le] at *
      constructor <;> linarith

/-- C67, reservoirs: on a day on which evaporation and recharge are met, the balance of storage, inflow, precipitation,
evaporation, recharge, abstraction and outflow closes up to the volume below which the storage is set to zero and 43
roundings, whatever the release rule answers. -/
theorem C67_reservoir (i : ResIn) (s : ℝ) (release : ℝ → ℝ) (M : ℝ) (hz : ResSize A i s release M)
    (hshort : resPetR A i s ≤ A.add s (resTotalInR A i)) :
    let use := resDemandR A i - (resAbstractR A (resDemandR A i) (resStorage1R A i s) i.han.cap).2
    |s + i.han.inflow + i.precip * i.area - ((resSOR A i s release).1 + (resSOR A i s release).2
      + resEvapR A i s * i.area + resGwrR A i s + use)| ≤ max i.minV 0 + 43 * (u * M + η) := by
  intro use
  have hM0 : 0 ≤ M := hz.storage.1.trans hz.storage.2
  have hE : 0 ≤ u * M := mul_nonneg hn.u0 hM0
  have hη := hn.η0
  have h2 := hn.dbl M hz.machine
  have h4 : A.F (4 * M) := by have := hn.dbl _ h2; rwa [show 2 * (2 * M) = 4 * M by ring] at this
  have h8 : A.F (8 * M) := by have := hn.dbl _ h4; rwa [show 2 * (4 * M) = 8 * M by ring] at this
  -- inflow
  have hp := hz.precip
  have hi := hz.inflow
  obtain ⟨b1, e1⟩ := hn.op hA (x := i.precip * i.area) hz.machine (by rw [abs_of_nonneg hp.1]; exact hp.2)
  change |A.mul i.precip i.area| ≤ _ at b1
  change |A.mul i.precip i.area - _| ≤ _ at e1
  have n1 : 0 ≤ A.mul i.precip i.area := rnd_nonneg hA hp.1
  have b1' := (le_abs_self _).trans b1
  have e2 : |resTotalInR A i - (i.han.inflow + A.mul i.precip i.area)| ≤ u * (2 * M) + η :=
    hn.err (abs_le.mpr ⟨by linarith, by linarith⟩)
  have t0 : 0 ≤ resTotalInR A i := rnd_nonneg hA (by linarith)
  have t1 : resTotalInR A i ≤ 2 * M := rnd_le hA h2 (by linarith)
  -- losses
  have hev := hz.evap
  have hg := hz.gwr
  obtain ⟨b3, e3⟩ := hn.op hA (x := resEvapR A i s * i.area) hz.machine (by rw [abs_of_nonneg hev.1]; exact hev.2)
  change |A.mul (resEvapR A i s) i.area| ≤ _ at b3
  change |A.mul (resEvapR A i s) i.area - _| ≤ _ at e3
  have n3 : 0 ≤ A.mul (resEvapR A i s) i.area := rnd_nonneg hA hev.1
  have b3' := (le_abs_self _).trans b3
  have e4 : |resPetR A i s - (A.mul (resEvapR A i s) i.area + resGwrR A i s)| ≤ u * (2 * M) + η :=
    hn.err (abs_le.mpr ⟨by linarith, by linarith⟩)
  have p0 : 0 ≤ resPetR A i s := rnd_nonneg hA (by linarith)
  -- storage after the losses
  have hs := hz.storage
  have e5 : |A.add s (resTotalInR A i) - (s + resTotalInR A i)| ≤ u * (3 * M) + η :=
    hn.err (abs_le.mpr ⟨by linarith, by linarith⟩)
  have x4 : A.add s (resTotalInR A i) ≤ 4 * M := rnd_le hA h4 (by linarith)
  have hst1 : resStorage1R A i s = A.sub (A.add s (resTotalInR A i)) (resPetR A i s) := by
    unfold resStorage1R
    rw [if_neg (fun h => absurd h.2 (not_lt.mpr hshort))]
  obtain ⟨b6, e6⟩ := hn.op hA (x := A.add s (resTotalInR A i) - resPetR A i s) h4
    (abs_le.mpr ⟨by linarith, by linarith⟩)
  change |A.sub _ _| ≤ _ at b6
  change |A.sub _ _ - _| ≤ _ at e6
  rw [← hst1] at b6 e6
  have s1n : 0 ≤ resStorage1R A i s := by rw [hst1]; exact sub_nonneg hA hshort
  have s1F : A.F (resStorage1R A i s) := by rw [hst1]; exact sub_F hA _ _
  -- abstraction, minimum, release
  obtain ⟨⟨a0, a1⟩, a2⟩ := resAbstractR_err hA hn (resDemandR A i) (resStorage1R A i s) i.han.cap M hz.machine
    ⟨s1n, (le_abs_self _).trans b6⟩ s1F hz.demand hz.cap
  have f := flush_dist i.minV (resAbstractR A (resDemandR A i) (resStorage1R A i s) i.han.cap).1
  have fb : 0 ≤ resBeforeReleaseR A i s ∧ resBeforeReleaseR A i s ≤ 8 * M := by
    unfold resBeforeReleaseR flush
    split_ifs
    · exact ⟨le_rfl, by linarith⟩
    · exact ⟨a0, a1⟩
  have r := resReleaseR_err hA hn (resBeforeReleaseR A i s) (release (resBeforeReleaseR A i s)) i.han.cap M hz.machine fb
    hz.cap hz.release1 hz.release2
  change |resBeforeReleaseR A i s - (resSOR A i s release).2 - (resSOR A i s release).1| ≤ _ at r
  change |resBeforeReleaseR A i s - _| ≤ _ at f
  simp only [use]
  generalize (resAbstractR A (resDemandR A i) (resStorage1R A i s) i.han.cap) = ab at *
  generalize resSOR A i s release = so at *
  generalize resBeforeReleaseR A i s = bf at *
  generalize resStorage1R A i s = s1 at *
  generalize A.add s (resTotalInR A i) = x at *
  generalize resTotalInR A i = tin at *
  generalize resPetR A i s = pet at *
  generalize A.mul (resEvapR A i s) i.area = ea at *
  generalize A.mul i.precip i.area = pa at *
  generalize max i.minV 0 = mv at *
  rw [abs_le] at *
  constructor <;> linarith

/-! ### River -/

/-- C67, river (station factor 1): storage, inflow, satisfied demand and streamflow balance up to ten roundings, except that
water may be created where the streamflow is set to zero; `M * η` is the underflow of the satisfied fraction. -/
theorem C67_river (minV k s q d M : ℝ) (hM : A.F M) (hs : 0 ≤ s ∧ s ≤ M) (hq : 0 ≤ q ∧ q ≤ M) (hd : |d| ≤ M) (hk : 0 ≤ k)
    (hst : |(riverR A minV 1 k s q d).1| ≤ M) :
    let o := riverR A minV 1 k s q d
    s + q - (o.1 + o.2.1 + (d - o.2.2)) ≤ 10 * (u * M + η) + M * η ∧
    (0 < o.2.1 → |s + q - (o.1 + o.2.1 + (d - o.2.2))| ≤ 10 * (u * M + η) + M * η) := by
  intro o
  have hM0 : 0 ≤ M := hs.1.trans hs.2
  have hE : 0 ≤ u * M := mul_nonneg hn.u0 hM0
  have hη := hn.η0
  have hMη : 0 ≤ M * η := by positivity
  have h2 := hn.dbl M hM
  have h4 : A.F (4 * M) := by have := hn.dbl _ h2; rwa [show 2 * (2 * M) = 4 * M by ring] at this
  have hd' := abs_le.mp hd
  obtain ⟨bx, ex⟩ := hn.op hA (x := q + s) h2 (abs_le.mpr ⟨by linarith, by linarith⟩)
  change |A.add q s| ≤ _ at bx
  change |A.add q s - _| ≤ _ at ex
  have hmul : ∀ f : ℝ, A.F f → A.mul (if f < 0 then 0 else f) 1 = if f < 0 then 0 else f := by
    intro f hf
    unfold Arith.mul
    rw [mul_one]
    split_ifs
    · exact zero_F hA
    · exact hf
  have hmx : 0 ≤ A.add q (A.div (A.mul (A.mul k s) (A.exp (A.mul (-1) k))) (A.sub 1 (A.exp (A.mul (-1) k)))) := by
    refine add_nonneg hA hq.1 (div_nonneg hA (mul_nonneg hA (mul_nonneg hA hk hs.1) (hA.exp_nonneg _)) ?_)
    refine sub_nonneg hA (hA.exp_le_one _ (rnd_nonpos hA (by linarith)))
  simp only [o, riverR] at hst ⊢
  generalize A.add q (A.div (A.mul (A.mul k s) (A.exp (A.mul (-1) k))) (A.sub 1 (A.exp (A.mul (-1) k)))) = mx at *
  by_cases hc : d > mx
  · simp only [if_pos hc]
    have hd0 : d > 0 := lt_of_le_of_lt hmx hc
    simp only [if_pos hd0]
    rw [hmul _ (sub_F hA _ _)]
    have ef := hn.err (K := 3 * M) (x := A.add q s - mx) ((abs_sub _ _).trans (by rw [abs_of_nonneg hmx]; linarith))
    change |A.sub (A.add q s) mx - _| ≤ _ at ef
    generalize A.sub (A.add q s) mx = f at *
    generalize A.add q s = x at *
    have hr0 : 0 ≤ mx / d := by positivity
    have hr1 : mx / d ≤ 1 := (div_le_one hd0).mpr hc.le
    have eg : |A.div mx d - mx / d| ≤ u * 1 + η := hn.err (by rw [abs_of_nonneg hr0]; exact hr1)
    have g0 : 0 ≤ A.div mx d := rnd_nonneg hA hr0
    have g1 : A.div mx d ≤ 1 := rnd_le_one hA hr1
    generalize A.div mx d = g at *
    have hdg : d * g ≤ M := by nlinarith
    obtain ⟨bh, eh⟩ := hn.op hA (x := d * g) hM (by rw [abs_of_nonneg (by positivity)]; exact hdg)
    change |A.mul d g| ≤ _ at bh
    change |A.mul d g - _| ≤ _ at eh
    have h0 : 0 ≤ A.mul d g := rnd_nonneg hA (by positivity)
    generalize A.mul d g = h at *
    have el := hn.err (K := M) (x := d - h) (abs_le.mpr ⟨by linarith [(abs_le.mp bh).2], by linarith⟩)
    change |A.sub d h - _| ≤ _ at el
    generalize A.sub d h = l at *
    -- the satisfied demand
    have key : |d * g - mx| ≤ u * M + M * η := by
      have e : d * g - mx = d * (g - mx / d) := by field_simp
      rw [e, abs_mul, abs_of_pos hd0]
      have : d * |g - mx / d| ≤ M * (u * 1 + η) := mul_le_mul hd'.2 eg (abs_nonneg _) hM0
      linarith
    refine ⟨?_, fun hpos => ?_⟩
    · have hfl : f ≤ (if f < 0 then 0 else f) := by split_ifs <;> linarith
      rw [abs_le] at *
      linarith
    · have hf : ¬ f < 0 := by
        intro h'; rw [if_pos h'] at hpos; exact lt_irrefl _ hpos
      simp only [if_neg hf]
      rw [abs_le] at *
      constructor <;> linarith
  · simp only [if_neg hc] at hst ⊢
    rw [hmul _ (sub_F hA _ _)]
    generalize flush minV _ = st at *
    have h3 : |A.add q s - st| ≤ 3 * M := (abs_sub _ _).trans (by linarith)
    have e1 := hn.err h3
    change |A.sub (A.add q s) st - _| ≤ _ at e1
    have b1 : |A.sub (A.add q s) st| ≤ 4 * M := (hn.op hA h4 (h3.trans (by linarith))).1
    generalize A.sub (A.add q s) st = y at *
    generalize A.add q s = x at *
    have e2 := hn.err (K := 5 * M) (x := y - d) ((abs_sub _ _).trans (by linarith))
    change |A.sub y d - _| ≤ _ at e2
    generalize A.sub y d = f at *
    refine ⟨?_, fun hpos => ?_⟩
    · have hfl : f ≤ (if f < 0 then 0 else f) := by split_ifs <;> linarith
      rw [abs_le] at *
      linarith
    · have hf : ¬ f < 0 := by
        intro h'; rw [if_pos h'] at hpos; exact lt_irrefl _ hpos
      simp only [if_neg hf]
      rw [abs_le] at *
      constructor <;> linarith

/-! ### Soil -/

theorem soilActiveR_err (i : SoilIn) (h : i.Physical) (s0 over0 M : ℝ) (hM : A.F M) (hcfa : i.cfa = 1) (hm : 0 < i.maxSoil)
    (hmM : i.maxSoil ≤ M) (hs0 : 0 ≤ s0) (hs1 : s0 ≤ i.maxSoil) (ho : 0 ≤ over0 ∧ over0 ≤ M) (hoF : A.F over0)
    (heM : i.effPrecip ≤ M) (heF : A.F i.effPrecip) (hpM : i.petToSoil ≤ M) (hpF : A.F i.petToSoil)
    (himM : i.immediate ≤ M) (himF : A.F i.immediate) (hgF : A.F i.maxRecharge) :
    let m := soilActiveR A i s0 over0
    |s0 + over0 + i.effPrecip + i.immediate - (m.soil + m.aet + m.total)| ≤ max i.minV 0 + 53 * (u * M + η) ∧
    m.recharge ≤ m.total ∧ (-(10 * (u * M + η)) ≤ m.aet ∧ m.aet ≤ M) ∧ A.F m.aet ∧ (0 ≤ m.total ∧ m.total ≤ 32 * M) ∧
    0 ≤ m.recharge ∧ (0 ≤ m.soil ∧ m.soil ≤ M) := by
  intro m
  obtain ⟨hpet, _, hce, hen, heff, himm, _, hg, hmr, hf0, hf1, _, _⟩ := h
  have hM0 : 0 ≤ M := hm.le.trans hmM
  have hE : 0 ≤ u * M := mul_nonneg hn.u0 hM0
  have hη := hn.η0
  have hmv : 0 ≤ max i.minV 0 := le_max_right _ _
  have h2 := hn.dbl M hM
  have h4 : A.F (4 * M) := by have := hn.dbl _ h2; rwa [show 2 * (2 * M) = 4 * M by ring] at this
  have h8 : A.F (8 * M) := by have := hn.dbl _ h4; rwa [show 2 * (4 * M) = 8 * M by ring] at this
  have h16 : A.F (16 * M) := by have := hn.dbl _ h8; rwa [show 2 * (8 * M) = 16 * M by ring] at this
  have h32 : A.F (32 * M) := by have := hn.dbl _ h16; rwa [show 2 * (16 * M) = 32 * M by ring] at this
  have one : ∀ x : ℝ, A.F x → A.mul x i.cfa = x := by
    intro x hx; unfold Arith.mul; rw [hcfa, mul_one]; exact hx
  have done : ∀ x : ℝ, A.F x → A.div x i.cfa = x := by
    intro x hx; unfold Arith.div; rw [hcfa, div_one]; exact hx
  simp only [m, soilActiveR]
  have hsat0 : 0 ≤ A.div s0 i.maxSoil := div_nonneg hA hs0 hm.le
  have hsat1 : A.div s0 i.maxSoil ≤ 1 := Arith.div_le_one hA hm hs1
  generalize A.div s0 i.maxSoil = sat at *
  -- runoff
  have hr0 : 0 ≤ A.mul i.effPrecip (A.pow sat i.gamma) := mul_nonneg hA heff (hA.pow_nonneg _ _ hsat0)
  have hr1 : A.mul i.effPrecip (A.pow sat i.gamma) ≤ i.effPrecip :=
    mul_le_left hA heff heF (hA.pow_le_one _ _ hsat0 hsat1 hg)
  have hrF : A.F (A.mul i.effPrecip (A.pow sat i.gamma)) := mul_F hA _ _
  generalize A.mul i.effPrecip (A.pow sat i.gamma) = r at *
  rw [one r hrF, one i.immediate himF]
  -- evapotranspiration
  have ha0 : 0 ≤ min i.petToSoil (A.mul (A.sub i.maxDailyPet i.canopyEvap) sat) :=
    le_min hpet (mul_nonneg hA (sub_nonneg hA hen) hsat0)
  have ha1 : min i.petToSoil (A.mul (A.sub i.maxDailyPet i.canopyEvap) sat) ≤ M := (min_le_left _ _).trans hpM
  have haF : A.F (min i.petToSoil (A.mul (A.sub i.maxDailyPet i.canopyEvap) sat)) := by
    rcases min_choice i.petToSoil (A.mul (A.sub i.maxDailyPet i.canopyEvap) sat) with h | h <;> rw [h]
    · exact hpF
    · exact mul_F hA _ _
  generalize min i.petToSoil (A.mul (A.sub i.maxDailyPet i.canopyEvap) sat) = aet0 at *
  -- soil content
  obtain ⟨b1, e1⟩ := hn.op hA (x := i.effPrecip - aet0) hM (abs_le.mpr ⟨by linarith, by linarith⟩)
  change |A.sub i.effPrecip aet0| ≤ _ at b1
  change |A.sub i.effPrecip aet0 - _| ≤ _ at e1
  generalize A.sub i.effPrecip aet0 = y1 at *
  obtain ⟨b2, e2⟩ := hn.op hA (x := y1 - r) h2 ((abs_sub _ _).trans (by rw [abs_of_nonneg hr0]; linarith))
  change |A.sub y1 r| ≤ _ at b2
  change |A.sub y1 r - _| ≤ _ at e2
  generalize A.sub y1 r = y2 at *
  have x3 : |s0 + y2| ≤ 3 * M := (abs_add_le _ _).trans (by rw [abs_of_nonneg hs0]; linarith)
  have e3 := hn.err x3
  have b3 := (hn.op hA h4 (x3.trans (by linarith))).1
  have f3 : A.F (A.add s0 y2) := add_F hA _ _
  change |A.add s0 y2| ≤ _ at b3
  change |A.add s0 y2 - _| ≤ _ at e3
  generalize A.add s0 y2 = s1 at *
  have efl : |(if |s1| ≤ i.minV then 0 else s1) - s1| ≤ max i.minV 0 ∧ |if |s1| ≤ i.minV then 0 else s1| ≤ 4 * M ∧
      A.F (if |s1| ≤ i.minV then 0 else s1) := by
    split_ifs with h
    · refine ⟨?_, ?_, zero_F hA⟩
      · rw [zero_sub, abs_neg]; exact h.trans (le_max_left _ _)
      · rw [abs_zero]; linarith
    · refine ⟨?_, b3, f3⟩
      rw [sub_self, abs_zero]; exact hmv
  have hneg : -(6 * (u * M + η)) ≤ aet0 + (if |s1| ≤ i.minV then 0 else s1) := by
    split_ifs with h
    · linarith
    · rw [abs_le] at e1 e2 e3
      linarith [e1.1, e1.2, e2.1, e2.2, e3.1, e3.2]
  generalize (if |s1| ≤ i.minV then 0 else s1) = s2 at *
  obtain ⟨efl, b4, f4⟩ := efl
  -- evapotranspiration cut by the storage
  have ecut : |(if s2 < 0 then A.add aet0 s2 else aet0) + (if s2 < 0 then 0 else s2) - (aet0 + s2)| ≤ 4 * (u * M + η) ∧
      (-(10 * (u * M + η)) ≤ (if s2 < 0 then A.add aet0 s2 else aet0) ∧ (if s2 < 0 then A.add aet0 s2 else aet0) ≤ M) ∧
      A.F (if s2 < 0 then A.add aet0 s2 else aet0) ∧
      (0 ≤ (if s2 < 0 then 0 else s2) ∧ (if s2 < 0 then 0 else s2) ≤ 4 * M) ∧ A.F (if s2 < 0 then 0 else s2) := by
    have b4' := abs_le.mp b4
    split_ifs with h
    · have e := hn.err (K := 4 * M) (x := aet0 + s2) (abs_le.mpr ⟨by linarith, by linarith⟩)
      change |A.add aet0 s2 - _| ≤ _ at e
      refine ⟨?_, ⟨by linarith [(abs_le.mp e).1], rnd_le hA hM (by linarith)⟩, rnd_F hA _, ⟨le_rfl, by linarith⟩, zero_F hA⟩
      rw [add_zero]
      refine e.trans (by linarith)
    · refine ⟨?_, ⟨by linarith, ha1⟩, haF, ⟨not_lt.mp h, b4'.2⟩, f4⟩
      rw [sub_self, abs_zero]; linarith
  generalize (if s2 < 0 then A.add aet0 s2 else aet0) = aet at *
  generalize (if s2 < 0 then 0 else s2) = s3 at *
  obtain ⟨ecut, a2, a3, ⟨c0, c1⟩, c2⟩ := ecut
  -- recharge
  have hg0 : 0 ≤ min i.maxRecharge (A.mul i.rechargeFactor r) := le_min hmr (mul_nonneg hA hf0 hr0)
  have hg1 : min i.maxRecharge (A.mul i.rechargeFactor r) ≤ r := (min_le_right _ _).trans (mul_le_right hA hr0 hrF hf1)
  have hgF' : A.F (min i.maxRecharge (A.mul i.rechargeFactor r)) := by
    rcases min_choice i.maxRecharge (A.mul i.rechargeFactor r) with h | h <;> rw [h]
    · exact hgF
    · exact mul_F hA _ _
  generalize min i.maxRecharge (A.mul i.rechargeFactor r) = rg0 at *
  have hdry : ∃ pot rg : ℝ, (0 ≤ pot ∧ pot ≤ r) ∧ A.F pot ∧ (0 ≤ rg ∧ rg ≤ A.sub r pot) ∧
      (open Classical in (if (i.humidArid = 1 ∧ i.texture < 21 ∧ i.drainage ≥ 0) ∧ i.precip ≤ i.critPrecip then rg0 else 0) = pot) ∧
      (open Classical in (if (i.humidArid = 1 ∧ i.texture < 21 ∧ i.drainage ≥ 0) ∧ i.precip ≤ i.critPrecip then 0 else rg0) = rg) := by
    refine ⟨_, _, ?_, ?_, ?_, rfl, rfl⟩ <;> by_cases hP : (i.humidArid = 1 ∧ i.texture < 21 ∧ i.drainage ≥ 0) ∧ i.precip ≤ i.critPrecip
    · rw [if_pos hP]; exact ⟨hg0, hg1⟩
    · rw [if_neg hP]; exact ⟨le_rfl, hr0⟩
    · rw [if_pos hP]; exact hgF'
    · rw [if_neg hP]; exact zero_F hA
    · rw [if_pos hP, if_pos hP]; exact ⟨le_rfl, sub_nonneg hA hg1⟩
    · rw [if_neg hP, if_neg hP]; unfold Arith.sub; rw [sub_zero, hrF]; exact ⟨hg0, hg1⟩
  obtain ⟨pot, rg, ⟨hp0, hp1⟩, hpotF, ⟨hrg0, hrg⟩, hpe, hrge⟩ := hdry
  rw [hpe, hrge, done pot hpotF]
  obtain ⟨b5, e5⟩ := hn.op hA (x := r - pot) hM (abs_le.mpr ⟨by linarith, by linarith⟩)
  have hr40 : 0 ≤ A.sub r pot := sub_nonneg hA hp1
  change |A.sub r pot| ≤ _ at b5
  change |A.sub r pot - _| ≤ _ at e5
  generalize A.sub r pot = r4 at *
  -- storage above the maximum
  have x6 : |s3 + pot| ≤ 5 * M := abs_le.mpr ⟨by linarith, by linarith⟩
  have e6 := hn.err x6
  have b6 := (hn.op hA h8 (x6.trans (by linarith))).1
  have hs40 : 0 ≤ A.add s3 pot := add_nonneg hA c0 hp0
  change |A.add s3 pot| ≤ _ at b6
  change |A.add s3 pot - _| ≤ _ at e6
  generalize A.add s3 pot = s4 at *
  have b6' := (abs_le.mp b6).2
  have eov : |(if s4 > i.maxSoil then A.add over0 (A.sub s4 i.maxSoil) else over0) + (if s4 > i.maxSoil then i.maxSoil else s4) -
        (over0 + s4)| ≤ 17 * (u * M + η) ∧
      (0 ≤ (if s4 > i.maxSoil then A.add over0 (A.sub s4 i.maxSoil) else over0) ∧
        (if s4 > i.maxSoil then A.add over0 (A.sub s4 i.maxSoil) else over0) ≤ 16 * M) ∧
      A.F (if s4 > i.maxSoil then A.add over0 (A.sub s4 i.maxSoil) else over0) := by
    by_cases h : s4 > i.maxSoil
    · simp only [if_pos h]
      obtain ⟨b, e⟩ := hn.op hA (x := s4 - i.maxSoil) h8 (abs_le.mpr ⟨by linarith, by linarith⟩)
      have hnn : 0 ≤ A.sub s4 i.maxSoil := sub_nonneg hA h.le
      change |A.sub s4 i.maxSoil| ≤ _ at b
      change |A.sub s4 i.maxSoil - _| ≤ _ at e
      generalize A.sub s4 i.maxSoil = d at *
      have b' := (abs_le.mp b).2
      have x7 : |over0 + d| ≤ 9 * M := abs_le.mpr ⟨by linarith [ho.1], by linarith [ho.2]⟩
      have e7 := hn.err x7
      have b7 := (hn.op hA h16 (x7.trans (by linarith))).1
      refine ⟨?_, ⟨add_nonneg hA ho.1 hnn, (abs_le.mp b7).2⟩, add_F hA _ _⟩
      change |A.add over0 d - _| ≤ _ at e7
      rw [abs_le] at e e7 ⊢
      constructor <;> linarith [e.1, e.2, e7.1, e7.2]
    · simp only [if_neg h]
      refine ⟨?_, ⟨ho.1, by linarith [ho.2]⟩, hoF⟩
      rw [sub_self, abs_zero]; positivity
  generalize (if s4 > i.maxSoil then A.add over0 (A.sub s4 i.maxSoil) else over0) = over1 at *
  have hs5 : 0 ≤ (if s4 > i.maxSoil then i.maxSoil else s4) ∧ (if s4 > i.maxSoil then i.maxSoil else s4) ≤ M := by
    split_ifs with h
    · exact ⟨hm.le, hmM⟩
    · exact ⟨hs40, (not_lt.mp h).trans hmM⟩
  generalize (if s4 > i.maxSoil then i.maxSoil else s4) = s5 at *
  obtain ⟨eov, ⟨ov0, ov1⟩, ovF⟩ := eov
  rw [one over1 ovF]
  -- total runoff
  have b5' := (abs_le.mp b5).2
  obtain ⟨b8, e8⟩ := hn.op hA (x := r4 + i.immediate) h2 (abs_le.mpr ⟨by linarith, by linarith⟩)
  have h80 : 0 ≤ A.add r4 i.immediate := add_nonneg hA hr40 himm
  have h8r : A.rnd rg ≤ A.add r4 i.immediate := hA.mono (by linarith)
  change |A.add r4 i.immediate| ≤ _ at b8
  change |A.add r4 i.immediate - _| ≤ _ at e8
  have f8 : A.F (A.add r4 i.immediate) := add_F hA _ _
  generalize A.add r4 i.immediate = t1 at *
  have b8' := (abs_le.mp b8).2
  have e9 := hn.err (K := 18 * M) (x := t1 + over1) (abs_le.mpr ⟨by linarith, by linarith⟩)
  have h90 : 0 ≤ A.add t1 over1 := add_nonneg hA h80 ov0
  have h9r : t1 ≤ A.add t1 over1 := by
    have := hA.mono (show t1 ≤ t1 + over1 by linarith)
    rw [f8] at this; exact this
  change |A.add t1 over1 - _| ≤ _ at e9
  have hrgF : A.rnd rg = rg := by
    rw [← hrge]
    by_cases hP : (i.humidArid = 1 ∧ i.texture < 21 ∧ i.drainage ≥ 0) ∧ i.precip ≤ i.critPrecip
    · rw [if_pos hP]; exact zero_F hA
    · rw [if_neg hP]; exact hgF'
  rw [hrgF] at h8r
  refine ⟨?_, h8r.trans h9r, a2, a3, ⟨h90, rnd_le hA h32 (by linarith)⟩, hrg0, hs5⟩
  rw [abs_le] at e1 e2 e3 efl ecut e5 e6 eov e8 e9 ⊢
  constructor <;> linarith [e1.1, e2.1, e3.1, efl.1, ecut.1, e5.1, e6.1, eov.1, e8.1, e9.1,
    e1.2, e2.2, e3.2, efl.2, ecut.2, e5.2, e6.2, eov.2, e8.2, e9.2]

/-- C67 (soil).  With an areal correction of one and no water arriving on frozen ground (`C67_frozen_cell`), the water entering the
soil routine (old storage on the new land area, effective precipitation, immediate runoff, and the canopy evaporation and
sublimation it passes on) leaves it as soil water, total runoff and land evapotranspiration, up to the flushed remainder and 140
roundings; the total runoff is groundwater recharge and surface runoff up to 32 roundings. -/
theorem C67_soil (i : SoilIn) (h : i.Physical) (soil M : ℝ) (hM : A.F M) (hcfa : i.cfa = 1) (hfr : 0 < i.frac)
    (hm : 0 < i.maxSoil) (hcold : i.maxTempElev ≤ i.freezeTemp → i.effPrecip = 0 ∧ i.immediate = 0)
    (hmM : i.maxSoil ≤ M) (hs : 0 ≤ soil) (hsM : soil * i.ratio ≤ M)
    (heM : i.effPrecip ≤ M) (heF : A.F i.effPrecip) (hpM : i.petToSoil ≤ M) (hpF : A.F i.petToSoil)
    (himM : i.immediate ≤ M) (himF : A.F i.immediate) (hgF : A.F i.maxRecharge)
    (hcM : i.canopyEvap ≤ M) (hsubM : i.sublimation ≤ M) (hu : u ≤ 1 / 100) (hηM : η ≤ M / 100) :
    let o := soilR A i soil
    |soil * i.ratio + i.effPrecip + i.immediate + i.canopyEvap + i.sublimation - (o.soil + o.total + o.landAet)| ≤
      max i.minV 0 + 140 * (u * M + η) ∧
    |o.total - (o.recharge + o.surfaceRunoff)| ≤ 32 * (u * M + η) := by
  have hM0 : 0 ≤ M := hm.le.trans hmM
  have hE : 0 ≤ u * M := mul_nonneg hn.u0 hM0
  have hη := hn.η0
  have h2 := hn.dbl M hM
  have hx0 : 0 ≤ soil * i.ratio := _root_.mul_nonneg hs h.ratio
  obtain ⟨b1, e1⟩ := hn.op hA (x := soil * i.ratio) hM (by rw [abs_of_nonneg hx0]; exact hsM)
  have hsr0 : 0 ≤ A.mul soil i.ratio := mul_nonneg hA hs h.ratio
  have hsrF : A.F (A.mul soil i.ratio) := mul_F hA _ _
  change |A.mul soil i.ratio| ≤ _ at b1
  change |A.mul soil i.ratio - _| ≤ _ at e1
  have hsr1 := (abs_le.mp b1).2
  simp only [soilR, if_pos hfr, soilLandR, gt_iff_lt, if_pos hm]
  have hov : ∃ s0 over0, (if i.maxSoil < A.mul soil i.ratio then i.maxSoil else A.mul soil i.ratio) = s0 ∧
      (if i.maxSoil < A.mul soil i.ratio then A.sub (A.mul soil i.ratio) i.maxSoil else 0) = over0 ∧
      0 ≤ s0 ∧ s0 ≤ i.maxSoil ∧ (0 ≤ over0 ∧ over0 ≤ M) ∧ A.F over0 ∧ |over0 + s0 - A.mul soil i.ratio| ≤ u * M + η := by
    refine ⟨_, _, rfl, rfl, ?_⟩
    by_cases hc : i.maxSoil < A.mul soil i.ratio
    · simp only [if_pos hc]
      obtain ⟨b, e⟩ := hn.op hA (x := A.mul soil i.ratio - i.maxSoil) hM (abs_le.mpr ⟨by linarith, by linarith⟩)
      refine ⟨hm.le, le_rfl, ⟨sub_nonneg hA hc.le, (abs_le.mp b).2⟩, sub_F hA _ _, ?_⟩
      change |A.sub _ _ - _| ≤ _ at e
      rw [abs_le] at e ⊢
      constructor <;> linarith [e.1, e.2]
    · simp only [if_neg hc]
      refine ⟨hsr0, not_lt.mp hc, ⟨le_rfl, hM0⟩, zero_F hA, ?_⟩
      rw [zero_add, sub_self, abs_zero]; linarith
  obtain ⟨s0, over0, hs0e, hoe, hs0, hs1, ho, hoF, e2⟩ := hov
  rw [hs0e, hoe]
  have hmid : ∃ m : SoilMid, (if i.freezeTemp < i.maxTempElev then soilActiveR A i s0 over0 else
      { soil := s0, recharge := 0, aet := 0, saturation := 0, dailyRunoff := 0, overflow := A.mul over0 i.cfa,
        immediate := i.immediate, total := A.mul over0 i.cfa }) = m ∧
      |s0 + over0 + i.effPrecip + i.immediate - (m.soil + m.aet + m.total)| ≤ max i.minV 0 + 53 * (u * M + η) ∧
      m.recharge ≤ m.total ∧ (-(10 * (u * M + η)) ≤ m.aet ∧ m.aet ≤ M) ∧ A.F m.aet ∧ (0 ≤ m.total ∧ m.total ≤ 32 * M) ∧
      0 ≤ m.recharge ∧ (0 ≤ m.soil ∧ m.soil ≤ M) := by
    refine ⟨_, rfl, ?_⟩
    by_cases hw : i.freezeTemp < i.maxTempElev
    · rw [if_pos hw]
      exact soilActiveR_err hA hn i h s0 over0 M hM hcfa hm hmM hs0 hs1 ho hoF heM heF hpM hpF himM himF hgF
    · rw [if_neg hw]
      obtain ⟨z1, z2⟩ := hcold (not_lt.mp hw)
      have hone : A.mul over0 i.cfa = over0 := by unfold Arith.mul; rw [hcfa, mul_one]; exact hoF
      simp only [hone]
      refine ⟨?_, ho.1, ⟨by linarith, hM0⟩, zero_F hA, ⟨ho.1, by linarith [ho.2]⟩, le_rfl, hs0, hs1.trans hmM⟩
      rw [z1, z2, show s0 + over0 + 0 + 0 - (s0 + 0 + over0) = 0 by ring, abs_zero]
      have := le_max_right i.minV 0
      linarith
  obtain ⟨m, hme, e3, hrt, ⟨ha0, ha1⟩, haF, ⟨ht0, ht1⟩, hrc, hsl0, hsl1⟩ := hmid
  rw [hme]
  have hEM : 42 * (u * M + η) ≤ M := by
    have : u * M ≤ 1 / 100 * M := mul_le_mul_of_nonneg_right hu hM0
    linarith
  -- land evapotranspiration
  obtain ⟨b4, e4⟩ := hn.op hA (x := m.aet + i.canopyEvap) h2
    (abs_le.mpr ⟨by linarith [h.canopyEvap], by linarith [h.canopyEvap]⟩)
  have n4 : m.aet ≤ A.add m.aet i.canopyEvap := le_rnd hA haF (by linarith [h.canopyEvap])
  have f4 : A.F (A.add m.aet i.canopyEvap) := add_F hA _ _
  change |A.add _ _| ≤ _ at b4
  change |A.add _ _ - _| ≤ _ at e4
  generalize A.add m.aet i.canopyEvap = a1 at *
  have b4' := (abs_le.mp b4).2
  have e5 := hn.err (K := 3 * M) (x := a1 + i.sublimation) (abs_le.mpr ⟨by linarith [h.subl], by linarith [h.subl]⟩)
  have n5 : a1 ≤ A.add a1 i.sublimation := le_rnd hA f4 (by linarith [h.subl])
  have f5 : A.F (A.add a1 i.sublimation) := add_F hA _ _
  change |A.add _ _ - _| ≤ _ at e5
  generalize A.add a1 i.sublimation = a2 at *
  have hcorr : ∀ lsc : ℝ, corrAetR A i.cfa lsc i.precip a2 = a2 := by
    intro lsc
    have hz : A.rnd 0 = 0 := zero_F hA
    have ha2 : A.rnd a2 = a2 := f5
    simp [corrAetR, hcfa, Arith.sub, Arith.mul, Arith.add, hz, ha2]
  rw [hcorr]
  have hst : |soilTotalR A m.total a2 + (if a2 < 0 then 0 else a2) - (m.total + a2)| ≤ 32 * (u * M + η) ∧
      m.total - 42 * (u * M + η) ≤ soilTotalR A m.total a2 ∧
      soilTotalR A m.total a2 ≤ 32 * M := by
    by_cases hneg : a2 < 0
    · have h32 : A.F (32 * M) := by
        have h4 := hn.dbl _ h2
        have h8 := hn.dbl _ h4
        have h16 := hn.dbl _ h8
        have := hn.dbl _ h16
        rwa [show 2 * (2 * (2 * (2 * (2 * M)))) = 32 * M by ring] at this
      obtain ⟨b, e⟩ := hn.op hA (x := m.total + a2) h32 (abs_le.mpr ⟨by linarith, by linarith⟩)
      change |A.add _ _ - _| ≤ _ at e
      simp only [soilTotalR, if_pos hneg]
      rw [abs_le] at e ⊢
      by_cases hc : A.add m.total a2 < 0
      · simp only [if_pos hc]
        refine ⟨⟨?_, ?_⟩, ?_, ?_⟩ <;> linarith [e.1, e.2]
      · simp only [if_neg hc]
        have := (abs_le.mp b).2
        change A.add m.total a2 ≤ _ at this
        refine ⟨⟨?_, ?_⟩, ?_, ?_⟩ <;> linarith [e.1, e.2]
    · have : soilTotalR A m.total a2 = m.total := by simp [soilTotalR, hneg, not_lt.mpr ht0]
      rw [this, if_neg hneg, sub_self, abs_zero]
      exact ⟨by positivity, by linarith, ht1⟩
  obtain ⟨est, elow, eup⟩ := hst
  generalize soilTotalR A m.total a2 = t2 at *
  generalize (if a2 < 0 then 0 else a2) = la at *
  have hfin : |(soilFinishR A m.soil m.recharge t2).1 - m.soil| ≤ 44 * (u * M + η) := by
    unfold soilFinishR
    by_cases hc : A.sub t2 m.recharge < 0
    · simp only [if_pos hc]
      have hlt : t2 < m.recharge := by
        by_contra hge
        exact absurd hc (not_lt.mpr (sub_nonneg hA (not_lt.mp hge)))
      have e := hn.err (K := M) (x := t2 - m.recharge) (abs_le.mpr ⟨by linarith, by linarith⟩)
      change |A.sub _ _ - _| ≤ _ at e
      have hd : -(43 * (u * M + η)) ≤ A.sub t2 m.recharge := by linarith [(abs_le.mp e).1]
      have hdM : -M ≤ A.sub t2 m.recharge := by
        have := le_rnd hA (x := -M) (y := t2 - m.recharge) (by have := neg_F hA hM; exact this) (by linarith)
        exact this
      generalize A.sub t2 m.recharge = d at *
      obtain ⟨-, e'⟩ := hn.op hA (x := m.soil + d) hM (abs_le.mpr ⟨by linarith, by linarith⟩)
      change |A.add _ _ - _| ≤ _ at e'
      rw [abs_le] at e' ⊢
      split_ifs <;> constructor <;> linarith [e'.1, e'.2]
    · simp only [if_neg hc, sub_self, abs_zero]; positivity
  have hsplit : |t2 - ((soilFinishR A m.soil m.recharge t2).2.1 + (soilFinishR A m.soil m.recharge t2).2.2)| ≤
      32 * (u * M + η) := by
    unfold soilFinishR
    by_cases hc : A.sub t2 m.recharge < 0
    · have hz : A.sub t2 t2 = 0 := by unfold Arith.sub; rw [sub_self]; exact zero_F hA
      simp only [if_pos hc, hz, add_zero, sub_self, abs_zero]; positivity
    · simp only [if_neg hc]
      have hle : -(32 * M) ≤ t2 - m.recharge := by linarith
      have e := hn.err (K := 32 * M) (x := t2 - m.recharge) (abs_le.mpr ⟨hle, by linarith⟩)
      change |A.sub _ _ - _| ≤ _ at e
      rw [abs_le] at e ⊢
      constructor <;> linarith [e.1, e.2]
  refine ⟨?_, hsplit⟩
  generalize (soilFinishR A m.soil m.recharge t2).1 = sl at *
  rw [abs_le] at e1 e2 e3 e4 e5 est hfin ⊢
  constructor <;> linarith [e1.1, e1.2, e2.1, e2.2, e3.1, e3.2, e4.1, e4.2, e5.1, e5.2, est.1, est.2, hfin.1, hfin.2]

end

/-! ### Examples: binary64, volumes up to 2¹⁴ -/

/-- The rounding unit for volumes up to 2¹⁴. -/
theorem unit14 : (2 : ℝ) ^ (-53 : ℤ) * 16384 + 2 ^ (-1075 : ℤ) ≤ 2 ^ (-38 : ℤ) := by
  have : (2 : ℝ) ^ (-1075 : ℤ) ≤ 2 ^ (-39 : ℤ) := zpow_le_zpow_right₀ (by norm_num) (by norm_num)
  have e : (2 : ℝ) ^ (-53 : ℤ) * 16384 = 2 ^ (-39 : ℤ) := by norm_num
  have e2 : (2 : ℝ) ^ (-38 : ℤ) = 2 ^ (-39 : ℤ) + 2 ^ (-39 : ℤ) := by norm_num
  rw [e, e2]; linarith

theorem units14 (c b : ℝ) (hc : 0 ≤ c) (h : c * 2 ^ (-38 : ℤ) ≤ b) :
    c * ((2 : ℝ) ^ (-53 : ℤ) * 16384 + 2 ^ (-1075 : ℤ)) ≤ b := (mul_le_mul_of_nonneg_left unit14 hc).trans h

theorem eta14 : (2 : ℝ) ^ (-1075 : ℤ) ≤ 1 := zpow_le_one_of_nonpos₀ (by norm_num) (by norm_num)

theorem nat64 (n : ℕ) (h : n ≤ 2 ^ 53) : binary64.F (n : ℝ) := binary64_ok.nat n h

/-- A canopy of 2 mm under 5 mm of rain balances to within 10⁻¹⁰ mm. -/
example : let o := canopyR binary64 2 3 1 5 0.5 1 0.25 0
    |5 - o.throughfall - o.evap - (o.storage - 2 * 1)| ≤ 1e-10 := by
  have h := C67_canopy binary64_ok binary64_near 2 3 1 5 0.5 1 0.25 0 16384 (by exact_mod_cast nat64 16384 (by norm_num))
    (by norm_num) (by norm_num) (by norm_num) (by exact_mod_cast nat64 5 (by norm_num)) (by norm_num) (by norm_num)
    (by norm_num) (by norm_num) (by norm_num) (by norm_num)
  refine h.trans ?_
  rw [max_self, zero_add]; exact units14 _ _ (by norm_num) (by norm_num)

/-- A snow day. -/
noncomputable def demoSnow : SnowPar :=
  { temperature := 270, precip := 3, throughfall := 2, petToSoil := 1, degreeday := 2, meanElev := 0, lapse := 0.006,
    freezeTemp := 273, meltTemp := 273 }

example : let o := bandStepR binary64 demoSnow 275 4
    |4 + demoSnow.throughfall - o.rain - o.sublimation - o.melt - o.storage| ≤ 1e-10 := by
  have h := C67_snow_band binary64_ok binary64_near demoSnow 275 4 16384
    (by exact_mod_cast nat64 16384 (by norm_num)) (by norm_num) (by norm_num [demoSnow]) (by norm_num [demoSnow])
    (by norm_num [demoSnow]) (by norm_num [demoSnow])
  exact h.trans (units14 _ _ (by norm_num) (by norm_num))

example : |(5 : ℝ) - (immediateR binary64 5 0.5 0.1).1 - (immediateR binary64 5 0.5 0.1).2| ≤ 1e-10 := by
  have h5 : binary64.F 5 := by exact_mod_cast nat64 5 (by norm_num)
  have h := C65_immediate binary64_ok 5 0.5 0.1 (by norm_num) h5 (by norm_num) (by norm_num) (by norm_num)
  have hb : |5 - (immediateR binary64 5 0.5 0.1).2| ≤ 16384 := abs_le.mpr ⟨by linarith [h.2.2], by linarith [h.2.1]⟩
  exact (C67_immediate binary64_near 5 0.5 0.1 16384 hb).trans (unit14.trans (by norm_num))

example : let o := soilR binary64 demoSoil 50
    |50 * 1 + 5 + 0 + 0 + 0 - (o.soil + o.total + o.landAet)| ≤ 1e-9 := by
  have h := C67_soil binary64_ok binary64_near demoSoil (by constructor <;> norm_num [demoSoil]) 50 16384
    (by exact_mod_cast nat64 16384 (by norm_num)) rfl (by norm_num [demoSoil]) (by norm_num [demoSoil])
    (by norm_num [demoSoil]) (by norm_num [demoSoil]) (by norm_num) (by norm_num [demoSoil]) (by norm_num [demoSoil])
    (by exact_mod_cast nat64 5 (by norm_num)) (by norm_num [demoSoil])
    (by exact_mod_cast nat64 1 (by norm_num)) (by norm_num [demoSoil])
    (by exact_mod_cast nat64 0 (by norm_num)) (by exact_mod_cast nat64 7 (by norm_num)) (by norm_num [demoSoil])
    (by norm_num [demoSoil]) (by norm_num) (eta14.trans (by norm_num))
  refine le_trans (le_of_eq ?_) (h.1.trans ?_)
  · rfl
  · have e0 : max demoSoil.minV 0 = 0 := by simp [demoSoil]
    rw [e0, zero_add]; exact units14 _ _ (by norm_num) (by norm_num)


/-- Every number is below some machine number. -/
theorem machine_above (x : ℝ) : ∃ M : ℝ, 4 ≤ M ∧ x ≤ M ∧ binary64.F M := by
  obtain ⟨n, hn⟩ := pow_unbounded_of_one_lt x (by norm_num : (1 : ℝ) < 2)
  refine ⟨2 ^ (n + 2), ?_, ?_, ?_⟩
  · have : (1 : ℝ) ≤ 2 ^ n := one_le_pow₀ (by norm_num)
    rw [pow_add]; linarith
  · have : (0 : ℝ) ≤ 2 ^ n := by positivity
    rw [pow_add]; linarith
  · have := fl64_fix 1 ((n : ℤ) + 2) (by norm_num) (by omega)
    simpa [Arith.F, binary64, zpow_add₀, pow_add] using this

/-- A groundwater storage of 4 with an inflow of 1, whatever the outflow coefficient. -/
example (k : ℝ) : ∃ M : ℝ, |4 + 1 - (gwStorageR binary64 4 1 k).2 - (gwStorageR binary64 4 1 k).1|
    ≤ 6 * (2 ^ (-53 : ℤ) * M + 2 ^ (-1075 : ℤ)) := by
  obtain ⟨M, h4, hM, -⟩ := machine_above |(gwStorageR binary64 4 1 k).1|
  exact ⟨M, C67_groundwater binary64_near 4 1 k M (by rw [abs_of_nonneg (by norm_num)]; exact h4)
    (by rw [abs_of_nonneg (by norm_num)]; linarith) hM (by norm_num) (eta14.trans (by linarith))⟩

example (k : ℝ) : ∃ M : ℝ, |4 + (1 + -2) - ((gwRunR binary64 k 4 [1, -2]).map Prod.snd).sum
      - ((gwRunR binary64 k 4 [1, -2]).map Prod.fst).getLastD 4| ≤ 2 * (6 * (2 ^ (-53 : ℤ) * M + 2 ^ (-1075 : ℤ))) := by
  obtain ⟨M, h4, hM, -⟩ := machine_above (((gwRunR binary64 k 4 [1, -2]).map fun o => |o.1|).sum)
  refine ⟨M, ?_⟩
  have h := C67_groundwater_run binary64_near k M (by norm_num) (eta14.trans (by linarith)) [1, -2] 4
    (by rw [abs_of_nonneg (by norm_num)]; exact h4)
    (by intro x hx; simp at hx; rcases hx with rfl | rfl <;> rw [abs_le] <;> constructor <;> linarith)
    (by
      intro o ho
      refine le_trans ?_ hM
      refine List.single_le_sum ?_ _ (List.mem_map_of_mem ho)
      intro x hx
      obtain ⟨y, -, rfl⟩ := List.mem_map.mp hx
      exact abs_nonneg _)
  simpa using h

theorem demoLake_size (kind : LakeKind) (hk : kind ≠ .globalLake) : LakeSize binary64 kind demoLake 4 16384 := by
  have z : binary64.rnd 0 = 0 := Arith.zero_F binary64_ok
  have hp : lakeEvapR binary64 kind demoLake 4 = 0 := by
    simp [lakeEvapR, demoLake, Arith.mul, Arith.add, Arith.sub, z, hk]
  refine ⟨by exact_mod_cast nat64 16384 (by norm_num), by norm_num, by norm_num [demoLake], by norm_num [demoLake],
    by norm_num [demoLake], by rw [hp]; norm_num, ?_, ?_⟩
  · simp [lakeGwrR, demoLake]
  · simp [lakeDemandR, hk]

theorem demoLake_enough (kind : LakeKind) (hk : kind ≠ .globalLake) :
    ¬ lakePetR binary64 kind demoLake 4 > lakePetMaxR binary64 kind demoLake 4 := by
  have z : binary64.rnd 0 = 0 := Arith.zero_F binary64_ok
  have h0 : lakePetR binary64 kind demoLake 4 = 0 := by
    have hp : lakeEvapR binary64 kind demoLake 4 = 0 := by
      simp [lakeEvapR, demoLake, Arith.mul, Arith.add, Arith.sub, z, hk]
    have hg : lakeGwrR binary64 kind demoLake 4 = 0 := by simp [lakeGwrR, demoLake]
    have hd : lakeDemandR binary64 kind demoLake = 0 := by simp [lakeDemandR, hk]
    simp [lakePetR, hp, hg, hd, Arith.mul, Arith.add, z]
  have hin : 0 ≤ lakeTotalInR binary64 kind demoLake 4 := by
    refine Arith.add_nonneg binary64_ok (by norm_num [demoLake]) ?_
    have : demoLake.precip = 0 := rfl
    rw [this]; unfold Arith.mul; rw [zero_mul, z]
  rw [h0, gt_iff_lt, not_lt]
  have h4 : (0 : ℝ) ≤ demoLake.maxStorage := by norm_num [demoLake]
  cases kind
  all_goals first
    | exact absurd rfl hk
    | exact Arith.add_nonneg binary64_ok (Arith.add_nonneg binary64_ok (by norm_num) h4) hin
    | exact Arith.add_nonneg binary64_ok (by norm_num) hin

example : |4 + 3 + 0 * lakeAreaR binary64 .localLake demoLake 4 - ((lakeSOR binary64 .localLake demoLake 4).1
      + (lakeSOR binary64 .localLake demoLake 4).2 + lakeEvapR binary64 .localLake demoLake 4 * lakeAreaR binary64 .localLake demoLake 4
      + lakeGwrR binary64 .localLake demoLake 4 + lakeDemandR binary64 .localLake demoLake)|
    ≤ 36 * (2 ^ (-53 : ℤ) * 16384 + 2 ^ (-1075 : ℤ)) :=
  C67_local_lake binary64_ok binary64_near .localLake demoLake 4 16384 (demoLake_size _ (by decide)) (Or.inl rfl)
    (by norm_num [demoLake]) (demoLake_enough _ (by decide))

example : -5 - 17 * ((2 : ℝ) ^ (-53 : ℤ) * 16384 + 2 ^ (-1075 : ℤ)) ≤ (lakeSOR binary64 .localLake demoLake 4).1 :=
  C67_local_lake_floor binary64_ok binary64_near .localLake demoLake 4 16384 (demoLake_size _ (by decide)) rfl

example : ∃ M : ℝ, |4 + 3 + 0 * lakeAreaR binary64 .globalWetland demoLake 4 - ((lakeSOR binary64 .globalWetland demoLake 4).1
      + (lakeSOR binary64 .globalWetland demoLake 4).2
      + lakeEvapR binary64 .globalWetland demoLake 4 * lakeAreaR binary64 .globalWetland demoLake 4
      + lakeGwrR binary64 .globalWetland demoLake 4 + lakeDemandR binary64 .globalWetland demoLake)|
    ≤ 48 * (2 ^ (-53 : ℤ) * M + 2 ^ (-1075 : ℤ)) := by
  obtain ⟨M, -, hM, hF⟩ := machine_above (16384 + |lakeAnalyticR binary64 .globalWetland demoLake 4|)
  have ha := abs_nonneg (lakeAnalyticR binary64 .globalWetland demoLake 4)
  have hz := demoLake_size .globalWetland (by decide)
  have hle : (16384 : ℝ) ≤ M := by linarith
  exact ⟨M, C67_global_lake binary64_ok binary64_near .globalWetland demoLake 4 M
    ⟨hF, hz.storage.trans hle, ⟨hz.max.1, hz.max.2.trans hle⟩, ⟨hz.inflow.1, hz.inflow.2.trans hle⟩,
      ⟨hz.precip.1, hz.precip.2.trans hle⟩, ⟨hz.evap.1, hz.evap.2.trans hle⟩, ⟨hz.gwr.1, hz.gwr.2.trans hle⟩,
      ⟨hz.demand.1, hz.demand.2.trans hle⟩⟩ (Or.inr rfl) (demoLake_enough _ (by decide)) (by linarith)⟩

/-- A reservoir without losses. -/
noncomputable def losslessRes : ResIn := { demoRes with openPet := 0, arid := false, precip := 0 }

example : let use := resDemandR binary64 losslessRes - (resAbstractR binary64 (resDemandR binary64 losslessRes) (resStorage1R binary64 losslessRes 8) 10).2
    |8 + 0.01 + 0 * 20 - ((resSOR binary64 losslessRes 8 fun _ => 5).1 + (resSOR binary64 losslessRes 8 fun _ => 5).2
      + resEvapR binary64 losslessRes 8 * 20 + resGwrR binary64 losslessRes 8 + use)| ≤ 1e-8 := by
  have z : binary64.rnd 0 = 0 := Arith.zero_F binary64_ok
  have hF : binary64.F 16384 := by exact_mod_cast nat64 16384 (by norm_num)
  have h1F : binary64.F 1 := by exact_mod_cast nat64 1 (by norm_num)
  have he : resEvapR binary64 losslessRes 8 = 0 := by
    simp [resEvapR, losslessRes, demoRes, Arith.mul, Arith.add, Arith.sub, z]
  have hg : resGwrR binary64 losslessRes 8 = 0 := by simp [resGwrR, losslessRes]
  have hd : resDemandR binary64 losslessRes = 3 := by norm_num [resDemandR, losslessRes, demoRes]
  have hq : binary64.div 86400 1e9 ≤ 1 := Arith.rnd_le_one binary64_ok (by norm_num)
  have hq0 : 0 ≤ binary64.div 86400 1e9 := Arith.rnd_nonneg binary64_ok (by norm_num)
  have h01 : binary64.rnd 0.1 ≤ 1 := Arith.rnd_le_one binary64_ok (by norm_num)
  have h5 : binary64.mul (binary64.rnd 0.1) 5 ≤ 16384 := Arith.rnd_le binary64_ok hF (by linarith)
  have hz : ResSize binary64 losslessRes 8 (fun _ => 5) 16384 := by
    refine ⟨hF, by norm_num, by norm_num [losslessRes, demoRes], by norm_num [losslessRes, demoRes],
      by norm_num [losslessRes, demoRes], by rw [he]; norm_num, by rw [hg]; norm_num, by rw [hd]; norm_num, ?_, ?_⟩
    · exact Arith.rnd_le binary64_ok hF (by linarith)
    · refine Arith.rnd_le binary64_ok hF ?_
      calc _ ≤ (16384 : ℝ) * binary64.div 86400 1e9 := mul_le_mul_of_nonneg_right h5 hq0
        _ ≤ 16384 := by linarith
  have h := C67_reservoir binary64_ok binary64_near losslessRes 8 (fun _ => 5) 16384 hz (by
    have hp : resPetR binary64 losslessRes 8 = 0 := by simp [resPetR, he, hg, Arith.mul, Arith.add, z]
    rw [hp]
    refine Arith.add_nonneg binary64_ok (by norm_num) (Arith.add_nonneg binary64_ok (by norm_num [losslessRes, demoRes]) ?_)
    have : losslessRes.precip = 0 := rfl
    rw [this]; unfold Arith.mul; rw [zero_mul, z])
  refine le_trans (le_of_eq rfl) (h.trans ?_)
  have e0 : max losslessRes.minV 0 = 0 := by simp [losslessRes, demoRes]
  rw [e0, zero_add]; exact units14 _ _ (by norm_num) (by norm_num)

/-- A river reach of volume 4 with an inflow of 2 and a demand of 1: no water is created, up to rounding. -/
example : ∃ M : ℝ, let o := riverR binary64 1e-9 1 0.5 4 2 1
    4 + 2 - (o.1 + o.2.1 + (1 - o.2.2)) ≤ 10 * (2 ^ (-53 : ℤ) * M + 2 ^ (-1075 : ℤ)) + M * 2 ^ (-1075 : ℤ) := by
  obtain ⟨M, h4, hM, hF⟩ := machine_above |(riverR binary64 1e-9 1 0.5 4 2 1).1|
  exact ⟨M, (C67_river binary64_ok binary64_near 1e-9 0.5 4 2 1 M hF ⟨by norm_num, h4⟩ ⟨by norm_num, by linarith⟩
    (by rw [abs_of_nonneg (by norm_num)]; linarith) (by norm_num) hM).1⟩

end WG
