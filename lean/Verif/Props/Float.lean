import Verif.Lemmas.Binary64

/-!
# C65: the physical ranges hold in floating-point arithmetic

Every theorem holds for every arithmetic that satisfies `Arith.Ok`; IEEE binary64 does (`binary64_ok`), and so do
exact reals (`exact_ok`), for which the routines are those of the rest of the model (`C65_exact_*`).
-/

namespace WG

namespace Arith
variable {A : Arith} (hA : A.Ok)
include hA

theorem zero_F : A.F 0 := by have := hA.nat 0 (by norm_num); simpa [F] using this
theorem one_F : A.F 1 := by have := hA.nat 1 (by norm_num); simpa [F] using this
theorem rnd_F (x : ℝ) : A.F (A.rnd x) := hA.idem x
theorem neg_F {x : ℝ} (h : A.F x) : A.F (-x) := by
  have := hA.neg x; unfold F at *; rw [this, h]
theorem rnd_le {x y : ℝ} (hy : A.F y) (h : x ≤ y) : A.rnd x ≤ y := by
  have := hA.mono h; rwa [hy] at this
theorem le_rnd {x y : ℝ} (hx : A.F x) (h : x ≤ y) : x ≤ A.rnd y := by
  have := hA.mono h; rwa [hx] at this
/-- A comparison of a machine number with a rounded result is right about the exact result. -/
theorem le_of_lt_rnd {x y : ℝ} (hx : A.F x) (h : x < A.rnd y) : x ≤ y := by
  by_contra hc
  push Not at hc
  exact absurd (A.rnd_le hA hx hc.le) (not_le.mpr h)
theorem le_of_rnd_lt {x y : ℝ} (hy : A.F y) (h : A.rnd x < y) : x ≤ y := by
  by_contra hc
  push Not at hc
  exact absurd (A.le_rnd hA hy hc.le) (not_le.mpr h)
theorem rnd_nonneg {x : ℝ} (h : 0 ≤ x) : 0 ≤ A.rnd x := A.le_rnd hA (A.zero_F hA) h
theorem rnd_nonpos {x : ℝ} (h : x ≤ 0) : A.rnd x ≤ 0 := A.rnd_le hA (A.zero_F hA) h
theorem rnd_le_one {x : ℝ} (h : x ≤ 1) : A.rnd x ≤ 1 := A.rnd_le hA (A.one_F hA) h

theorem add_nonneg {x y : ℝ} (hx : 0 ≤ x) (hy : 0 ≤ y) : 0 ≤ A.add x y := A.rnd_nonneg hA (by linarith)
theorem sub_nonneg {x y : ℝ} (h : y ≤ x) : 0 ≤ A.sub x y := A.rnd_nonneg hA (by linarith)
theorem mul_nonneg {x y : ℝ} (hx : 0 ≤ x) (hy : 0 ≤ y) : 0 ≤ A.mul x y := A.rnd_nonneg hA (_root_.mul_nonneg hx hy)
theorem div_nonneg {x y : ℝ} (hx : 0 ≤ x) (hy : 0 ≤ y) : 0 ≤ A.div x y := A.rnd_nonneg hA (_root_.div_nonneg hx hy)
theorem add_F (x y : ℝ) : A.F (A.add x y) := A.rnd_F hA _
theorem sub_F (x y : ℝ) : A.F (A.sub x y) := A.rnd_F hA _
theorem mul_F (x y : ℝ) : A.F (A.mul x y) := A.rnd_F hA _
theorem div_F (x y : ℝ) : A.F (A.div x y) := A.rnd_F hA _
theorem mul_le_left {x y : ℝ} (hx : 0 ≤ x) (hF : A.F x) (hy : y ≤ 1) : A.mul x y ≤ x :=
  A.rnd_le hA hF (mul_le_of_le_one_right hx hy)
theorem mul_le_right {x y : ℝ} (hy : 0 ≤ y) (hF : A.F y) (hx : x ≤ 1) : A.mul x y ≤ y :=
  A.rnd_le hA hF (mul_le_of_le_one_left hy hx)
theorem div_le_one {x y : ℝ} (hy : 0 < y) (h : x ≤ y) : A.div x y ≤ 1 :=
  A.rnd_le_one hA ((div_le_one₀ hy).mpr h)
end Arith

open Arith

variable {A : Arith} (hA : A.Ok)

include hA in
theorem flush_F {minV s : ℝ} (h : A.F s) : A.F (flush minV s) := by
  unfold flush; split_ifs
  · exact zero_F hA
  · exact h

theorem flush_nonneg' {minV s : ℝ} (h : 0 ≤ s) : 0 ≤ flush minV s := by
  unfold flush; split_ifs
  · exact le_rfl
  · exact h

/-- The canopy results lie in their ranges: nothing is negative; interception and evaporation together do not
exceed the canopy's capacity; evaporation does not exceed the potential. -/
structure CanopyRange (A : Arith) (lai pet frac coef : ℝ) (o : CanopyOut) : Prop where
  storage : 0 ≤ o.storage
  throughfall : 0 ≤ o.throughfall
  evap : 0 ≤ o.evap
  petToSoil : 0 ≤ o.petToSoil
  evap_le : o.evap ≤ pet
  capacity : 0 < frac → 0 < lai → o.storage ≤ A.mul coef lai ∧ o.evap ≤ A.mul coef lai
  machine : A.F o.storage ∧ A.F o.throughfall ∧ A.F o.evap ∧ A.F o.petToSoil

include hA in
/-- C65: the canopy, for every rounding. -/
theorem C65_canopy (storage lai pet precip frac ratio coef minV : ℝ)
    (hs : 0 ≤ storage) (hpet : 0 ≤ pet) (hpetF : A.F pet)
    (hp : 0 ≤ precip) (hpF : A.F precip) (hr : 0 ≤ ratio) (hcoef : 0 ≤ coef) :
    CanopyRange A lai pet frac coef (canopyR A storage lai pet precip frac ratio coef minV) := by
  have z := zero_F hA
  by_cases hfrac : frac > 0
  · have s0n : 0 ≤ flush minV (A.mul storage ratio) := flush_nonneg' (mul_nonneg hA hs hr)
    have s0F : A.F (flush minV (A.mul storage ratio)) := flush_F hA (mul_F hA _ _)
    simp only [canopyR, if_pos hfrac]
    generalize flush minV (A.mul storage ratio) = s0 at s0n s0F
    by_cases hlai : lai > 0
    · simp only [if_pos hlai]
      have hmn : 0 ≤ A.mul coef lai := mul_nonneg hA hcoef hlai.le
      have hmF : A.F (A.mul coef lai) := mul_F hA _ _
      generalize hmd : A.mul coef lai = m at hmn hmF
      have key : ∀ s1 thr : ℝ, 0 ≤ s1 → A.F s1 → s1 ≤ m → 0 ≤ thr → A.F thr →
          ∀ ev : ℝ, 0 ≤ ev → A.F ev → ev ≤ pet →
          0 ≤ (if ev > s1 then 0 else A.sub s1 ev) ∧ 0 ≤ (if ev > s1 then s1 else ev) ∧
          (if ev > s1 then s1 else ev) ≤ pet ∧ (if ev > s1 then 0 else A.sub s1 ev) ≤ m ∧
          (if ev > s1 then s1 else ev) ≤ m ∧ A.F (if ev > s1 then 0 else A.sub s1 ev) ∧
          A.F (if ev > s1 then s1 else ev) := by
        intro s1 thr h1 h2 h3 h4 h5 ev e1 e2 e3
        by_cases hc : ev > s1
        · simp only [if_pos hc]
          exact ⟨le_rfl, h1, by linarith, hmn, h3, z, h2⟩
        · simp only [if_neg hc]
          push Not at hc
          exact ⟨sub_nonneg hA hc, e1, e3, (rnd_le hA h2 (by linarith)).trans h3, hc.trans h3,
            sub_F hA _ _, e2⟩
      have hs1 : ∀ d : ℝ, d = A.sub m s0 →
          0 ≤ (if precip < d then A.add s0 precip else m) ∧
          A.F (if precip < d then A.add s0 precip else m) ∧
          (if precip < d then A.add s0 precip else m) ≤ m ∧
          0 ≤ (if precip < d then 0 else A.sub precip d) ∧
          A.F (if precip < d then 0 else A.sub precip d) := by
        rintro d rfl
        by_cases hc : precip < A.sub m s0
        · simp only [if_pos hc]
          have := le_of_lt_rnd hA hpF hc
          exact ⟨add_nonneg hA s0n hp, add_F hA _ _, rnd_le hA hmF (by linarith), le_rfl, z⟩
        · simp only [if_neg hc]
          push Not at hc
          exact ⟨hmn, hmF, le_rfl, sub_nonneg hA hc, sub_F hA _ _⟩
      obtain ⟨a1, a2, a3, a4, a5⟩ := hs1 _ rfl
      generalize (if precip < A.sub m s0 then A.add s0 precip else m) = s1 at *
      have hev : 0 ≤ (if m > 0 then A.mul pet (A.pow (A.div s1 m) (A.div 2 3)) else 0) ∧
          A.F (if m > 0 then A.mul pet (A.pow (A.div s1 m) (A.div 2 3)) else 0) ∧
          (if m > 0 then A.mul pet (A.pow (A.div s1 m) (A.div 2 3)) else 0) ≤ pet := by
        by_cases hm : m > 0
        · simp only [if_pos hm]
          refine ⟨mul_nonneg hA hpet (hA.pow_nonneg _ _ (div_nonneg hA a1 hmn)), mul_F hA _ _, ?_⟩
          exact mul_le_left hA hpet hpetF (hA.pow_le_one _ _ (div_nonneg hA a1 hmn)
            (div_le_one hA hm a3) (div_nonneg hA (by norm_num) (by norm_num)))
        · simp only [if_neg hm]; exact ⟨le_rfl, z, hpet⟩
      obtain ⟨e1, e2, e3⟩ := hev
      obtain ⟨k1, k2, k3, k4, k5, k6, k7⟩ := key s1 _ a1 a2 a3 a4 a5 _ e1 e2 e3
      exact ⟨k1, a4, k2, by split_ifs <;> first | exact le_rfl | (push Not at *; assumption), k3,
        fun _ _ => by rw [hmd]; exact ⟨k4, k5⟩, k6, a5, k7, by
          split_ifs <;> first | exact z | exact sub_F hA _ _⟩
    · simp only [if_neg hlai]
      exact ⟨s0n, hp, le_rfl, by split_ifs <;> first | exact le_rfl | exact hpet, hpet,
        fun _ h => absurd h hlai, s0F, hpF, z, by split_ifs; exact z; exact hpetF⟩
  · simp only [canopyR, if_neg hfrac]
    exact ⟨le_rfl, le_rfl, le_rfl, le_rfl, hpet, fun h => absurd h hfrac, z, z, z, z⟩

example : CanopyRange binary64 3 1 0.5 0.25 (canopyR binary64 2 3 1 5 0.5 1 0.25 0) := by
  have h1 : binary64.F 1 := by have := binary64_ok.nat 1 (by norm_num); simpa [Arith.F] using this
  have h5 : binary64.F 5 := by have := binary64_ok.nat 5 (by norm_num); simpa [Arith.F] using this
  exact C65_canopy binary64_ok 2 3 1 5 0.5 1 0.25 0 (by norm_num) (by norm_num) h1 (by norm_num) h5
    (by norm_num) (by norm_num)

/-! ### Snow -/

/-- The results of an elevation band lie in their ranges. -/
structure BandRange (A : Arith) (pet : ℝ) (o : BandOut) : Prop where
  storage : 0 ≤ o.storage
  snowfall : 0 ≤ o.snowfall
  sublimation : 0 ≤ o.sublimation
  sublimation_le : o.sublimation ≤ pet
  melt : 0 ≤ o.melt
  rain : 0 ≤ o.rain
  machine : A.F o.storage

include hA in
theorem bandStepR_range (p : SnowPar) (temp s : ℝ) (hs : 0 ≤ s) (hsF : A.F s) (hp : 0 ≤ p.precip)
    (ht : 0 ≤ p.throughfall) (hpet : 0 ≤ p.petToSoil) (hd : 0 ≤ p.degreeday) :
    BandRange A p.petToSoil (bandStepR A p temp s) := by
  have z := zero_F hA
  have fin : ∀ s2 sub snowf rain : ℝ, 0 ≤ s2 → A.F s2 → 0 ≤ sub → sub ≤ p.petToSoil → 0 ≤ snowf → 0 ≤ rain →
      ∀ melt0 : ℝ, (temp > p.meltTemp → 0 ≤ melt0) →
      BandRange A p.petToSoil
        { storage := if temp > p.meltTemp then
            (if s2 > 0 then (if melt0 > s2 then 0 else A.sub s2 melt0) else s2) else s2
          temp := temp, snowfall := snowf, sublimation := sub
          melt := if temp > p.meltTemp then
            (if s2 > 0 then (if melt0 > s2 then s2 else melt0) else 0) else 0
          rain := rain } := by
    intro s2 sub snowf rain h2 h2F hsub hsub2 hsn hra melt0 hm
    refine ⟨?_, hsn, hsub, hsub2, ?_, hra, ?_⟩
    · dsimp only
      split_ifs with a b c
      · exact le_rfl
      · exact sub_nonneg hA (not_lt.mp c)
      · exact h2
      · exact h2
    · dsimp only
      split_ifs with a b c
      · exact h2
      · exact hm a
      · exact le_rfl
      · exact le_rfl
    · dsimp only
      split_ifs with a b c
      · exact z
      · exact sub_F hA _ _
      · exact h2F
      · exact h2F
  have hmelt : ∀ s2 : ℝ, temp > p.meltTemp → 0 ≤ (if temp > p.meltTemp then
      (if s2 > 0 then A.mul p.degreeday (A.sub temp p.meltTemp) else 0) else 0) := by
    intro s2 h
    rw [if_pos h]
    split_ifs
    · exact mul_nonneg hA hd (sub_nonneg hA h.le)
    · exact le_rfl
  by_cases hf : temp ≤ p.freezeTemp
  · have h1 : 0 ≤ A.add s p.throughfall := add_nonneg hA hs ht
    simp only [bandStepR, if_pos hf]
    refine fin _ _ _ _ ?_ ?_ ?_ ?_ hp le_rfl _ (hmelt _)
    · split_ifs with c
      · exact sub_nonneg hA c.le
      · exact le_rfl
    · split_ifs with c
      · exact sub_F hA _ _
      · exact z
    · split_ifs <;> assumption
    · split_ifs with c
      · exact le_rfl
      · exact not_lt.mp c
  · simp only [bandStepR, if_neg hf]
    exact fin _ _ _ _ hs hsF le_rfl hpet le_rfl ht _ (hmelt _)

include hA in
theorem bandLoopR_range (p : SnowPar) (hp : 0 ≤ p.precip) (ht : 0 ≤ p.throughfall) (hpet : 0 ≤ p.petToSoil)
    (hd : 0 ≤ p.degreeday) : ∀ (l : List (ℝ × ℝ)) (thresh : ℝ), (∀ b ∈ l, 0 ≤ b.2 ∧ A.F b.2) →
      (∀ o ∈ bandLoopR A p thresh l, BandRange A p.petToSoil o) ∧ (bandLoopR A p thresh l).length = l.length := by
  intro l
  induction l with
  | nil => intro t _; simp [bandLoopR]
  | cons b l ih =>
    intro t h
    obtain ⟨e, s⟩ := b
    have hb := h (e, s) (by simp)
    have := ih (bandTempR A p t e s).2 fun b hb => h b (by simp [hb])
    simp only [bandLoopR, List.forall_mem_cons, List.length_cons, this.2]
    exact ⟨⟨bandStepR_range hA p _ s hb.1 hb.2 hp ht hpet hd, this.1⟩, trivial⟩

include hA in
theorem sum_nonneg (l : List ℝ) (h : ∀ x ∈ l, 0 ≤ x) : 0 ≤ A.sum l := by
  unfold Arith.sum
  have : ∀ (l : List ℝ) (a : ℝ), 0 ≤ a → (∀ x ∈ l, 0 ≤ x) → 0 ≤ l.foldl A.add a := by
    intro l
    induction l with
    | nil => intro a ha _; exact ha
    | cons x l ih =>
      intro a ha hl
      exact ih _ (add_nonneg hA ha (hl x (by simp))) fun y hy => hl y (by simp [hy])
  exact this l 0 le_rfl h

include hA in
theorem meanR_nonneg (l : List ℝ) (h : ∀ x ∈ l, 0 ≤ x) : 0 ≤ meanR A l :=
  div_nonneg hA (sum_nonneg hA l h) (by positivity)

include hA in
/-- The mean of values between 0 and 1 does not exceed 1 (at most `2^53` bands). -/
theorem meanR_le_one (l : List ℝ) (h : ∀ x ∈ l, x ≤ 1) (hlen : l.length ≤ 2 ^ 53) : meanR A l ≤ 1 := by
  have key : ∀ (l : List ℝ) (a : ℝ) (n : ℕ), a ≤ n → n + l.length ≤ 2 ^ 53 → (∀ x ∈ l, x ≤ 1) →
      l.foldl A.add a ≤ (n + l.length : ℕ) := by
    intro l
    induction l with
    | nil => intro a n ha _ _; simpa using ha
    | cons x l ih =>
      intro a n ha hn hl
      have hx := hl x (by simp)
      simp only [List.length_cons] at hn
      have : A.add a x ≤ ((n + 1 : ℕ) : ℝ) :=
        rnd_le hA (hA.nat (n + 1) (by omega)) (by push_cast; linarith)
      have := ih (A.add a x) (n + 1) this (by omega) fun y hy => hl y (by simp [hy])
      simp only [List.foldl_cons, List.length_cons]
      rw [show n + (l.length + 1) = n + 1 + l.length by ring]
      exact this
  rcases l with _ | ⟨x, l⟩
  · simp only [meanR, Arith.sum, Arith.div, List.foldl_nil, List.length_nil, Nat.cast_zero, div_zero]
    exact rnd_le_one hA (by norm_num)
  · have := key (x :: l) 0 0 (by simp) (by simpa using hlen) h
    exact div_le_one hA (by simp only [List.length_cons]; positivity) (by simpa [Arith.sum] using this)

/-- The snow results lie in their ranges. -/
structure SnowRange (A : Arith) (n : ℕ) (o : SnowOut) : Prop where
  bands : ∀ b ∈ o.bands, 0 ≤ b ∧ A.F b
  length : o.bands.length = n
  storage : 0 ≤ o.storage
  snowfall : 0 ≤ o.snowfall
  sublimation : 0 ≤ o.sublimation
  melt : 0 ≤ o.melt
  effPrecip : 0 ≤ o.effPrecip
  cover : 0 ≤ o.coverFrac ∧ o.coverFrac ≤ 1
  machine : A.F o.effPrecip

include hA in
/-- C65: the snow pack, for every rounding. -/
theorem C65_snow (p : SnowPar) (bands : List (ℝ × ℝ)) (lsc frac ratio transfer minV : ℝ)
    (hb : ∀ b ∈ bands, 0 ≤ b.2) (hlen : bands.length ≤ 2 ^ 53) (hr : 0 ≤ ratio)
    (hp : 0 ≤ p.precip) (ht : 0 ≤ p.throughfall) (hpet : 0 ≤ p.petToSoil) (hd : 0 ≤ p.degreeday) :
    SnowRange A bands.length (snowR A p bands lsc frac ratio transfer minV) := by
  have z := zero_F hA
  by_cases hfrac : frac > 0
  · have hinit : ∀ b ∈ bands.map (rescaleBandR A ratio minV), 0 ≤ b.2 ∧ A.F b.2 := by
      intro b hbm
      obtain ⟨c, hc, rfl⟩ := List.mem_map.mp hbm
      exact ⟨flush_nonneg' (mul_nonneg hA (hb c hc) hr), flush_F hA (mul_F hA _ _)⟩
    obtain ⟨h1, h2⟩ := bandLoopR_range hA p hp ht hpet hd _ 0 hinit
    simp only [snowR, if_pos hfrac]
    generalize bandLoopR A p 0 (bands.map (rescaleBandR A ratio minV)) = outs at h1 h2
    rw [List.length_map] at h2
    refine ⟨?_, by simp [h2], ?_, ?_, ?_, ?_, ?_, ⟨?_, ?_⟩, div_F hA _ _⟩
    · intro b hbm
      obtain ⟨o, ho, rfl⟩ := List.mem_map.mp hbm
      exact ⟨(h1 o ho).storage, (h1 o ho).machine⟩
    · exact meanR_nonneg hA _ (by
        intro b hbm; obtain ⟨o, ho, rfl⟩ := List.mem_map.mp hbm; exact (h1 o ho).storage)
    · exact meanR_nonneg hA _ (by
        intro b hbm; obtain ⟨o, ho, rfl⟩ := List.mem_map.mp hbm; exact (h1 o ho).snowfall)
    · exact meanR_nonneg hA _ (by
        intro b hbm; obtain ⟨o, ho, rfl⟩ := List.mem_map.mp hbm; exact (h1 o ho).sublimation)
    · exact meanR_nonneg hA _ (by
        intro b hbm; obtain ⟨o, ho, rfl⟩ := List.mem_map.mp hbm; exact (h1 o ho).melt)
    · exact meanR_nonneg hA _ (by
        intro b hbm; obtain ⟨o, ho, rfl⟩ := List.mem_map.mp hbm
        exact add_nonneg hA (h1 o ho).melt (h1 o ho).rain)
    · exact meanR_nonneg hA _ (by
        intro b hbm; obtain ⟨o, ho, rfl⟩ := List.mem_map.mp hbm; split_ifs <;> norm_num)
    · exact meanR_le_one hA _ (by
        intro b hbm; obtain ⟨o, ho, rfl⟩ := List.mem_map.mp hbm; split_ifs <;> norm_num)
        (by rw [List.length_map, h2]; exact hlen)
  · simp only [snowR, if_neg hfrac]
    exact ⟨by simp +contextual [z], by simp, le_rfl, le_rfl, le_rfl, le_rfl, le_rfl, ⟨le_rfl, by norm_num⟩, z⟩

example : SnowRange binary64 1 (snowR binary64
    { temperature := 270, precip := 3, throughfall := 2, petToSoil := 1, degreeday := 2, meanElev := 0,
      lapse := 0.006, freezeTemp := 273, meltTemp := 273 } [(10, 4)] 0 1 1 0 0) :=
  C65_snow binary64_ok _ [(10, 4)] 0 1 1 0 0 (by simp) (by simp) (by norm_num) (by norm_num) (by norm_num)
    (by norm_num) (by norm_num)

/-! ### Soil -/

include hA in
/-- C65: the split of effective precipitation into immediate runoff and the rest. -/
theorem C65_immediate (eff fracB builtup : ℝ) (he : 0 ≤ eff) (heF : A.F eff) (hf : 0 ≤ fracB) (hf1 : fracB ≤ 1)
    (hb1 : builtup ≤ 1) :
    0 ≤ (immediateR A eff fracB builtup).1 ∧ 0 ≤ (immediateR A eff fracB builtup).2 ∧
    (immediateR A eff fracB builtup).2 ≤ eff ∧ (immediateR A eff fracB builtup).1 ≤ eff := by
  unfold immediateR
  split_ifs with h
  · have h1 : 0 ≤ A.mul fracB eff := mul_nonneg hA hf he
    have h2 : A.mul fracB eff ≤ eff := mul_le_right hA he heF hf1
    have h3 : 0 ≤ A.mul (A.mul fracB eff) builtup := mul_nonneg hA h1 h.le
    have h4 : A.mul (A.mul fracB eff) builtup ≤ eff :=
      (mul_le_left hA h1 (mul_F hA _ _) hb1).trans h2
    exact ⟨sub_nonneg hA h4, h3, h4, rnd_le hA heF (by linarith)⟩
  · exact ⟨he, le_rfl, he, le_rfl⟩

example : 0 ≤ (immediateR binary64 5 0.5 0.1).1 := by
  have h5 : binary64.F 5 := by have := binary64_ok.nat 5 (by norm_num); simpa [Arith.F] using this
  exact (C65_immediate binary64_ok 5 0.5 0.1 (by norm_num) h5 (by norm_num) (by norm_num) (by norm_num)).1

/-- The soil results lie in their ranges. -/
structure SoilRange (maxSoil : ℝ) (o : SoilOut) : Prop where
  soil : 0 ≤ o.soil
  soil_le : o.soil ≤ maxSoil
  recharge : 0 ≤ o.recharge
  surfaceRunoff : 0 ≤ o.surfaceRunoff
  total : 0 ≤ o.total
  recharge_le : o.recharge ≤ o.total
  saturation : 0 ≤ o.saturation ∧ o.saturation ≤ 1
  landAet : 0 ≤ o.landAet

/-- What is claimed of the intermediate soil values. -/
structure SoilMidRange (A : Arith) (maxSoil : ℝ) (m : SoilMid) : Prop where
  soil : 0 ≤ m.soil
  soil_le : m.soil ≤ maxSoil
  soilF : A.F m.soil
  recharge : 0 ≤ m.recharge
  rechargeF : A.F m.recharge
  totalF : A.F m.total
  saturation : 0 ≤ m.saturation ∧ m.saturation ≤ 1

include hA in
theorem soilActiveR_range (i : SoilIn) (s0 o0 : ℝ) (hs : 0 ≤ s0) (hs1 : s0 ≤ i.maxSoil)
    (hmax : 0 < i.maxSoil) (hmF : A.F i.maxSoil) (he : 0 ≤ i.effPrecip) (hmr : 0 ≤ i.maxRecharge) (hmrF : A.F i.maxRecharge)
    (hrf : 0 ≤ i.rechargeFactor) (hc : 0 ≤ i.cfa) : SoilMidRange A i.maxSoil (soilActiveR A i s0 o0) := by
  classical
  have z := zero_F hA
  have hsat : 0 ≤ A.div s0 i.maxSoil := div_nonneg hA hs hmax.le
  have hr : 0 ≤ A.mul i.effPrecip (A.pow (A.div s0 i.maxSoil) i.gamma) :=
    mul_nonneg hA he (hA.pow_nonneg _ _ hsat)
  have hr3 := mul_nonneg hA hr hc
  have hrg : 0 ≤ min i.maxRecharge (A.mul i.rechargeFactor
      (A.mul (A.mul i.effPrecip (A.pow (A.div s0 i.maxSoil) i.gamma)) i.cfa)) :=
    le_min hmr (mul_nonneg hA hrf hr3)
  have hpos : ∀ x : ℝ, 0 ≤ (if x < 0 then 0 else x) := by
    intro x; split_ifs with h
    · exact le_rfl
    · exact not_lt.mp h
  have hite : ∀ (P : Prop) [Decidable P] (x : ℝ), 0 ≤ x → 0 ≤ (if P then x else 0) := by
    intro P _ x hx; split_ifs; exact hx; exact le_rfl
  have hite' : ∀ (P : Prop) [Decidable P] (x : ℝ), 0 ≤ x → 0 ≤ (if P then 0 else x) := by
    intro P _ x hx; split_ifs; exact le_rfl; exact hx
  have c1 : ∀ s : ℝ, 0 ≤ s → 0 ≤ (if s > i.maxSoil then i.maxSoil else s) := by
    intro s h; split_ifs; exact hmax.le; exact h
  have c2 : ∀ s : ℝ, (if s > i.maxSoil then i.maxSoil else s) ≤ i.maxSoil := by
    intro s; split_ifs with h; exact le_rfl; exact not_lt.mp h
  have c3 : ∀ s : ℝ, A.F s → A.F (if s > i.maxSoil then i.maxSoil else s) := by
    intro s h; split_ifs; exact hmF; exact h
  have c4 : ∀ (P : Prop) [Decidable P] (x : ℝ), A.F x → A.F (if P then 0 else x) := by
    intro P _ x hx; split_ifs; exact z; exact hx
  have hrgF : ∀ x y : ℝ, A.F x → A.F y → A.F (min x y) := by
    intro x y hx hy; rcases min_choice x y with h | h <;> rw [h] <;> assumption
  exact ⟨c1 _ (add_nonneg hA (hpos _) (div_nonneg hA (hite _ _ hrg) hc)), c2 _, c3 _ (add_F hA _ _),
    hite' _ _ hrg, c4 _ _ (hrgF _ _ hmrF (mul_F hA _ _)), add_F hA _ _, hsat, div_le_one hA hmax hs1⟩

include hA in
/-- C65: the soil, for every rounding. -/
theorem C65_soil (i : SoilIn) (soil : ℝ) (hs : 0 ≤ soil) (hr : 0 ≤ i.ratio) (hmax : 0 ≤ i.maxSoil)
    (hmF : A.F i.maxSoil) (he : 0 ≤ i.effPrecip) (hmr : 0 ≤ i.maxRecharge) (hmrF : A.F i.maxRecharge) (hrf : 0 ≤ i.rechargeFactor)
    (hc : 0 ≤ i.cfa) : SoilRange i.maxSoil (soilR A i soil) ∧ A.F (soilR A i soil).soil := by
  have z := zero_F hA
  by_cases hfrac : i.frac > 0
  · have hs0 : 0 ≤ A.mul soil i.ratio := mul_nonneg hA hs hr
    have hm : SoilMidRange A i.maxSoil (soilLandR A i soil) := by
      have a1 : 0 ≤ (if A.mul soil i.ratio > i.maxSoil then i.maxSoil else A.mul soil i.ratio) := by
        split_ifs; exact hmax; exact hs0
      have a2 : (if A.mul soil i.ratio > i.maxSoil then i.maxSoil else A.mul soil i.ratio) ≤ i.maxSoil := by
        split_ifs with h; exact le_rfl; exact not_lt.mp h
      have a3 : A.F (if A.mul soil i.ratio > i.maxSoil then i.maxSoil else A.mul soil i.ratio) := by
        split_ifs; exact hmF; exact mul_F hA _ _
      simp only [soilLandR]
      by_cases h1 : i.maxTempElev > i.freezeTemp
      · rw [if_pos h1]
        by_cases h2 : i.maxSoil > 0
        · rw [if_pos h2]
          exact soilActiveR_range hA i _ _ a1 a2 h2 hmF he hmr hmrF hrf hc
        · rw [if_neg h2]
          exact ⟨a1, a2, a3, le_rfl, z, z, le_rfl, by norm_num⟩
      · rw [if_neg h1]
        exact ⟨a1, a2, a3, le_rfl, z, mul_F hA _ _, le_rfl, by norm_num⟩
    simp only [soilR, if_pos hfrac]
    generalize soilLandR A i soil = m at hm
    generalize corrAetR A i.cfa _ i.precip _ = aet0
    have ht : 0 ≤ soilTotalR A m.total aet0 ∧ A.F (soilTotalR A m.total aet0) := by
      have g : ∀ t : ℝ, A.F t → 0 ≤ (if t < 0 then 0 else t) ∧ A.F (if t < 0 then 0 else t) := by
        intro t ht
        split_ifs with h
        · exact ⟨le_rfl, z⟩
        · exact ⟨not_lt.mp h, ht⟩
      refine g _ ?_
      generalize (if aet0 < 0 then aet0 else 0) = neg
      split_ifs
      · exact add_F hA _ _
      · exact hm.totalF
    generalize soilTotalR A m.total aet0 = t at ht
    obtain ⟨ht, htF⟩ := ht
    have haet : 0 ≤ (if aet0 < 0 then 0 else aet0) := by
      split_ifs with h
      · exact le_rfl
      · exact not_lt.mp h
    by_cases h : A.sub t m.recharge < 0
    · have hle : t ≤ m.recharge := by
        have := le_of_rnd_lt hA z h; linarith
      have hs1 : A.add m.soil (A.sub t m.recharge) ≤ m.soil :=
        rnd_le hA hm.soilF (by linarith)
      simp only [soilFinishR, if_pos h]
      refine ⟨⟨?_, ?_, ht, sub_nonneg hA le_rfl, ht, le_rfl, hm.saturation, haet⟩, ?_⟩
      · show 0 ≤ (if A.add m.soil (A.sub t m.recharge) < 0 then 0 else A.add m.soil (A.sub t m.recharge))
        split_ifs with h
        · exact le_rfl
        · exact not_lt.mp h
      · show (if A.add m.soil (A.sub t m.recharge) < 0 then 0 else A.add m.soil (A.sub t m.recharge)) ≤ _
        split_ifs
        · exact hmax
        · exact hs1.trans hm.soil_le
      · split_ifs
        · exact z
        · exact add_F hA _ _
    · simp only [soilFinishR, if_neg h]
      push Not at h
      refine ⟨⟨hm.soil, hm.soil_le, hm.recharge, h, ht, ?_, hm.saturation, haet⟩, hm.soilF⟩
      by_contra hc
      push Not at hc
      have h1 := hA.under t m.recharge htF hm.rechargeF hc
      have h2 : A.sub t m.recharge = -A.rnd (m.recharge - t) := by
        rw [← hA.neg]; unfold Arith.sub; congr 1; ring
      rw [h2] at h; linarith
  · simp only [soilR, if_neg hfrac]
    exact ⟨⟨le_rfl, hmax, le_rfl, le_rfl, le_rfl, le_rfl, ⟨le_rfl, by norm_num⟩, le_rfl⟩, z⟩

/-- A soil for the example. -/
noncomputable def demoSoil : SoilIn :=
  { petToSoil := 1, frac := 1, ratio := 1, maxTempElev := 280, canopyEvap := 0, effPrecip := 5, precip := 5,
    immediate := 0, landStorageChange := 0, sublimation := 0, transfer := 0, freezeTemp := 273, gamma := 2,
    maxDailyPet := 7, humidArid := 0, texture := 10, drainage := 1, maxRecharge := 7, rechargeFactor := 0.5,
    critPrecip := 10, maxSoil := 100, cfa := 1, minV := 0 }

example : SoilRange 100 (soilR binary64 demoSoil 50) := by
  have h7 : binary64.F 7 := by have := binary64_ok.nat 7 (by norm_num); simpa [Arith.F] using this
  have h100 : binary64.F 100 := by have := binary64_ok.nat 100 (by norm_num); simpa [Arith.F] using this
  exact (C65_soil binary64_ok demoSoil 50 (by norm_num) (by norm_num [demoSoil]) (by norm_num [demoSoil]) h100
    (by norm_num [demoSoil]) (by norm_num [demoSoil]) h7 (by norm_num [demoSoil]) (by norm_num [demoSoil])).1

/-! ### The land part of a simulation -/

/-- Physical parameters of a cell. -/
structure LandParOk (A : Arith) (p : VertPar) : Prop where
  coef : 0 ≤ p.coef
  degreeday : 0 ≤ p.degreeday
  bands : p.elevs.length ≤ 2 ^ 53
  fracBuiltup : 0 ≤ p.fracBuiltup ∧ p.fracBuiltup ≤ 1
  builtup : p.builtup ≤ 1
  maxSoil : 0 ≤ p.maxSoil ∧ A.F p.maxSoil
  maxRecharge : 0 ≤ p.maxRecharge ∧ A.F p.maxRecharge
  rechargeFactor : 0 ≤ p.rechargeFactor
  cfa : 0 ≤ p.cfa

/-- Physical forcing of a day. -/
structure LandDayOk (A : Arith) (f : LandDayF) : Prop where
  precip : 0 ≤ f.precip ∧ A.F f.precip
  pet : 0 ≤ f.pet ∧ A.F f.pet
  ratio : 0 ≤ f.ratio

/-- The storages are in range: no storage is negative, the soil holds at most its capacity. -/
structure LandStoreOk (maxSoil : ℝ) (s : LandStore) : Prop where
  canopy : 0 ≤ s.canopy
  bands : ∀ b ∈ s.bands, 0 ≤ b
  soil : 0 ≤ s.soil ∧ s.soil ≤ maxSoil

include hA in
theorem landDayR_ok (p : VertPar) (hp : LandParOk A p) (f : LandDayF) (hf : LandDayOk A f) (s : LandStore)
    (hs : LandStoreOk p.maxSoil s) :
    CanopyRange A f.lai f.pet f.frac p.coef (landDayR A p f s).canopy ∧
    SnowRange A (min p.elevs.length s.bands.length) (landDayR A p f s).snow ∧
    SoilRange p.maxSoil (landDayR A p f s).soil ∧
    LandStoreOk p.maxSoil (landDayR A p f s).next := by
  have h1 := C65_canopy hA s.canopy f.lai f.pet f.precip f.frac f.ratio p.coef p.minV hs.canopy hf.pet.1 hf.pet.2
    hf.precip.1 hf.precip.2 hf.ratio hp.coef
  simp only [landDayR]
  generalize canopyR A s.canopy f.lai f.pet f.precip f.frac f.ratio p.coef p.minV = c at h1
  have h2 := C65_snow hA
    { temperature := f.temperature, precip := f.precip, throughfall := c.throughfall,
      petToSoil := c.petToSoil, degreeday := p.degreeday, meanElev := p.meanElev, lapse := p.lapse,
      freezeTemp := p.freezeTemp, meltTemp := p.meltTemp } (p.elevs.zip s.bands) c.landStorageChange f.frac f.ratio
    c.transfer p.minV (fun b hb => hs.bands b.2 (List.of_mem_zip hb).2)
    (by rw [List.length_zip]; exact (min_le_left _ _).trans hp.bands) hf.ratio hf.precip.1 h1.throughfall
    h1.petToSoil hp.degreeday
  rw [List.length_zip] at h2
  generalize snowR A _ (p.elevs.zip s.bands) c.landStorageChange f.frac f.ratio c.transfer p.minV = sn at h2
  have h3 := C65_immediate hA sn.effPrecip p.fracBuiltup p.builtup h2.effPrecip h2.machine hp.fracBuiltup.1
    hp.fracBuiltup.2 hp.builtup
  have h4 := C65_soil hA
    { petToSoil := c.petToSoil, frac := f.frac, ratio := f.ratio, maxTempElev := sn.maxTempElev,
      canopyEvap := c.evap, effPrecip := (immediateR A sn.effPrecip p.fracBuiltup p.builtup).1, precip := f.precip,
      immediate := (immediateR A sn.effPrecip p.fracBuiltup p.builtup).2,
      landStorageChange := sn.landStorageChange, sublimation := sn.sublimation, transfer := sn.transfer,
      freezeTemp := p.freezeTemp, gamma := p.gamma, maxDailyPet := p.maxDailyPet,
      humidArid := p.lai.humidArid, texture := p.texture, drainage := p.drainage,
      maxRecharge := p.maxRecharge, rechargeFactor := p.rechargeFactor, critPrecip := p.critPrecip,
      maxSoil := p.maxSoil, cfa := p.cfa, minV := p.minV } s.soil hs.soil.1 hf.ratio hp.maxSoil.1 hp.maxSoil.2
    h3.1 hp.maxRecharge.1 hp.maxRecharge.2 hp.rechargeFactor hp.cfa
  exact ⟨h1, h2, h4.1, h1.storage, fun b hb => (h2.bands b hb).1, h4.1.soil, h4.1.soil_le⟩

include hA in
/-- C65: whatever the weather of any number of days, on every day all land storages and fluxes computed in rounded
arithmetic are in their ranges: no negative storage, no negative flux, no more in the soil than fits. -/
theorem C65_land_run (p : VertPar) (hp : LandParOk A p) (days : List LandDayF) (hd : ∀ f ∈ days, LandDayOk A f)
    (s : LandStore) (hs : LandStoreOk p.maxSoil s) :
    ∀ o ∈ landRunR A p s days,
      LandStoreOk p.maxSoil o.next ∧ SoilRange p.maxSoil o.soil ∧
      (0 ≤ o.canopy.throughfall ∧ 0 ≤ o.canopy.evap ∧ 0 ≤ o.canopy.petToSoil) ∧
      (0 ≤ o.snow.storage ∧ 0 ≤ o.snow.snowfall ∧ 0 ≤ o.snow.sublimation ∧ 0 ≤ o.snow.melt ∧
        0 ≤ o.snow.effPrecip ∧ 0 ≤ o.snow.coverFrac ∧ o.snow.coverFrac ≤ 1) := by
  induction days generalizing s with
  | nil => simp [landRunR]
  | cons f fs ih =>
    obtain ⟨h1, h2, h3, h4⟩ := landDayR_ok hA p hp f (hd f (by simp)) s hs
    simp only [landRunR, List.forall_mem_cons]
    exact ⟨⟨h4, h3, ⟨h1.throughfall, h1.evap, h1.petToSoil⟩, h2.storage, h2.snowfall, h2.sublimation, h2.melt,
      h2.effPrecip, h2.cover.1, h2.cover.2⟩, ih (fun g hg => hd g (by simp [hg])) _ h4⟩

/-- A cell with three elevation bands for the examples. -/
noncomputable def demoPar (rad : RadPar) (lai : LaiPar) : VertPar :=
  { rad := rad, alpha := 1.26, lai := lai, coef := 0.3, minV := 0, degreeday := 3, meanElev := 500,
    elevs := [300, 500, 700], lapse := 0.006, freezeTemp := 273, meltTemp := 273, fracBuiltup := 0.5, builtup := 0.1,
    gamma := 2, maxDailyPet := 7, texture := 10, drainage := 1, maxRecharge := 7, rechargeFactor := 0.6,
    critPrecip := 10, maxSoil := 150, cfa := 1.5 }

example (rad : RadPar) (lai : LaiPar) : ∃ o ∈ landRunR binary64 (demoPar rad lai) ⟨1, [2, 3, 4], 80⟩
      [⟨272, 5, 1, 2, 1, 1⟩, ⟨280, 0, 3, 2, 1, 1⟩], 0 ≤ o.soil.surfaceRunoff := by
  have hn : ∀ n : ℕ, n ≤ 2 ^ 53 → binary64.F n := fun n h => binary64_ok.nat n h
  have f7 : binary64.F 7 := by exact_mod_cast hn 7 (by norm_num)
  have f150 : binary64.F 150 := by exact_mod_cast hn 150 (by norm_num)
  have f0 : binary64.F 0 := by exact_mod_cast hn 0 (by norm_num)
  have f1 : binary64.F 1 := by exact_mod_cast hn 1 (by norm_num)
  have f3 : binary64.F 3 := by exact_mod_cast hn 3 (by norm_num)
  have f5 : binary64.F 5 := by exact_mod_cast hn 5 (by norm_num)
  refine ⟨_, List.mem_cons_self, ?_⟩
  refine (C65_land_run binary64_ok (demoPar rad lai) ?_ [⟨272, 5, 1, 2, 1, 1⟩, ⟨280, 0, 3, 2, 1, 1⟩] ?_
    ⟨1, [2, 3, 4], 80⟩ ?_ _ List.mem_cons_self).2.1.surfaceRunoff
  · constructor <;> norm_num [demoPar, f7, f150]
  · intro f hf
    fin_cases hf
    · exact ⟨⟨by norm_num, f5⟩, ⟨by norm_num, f1⟩, by norm_num⟩
    · exact ⟨⟨by norm_num, f0⟩, ⟨by norm_num, f3⟩, by norm_num⟩
  · constructor <;> norm_num [demoPar]

/-! ### Surface water bodies -/

include hA in
/-- C65: the reduction factor of a water body is between 0 and 1 whatever the storage. -/
theorem C65_redfactor (storage maxStorage exponent : ℝ) (kind : Swb) :
    0 ≤ redfactorR A storage maxStorage exponent kind ∧ redfactorR A storage maxStorage exponent kind ≤ 1 ∧
    A.F (redfactorR A storage maxStorage exponent kind) := by
  have z := zero_F hA
  have o := one_F hA
  simp only [redfactorR]
  have hF : A.F (A.sub 1 (A.pow (A.div |A.sub storage maxStorage| (A.mul (nFactor kind) maxStorage)) exponent)) :=
    sub_F hA _ _
  generalize A.sub 1 _ = r at hF
  split_ifs with h1 h2
  · exact ⟨le_rfl, by norm_num, z⟩
  · exact ⟨by norm_num, le_rfl, o⟩
  · exact ⟨not_lt.mp h1, not_lt.mp h2, hF⟩

example : redfactorR binary64 12 10 3.3 .localLake ≤ 1 := (C65_redfactor binary64_ok 12 10 3.3 .localLake).2.1

include hA in
/-- C65: local and global lakes and local wetlands: whatever the losses and the demand, the storage does not exceed
its maximum and the outflow is not negative; a local wetland's storage is not negative. -/
theorem C65_lake (kind : LakeKind) (hk : kind ≠ .globalWetland) (i : LakeIn) (s : ℝ) (hmax : 0 ≤ i.maxStorage)
    (hkc : 0 ≤ i.k) :
    (lakeSOR A kind i s).1 ≤ i.maxStorage ∧ 0 ≤ (lakeSOR A kind i s).2 ∧
    (kind = .localWetland → 0 ≤ (lakeSOR A kind i s).1) := by
  have z := zero_F hA
  have hlim : lakeLimit kind i ≤ 0 := by cases kind <;> simp [lakeLimit, hmax]
  have loc : ∀ st0 which ex : ℝ,
      let out0 := if which > 0 then
          (let o := A.mul (A.mul i.k which) (A.pow (A.div which i.maxStorage) ex)
           if st0 ≤ 0 then 0 else if o > st0 then st0 else o)
        else 0
      let st1 := A.sub st0 out0
      let r : ℝ × ℝ := if st1 > i.maxStorage then (i.maxStorage, A.add out0 (A.sub st1 i.maxStorage)) else (st1, out0)
      r.1 ≤ i.maxStorage ∧ 0 ≤ r.2 ∧ (0 ≤ st0 → 0 ≤ r.1) := by
    intro st0 which ex out0 st1 r
    have ho : 0 ≤ out0 ∧ (0 ≤ st0 → out0 ≤ st0) := by
      by_cases hw : which > 0
      · have : 0 ≤ A.mul (A.mul i.k which) (A.pow (A.div which i.maxStorage) ex) :=
          mul_nonneg hA (mul_nonneg hA hkc hw.le) (hA.pow_nonneg _ _ (div_nonneg hA hw.le hmax))
        simp only [out0, if_pos hw]
        split_ifs with h1 h2
        · exact ⟨le_rfl, id⟩
        · exact ⟨(not_le.mp h1).le, fun _ => le_rfl⟩
        · exact ⟨this, fun _ => not_lt.mp h2⟩
      · simp only [out0, if_neg hw]; exact ⟨le_rfl, id⟩
    simp only [r]
    split_ifs with h
    · exact ⟨le_rfl, add_nonneg hA ho.1 (sub_nonneg hA h.le), fun _ => hmax⟩
    · exact ⟨not_lt.mp h, ho.1, fun h0 => sub_nonneg hA (ho.2 h0)⟩
  cases kind with
  | globalWetland => exact absurd rfl hk
  | localLake =>
    have := loc (if lakePetR A .localLake i s > lakePetMaxR A .localLake i s then lakeLimit .localLake i
      else A.sub (A.add s (lakeTotalInR A .localLake i s)) (lakePetR A .localLake i s)) s i.lakeExp
    exact ⟨this.1, this.2.1, by simp⟩
  | localWetland =>
    have := loc (if lakePetR A .localWetland i s > lakePetMaxR A .localWetland i s then lakeLimit .localWetland i
      else A.sub (A.add s (lakeTotalInR A .localWetland i s)) (lakePetR A .localWetland i s))
      (if lakePetR A .localWetland i s > lakePetMaxR A .localWetland i s then lakeLimit .localWetland i
      else A.sub (A.add s (lakeTotalInR A .localWetland i s)) (lakePetR A .localWetland i s)) i.wetlandExp
    refine ⟨this.1, this.2.1, fun _ => this.2.2 ?_⟩
    split_ifs with h
    · exact le_rfl
    · exact sub_nonneg hA (not_lt.mp h)
  | globalLake =>
    simp only [lakeSOR, globalLakeSOR]
    by_cases hshort : lakePetR A .globalLake i s > lakePetMaxR A .globalLake i s
    · simp only [if_pos hshort]
      exact ⟨hlim.trans hmax, le_rfl, by simp⟩
    · simp only [if_neg hshort]
      have hxF : A.F (A.add (lakeNetInR A .globalLake i s) s) := add_F hA _ _
      generalize A.add (lakeNetInR A .globalLake i s) s = x at hxF
      generalize lakeAnalyticR A .globalLake i s = st0
      have neg_of : ∀ y : ℝ, A.rnd y < 0 → y < 0 := by
        intro y hy; by_contra hc; exact absurd (rnd_nonneg hA (not_lt.mp hc)) (not_le.mpr hy)
      by_cases hc : st0 > i.maxStorage
      · simp only [if_pos hc]
        by_cases hn : A.add (A.sub x st0) (A.sub st0 i.maxStorage) < 0
        · simp only [if_pos hn]
          have h1 : A.sub x st0 + A.sub st0 i.maxStorage < 0 := neg_of _ hn
          have h2 : A.sub st0 i.maxStorage = -A.rnd (i.maxStorage - st0) := by
            rw [← hA.neg]; unfold Arith.sub; congr 1; ring
          have h3 : A.rnd (x - st0) < A.rnd (i.maxStorage - st0) := by
            rw [h2] at h1; unfold Arith.sub at h1; linarith
          have h4 : x - st0 < i.maxStorage - st0 := hA.mono.reflect_lt h3
          exact ⟨by linarith, le_rfl, by simp⟩
        · simp only [if_neg hn]
          exact ⟨le_rfl, not_lt.mp hn, by simp⟩
      · simp only [if_neg hc]
        by_cases hn : A.sub x st0 < 0
        · simp only [if_pos hn]
          have := neg_of _ hn
          exact ⟨by linarith [not_lt.mp hc], le_rfl, by simp⟩
        · simp only [if_neg hn]
          exact ⟨not_lt.mp hc, not_lt.mp hn, by simp⟩

/-- A lake for the examples. -/
noncomputable def demoLake : LakeIn :=
  { precip := 0, openPet := 0, arid := false, drainageOk := true, inflow := 3, k := 0.01, gwConst := 10,
    redExp := 3.3, cfa := 1, maxStorage := 5, maxArea := 1, frac := 0.1, lakeExp := 1.5, wetlandExp := 2.5,
    reservoirArea := 0, demand := 0 }

example : (lakeSOR binary64 .localLake demoLake 4).1 ≤ 5 :=
  (C65_lake binary64_ok .localLake (by decide) demoLake 4 (by norm_num [demoLake]) (by norm_num [demoLake])).1

/-- A full local lake of capacity 1 on a day on which the losses are as large as the code allows. -/
noncomputable def floorLake : LakeIn :=
  { precip := 0, openPet := 2 + 2 ^ (-51 : ℤ), arid := false, drainageOk := true, inflow := 11 * 2 ^ (-55 : ℤ),
    k := 0.01, gwConst := 10, redExp := 3.3, cfa := 1, maxStorage := 1, maxArea := 1, frac := 0.1, lakeExp := 1.5,
    wetlandExp := 2.5, reservoirArea := 0, demand := 0 }

/-- C65 (finding): in binary64 arithmetic a local lake can fall below its lower limit, minus its capacity: the largest
permitted loss and the new storage are two differently ordered sums, and their roundings may differ.  In exact arithmetic
this is impossible (`C14_lake_bounds`). -/
theorem C65_violated_lake_floor :
    (lakeSOR binary64 .localLake floorLake 1).1 < -floorLake.maxStorage := by
  have F : ∀ (x : ℝ) (n e : ℤ), |n| ≤ 2 ^ 53 → -1074 ≤ e → x = n * 2 ^ e → fl64 x = x := by
    intro x n e hn he h; rw [h]; exact fl64_fix n e hn he
  have f0 : fl64 0 = 0 := F 0 0 0 (by norm_num) (by norm_num) (by norm_num)
  have f1 : fl64 1 = 1 := F 1 1 0 (by norm_num) (by norm_num) (by norm_num)
  have f2 : fl64 2 = 2 := F 2 2 0 (by norm_num) (by norm_num) (by norm_num)
  have fp : fl64 (2 + 2 ^ (-51 : ℤ)) = 2 + 2 ^ (-51 : ℤ) :=
    F _ (2 ^ 52 + 1) (-51) (by norm_num) (by norm_num) (by norm_num)
  have fi : fl64 (11 * 2 ^ (-55 : ℤ)) = 11 * 2 ^ (-55 : ℤ) :=
    F _ 11 (-55) (by norm_num) (by norm_num) (by norm_num)
  have g1 : fl64 (1 + 11 * 2 ^ (-55 : ℤ)) = 1 + 2 ^ (-52 : ℤ) := by
    rw [fl64_eval (2 ^ 52 + 1) (-52) (by norm_num) (by norm_num) (by norm_num) (by norm_num [abs_lt])]; norm_num
  have g2 : fl64 (2 + 11 * 2 ^ (-55 : ℤ)) = 2 + 2 ^ (-51 : ℤ) := by
    rw [fl64_eval (2 ^ 52 + 1) (-51) (by norm_num) (by norm_num) (by norm_num) (by norm_num [abs_lt])]; norm_num
  have g3 : fl64 (1 + 2 ^ (-52 : ℤ) - (2 + 2 ^ (-51 : ℤ))) = -1 - 2 ^ (-52 : ℤ) := by
    rw [F _ (-(2 ^ 52 + 1)) (-52) (by norm_num) (by norm_num) (by norm_num)]; norm_num
  have g4 : fl64 (-1 - 2 ^ (-52 : ℤ)) = -1 - 2 ^ (-52 : ℤ) :=
    F _ (-(2 ^ 52 + 1)) (-52) (by norm_num) (by norm_num) (by norm_num)
  have hred : lakeRedR binary64 .localLake floorLake 1 = 1 := by
    have : (0 : ℝ) ^ (3.3 : ℝ) = 0 := Real.zero_rpow (by norm_num)
    simp [lakeRedR, redfactorR, floorLake, binary64, Arith.sub, Arith.div, Arith.mul, LakeKind.swb, nFactor, f0, f1,
      this]
  have harea : lakeAreaR binary64 .localLake floorLake 1 = 1 := by
    simp only [lakeAreaR, hred, reduceCtorEq, if_false]
    simp only [floorLake, binary64, Arith.mul, mul_one, f1]
  have hev : lakeEvapR binary64 .localLake floorLake 1 = 2 + 2 ^ (-51 : ℤ) := by
    have : ¬ ((2 : ℝ) + 2 ^ (-51 : ℤ) < 0) := by norm_num
    simp only [lakeEvapR, floorLake, binary64, Arith.mul, Arith.add, Arith.sub, reduceCtorEq, if_false, sub_self,
      one_mul, f0, mul_zero, zero_add, fp, if_neg this]
  have hpet : lakePetR binary64 .localLake floorLake 1 = 2 + 2 ^ (-51 : ℤ) := by
    simp only [lakePetR, hev, harea, lakeGwrR, lakeDemandR]
    simp only [floorLake, binary64, Arith.mul, Arith.add, reduceCtorEq, if_false, Bool.false_and, Bool.false_eq_true,
      mul_one, add_zero, fp]
  have hin : lakeTotalInR binary64 .localLake floorLake 1 = 11 * 2 ^ (-55 : ℤ) := by
    simp only [lakeTotalInR, floorLake, binary64, Arith.mul, Arith.add, zero_mul, f0, add_zero, fi]
  have hmx : lakePetMaxR binary64 .localLake floorLake 1 = 2 + 2 ^ (-51 : ℤ) := by
    have h11 : (1 : ℝ) + 1 = 2 := by norm_num
    simp only [lakePetMaxR, hin]
    simp only [floorLake, binary64, Arith.add, h11, f2, g2]
  have hst : binary64.sub (binary64.add 1 (11 * 2 ^ (-55 : ℤ))) (2 + 2 ^ (-51 : ℤ)) = -1 - 2 ^ (-52 : ℤ) := by
    simp only [binary64, Arith.sub, Arith.add, g1, g3]
  have hneg : (-1 : ℝ) - 2 ^ (-52 : ℤ) ≤ 0 := by norm_num
  have hsub : binary64.sub (-1 - 2 ^ (-52 : ℤ)) 0 = -1 - 2 ^ (-52 : ℤ) := by
    simp only [binary64, Arith.sub, sub_zero, g4]
  have hgt : ¬ ((-1 : ℝ) - 2 ^ (-52 : ℤ) > floorLake.maxStorage) := by norm_num [floorLake]
  simp only [lakeSOR, localSOR, hpet, hmx, hin, gt_iff_lt, lt_self_iff_false, if_false, hst, if_true, hneg,
    ite_self, hsub]
  rw [if_neg hgt]
  norm_num [floorLake]

/-- C65: a global wetland's storage does not exceed its maximum.  (Nothing guards its outflow.) -/
theorem C65_global_wetland (i : LakeIn) (s : ℝ) : (lakeSOR A .globalWetland i s).1 ≤ i.maxStorage := by
  have key : ∀ st0 out0 out1 : ℝ, (if st0 > i.maxStorage then (i.maxStorage, out1) else (st0, out0)).1
      ≤ i.maxStorage := by
    intro st0 out0 out1
    split_ifs with h
    · exact le_rfl
    · exact not_lt.mp h
  exact key _ _ _

example : (lakeSOR binary64 .globalWetland demoLake 4).1 ≤ 5 := C65_global_wetland demoLake 4

include hA in
/-- C65: the area fraction of a lake or wetland for the next day is between zero and its static fraction. -/
theorem C65_new_fraction (kind : LakeKind) (i : LakeIn) (s : ℝ) (hf : 0 ≤ i.frac) (hF : A.F i.frac) :
    0 ≤ lakeNewFracR A kind i s ∧ lakeNewFracR A kind i s ≤ i.frac := by
  unfold lakeNewFracR
  split_ifs
  · exact ⟨le_rfl, hf⟩
  · have := C65_redfactor hA (lakeSOR A kind i s).1 i.maxStorage i.redExp kind.swb
    exact ⟨mul_nonneg hA this.1 hf, mul_le_right hA hf hF this.2.1⟩

example : lakeNewFracR binary64 .localLake { demoLake with frac := 1 } 4 ≤ 1 := by
  have h : binary64.F 1 := by have := binary64_ok.nat 1 (by norm_num); simpa [Arith.F] using this
  exact (C65_new_fraction binary64_ok .localLake { demoLake with frac := 1 } 4 (by norm_num) h).2

include hA in
/-- C65: reservoirs and regulated lakes: whatever the release rule asks for and whatever the demand, the storage is
between zero and the capacity, the outflow is not negative, and no demand is served beyond what was asked. -/
theorem C65_reservoir (i : ResIn) (s : ℝ) (release : ℝ → ℝ) (hs : 0 ≤ s) (hcap : 0 ≤ i.han.cap)
    (hin : 0 ≤ i.han.inflow) (hp : 0 ≤ i.precip) (ha : 0 ≤ i.area) (hFd : A.F (resDemandR A i)) :
    0 ≤ (resSOR A i s release).1 ∧ (resSOR A i s release).1 ≤ i.han.cap ∧ 0 ≤ (resSOR A i s release).2 ∧
    0 ≤ (resAbstractR A (resDemandR A i) (resStorage1R A i s) i.han.cap).2 := by
  have z := zero_F hA
  have h01 : 0 ≤ A.mul (A.rnd 0.1) i.han.cap := mul_nonneg hA (rnd_nonneg hA (by norm_num)) hcap
  have hst1 : 0 ≤ resStorage1R A i s := by
    unfold resStorage1R
    have htot : 0 ≤ A.add s (resTotalInR A i) := add_nonneg hA hs (add_nonneg hA hin (mul_nonneg hA hp ha))
    split_ifs with h
    · exact le_rfl
    · refine sub_nonneg hA ?_
      by_cases h0 : resPetR A i s > 0
      · exact not_lt.mp fun hc => h ⟨h0, hc⟩
      · exact (not_lt.mp h0).trans htot
  have habs : 0 ≤ (resAbstractR A (resDemandR A i) (resStorage1R A i s) i.han.cap).1 ∧
      0 ≤ (resAbstractR A (resDemandR A i) (resStorage1R A i s) i.han.cap).2 := by
    unfold resAbstractR
    split_ifs with h1 h2 h3
    · exact ⟨sub_nonneg hA (by linarith), le_rfl⟩
    · have := le_of_lt_rnd hA hFd h3
      exact ⟨sub_nonneg hA (by linarith), le_rfl⟩
    · exact ⟨h01, sub_nonneg hA (not_lt.mp h3)⟩
    · exact ⟨hst1, not_lt.mp h1⟩
  have hb : 0 ≤ resBeforeReleaseR A i s := flush_nonneg' habs.1
  have key : ∀ st o : ℝ, 0 ≤ st → A.F o →
      let o1 := if o < 0 then 0 else o
      let st1 := A.sub st o1
      let o2 := if st1 > i.han.cap then A.add o1 (A.sub st1 i.han.cap) else o1
      let st2 := if st1 > i.han.cap then i.han.cap else st1
      let r : ℝ × ℝ := if st2 < 0 then (0, A.add o2 st2) else (st2, o2)
      0 ≤ r.1 ∧ r.1 ≤ i.han.cap ∧ 0 ≤ r.2 := by
    intro st o hst hoF o1 st1 o2 st2 r
    have ho : 0 ≤ o1 ∧ A.F o1 := by
      simp only [o1]; split_ifs with h
      · exact ⟨le_rfl, z⟩
      · exact ⟨not_lt.mp h, hoF⟩
    have hge : -o1 ≤ st1 := le_rnd hA (neg_F hA ho.2) (by linarith)
    by_cases h : st1 > i.han.cap
    · have h2 : ¬ (i.han.cap < 0) := not_lt.mpr hcap
      simp only [r, st2, o2, if_pos h, if_neg h2]
      exact ⟨hcap, le_rfl, add_nonneg hA ho.1 (sub_nonneg hA h.le)⟩
    · simp only [r, st2, o2, if_neg h]
      split_ifs with h3
      · exact ⟨le_rfl, hcap, rnd_nonneg hA (by linarith)⟩
      · exact ⟨not_lt.mp h3, not_lt.mp h, ho.1⟩
  have := key (resBeforeReleaseR A i s) (if resBeforeReleaseR A i s ≥ A.mul i.han.cap (A.rnd 0.1) then
      A.mul (release (resBeforeReleaseR A i s)) (A.div 86400 1e9)
      else A.mul (A.mul (A.rnd 0.1) (release (resBeforeReleaseR A i s))) (A.div 86400 1e9)) hb
    (by split_ifs <;> exact mul_F hA _ _)
  exact ⟨this.1, this.2.1, this.2.2, habs.2⟩

/-- A reservoir for the example. -/
noncomputable def demoRes : ResIn :=
  { precip := 0.001, openPet := 0.002, arid := true, drainageOk := true, gwConst := 10, area := 20, redExp := 2.81,
    cfa := 1, firstDay := false, glolakeArea := 0, demandSw := 3, unsatGlolake := 0, minV := 0,
    han := { cap := 10, startMonth := 1, month := 1, day := 1, kRelease := 0.5, rtype := .nonIrrigation,
             monthlyDemand := 0, annualDemand := 0, meanInflow := 100, inflow := 0.01, daysInMonth := 31 } }

example : (resSOR binary64 demoRes 8 fun st => 1000 * st).1 ≤ 10 := by
  have h : binary64.F 3 := by have := binary64_ok.nat 3 (by norm_num); simpa [Arith.F] using this
  have hd : resDemandR binary64 demoRes = 3 := by norm_num [resDemandR, demoRes]
  exact (C65_reservoir binary64_ok demoRes 8 (fun st => 1000 * st) (by norm_num) (by norm_num [demoRes])
    (by norm_num [demoRes]) (by norm_num [demoRes]) (by norm_num [demoRes]) (by rw [hd]; exact h)).2.1

include hA in
/-- C65: the river's streamflow and unsatisfied demand are not negative. -/
theorem C65_river (minV corr k s q d : ℝ) (hcorr : 0 ≤ corr) (hd : A.F d) :
    0 ≤ (riverR A minV corr k s q d).2.1 ∧ 0 ≤ (riverR A minV corr k s q d).2.2 := by
  simp only [riverR]
  have hpos : ∀ f : ℝ, 0 ≤ (if f < 0 then 0 else f) := by
    intro f; split_ifs with h
    · exact le_rfl
    · exact not_lt.mp h
  generalize A.add q (A.div (A.mul (A.mul k s) (A.exp (A.mul (-1) k))) (A.sub 1 (A.exp (A.mul (-1) k)))) = mx
  by_cases h : d > mx
  · simp only [if_pos h]
    refine ⟨mul_nonneg hA (hpos _) hcorr, ?_⟩
    split_ifs with h0
    · exact sub_nonneg hA (mul_le_left hA h0.le hd (div_le_one hA h0 h.le))
    · exact le_rfl
  · simp only [if_neg h]
    exact ⟨mul_nonneg hA (hpos _) hcorr, le_rfl⟩

example : 0 ≤ (riverR binary64 0 1 0.1 5 1 100).2.1 := by
  have h : binary64.F 100 := by have := binary64_ok.nat 100 (by norm_num); simpa [Arith.F] using this
  exact (C65_river binary64_ok 0 1 0.1 5 1 100 (by norm_num) h).1

/-- C65: the groundwater discharge is not negative (the guard is a comparison with zero: no rounding is involved). -/
theorem C65_groundwater (prev netIn k : ℝ) : 0 ≤ (gwStorageR A prev netIn k).2 := by
  simp only [gwStorageR]
  split_ifs with h
  · exact le_rfl
  · exact (not_le.mp h).le

/-! ### Without rounding the routines are those of the rest of the model -/

/-- C65: the canopy routine without rounding. -/
theorem C65_exact_canopy (storage lai pet precip frac ratio coef minV : ℝ) :
    canopyR exact storage lai pet precip frac ratio coef minV =
      canopyWaterBalance storage lai pet precip frac ratio coef minV := rfl

theorem bandLoopR_exact (p : SnowPar) : ∀ (l : List (ℝ × ℝ)) (t : ℝ), bandLoopR exact p t l = bandLoop p t l := by
  intro l
  induction l with
  | nil => intro t; rfl
  | cons b l ih =>
    intro t
    obtain ⟨e, s⟩ := b
    simp only [bandLoopR, bandLoop, ih]
    rfl

theorem sum_exact (l : List ℝ) : exact.sum l = l.sum := by
  have : ∀ (l : List ℝ) (a : ℝ), l.foldl exact.add a = a + l.sum := by
    intro l
    induction l with
    | nil => intro a; simp
    | cons x l ih =>
      intro a
      rw [List.foldl_cons, ih]
      have : exact.add a x = a + x := rfl
      rw [this, List.sum_cons]; ring
  simpa [Arith.sum] using this l 0

theorem meanR_exact (l : List ℝ) : meanR exact l = mean l := by
  have : meanR exact l = exact.sum l / l.length := rfl
  rw [this, sum_exact, mean]

/-- C65: the snow routine without rounding. -/
theorem C65_exact_snow (p : SnowPar) (bands : List (ℝ × ℝ)) (lsc frac ratio transfer minV : ℝ) :
    snowR exact p bands lsc frac ratio transfer minV = snowWaterBalance p bands lsc frac ratio transfer minV := by
  have e : rescaleBandR exact ratio minV = rescaleBand ratio minV := rfl
  have d : ∀ x y, exact.div x y = x / y := fun _ _ => rfl
  have a : ∀ x y, exact.add x y = x + y := fun _ _ => rfl
  have s : ∀ x y, exact.sub x y = x - y := fun _ _ => rfl
  simp only [snowR, snowWaterBalance, meanR_exact, bandLoopR_exact, e, sum_exact, d, a, s]

/-- C65: the soil routine without rounding. -/
theorem C65_exact_soil (i : SoilIn) (soil : ℝ) : soilR exact i soil = soilWaterBalance i soil := rfl

/-- C65: without rounding, the land part of a day leaves the storages that the model's cell routine leaves, for the
potential evapotranspiration and the leaf area index that it computes. -/
theorem C65_exact_land (p : VertPar) (f : VertForcing) (s : VertState) :
    let rad := netRadiation p.rad f.temperature f.swDown f.lwDown s.snow
    let pet := priestleyTaylor f.temperature p.alpha rad.1 rad.2
    let l := laiStep p.lai { s.lai with lai := 0 } f.temperature f.precip
    let o := landDayR exact p
      { temperature := f.temperature, precip := f.precip, pet := pet.1, lai := l.lai, frac := f.frac,
        ratio := f.ratio }
      { canopy := s.canopy, bands := s.bands, soil := s.soil }
    o.next.canopy = (vertCell p f s).next.canopy ∧ o.next.bands = (vertCell p f s).next.bands ∧
    o.next.soil = (vertCell p f s).next.soil ∧ o.soil.recharge = (vertCell p f s).recharge ∧
    o.soil.surfaceRunoff = (vertCell p f s).surfaceRunoff := by
  have i : ∀ x y z, immediateR exact x y z = immediateRunoff x y z := fun _ _ _ => rfl
  simp only [landDayR, vertCell, C65_exact_canopy, C65_exact_snow, C65_exact_soil, i, and_self]

/-- C65: lakes and wetlands without rounding. -/
theorem C65_exact_lake (kind : LakeKind) (i : LakeIn) (s : ℝ) :
    (lakeSOR exact kind i s).1 = (lakeBalance kind i s).storage ∧
    (lakeSOR exact kind i s).2 = (lakeBalance kind i s).outflow ∧
    lakeNewFracR exact kind i s = (lakeBalance kind i s).newFrac := by
  cases kind <;> exact ⟨rfl, rfl, rfl⟩

/-- C65: reservoirs without rounding. -/
theorem C65_exact_reservoir (i : ResIn) (s : ℝ) :
    (resSOR exact i s fun st => (hanasaki i.han st).1).1 = (resBalance i s).storage ∧
    (resSOR exact i s fun st => (hanasaki i.han st).1).2 = (resBalance i s).outflow := ⟨rfl, rfl⟩

/-- C65: river and groundwater without rounding. -/
theorem C65_exact_river (minV corr k s q d : ℝ) :
    riverR exact minV corr k s q d = ((riverBalance minV corr k s q d).storage,
      (riverBalance minV corr k s q d).streamflow, (riverBalance minV corr k s q d).unsat) := rfl

theorem C65_exact_groundwater (prev netIn k : ℝ) : gwStorageR exact prev netIn k = gwStorage prev netIn k := rfl

end WG
