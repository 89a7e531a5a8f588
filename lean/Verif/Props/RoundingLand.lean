import Verif.Props.RoundingNet

/-!
C67, the land column in rounded arithmetic: the snow routine with its means over the elevation bands, one day of canopy, snow, built-up
land and soil, and any number of days.
-/

namespace WG
open Arith

variable {A : Arith} {u η : ℝ} (hA : A.Ok) (hn : A.Near u η)

/-! ### Frozen cells -/

include hA in
theorem lapseTempR_mono (p : SnowPar) (hl : 0 ≤ p.lapse) {e e' : ℝ} (h : e ≤ e') :
    lapseTempR A p e' ≤ lapseTempR A p e := by
  unfold lapseTempR Arith.sub Arith.mul
  refine hA.mono ?_
  have h1 : A.rnd (e - p.meanElev) ≤ A.rnd (e' - p.meanElev) := hA.mono (by linarith)
  have h2 := hA.mono (mul_le_mul_of_nonneg_right h1 hl)
  linarith

include hA in
theorem loopR_frozen (p : SnowPar) (e0 : ℝ) (hl : 0 ≤ p.lapse) (hfm : p.freezeTemp ≤ p.meltTemp)
    (hfz : lapseTempR A p e0 ≤ p.freezeTemp) (bands : List (ℝ × ℝ)) : ∀ thresh : ℝ, (∀ b ∈ bands, e0 ≤ b.1) →
    (0 < thresh → e0 ≤ thresh) → ∀ o ∈ bandLoopR A p thresh bands, o.melt = 0 ∧ o.rain = 0 := by
  have mono : ∀ e, e0 ≤ e → lapseTempR A p e ≤ p.freezeTemp := fun e he => (lapseTempR_mono hA p hl he).trans hfz
  have step : ∀ t s, t ≤ p.freezeTemp → (bandStepR A p t s).melt = 0 ∧ (bandStepR A p t s).rain = 0 := by
    intro t s h
    have : ¬ t > p.meltTemp := by linarith
    simp [bandStepR, h, not_lt.mp this]
  induction bands with
  | nil => simp [bandLoopR]
  | cons b bs ih =>
    intro thresh hb ht
    have hb0 : e0 ≤ b.1 := hb b (by simp)
    intro o ho
    simp only [bandLoopR, List.mem_cons] at ho
    rcases ho with rfl | ho
    · apply step
      simp only [bandTempR]
      split_ifs <;> first | exact mono _ hb0 | exact mono _ (ht (by assumption))
    · refine ih _ (fun x hx => hb x (by simp [hx])) ?_ o ho
      simp only [bandTempR]
      split_ifs <;> first | exact fun _ => hb0 | exact ht

include hA in
theorem meanR_zero (l : List BandOut) (f : BandOut → ℝ) (h : ∀ o ∈ l, f o = 0) : meanR A (l.map f) = 0 := by
  have z : A.rnd 0 = 0 := zero_F hA
  have h0 : A.sum (l.map f) = 0 := by
    induction l with
    | nil => simp [Arith.sum]
    | cons a l ih =>
      have h1 := ih fun o ho => h o (by simp [ho])
      simp only [Arith.sum, List.map_cons, List.foldl_cons, Arith.add, h a (by simp), add_zero, z] at h1 ⊢
      exact h1
  rw [meanR, h0, Arith.div, zero_div, z]

include hA in
/-- C52 and C67: in rounded arithmetic, too, a cell whose lowest band is frozen delivers no water to the soil, not even a rounding
error's worth. -/
theorem C67_frozen_cell (p : SnowPar) (first : ℝ × ℝ) (rest : List (ℝ × ℝ)) (lsc frac ratio transfer minV : ℝ) (hfrac : 0 < frac)
    (hl : 0 ≤ p.lapse) (hfm : p.freezeTemp ≤ p.meltTemp) (hlow : ∀ b ∈ rest, first.1 ≤ b.1)
    (hfrozen : (snowR A p (first :: rest) lsc frac ratio transfer minV).maxTempElev ≤ p.freezeTemp) :
    (snowR A p (first :: rest) lsc frac ratio transfer minV).effPrecip = 0 ∧
    (snowR A p (first :: rest) lsc frac ratio transfer minV).melt = 0 := by
  have z : A.rnd 0 = 0 := zero_F hA
  have hmt : (snowR A p (first :: rest) lsc frac ratio transfer minV).maxTempElev = lapseTempR A p first.1 := by
    simp only [snowR, gt_iff_lt, if_pos hfrac, List.map_cons, bandLoopR, List.head?_cons,
      Option.map_some, Option.getD_some, bandStepR, bandTempR, rescaleBandR]
    split_ifs <;> rfl
  rw [hmt] at hfrozen
  have H := loopR_frozen hA p first.1 hl hfm hfrozen ((first :: rest).map (rescaleBandR A ratio minV)) 0
    (by
      intro b hb
      simp only [List.mem_map, rescaleBandR] at hb
      obtain ⟨c, hc, rfl⟩ := hb
      simp only [List.mem_cons] at hc
      rcases hc with rfl | hc
      · exact le_rfl
      · exact hlow c hc)
    (fun h => absurd h (lt_irrefl _))
  simp only [snowR, gt_iff_lt, if_pos hfrac]
  constructor
  · refine meanR_zero hA _ _ fun o ho => ?_
    rw [(H o ho).1, (H o ho).2, Arith.add, add_zero, z]
  · exact meanR_zero hA _ _ fun o ho => (H o ho).1

/-! ### Means over the bands -/

include hA hn in
/-- A rounded sum of numbers between zero and the natural number `M`. -/
theorem sumR_err (M : ℕ) (l : List ℝ) (hl : ∀ v ∈ l, 0 ≤ v ∧ v ≤ M) (h : l.length * M ≤ 2 ^ 53) :
    0 ≤ A.sum l ∧ A.sum l ≤ l.length * M ∧ |A.sum l - l.sum| ≤ l.length * (u * (l.length * M) + η) := by
  induction l using List.reverseRecOn with
  | nil => simp [Arith.sum]
  | append_singleton l v ih =>
    obtain ⟨v0, v1⟩ := hl v (by simp)
    rw [List.length_append] at h ⊢
    simp only [List.length_cons, List.length_nil, zero_add] at h ⊢
    obtain ⟨h0, h1, h2⟩ := ih (fun w hw => hl w (by simp [hw])) (le_trans (Nat.mul_le_mul_right _ (by omega)) h)
    have hs : A.sum (l ++ [v]) = A.rnd (A.sum l + v) := by simp [Arith.sum, List.foldl_append, Arith.add]
    have hF : A.F (((l.length + 1) * M : ℕ) : ℝ) := hA.nat _ h
    have hle : A.sum l + v ≤ (((l.length + 1) * M : ℕ) : ℝ) := by push_cast; linarith
    obtain ⟨b, e⟩ := hn.op hA hF (x := A.sum l + v) (by rw [abs_of_nonneg (by linarith)]; exact hle)
    rw [hs, List.sum_append]
    simp only [List.sum_cons, List.sum_nil, add_zero]
    push_cast at b e ⊢
    refine ⟨rnd_nonneg hA (by linarith), (le_abs_self _).trans b, ?_⟩
    have hmono : (l.length : ℝ) * (u * (l.length * M) + η) ≤ l.length * (u * ((l.length + 1) * M) + η) := by
      have : u * ((l.length : ℝ) * M) ≤ u * ((l.length + 1) * M) := mul_le_mul_of_nonneg_left (by nlinarith) hn.u0
      exact mul_le_mul_of_nonneg_left (by linarith) (by positivity)
    rw [abs_le] at h2 e ⊢
    constructor <;> linarith [h2.1, h2.2, e.1, e.2]

include hA hn in
/-- The rounded mean of numbers between zero and the natural number `M`: one rounding for every number and one more. -/
theorem meanR_err (M : ℕ) (l : List ℝ) (hl : ∀ v ∈ l, 0 ≤ v ∧ v ≤ M) (h : l.length * M ≤ 2 ^ 53) (hne : 0 < l.length) :
    0 ≤ meanR A l ∧ meanR A l ≤ M ∧ |meanR A l - l.sum / l.length| ≤ (l.length + 1) * (u * M + η) := by
  obtain ⟨h0, h1, h2⟩ := sumR_err hA hn M l hl h
  have hp : (0 : ℝ) < l.length := by exact_mod_cast hne
  have h1' : (1 : ℝ) ≤ l.length := by exact_mod_cast hne
  have hM0 : (0 : ℝ) ≤ M := by positivity
  have hF : A.F (M : ℝ) := hA.nat M (le_trans (Nat.le_mul_of_pos_left _ hne) h)
  have hd : A.sum l / l.length ≤ M := by rw [div_le_iff₀ hp]; linarith
  have hd0 : 0 ≤ A.sum l / l.length := _root_.div_nonneg h0 hp.le
  obtain ⟨b, e⟩ := hn.op hA hF (x := A.sum l / l.length) (by rw [abs_of_nonneg hd0]; exact hd)
  refine ⟨rnd_nonneg hA hd0, (le_abs_self _).trans b, ?_⟩
  have e2 : |A.sum l / l.length - l.sum / l.length| ≤ u * (l.length * M) + η := by
    rw [← sub_div, abs_div, abs_of_pos hp, div_le_iff₀ hp]
    linarith
  have hη : η ≤ l.length * η := by nlinarith [hn.η0]
  change |meanR A l - _| ≤ _ at e
  rw [abs_le] at e e2 ⊢
  constructor <;> linarith [e.1, e.2, e2.1, e2.2]

/-! ### Snow -/

include hA in
theorem bandStepR_size (p : SnowPar) (temp s M : ℝ) (hM : A.F M) (hs : 0 ≤ s) (ht : 0 ≤ p.throughfall)
    (hpet : 0 ≤ p.petToSoil) (hd : 0 ≤ p.degreeday) (h : s + p.throughfall ≤ M) :
    let o := bandStepR A p temp s
    o.storage ≤ M ∧ o.sublimation ≤ M ∧ o.melt + o.rain ≤ M := by
  intro o
  have fin : ∀ s2 : ℝ, 0 ≤ s2 → s2 ≤ M →
      (if temp > p.meltTemp then (if s2 > 0 then
          (if (if temp > p.meltTemp then (if s2 > 0 then A.mul p.degreeday (A.sub temp p.meltTemp) else 0) else 0) > s2
            then s2
            else (if temp > p.meltTemp then (if s2 > 0 then A.mul p.degreeday (A.sub temp p.meltTemp) else 0) else 0))
          else 0) else 0) ≤ s2 ∧
        (if temp > p.meltTemp then (if s2 > 0 then
          (if (if temp > p.meltTemp then (if s2 > 0 then A.mul p.degreeday (A.sub temp p.meltTemp) else 0) else 0) > s2
            then 0
            else A.sub s2 (if temp > p.meltTemp then
              (if s2 > 0 then A.mul p.degreeday (A.sub temp p.meltTemp) else 0) else 0))
          else s2) else s2) ≤ M := by
    intro s2 a1 a2
    by_cases hT : temp > p.meltTemp
    · by_cases h2 : s2 > 0
      · simp only [if_pos hT, if_pos h2]
        have hm : 0 ≤ A.mul p.degreeday (A.sub temp p.meltTemp) := mul_nonneg hA hd (sub_nonneg hA hT.le)
        generalize A.mul p.degreeday (A.sub temp p.meltTemp) = mm at hm
        split_ifs with hc
        · exact ⟨le_rfl, by linarith⟩
        · exact ⟨not_lt.mp hc, rnd_le hA hM (by linarith)⟩
      · simp only [if_pos hT, if_neg h2]; exact ⟨a1, a2⟩
    · simp only [if_neg hT]; exact ⟨a1, a2⟩
  simp only [o, bandStepR]
  by_cases hfr : temp ≤ p.freezeTemp
  · simp only [if_pos hfr, add_zero]
    have s1n : 0 ≤ A.add s p.throughfall := add_nonneg hA hs ht
    have s1M : A.add s p.throughfall ≤ M := rnd_le hA hM h
    generalize A.add s p.throughfall = s1 at *
    by_cases hc : s1 > p.petToSoil
    · simp only [if_pos hc]
      have k := fin (A.sub s1 p.petToSoil) (sub_nonneg hA hc.le) (rnd_le hA hM (by linarith))
      have : A.sub s1 p.petToSoil ≤ M := rnd_le hA hM (by linarith)
      exact ⟨k.2, by linarith, k.1.trans this⟩
    · simp only [if_neg hc]
      have k := fin 0 le_rfl (by linarith)
      exact ⟨k.2, by linarith, k.1.trans (by linarith)⟩
  · simp only [if_neg hfr]
    have k := fin s hs (by linarith)
    exact ⟨k.2, by linarith, by linarith [k.1]⟩

include hA hn in
theorem bandLoopR_err (p : SnowPar) (M : ℝ) (hM : A.F M) (hp : 0 ≤ p.precip) (ht : 0 ≤ p.throughfall)
    (hpet : 0 ≤ p.petToSoil) (hd : 0 ≤ p.degreeday) : ∀ (l : List (ℝ × ℝ)) (thresh : ℝ),
    (∀ b ∈ l, 0 ≤ b.2 ∧ A.F b.2 ∧ b.2 + p.throughfall ≤ M) →
    let outs := bandLoopR A p thresh l
    outs.length = l.length ∧
    (∀ o ∈ outs, (0 ≤ o.storage ∧ o.storage ≤ M) ∧ (0 ≤ o.sublimation ∧ o.sublimation ≤ M) ∧
      0 ≤ A.add o.melt o.rain ∧ A.add o.melt o.rain ≤ M) ∧
    |(l.map (·.2)).sum + l.length * p.throughfall - (outs.map fun o => A.add o.melt o.rain).sum
      - (outs.map (·.sublimation)).sum - (outs.map (·.storage)).sum| ≤ l.length * (4 * (u * M + η)) := by
  intro l
  induction l with
  | nil => intro t _; simp [bandLoopR]
  | cons b l ih =>
    intro t h
    obtain ⟨e, s⟩ := b
    obtain ⟨s0, sF, sM⟩ := h (e, s) (by simp)
    obtain ⟨i1, i2, i3⟩ := ih (bandTempR A p t e s).2 fun b hb => h b (by simp [hb])
    have r := bandStepR_range hA p (bandTempR A p t e s).1 s s0 sF hp ht hpet hd
    obtain ⟨z1, z2, z3⟩ := bandStepR_size hA p (bandTempR A p t e s).1 s M hM s0 ht hpet hd sM
    have c := C67_snow_band hA hn p (bandTempR A p t e s).1 s M hM s0 ht hpet hd sM
    simp only [bandLoopR, List.forall_mem_cons, List.length_cons, i1, List.map_cons, List.sum_cons]
    generalize bandStepR A p (bandTempR A p t e s).1 s = o at *
    generalize bandLoopR A p (bandTempR A p t e s).2 l = outs at *
    have hmr : 0 ≤ o.melt + o.rain := by linarith [r.melt, r.rain]
    obtain ⟨b5, e5⟩ := hn.op hA hM (x := o.melt + o.rain) (by rw [abs_of_nonneg hmr]; exact z3)
    change |A.add _ _| ≤ _ at b5
    change |A.add _ _ - _| ≤ _ at e5
    refine ⟨trivial, ⟨⟨⟨r.storage, z1⟩, ⟨r.sublimation, z2⟩, add_nonneg hA r.melt r.rain, (le_abs_self _).trans b5⟩, i2⟩, ?_⟩
    push_cast
    rw [abs_le] at c e5 i3 ⊢
    constructor <;> linarith [c.1, c.2, e5.1, e5.2, i3.1, i3.2]

theorem sum_zip_snd (es bs : List ℝ) (h : es.length = bs.length) : ((es.zip bs).map (·.2)) = bs :=
  List.map_snd_zip h.ge

include hA hn in
/-- C67, snow: the mean snow of the bands on the new land area and the throughfall are effective precipitation, sublimation and
the mean of the new snow of the bands, up to the amount below which the snow of a band is set to zero and two roundings for every
band and seven more. `S` and `T` bound the snow of a band and the throughfall. -/
theorem C67_snow (p : SnowPar) (bands : List (ℝ × ℝ)) (lsc frac ratio transfer minV : ℝ) (S T : ℕ) (hfrac : 0 < frac)
    (hne : 0 < bands.length) (hb : ∀ b ∈ bands, 0 ≤ b.2 ∧ b.2 * ratio ≤ S) (hr : 0 ≤ ratio) (hp : 0 ≤ p.precip)
    (ht : 0 ≤ p.throughfall ∧ p.throughfall ≤ T) (hpet : 0 ≤ p.petToSoil) (hd : 0 ≤ p.degreeday)
    (hsize : bands.length * (S + T) ≤ 2 ^ 53) :
    let o := snowR A p bands lsc frac ratio transfer minV
    |(bands.map (·.2)).sum / bands.length * ratio + p.throughfall - (o.effPrecip + o.sublimation + o.bands.sum / o.bands.length)| ≤
      max minV 0 + (2 * bands.length + 7) * (u * (S + T) + η) ∧
    |o.storage - o.bands.sum / o.bands.length| ≤ (bands.length + 1) * (u * (S + T) + η) ∧
    (0 ≤ o.effPrecip ∧ o.effPrecip ≤ S + T) ∧ (0 ≤ o.sublimation ∧ o.sublimation ≤ S + T) ∧ ∀ b ∈ o.bands, b ≤ S + T := by
  intro o
  have hle1 : S + T ≤ 2 ^ 53 := le_trans (Nat.le_mul_of_pos_left _ hne) hsize
  have hSF : A.F (S : ℝ) := hA.nat S (by omega)
  have hMF : A.F ((S + T : ℕ) : ℝ) := hA.nat _ hle1
  have hcast : ((S + T : ℕ) : ℝ) = S + T := by push_cast; ring
  have hpos : (0 : ℝ) < bands.length := by exact_mod_cast hne
  have hinit : ∀ b ∈ bands.map (rescaleBandR A ratio minV), 0 ≤ b.2 ∧ A.F b.2 ∧ b.2 + p.throughfall ≤ ((S + T : ℕ) : ℝ) := by
    intro b hbm
    obtain ⟨c, hc, rfl⟩ := List.mem_map.mp hbm
    have hle : flush minV (A.mul c.2 ratio) ≤ S := by
      unfold flush
      split_ifs
      · positivity
      · exact rnd_le hA hSF (hb c hc).2
    refine ⟨flush_nonneg' (mul_nonneg hA (hb c hc).1 hr), flush_F hA (mul_F hA _ _), ?_⟩
    rw [hcast]; exact _root_.add_le_add hle ht.2
  have hE : 0 ≤ u * ((S : ℝ) + T) + η := by
    have := _root_.mul_nonneg hn.u0 (show (0 : ℝ) ≤ S + T by positivity); linarith [hn.η0]
  have hresc : |((bands.map (rescaleBandR A ratio minV)).map (·.2)).sum - (bands.map (·.2)).sum * ratio| ≤
      bands.length * (max minV 0 + (u * (S + T) + η)) := by
    clear hinit hne hsize hpos o
    induction bands with
    | nil => simp
    | cons b l ih =>
      have i := ih fun c hc => hb c (by simp [hc])
      obtain ⟨b0, b1⟩ := hb b (by simp)
      have hle : |b.2 * ratio| ≤ ((S : ℝ) + T) := by
        rw [abs_of_nonneg (_root_.mul_nonneg b0 hr)]
        have : (0 : ℝ) ≤ T := by positivity
        linarith
      have e := hn.err hle
      have f := flush_dist minV (A.mul b.2 ratio)
      change |A.mul _ _ - _| ≤ _ at e
      simp only [List.map_cons, List.sum_cons, List.length_cons, rescaleBandR] at i ⊢
      push_cast
      rw [abs_le] at i e f ⊢
      constructor <;> linarith [i.1, i.2, e.1, e.2, f.1, f.2]
  obtain ⟨hlen, hall, herr⟩ := bandLoopR_err hA hn p _ hMF hp ht.1 hpet hd _ 0 hinit
  rw [List.length_map] at hlen herr
  simp only [o, snowR, gt_iff_lt, if_pos hfrac]
  generalize hinitd : (bands.map (rescaleBandR A ratio minV)) = init at *
  generalize bandLoopR A p 0 init = outs at *
  have hm : ∀ f : BandOut → ℝ, (∀ o ∈ outs, 0 ≤ f o ∧ f o ≤ ((S + T : ℕ) : ℝ)) →
      0 ≤ meanR A (outs.map f) ∧ meanR A (outs.map f) ≤ ((S + T : ℕ) : ℝ) ∧
      |meanR A (outs.map f) - (outs.map f).sum / bands.length| ≤ (bands.length + 1) * (u * ((S + T : ℕ) : ℝ) + η) := by
    intro f hf
    have := meanR_err hA hn (S + T) (outs.map f) (by
      intro v hv
      obtain ⟨o, ho, rfl⟩ := List.mem_map.mp hv
      exact hf o ho) (by rw [List.length_map, hlen]; exact hsize) (by rw [List.length_map, hlen]; exact hne)
    rw [List.length_map, hlen] at this
    exact this
  obtain ⟨m1, m2, m3⟩ := hm (fun o => A.add o.melt o.rain) fun o ho => (hall o ho).2.2
  obtain ⟨n1, n2, n3⟩ := hm (fun o => o.sublimation) fun o ho => (hall o ho).2.1
  obtain ⟨-, -, k3⟩ := hm (fun o => o.storage) fun o ho => (hall o ho).1
  rw [List.length_map, hlen]
  rw [hcast] at *
  refine ⟨?_, k3, ⟨m1, m2⟩, ⟨n1, n2⟩, fun b hb => ?_⟩
  swap
  · obtain ⟨o, ho, rfl⟩ := List.mem_map.mp hb
    exact (hall o ho).1.2
  generalize meanR A (outs.map fun o => A.add o.melt o.rain) = eff at *
  generalize meanR A (outs.map fun o => o.sublimation) = sub at *
  generalize (outs.map fun o => A.add o.melt o.rain).sum = E at *
  generalize (outs.map fun o => o.sublimation).sum = U at *
  generalize (outs.map fun o => o.storage).sum = N at *
  generalize (init.map (·.2)).sum = I at *
  generalize (bands.map (·.2)).sum = B at *
  generalize (bands.length : ℝ) = n at *
  have g1 : |I / n + p.throughfall - E / n - U / n - N / n| ≤ 4 * (u * (S + T) + η) := by
    rw [show I / n + p.throughfall - E / n - U / n - N / n = (I + n * p.throughfall - E - U - N) / n by
      field_simp, abs_div, abs_of_pos hpos, div_le_iff₀ hpos]
    linarith
  have g2 : |I / n - B / n * ratio| ≤ max minV 0 + (u * (S + T) + η) := by
    rw [show I / n - B / n * ratio = (I - B * ratio) / n by field_simp, abs_div, abs_of_pos hpos, div_le_iff₀ hpos]
    linarith
  rw [abs_le] at g1 g2 m3 n3 ⊢
  constructor <;> linarith [g1.1, g1.2, g2.1, g2.2, m3.1, m3.2, n3.1, n3.2]

/-! ### Canopy, snow, built-up land and soil together -/

include hA in
theorem canopyR_size (storage lai pet precip frac ratio coef minV : ℝ) (C P : ℕ) (hCP : C + P ≤ 2 ^ 53) (hs : 0 ≤ storage)
    (hpet : 0 ≤ pet) (hpetF : A.F pet) (hp : 0 ≤ precip) (hpF : A.F precip) (hr : 0 ≤ ratio) (hcoef : 0 ≤ coef) (hf : 0 < frac)
    (h1 : storage * ratio ≤ C) (h2 : precip ≤ P) (h3 : coef * lai ≤ C) :
    let o := canopyR A storage lai pet precip frac ratio coef minV
    o.throughfall ≤ ((C + P : ℕ) : ℝ) ∧ o.storage ≤ C ∧ o.petToSoil ≤ pet := by
  intro o
  have hrange := C65_canopy hA storage lai pet precip frac ratio coef minV hs hpet hpetF hp hpF hr hcoef
  have hCF : A.F (C : ℝ) := hA.nat C (by omega)
  have hCPF : A.F ((C + P : ℕ) : ℝ) := hA.nat _ hCP
  have s0F : A.F (flush minV (A.mul storage ratio)) := flush_F hA (mul_F hA _ _)
  have s0C : flush minV (A.mul storage ratio) ≤ C := by
    unfold flush
    split_ifs
    · positivity
    · exact rnd_le hA hCF h1
  have hC0 : (0 : ℝ) ≤ C := by positivity
  have hpC : precip ≤ ((C + P : ℕ) : ℝ) := by push_cast; linarith
  by_cases hlai : 0 < lai
  · refine ⟨?_, ((hrange.capacity hf hlai).1).trans (rnd_le hA hCF h3), ?_⟩
    · simp only [o, canopyR, gt_iff_lt, if_pos hf, if_pos hlai]
      have hm0 : 0 ≤ A.mul coef lai := mul_nonneg hA hcoef hlai.le
      generalize A.mul coef lai = m at *
      generalize flush minV (A.mul storage ratio) = s0 at *
      have hdiff : -(s0 : ℝ) ≤ A.sub m s0 := le_rnd hA (neg_F hA s0F) (by linarith)
      split_ifs
      · positivity
      · refine rnd_le hA hCPF ?_
        push_cast; linarith
    · have he := hrange.evap
      simp only [canopyR, gt_iff_lt, if_pos hf, if_pos hlai] at he
      simp only [o, canopyR, gt_iff_lt, if_pos hf, if_pos hlai]
      generalize (if precip < A.sub (A.mul coef lai) (flush minV (A.mul storage ratio)) then
        A.add (flush minV (A.mul storage ratio)) precip else A.mul coef lai) = s1 at *
      generalize (if 0 < A.mul coef lai then A.mul pet (A.pow (A.div s1 (A.mul coef lai)) (A.div 2 3)) else 0) = ev at *
      have : (if s1 < ev then A.sub pet s1 else A.sub pet ev) ≤ pet := by
        split_ifs at he ⊢ <;> exact rnd_le hA hpetF (by linarith)
      split_ifs at this ⊢ <;> first | exact hpet | exact this
  · simp only [o, canopyR, gt_iff_lt, if_pos hf, if_neg hlai]
    exact ⟨hpC, s0C, by split_ifs <;> linarith⟩

/-- The water on and in the land: canopy, the mean snow of the elevation bands, soil. -/
noncomputable def landWater (s : LandStore) : ℝ := s.canopy + s.bands.sum / s.bands.length + s.soil

/-- Further conditions on the parameters of a cell for the balance: an areal correction of one, the elevation bands from the
lowest up, snow that does not melt below freezing. -/
structure LandCloses (p : VertPar) : Prop where
  cfa : p.cfa = 1
  maxSoil : 0 < p.maxSoil
  gamma : 0 ≤ p.gamma
  factor : p.rechargeFactor ≤ 1
  lapse : 0 ≤ p.lapse
  freeze : p.freezeTemp ≤ p.meltTemp
  lowest : ∃ e es, p.elevs = e :: es ∧ ∀ e' ∈ es, e ≤ e'

/-- Sizes on a day: `S` bounds the snow of a band, `C` the canopy, `P` precipitation; everything else is below their sum. -/
structure LandSize (p : VertPar) (f : LandDayF) (s : LandStore) (S C P : ℕ) : Prop where
  snow : ∀ b ∈ s.bands, b * f.ratio ≤ S
  canopy : s.canopy * f.ratio ≤ C
  capacity : p.coef * f.lai ≤ C
  precip : f.precip ≤ P
  soil : s.soil * f.ratio ≤ S + C + P
  maxSoil : p.maxSoil ≤ S + C + P
  pet : f.pet ≤ S + C + P
  energy : f.pet ≤ p.maxDailyPet
  fits : p.elevs.length * (S + (C + P)) ≤ 2 ^ 53

include hA hn in
theorem land_day_err (p : VertPar) (hp : LandParOk A p) (hc : LandCloses p) (f : LandDayF) (hf : LandDayOk A f) (hland : 0 < f.frac)
    (s : LandStore) (hs : LandStoreOk p.maxSoil s) (hlen : s.bands.length = p.elevs.length) (S C P : ℕ)
    (hz : LandSize p f s S C P) (hu : u ≤ 1 / 100) (hη : η ≤ (S + C + P) / 100) :
    let o := landDayR A p f s
    |f.precip + landWater s * f.ratio - (o.soil.surfaceRunoff + o.soil.recharge + o.soil.landAet + landWater o.next)| ≤
      3 * max p.minV 0 + (2 * p.elevs.length + 185) * (u * (S + C + P) + η) ∧
    o.next.canopy ≤ C ∧ (∀ b ∈ o.next.bands, b ≤ S + C + P) ∧ o.next.bands.length = p.elevs.length := by
  obtain ⟨e0, es, hel, hlow⟩ := hc.lowest
  obtain ⟨b0, bs, hbs⟩ : ∃ b0 bs, s.bands = b0 :: bs := by
    rw [hel] at hlen
    cases hb : s.bands with
    | nil => rw [hb] at hlen; simp at hlen
    | cons a l => exact ⟨a, l, rfl⟩
  have hne : 0 < p.elevs.length := by rw [hel]; simp
  have hall : S + (C + P) ≤ 2 ^ 53 := le_trans (Nat.le_mul_of_pos_left _ hne) hz.fits
  have hCF : A.F (C : ℝ) := hA.nat C (by omega)
  have hMF : A.F (((S + C + P : ℕ) : ℝ)) := hA.nat _ (by omega)
  have hcast : ((S + C + P : ℕ) : ℝ) = S + C + P := by push_cast; ring
  have hS0 : (0 : ℝ) ≤ S := by positivity
  have hC0 : (0 : ℝ) ≤ C := by positivity
  have hP0 : (0 : ℝ) ≤ P := by positivity
  have hE : 0 ≤ u * ((S : ℝ) + C + P) + η := by
    have := _root_.mul_nonneg hn.u0 (show (0 : ℝ) ≤ S + C + P by positivity); linarith [hn.η0]
  have hmv : 0 ≤ max p.minV 0 := le_max_right _ _
  -- canopy
  have c1 := C65_canopy hA s.canopy f.lai f.pet f.precip f.frac f.ratio p.coef p.minV hs.canopy hf.pet.1 hf.pet.2
    hf.precip.1 hf.precip.2 hf.ratio hp.coef
  obtain ⟨c2, c5, c3⟩ := canopyR_size hA s.canopy f.lai f.pet f.precip f.frac f.ratio p.coef p.minV C P (by omega) hs.canopy
    hf.pet.1 hf.pet.2 hf.precip.1 hf.precip.2 hf.ratio hp.coef hland hz.canopy hz.precip hz.capacity
  have c4 := C67_canopy hA hn s.canopy f.lai f.pet f.precip f.frac f.ratio p.coef p.minV _ hMF hs.canopy hf.pet.1
    hf.precip.1 hf.precip.2 hf.ratio hp.coef hland (by rw [hcast]; linarith [hz.canopy]) (by rw [hcast]; linarith [hz.precip])
    (by rw [hcast]; linarith [hz.capacity])
  simp only [landDayR, landWater]
  generalize canopyR A s.canopy f.lai f.pet f.precip f.frac f.ratio p.coef p.minV = c at *
  -- snow
  obtain ⟨sp, hsp⟩ : ∃ sp : SnowPar, sp =
    { temperature := f.temperature, precip := f.precip, throughfall := c.throughfall,
      petToSoil := c.petToSoil, degreeday := p.degreeday, meanElev := p.meanElev, lapse := p.lapse,
      freezeTemp := p.freezeTemp, meltTemp := p.meltTemp } := ⟨_, rfl⟩
  have hzl : (p.elevs.zip s.bands).length = p.elevs.length := by rw [List.length_zip, hlen, min_self]
  have hzs : (p.elevs.zip s.bands).map (·.2) = s.bands := sum_zip_snd _ _ hlen.symm
  obtain ⟨n1, -, n2, n3, n5⟩ := C67_snow hA hn sp (p.elevs.zip s.bands) c.landStorageChange f.frac f.ratio c.transfer p.minV S (C + P)
    hland (by rw [hzl]; exact hne) (fun b hb => ⟨hs.bands _ (List.of_mem_zip hb).2, hz.snow _ (List.of_mem_zip hb).2⟩) hf.ratio
    (by rw [hsp]; exact hf.precip.1) (by rw [hsp]; exact ⟨c1.throughfall, c2⟩) (by rw [hsp]; exact c1.petToSoil)
    (by rw [hsp]; exact hp.degreeday) (by rw [hzl]; exact hz.fits)
  have n4 := C65_snow hA sp (p.elevs.zip s.bands) c.landStorageChange f.frac f.ratio c.transfer p.minV
    (fun b hb => hs.bands _ (List.of_mem_zip hb).2) (by rw [hzl]; exact hp.bands) hf.ratio
    (by rw [hsp]; exact hf.precip.1) (by rw [hsp]; exact c1.throughfall) (by rw [hsp]; exact c1.petToSoil)
    (by rw [hsp]; exact hp.degreeday)
  have hcold : (snowR A sp (p.elevs.zip s.bands) c.landStorageChange f.frac f.ratio c.transfer p.minV).maxTempElev ≤ p.freezeTemp →
      (snowR A sp (p.elevs.zip s.bands) c.landStorageChange f.frac f.ratio c.transfer p.minV).effPrecip = 0 := by
    have hzip : p.elevs.zip s.bands = (e0, b0) :: es.zip bs := by rw [hel, hbs]; rfl
    rw [hzip]
    intro h
    exact (C67_frozen_cell hA sp (e0, b0) (es.zip bs) c.landStorageChange f.frac f.ratio c.transfer p.minV hland
      (by rw [hsp]; exact hc.lapse) (by rw [hsp]; exact hc.freeze) (fun b hb => hlow _ (List.of_mem_zip hb).1)
      (by rw [show sp.freezeTemp = p.freezeTemp by rw [hsp]]; exact h)).1
  rw [← hsp]
  rw [hzl, hzs] at n1
  have hT : sp.throughfall = c.throughfall := by rw [hsp]
  rw [hT] at n1
  generalize snowR A sp (p.elevs.zip s.bands) c.landStorageChange f.frac f.ratio c.transfer p.minV = sn at *
  push_cast at n1 n2 n3 n5 c2
  -- built-up land
  have m1 := C65_immediate hA sn.effPrecip p.fracBuiltup p.builtup n4.effPrecip n4.machine hp.fracBuiltup.1
    hp.fracBuiltup.2 hp.builtup
  have m2 := C67_immediate hn sn.effPrecip p.fracBuiltup p.builtup ((S : ℝ) + C + P)
    (abs_le.mpr ⟨by linarith [m1.2.2.1], by linarith [m1.2.1, n2.2]⟩)
  have m3 : A.F (immediateR A sn.effPrecip p.fracBuiltup p.builtup).1 ∧
      A.F (immediateR A sn.effPrecip p.fracBuiltup p.builtup).2 := by
    unfold immediateR
    split_ifs
    · exact ⟨sub_F hA _ _, mul_F hA _ _⟩
    · exact ⟨n4.machine, zero_F hA⟩
  have m4 : sn.maxTempElev ≤ p.freezeTemp → (immediateR A sn.effPrecip p.fracBuiltup p.builtup).1 = 0 ∧
      (immediateR A sn.effPrecip p.fracBuiltup p.builtup).2 = 0 := by
    intro h
    rw [hcold h] at m1 ⊢
    exact ⟨le_antisymm m1.2.2.2 m1.1, le_antisymm m1.2.2.1 m1.2.1⟩
  generalize immediateR A sn.effPrecip p.fracBuiltup p.builtup = im at *
  -- soil
  obtain ⟨si, hsi⟩ : ∃ si : SoilIn, si =
    { petToSoil := c.petToSoil, frac := f.frac, ratio := f.ratio, maxTempElev := sn.maxTempElev,
      canopyEvap := c.evap, effPrecip := im.1, precip := f.precip, immediate := im.2,
      landStorageChange := sn.landStorageChange, sublimation := sn.sublimation, transfer := sn.transfer,
      freezeTemp := p.freezeTemp, gamma := p.gamma, maxDailyPet := p.maxDailyPet,
      humidArid := p.lai.humidArid, texture := p.texture, drainage := p.drainage,
      maxRecharge := p.maxRecharge, rechargeFactor := p.rechargeFactor, critPrecip := p.critPrecip,
      maxSoil := p.maxSoil, cfa := p.cfa, minV := p.minV } := ⟨_, rfl⟩
  have hphys : si.Physical := by
    rw [hsi]
    exact ⟨c1.petToSoil, hf.ratio, c1.evap, c1.evap_le.trans hz.energy, m1.1, m1.2.1, n4.sublimation, hc.gamma,
      hp.maxRecharge.1, hp.rechargeFactor, hc.factor, hc.maxSoil.le, by rw [hc.cfa]; norm_num⟩
  obtain ⟨o1, o2⟩ := C67_soil hA hn si hphys s.soil _ hMF (by rw [hsi]; exact hc.cfa) (by rw [hsi]; exact hland)
    (by rw [hsi]; exact hc.maxSoil) (by rw [hsi]; exact m4) (by rw [hsi, hcast]; exact hz.maxSoil) hs.soil.1
    (by rw [hsi, hcast]; exact hz.soil) (by rw [hsi, hcast]; linarith [m1.2.2.2, n2.2]) (by rw [hsi]; exact m3.1)
    (by rw [hsi, hcast]; linarith [hz.pet]) (by rw [hsi]; exact c1.machine.2.2.2)
    (by rw [hsi, hcast]; linarith [m1.2.2.1, n2.2]) (by rw [hsi]; exact m3.2) (by rw [hsi]; exact hp.maxRecharge.2)
    (by rw [hsi, hcast]; linarith [c1.evap_le, hz.pet]) (by rw [hsi, hcast]; linarith [n3.2]) hu (by rw [hcast]; exact hη)
  rw [← hsi]
  have hv : si.ratio = f.ratio ∧ si.effPrecip = im.1 ∧ si.immediate = im.2 ∧ si.canopyEvap = c.evap ∧
      si.sublimation = sn.sublimation ∧ si.minV = p.minV := by rw [hsi]; exact ⟨rfl, rfl, rfl, rfl, rfl, rfl⟩
  rw [hv.1, hv.2.1, hv.2.2.1, hv.2.2.2.1, hv.2.2.2.2.1, hv.2.2.2.2.2] at o1
  generalize soilR A si s.soil = so at *
  rw [hcast] at *
  rw [← _root_.add_assoc (S : ℝ) C P] at n1
  rw [hlen] at *
  generalize s.bands.sum / (p.elevs.length : ℝ) = w at *
  have n6 : sn.bands.length = p.elevs.length := by rw [n4.length, hzl]
  generalize hw' : sn.bands.sum / (sn.bands.length : ℝ) = w' at *
  refine ⟨?_, c5, fun b hb => by linarith [n5 b hb], n6⟩
  generalize u * ((S : ℝ) + C + P) + η = E at *
  rw [abs_le] at c4 n1 m2 o1 o2 ⊢
  constructor <;> linarith [c4.1, c4.2, n1.1, n1.2, m2.1, m2.2, o1.1, o1.2, o2.1, o2.2]

include hA hn in
/-- C67, land column: the water of a day and of the day before (on the new land area) is surface runoff, groundwater recharge,
land evapotranspiration and the water of the day after, up to three times the amount below which a storage is set to zero and
two roundings for every elevation band and 185 more. -/
theorem C67_land_day (p : VertPar) (hp : LandParOk A p) (hc : LandCloses p) (f : LandDayF) (hf : LandDayOk A f) (hland : 0 < f.frac)
    (s : LandStore) (hs : LandStoreOk p.maxSoil s) (hlen : s.bands.length = p.elevs.length) (S C P : ℕ)
    (hz : LandSize p f s S C P) (hu : u ≤ 1 / 100) (hη : η ≤ (S + C + P) / 100) :
    let o := landDayR A p f s
    |f.precip + landWater s * f.ratio - (o.soil.surfaceRunoff + o.soil.recharge + o.soil.landAet + landWater o.next)| ≤
      3 * max p.minV 0 + (2 * p.elevs.length + 185) * (u * (S + C + P) + η) :=
  (land_day_err hA hn p hp hc f hf hland s hs hlen S C P hz hu hη).1

/-- The land storages after a number of days. -/
noncomputable def landEnd (A : Arith) (p : VertPar) (s : LandStore) (days : List LandDayF) : LandStore :=
  days.foldl (fun s f => (landDayR A p f s).next) s

/-- A day of unchanged land area, and sizes: `C` bounds the interception capacity, `P` precipitation, `S` potential evaporation. -/
structure PlainDay (A : Arith) (p : VertPar) (f : LandDayF) (S C P : ℕ) : Prop where
  ok : LandDayOk A f
  land : 0 < f.frac
  ratio : f.ratio = 1
  capacity : p.coef * f.lai ≤ C
  precip : f.precip ≤ P
  pet : f.pet ≤ S
  energy : f.pet ≤ p.maxDailyPet

include hA hn in
theorem land_run_err (p : VertPar) (hp : LandParOk A p) (hc : LandCloses p) (C P N : ℕ) (hu : u ≤ 1 / 100) (hη : η ≤ 1 / 100)
    (hN : p.elevs.length * N ≤ 2 ^ 53) (days : List LandDayF) : ∀ (S : ℕ) (s : LandStore), LandStoreOk p.maxSoil s →
    s.bands.length = p.elevs.length → (∀ b ∈ s.bands, b ≤ S) → s.canopy ≤ C → p.maxSoil ≤ S → S + days.length * (C + P) ≤ N →
    (∀ f ∈ days, PlainDay A p f S C P) →
    |(days.map (·.precip)).sum + landWater s -
      (((landRunR A p s days).map fun o => o.soil.surfaceRunoff + o.soil.recharge + o.soil.landAet).sum +
        landWater (landEnd A p s days))| ≤
      days.length * (3 * max p.minV 0 + (2 * p.elevs.length + 185) * (u * N + η)) := by
  induction days with
  | nil => intro S s _ _ _ _ _ _ _; simp [landRunR, landEnd]
  | cons f fs ih =>
    intro S s hs hlen hb hcan hmax hsize hd
    have hf := hd f (by simp)
    have hr := hf.ratio
    simp only [List.length_cons] at hsize
    have hone : S + (C + P) ≤ N := by nlinarith
    have hS1 : (1 : ℝ) ≤ S := by
      have : (0 : ℝ) < S := lt_of_lt_of_le hc.maxSoil hmax
      exact_mod_cast this
    have hN1 : (1 : ℝ) ≤ N := by
      have : (S : ℝ) ≤ N := by exact_mod_cast (by omega : S ≤ N)
      linarith
    have hC0 : (0 : ℝ) ≤ C := by positivity
    have hP0 : (0 : ℝ) ≤ P := by positivity
    have hz : LandSize p f s S C P := by
      have hS : p.maxSoil ≤ (S : ℝ) + C + P := by
        have h1 : (0 : ℝ) ≤ C := by positivity
        have h2 : (0 : ℝ) ≤ P := by positivity
        linarith
      refine ⟨fun b h => by rw [hr, mul_one]; exact hb b h, by rw [hr, mul_one]; exact hcan, hf.capacity, hf.precip,
        by rw [hr, mul_one]; exact hs.soil.2.trans hS, hS, ?_, hf.energy, le_trans (Nat.mul_le_mul_left _ hone) hN⟩
      have h1 : (0 : ℝ) ≤ C := by positivity
      have h2 : (0 : ℝ) ≤ P := by positivity
      linarith [hf.pet]
    -- enlarge `S` so that the three sizes make `N`
    have hfit : S ≤ N - (C + P) := by omega
    have hz' : LandSize p f s (N - (C + P)) C P := by
      have hcast : ((N - (C + P) : ℕ) : ℝ) = N - (C + P) := by rw [Nat.cast_sub (by omega)]; push_cast; ring
      have hSr : (S : ℝ) ≤ ((N - (C + P) : ℕ) : ℝ) := by exact_mod_cast hfit
      exact ⟨fun b h => (hz.snow b h).trans hSr, hz.canopy, hz.capacity, hz.precip, by linarith [hz.soil], by linarith [hz.maxSoil],
        by linarith [hz.pet], hz.energy, by rw [Nat.sub_add_cancel (by omega)]; exact hN⟩
    have hcast : ((N - (C + P) : ℕ) : ℝ) + C + P = N := by
      have : N - (C + P) + C + P = N := by omega
      exact_mod_cast this
    have day := (land_day_err hA hn p hp hc f hf.ok hf.land s hs hlen (N - (C + P)) C P hz' hu (by rw [hcast]; linarith)).1
    obtain ⟨-, z1, z2, z3⟩ := land_day_err hA hn p hp hc f hf.ok hf.land s hs hlen S C P hz hu (by linarith)
    have hok := (landDayR_ok hA p hp f hf.ok s hs).2.2.2
    have rest := ih (S + (C + P)) (landDayR A p f s).next hok z3 (fun b hb => by push_cast; linarith [z2 b hb]) z1
      (by push_cast; linarith) (by nlinarith) (fun g hg => by
        have := hd g (by simp [hg])
        exact ⟨this.ok, this.land, this.ratio, this.capacity, this.precip, by push_cast; linarith [this.pet], this.energy⟩)
    rw [hcast, hr, mul_one] at day
    simp only [landRunR, landEnd, List.map_cons, List.sum_cons, List.foldl_cons, List.length_cons] at rest ⊢
    push_cast
    rw [abs_le] at day rest ⊢
    constructor <;> linarith [day.1, day.2, rest.1, rest.2]

include hA hn in
/-- C67, land column over any number of days of unchanged land area: precipitation and the water at the start are surface runoff,
groundwater recharge, land evapotranspiration and the water at the end, up to the error of `C67_land_day` for every day. No bound
on the snow of the later days is assumed: it follows from the rounded arithmetic that a band gains at most precipitation and
interception. -/
theorem C67_land_run (p : VertPar) (hp : LandParOk A p) (hc : LandCloses p) (days : List LandDayF) (S C P : ℕ) (s : LandStore)
    (hs : LandStoreOk p.maxSoil s) (hlen : s.bands.length = p.elevs.length) (hb : ∀ b ∈ s.bands, b ≤ S) (hcan : s.canopy ≤ C)
    (hmax : p.maxSoil ≤ S) (hd : ∀ f ∈ days, PlainDay A p f S C P)
    (hfit : p.elevs.length * (S + days.length * (C + P)) ≤ 2 ^ 53) (hu : u ≤ 1 / 100) (hη : η ≤ 1 / 100) :
    |(days.map (·.precip)).sum + landWater s -
      (((landRunR A p s days).map fun o => o.soil.surfaceRunoff + o.soil.recharge + o.soil.landAet).sum +
        landWater (landEnd A p s days))| ≤
      days.length * (3 * max p.minV 0 + (2 * p.elevs.length + 185) * (u * (S + days.length * (C + P)) + η)) := by
  have := land_run_err hA hn p hp hc C P (S + days.length * (C + P)) hu hη hfit days S s hs hlen hb hcan hmax le_rfl hd
  push_cast at this
  exact this

/-- A power of two and a bound on days in place of the sizes. -/
theorem land_run_binary64 (p : VertPar) (hp : LandParOk binary64 p) (hc : LandCloses p) (hn : p.elevs.length ≤ 100)
    (days : List LandDayF) (S C P : ℕ) (s : LandStore)
    (hs : LandStoreOk p.maxSoil s) (hlen : s.bands.length = p.elevs.length) (hb : ∀ b ∈ s.bands, b ≤ S) (hcan : s.canopy ≤ C)
    (hmax : p.maxSoil ≤ S) (hd : ∀ f ∈ days, PlainDay binary64 p f S C P) (D k : ℕ) (hD : days.length ≤ D)
    (hk : S + D * (C + P) ≤ 2 ^ k) (hk1 : k ≤ 46) (B : ℝ) (hB : (D : ℝ) * (386 * (2 : ℝ) ^ ((k : ℤ) - 53)) ≤ B) :
    |(days.map (·.precip)).sum + landWater s -
      (((landRunR binary64 p s days).map fun o => o.soil.surfaceRunoff + o.soil.recharge + o.soil.landAet).sum +
        landWater (landEnd binary64 p s days))| ≤ days.length * (3 * max p.minV 0) + B := by
  have hsz : S + days.length * (C + P) ≤ 2 ^ k := (Nat.add_le_add_left (Nat.mul_le_mul_right _ hD) _).trans hk
  have hpk : (2 : ℕ) ^ k ≤ 2 ^ 46 := Nat.pow_le_pow_right (by norm_num) hk1
  have h := C67_land_run binary64_ok binary64_near p hp hc days S C P s hs hlen hb hcan hmax hd
    (le_trans (Nat.mul_le_mul hn (hsz.trans hpk)) (by norm_num))
    (by norm_num [zpow_neg]) ((zpow_le_zpow_right₀ (by norm_num) (by norm_num : (-1075 : ℤ) ≤ -7)).trans (by norm_num [zpow_neg]))
  refine h.trans ?_
  have hszr : (S : ℝ) + days.length * (C + P) ≤ 2 ^ k := by exact_mod_cast hsz
  have e1 : (2 : ℝ) ^ (-53 : ℤ) * (S + days.length * (C + P)) ≤ (2 : ℝ) ^ ((k : ℤ) - 53) := by
    rw [sub_eq_add_neg, zpow_add₀ (by norm_num), mul_comm, zpow_natCast]
    exact mul_le_mul_of_nonneg_right hszr (by positivity)
  have e2 : (2 : ℝ) ^ (-1075 : ℤ) ≤ (2 : ℝ) ^ ((k : ℤ) - 53) / 1000 := by
    have h1 : (2 : ℝ) ^ (-1075 : ℤ) ≤ 2 ^ (-53 : ℤ) / 1000 :=
      (zpow_le_zpow_right₀ (by norm_num) (by norm_num : (-1075 : ℤ) ≤ -63)).trans (by norm_num [zpow_neg])
    have h2 : (2 : ℝ) ^ (-53 : ℤ) ≤ 2 ^ ((k : ℤ) - 53) := zpow_le_zpow_right₀ (by norm_num) (by omega)
    exact h1.trans (div_le_div_of_nonneg_right h2 (by norm_num))
  have hnr : (p.elevs.length : ℝ) ≤ 100 := by exact_mod_cast hn
  have hDr : (days.length : ℝ) ≤ D := by exact_mod_cast hD
  have q0 : (0 : ℝ) < (2 : ℝ) ^ ((k : ℤ) - 53) := by positivity
  generalize (2 : ℝ) ^ ((k : ℤ) - 53) = q at *
  have z : (0 : ℝ) ≤ 2 ^ (-1075 : ℤ) := by positivity
  have z2 : (0 : ℝ) ≤ 2 ^ (-53 : ℤ) * (S + days.length * (C + P)) := by positivity
  generalize (2 : ℝ) ^ (-53 : ℤ) * (S + days.length * (C + P)) = a at *
  generalize (2 : ℝ) ^ (-1075 : ℤ) = b at *
  have e3 : (2 * (p.elevs.length : ℝ) + 185) * (a + b) ≤ 386 * q :=
    le_trans (mul_le_mul (by linarith : 2 * (p.elevs.length : ℝ) + 185 ≤ 385) (by linarith : a + b ≤ q + q / 1000) (by linarith)
      (by norm_num)) (by linarith)
  have e4 : (days.length : ℝ) * ((2 * (p.elevs.length : ℝ) + 185) * (a + b)) ≤ D * (386 * q) :=
    mul_le_mul hDr e3 (by positivity) (by positivity)
  linarith

/-- C67 in the double precision the model uses: over a year of the wettest weather (two metres of rain a day), the water balance of
a land column of up to a hundred elevation bands, ten metres of snow and soil water at the start, is closed to a fifty-thousandth
of a millimetre (and the remainders below which storages are set to zero). -/
theorem C67_land_year (p : VertPar) (hp : LandParOk binary64 p) (hc : LandCloses p) (hn : p.elevs.length ≤ 100)
    (days : List LandDayF) (hD : days.length ≤ 366) (s : LandStore)
    (hs : LandStoreOk p.maxSoil s) (hlen : s.bands.length = p.elevs.length) (hb : ∀ b ∈ s.bands, b ≤ 10000) (hcan : s.canopy ≤ 16)
    (hmax : p.maxSoil ≤ 10000) (hd : ∀ f ∈ days, PlainDay binary64 p f 10000 16 2000) :
    |(days.map (·.precip)).sum + landWater s -
      (((landRunR binary64 p s days).map fun o => o.soil.surfaceRunoff + o.soil.recharge + o.soil.landAet).sum +
        landWater (landEnd binary64 p s days))| ≤ days.length * (3 * max p.minV 0) + 0.00002 :=
  land_run_binary64 p hp hc hn days 10000 16 2000 s hs hlen (by exact_mod_cast hb) (by exact_mod_cast hcan) (by exact_mod_cast hmax)
    hd 366 20 hD (by norm_num) (by norm_num) _ (by norm_num [zpow_neg])

/-- C67, over 123 years: to three tenths of a millimetre. -/
theorem C67_land_century (p : VertPar) (hp : LandParOk binary64 p) (hc : LandCloses p) (hn : p.elevs.length ≤ 100)
    (days : List LandDayF) (hD : days.length ≤ 45000) (s : LandStore)
    (hs : LandStoreOk p.maxSoil s) (hlen : s.bands.length = p.elevs.length) (hb : ∀ b ∈ s.bands, b ≤ 10000) (hcan : s.canopy ≤ 16)
    (hmax : p.maxSoil ≤ 10000) (hd : ∀ f ∈ days, PlainDay binary64 p f 10000 16 2000) :
    |(days.map (·.precip)).sum + landWater s -
      (((landRunR binary64 p s days).map fun o => o.soil.surfaceRunoff + o.soil.recharge + o.soil.landAet).sum +
        landWater (landEnd binary64 p s days))| ≤ days.length * (3 * max p.minV 0) + 0.3 :=
  land_run_binary64 p hp hc hn days 10000 16 2000 s hs hlen (by exact_mod_cast hb) (by exact_mod_cast hcan) (by exact_mod_cast hmax)
    hd 45000 27 hD (by norm_num) (by norm_num) _ (by norm_num [zpow_neg])

/-! ### Examples -/

/-- The cell of the examples without areal correction. -/
noncomputable def plainPar (rad : RadPar) (lai : LaiPar) : VertPar := { demoPar rad lai with cfa := 1 }

theorem plainPar_ok (rad : RadPar) (lai : LaiPar) : LandParOk binary64 (plainPar rad lai) ∧ LandCloses (plainPar rad lai) := by
  have f7 : binary64.F 7 := by exact_mod_cast nat64 7 (by norm_num)
  have f150 : binary64.F 150 := by exact_mod_cast nat64 150 (by norm_num)
  refine ⟨by constructor <;> norm_num [plainPar, demoPar, f7, f150], ?_⟩
  refine ⟨rfl, by norm_num [plainPar, demoPar], by norm_num [plainPar, demoPar], by norm_num [plainPar, demoPar],
    by norm_num [plainPar, demoPar], le_rfl, 300, [500, 700], rfl, ?_⟩
  intro e he
  fin_cases he <;> norm_num

/-- A day with snow and rain and a dry day of thaw. -/
noncomputable def twoDays : List LandDayF := [⟨272, 5, 1, 2, 1, 1⟩, ⟨280, 0, 3, 2, 1, 1⟩]

theorem twoDays_plain (rad : RadPar) (lai : LaiPar) : ∀ f ∈ twoDays, PlainDay binary64 (plainPar rad lai) f 10000 16 2000 := by
  have hf : ∀ n : ℕ, n ≤ 2 ^ 53 → binary64.F n := fun n h => binary64_ok.nat n h
  have f0 : binary64.F 0 := by exact_mod_cast hf 0 (by norm_num)
  have f1 : binary64.F 1 := by exact_mod_cast hf 1 (by norm_num)
  have f3 : binary64.F 3 := by exact_mod_cast hf 3 (by norm_num)
  have f5 : binary64.F 5 := by exact_mod_cast hf 5 (by norm_num)
  intro f hf
  fin_cases hf
  · exact ⟨⟨⟨by norm_num, f5⟩, ⟨by norm_num, f1⟩, by norm_num⟩, by norm_num, rfl, by norm_num [plainPar, demoPar], by norm_num,
      by norm_num, by norm_num [plainPar, demoPar]⟩
  · exact ⟨⟨⟨by norm_num, f0⟩, ⟨by norm_num, f3⟩, by norm_num⟩, by norm_num, rfl, by norm_num [plainPar, demoPar], by norm_num,
      by norm_num, by norm_num [plainPar, demoPar]⟩

example (rad : RadPar) (lai : LaiPar) :
    |5 + 84 - (((landRunR binary64 (plainPar rad lai) ⟨1, [2, 3, 4], 80⟩ twoDays).map fun o =>
        o.soil.surfaceRunoff + o.soil.recharge + o.soil.landAet).sum +
      landWater (landEnd binary64 (plainPar rad lai) ⟨1, [2, 3, 4], 80⟩ twoDays))| ≤ 0.00002 := by
  obtain ⟨hp, hc⟩ := plainPar_ok rad lai
  have h := C67_land_year (plainPar rad lai) hp hc (by norm_num [plainPar, demoPar]) twoDays (by norm_num [twoDays])
    ⟨1, [2, 3, 4], 80⟩ (by constructor <;> norm_num [plainPar, demoPar]) rfl (by norm_num) (by norm_num)
    (by norm_num [plainPar, demoPar]) (twoDays_plain rad lai)
  have e1 : (twoDays.map (·.precip)).sum + landWater ⟨1, [2, 3, 4], 80⟩ = 5 + 84 := by
    simp only [twoDays, landWater, List.map_cons, List.map_nil, List.sum_cons, List.sum_nil, List.length_cons, List.length_nil]
    norm_num
  have e2 : max (plainPar rad lai).minV 0 = 0 := by norm_num [plainPar, demoPar]
  rw [e1, e2] at h
  simpa using h

/-- A freezing day for the example. -/
noncomputable def coldPar : SnowPar :=
  { temperature := 268, precip := 5, throughfall := 5, petToSoil := 1, degreeday := 3, meanElev := 500,
    lapse := 0, freezeTemp := 273, meltTemp := 273 }

example : (snowR binary64 coldPar [(300, 2), (700, 4)] 0 1 1 0 0).effPrecip = 0 := by
  refine (C67_frozen_cell binary64_ok coldPar (300, 2) [(700, 4)] 0 1 1 0 0 (by norm_num) (by norm_num [coldPar]) le_rfl ?_ ?_).1
  · intro b hb; fin_cases hb; norm_num
  · have z : binary64.rnd 0 = 0 := zero_F binary64_ok
    have f : binary64.rnd 268 = 268 := by have := nat64 268 (by norm_num); simpa [Arith.F] using this
    have hmt : (snowR binary64 coldPar [(300, 2), (700, 4)] 0 1 1 0 0).maxTempElev = lapseTempR binary64 coldPar 300 := by
      simp only [snowR, gt_iff_lt, if_pos (show (0 : ℝ) < 1 by norm_num), List.map_cons, bandLoopR, List.head?_cons,
        Option.map_some, Option.getD_some, bandStepR, bandTempR, rescaleBandR]
      split_ifs <;> rfl
    rw [hmt]
    simp only [lapseTempR, coldPar, Arith.mul, Arith.sub, mul_zero, z, sub_zero, f]
    norm_num

end WG
