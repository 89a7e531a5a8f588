import Verif.Model.Groundwater
import Mathlib.Analysis.SpecialFunctions.ExpDeriv

/-! Properties C10, C11, C12: groundwater, adaptation of groundwater abstraction, reduction factor. -/

namespace WG

/-! ### C10 -/

theorem one_sub_exp_pos (k : ℝ) (hk : 0 < k) : 0 < 1 - Real.exp (-1 * k) := by
  have : Real.exp (-1 * k) < 1 := Real.exp_lt_one_iff.mpr (by linarith)
  linarith

theorem one_sub_exp_lt (k : ℝ) (hk : 0 < k) : 1 - Real.exp (-1 * k) < k := by
  have : -1 * k + 1 < Real.exp (-1 * k) := Real.add_one_lt_exp (by linarith)
  linarith

/-- C10: nothing is lost: old storage plus recharge (diffuse, and from surface water bodies only in arid cells)
minus the net abstraction equals new storage plus discharge, for storages and abstractions of any sign. -/
theorem C10_groundwater_balance (kind : GwKind) (s diffuse potNag unsat k ww cu fr point : ℝ) :
    let o := groundwaterBalance kind s diffuse potNag unsat k ww cu fr point
    s + diffuse + (if kind = .arid then point else 0) - o.nag = o.storage + o.discharge ∧ 0 ≤ o.discharge := by
  have key : ∀ n, s + n = (gwStorage s n k).1 + (gwStorage s n k).2 ∧ 0 ≤ (gwStorage s n k).2 := by
    intro n
    unfold gwStorage
    simp only
    split_ifs with h
    · exact ⟨by ring, le_rfl⟩
    · exact ⟨by ring, (not_le.mp h).le⟩
  cases kind <;>
  · simp only [groundwaterBalance]
    refine ⟨?_, (key _).2⟩
    rw [← (key _).1]
    simp
    ring

example : (5 : ℝ) + 2 + 1 - 0.5 = (groundwaterBalance .arid 5 2 0.5 0 0.01 0 0 0 1).storage
    + (groundwaterBalance .arid 5 2 0.5 0 0.01 0 0 0 1).discharge := by
  have h := (C10_groundwater_balance .arid 5 2 0.5 0 0.01 0 0 0 1).1
  simp only [if_true] at h
  rw [← h]
  norm_num [groundwaterBalance]

/-- C10: sign of the discharge. Without stored water and without net inflow there is none; with stored water and
net inflow of which one is positive there is some; in general it is positive exactly when the linear reservoir
would release water. -/
theorem C10_discharge_sign (s n k : ℝ) (hk : 0 < k) :
    (s ≤ 0 → n ≤ 0 → (gwStorage s n k).2 = 0 ∧ (gwStorage s n k).1 = s + n) ∧
    (0 ≤ s → 0 ≤ n → 0 < s + n → 0 < (gwStorage s n k).2) ∧
    (0 ≤ s → 0 ≤ n → 0 ≤ (gwStorage s n k).1 ∧ (gwStorage s n k).2 ≤ s + n) := by
  have h1 := one_sub_exp_pos k hk
  have h2 := one_sub_exp_lt k hk
  have h3 : 0 < Real.exp (-1 * k) := Real.exp_pos _
  have hq : s - (s * Real.exp (-1 * k) + n / k * (1 - Real.exp (-1 * k))) + n =
      s * (1 - Real.exp (-1 * k)) + n * (1 - (1 - Real.exp (-1 * k)) / k) := by ring
  have h4 : 0 < 1 - (1 - Real.exp (-1 * k)) / k := by
    rw [sub_pos, div_lt_one hk]; exact h2
  unfold gwStorage
  simp only
  rw [hq]
  generalize hA : 1 - Real.exp (-1 * k) = A at *
  generalize hB : 1 - A / k = B at *
  refine ⟨fun hs hn => ?_, fun hs hn hsn => ?_, fun hs hn => ?_⟩
  · have : s * A + n * B ≤ 0 := by nlinarith
    simp [this]
  · have : 0 < s * A + n * B := by
      rcases hs.eq_or_lt with h | h
      · have : 0 < n := by linarith
        rw [← h]; positivity
      · have : 0 < s * A := by positivity
        have : 0 ≤ n * B := by positivity
        linarith
    rw [if_neg (not_le.mpr this)]
    exact this
  · have hc : 0 ≤ s * Real.exp (-1 * k) + n / k * A := by positivity
    split_ifs with h
    · exact ⟨by linarith, by linarith⟩
    · refine ⟨hc, ?_⟩
      rw [← hq]
      linarith

/-- C10 (specification): as long as groundwater discharges, the new storage is the value after one day of the
solution of the linear reservoir `dS/dt = netIn - k*S` that starts at the old storage. -/
theorem C10_linear_reservoir (s n k : ℝ) (hk : k ≠ 0) (hq : 0 < (gwStorage s n k).2) :
    ∃ S : ℝ → ℝ, S 0 = s ∧ (∀ t, HasDerivAt S (n - k * S t) t) ∧ S 1 = (gwStorage s n k).1 := by
  refine ⟨fun t => s * Real.exp (-k * t) + n / k * (1 - Real.exp (-k * t)), by simp, fun t => ?_, ?_⟩
  · have h1 : HasDerivAt (fun t : ℝ => Real.exp (-k * t)) (Real.exp (-k * t) * -k) t := by
      have := ((hasDerivAt_id t).const_mul (-k)).exp
      simpa using this
    have h2 := (h1.const_mul s).add (((hasDerivAt_const t (1 : ℝ)).sub h1).const_mul (n / k))
    refine h2.congr_deriv ?_
    field_simp
    ring
  · unfold gwStorage at hq ⊢
    simp only at hq ⊢
    split_ifs at hq ⊢ with h
    · exact absurd hq (lt_irrefl _)
    · simp

example : 0 < (gwStorage 5 1 0.01).2 := (C10_discharge_sign 5 1 0.01 (by norm_num)).2.1 (by norm_num)
  (by norm_num) (by norm_num)

/-- The groundwater storage after a sequence of days of net inflow. -/
noncomputable def gwRun (k s : ℝ) : List ℝ → ℝ
  | [] => s
  | n :: ns => gwRun k (gwStorage s n k).1 ns

/-- C10, all histories: with net inflow between 0 and `N` every day the storage stays between 0 and the larger of
its start value and the equilibrium `N / k` plus one day of inflow. -/
theorem C10_history (k s N : ℝ) (hk : 0 < k) (hs : 0 ≤ s) (ns : List ℝ) (hn : ∀ n ∈ ns, 0 ≤ n ∧ n ≤ N) :
    0 ≤ gwRun k s ns ∧ gwRun k s ns ≤ max s (N / k) := by
  induction ns generalizing s with
  | nil => exact ⟨hs, le_max_left _ _⟩
  | cons n ns ih =>
    obtain ⟨h0, h1⟩ := hn n (by simp)
    have hd := C10_discharge_sign s n k hk
    have hnew := hd.2.2 hs h0
    have hle : (gwStorage s n k).1 ≤ max s (N / k) := by
      by_cases hz : 0 < s + n
      · have hpos := hd.2.1 hs h0 hz
        unfold gwStorage at hpos ⊢
        simp only at hpos ⊢
        split_ifs at hpos ⊢ with h
        · exact absurd hpos (lt_irrefl _)
        · have he := one_sub_exp_pos k hk
          have he2 : 0 < Real.exp (-1 * k) := Real.exp_pos _
          have e1 : s ≤ max s (N / k) := le_max_left _ _
          have e2 : n / k ≤ max s (N / k) := (div_le_div_of_nonneg_right h1 hk.le).trans (le_max_right _ _)
          nlinarith
      · have hs0 : s = 0 := by linarith
        have hn0 : n = 0 := by linarith
        rw [(hd.1 hs0.le hn0.le).2, hs0, hn0]
        simp
    have := ih _ hnew.1 fun x hx => hn x (by simp [hx])
    refine ⟨this.1, this.2.trans ?_⟩
    exact max_le hle (le_max_right _ _)

example := C10_history 0.01 5 1 (by norm_num) (by norm_num) [0.5, 1, 0] (by
  intro n hn; simp at hn; rcases hn with rfl | rfl | rfl <;> norm_num)

/-- Abstraction is not limited by the storage: the storage can become negative (over-abstraction of
groundwater is intended in WaterGAP). -/
theorem C10_storage_can_be_negative : (gwStorage 1 (-5) 0.01).1 < 0 := by
  have h := (C10_groundwater_balance .humid 1 0 5 0 0.01 0 0 0 0)
  have hq : (groundwaterBalance .humid 1 0 5 0 0.01 0 0 0 0).storage = (gwStorage 1 (-5) 0.01).1 := by
    norm_num [groundwaterBalance]
  have hn : (groundwaterBalance .humid 1 0 5 0 0.01 0 0 0 0).nag = 5 := by norm_num [groundwaterBalance]
  simp only at h
  rw [hq, hn] at h
  have := h.1
  simp at this
  linarith [h.2]

/-! ### C11 -/

/-- Irrigation data for which the adaptation is meant: consumptive use between 0 and the withdrawal, return-flow
fraction between 0 and 1, and not both the use efficiency and the return-flow fraction zero. -/
structure IrriOk (ww cu fr : ℝ) : Prop where
  cu0 : 0 ≤ cu
  cu1 : cu ≤ ww
  fr0 : 0 ≤ fr
  fr1 : fr ≤ 1
  pos : 0 < cu + fr

/-- C11 (specification): the return flow to groundwater of `ww` of irrigation withdrawal is
`fr * (1 - cu/ww) * ww`; a surface-water shortage of `unsat` reduces the withdrawal by `unsat / factor` (but not
below zero), where `factor = 1 - (1-fr)*(1-cu/ww)` is the net abstraction per unit of withdrawal; net groundwater
abstraction grows by the return flow that is missing. -/
theorem C11_adaptation (potNag ww cu fr unsat : ℝ) (h : IrriOk ww cu fr) (hw : 0 < ww) :
    updateNetabsGw potNag ww cu unsat fr =
      potNag + fr * (1 - cu / ww) * min ww (unsat / (1 - (1 - fr) * (1 - cu / ww))) := by
  obtain ⟨h1, h2, h3, h4, h5⟩ := h
  have he0 : 0 ≤ cu / ww := by positivity
  have he1 : cu / ww ≤ 1 := (div_le_one hw).mpr h2
  have hF : 0 < 1 - (1 - fr) * (1 - cu / ww) := by
    rcases h1.eq_or_lt with h | h
    · rw [← h]; simp; linarith
    · have : 0 < cu / ww := by positivity
      nlinarith
  unfold updateNetabsGw
  simp only [gt_iff_lt, if_pos hw]
  generalize 1 - (1 - fr) * (1 - cu / ww) = F at *
  have hact : 1 / F * (ww * F - unsat) = ww - unsat / F := by field_simp
  rw [hact]
  split_ifs with a b c
  · rw [min_eq_left (by linarith)]; ring
  · rw [min_eq_right (by linarith)]; ring
  · rw [min_eq_right]
    · ring
    · have : unsat / F ≤ 0 := div_nonpos_of_nonpos_of_nonneg c.le hF.le
      linarith
  · have : unsat = 0 := le_antisymm (not_lt.mp a) (not_lt.mp c)
    rw [this]; simp [hw.le]

/-- C11: direction and size of the adaptation. -/
theorem C11_direction (potNag ww cu fr unsat : ℝ) (h : IrriOk ww cu fr) :
    (0 < unsat → potNag ≤ updateNetabsGw potNag ww cu unsat fr) ∧
    (unsat < 0 → updateNetabsGw potNag ww cu unsat fr ≤ potNag) ∧
    (unsat = 0 ∨ ww ≤ 0 → updateNetabsGw potNag ww cu unsat fr = potNag) ∧
    updateNetabsGw potNag ww cu unsat fr ≤ potNag + fr * (ww - cu) ∧
    |updateNetabsGw potNag ww cu unsat fr - potNag| ≤ |unsat| := by
  by_cases hw : 0 < ww
  · rw [C11_adaptation potNag ww cu fr unsat h hw]
    obtain ⟨h1, h2, h3, h4, h5⟩ := h
    have he0 : 0 ≤ cu / ww := by positivity
    have he1 : cu / ww ≤ 1 := (div_le_one hw).mpr h2
    have hF : 0 < 1 - (1 - fr) * (1 - cu / ww) := by
      rcases h1.eq_or_lt with h | h
      · rw [← h]; simp; linarith
      · have : 0 < cu / ww := by positivity
        nlinarith
    have hret : ww - cu = (1 - cu / ww) * ww := by field_simp
    have hg : fr * (1 - cu / ww) ≤ 1 - (1 - fr) * (1 - cu / ww) := by nlinarith
    rw [hret]
    generalize cu / ww = e at *
    generalize hFF : 1 - (1 - fr) * (1 - e) = F at *
    have hG : 0 ≤ fr * (1 - e) := mul_nonneg h3 (by linarith)
    refine ⟨fun hu => ?_, fun hu => ?_, ?_, ?_, ?_⟩
    · have : 0 ≤ min ww (unsat / F) := le_min hw.le (by positivity)
      nlinarith
    · have : min ww (unsat / F) ≤ 0 :=
        (min_le_right _ _).trans (div_nonpos_of_nonpos_of_nonneg hu.le hF.le)
      nlinarith
    · rintro (rfl | h)
      · simp [hw.le]
      · exact absurd hw (not_lt.mpr h)
    · have := min_le_left ww (unsat / F)
      nlinarith
    · rw [add_sub_cancel_left, abs_mul, abs_of_nonneg hG]
      have hm : |min ww (unsat / F)| ≤ |unsat| / F := by
        rw [← abs_of_pos hF, ← abs_div, abs_of_pos hF]
        rcases le_total 0 unsat with hu | hu
        · have h0 : 0 ≤ unsat / F := by positivity
          rw [abs_of_nonneg h0, abs_of_nonneg (le_min hw.le h0)]
          exact min_le_right _ _
        · rw [min_eq_right ((div_nonpos_of_nonpos_of_nonneg hu hF.le).trans hw.le)]
      calc fr * (1 - e) * |min ww (unsat / F)| ≤ F * (|unsat| / F) := by
            apply mul_le_mul hg hm (abs_nonneg _) hF.le
        _ = |unsat| := by field_simp
  · have : updateNetabsGw potNag ww cu unsat fr = potNag := by
      simp [updateNetabsGw, hw]
    rw [this]
    have hz : 0 ≤ fr * (ww - cu) := mul_nonneg h.fr0 (by linarith [h.cu1])
    exact ⟨fun _ => le_rfl, fun _ => le_rfl, fun _ => rfl, by linarith, by simp⟩

example : IrriOk 10 4 0.5 := by constructor <;> norm_num
example : updateNetabsGw 3 10 4 2 0.5 = 3 + 0.5 * 0.6 * min 10 (2 / 0.7) := by
  rw [C11_adaptation 3 10 4 0.5 2 (by constructor <;> norm_num) (by norm_num)]; norm_num

/-- The guard `pos` is needed: without return flow to groundwater and without consumptive use the code divides by
`factor = 0`. -/
theorem C11_division_by_zero : 1 - (1 - (0 : ℝ)) * (1 - 0 / 10) = 0 := by norm_num

/-! ### C12 -/

/-- C12: the reduction factor is always in `[0,1]`, whatever the arguments. -/
theorem C12_fraction (s m e : ℝ) (kind : Swb) : 0 ≤ swbRedfactor s m e kind ∧ swbRedfactor s m e kind ≤ 1 := by
  unfold swbRedfactor
  simp only
  split_ifs with h1 h2
  · exact ⟨le_rfl, zero_le_one⟩
  · exact ⟨zero_le_one, le_rfl⟩
  · exact ⟨not_lt.mp h1, not_lt.mp h2⟩

theorem nFactor_pos (kind : Swb) : 0 < nFactor kind := by cases kind <;> norm_num [nFactor]

/-- The smallest storage of a water body: minus its capacity for lakes, zero otherwise. -/
def emptyStorage (kind : Swb) (m : ℝ) : ℝ :=
  match kind with
  | .localLake => -m
  | .globalLake => -m
  | _ => 0

/-- C12: between empty and full the factor follows the published formula, is 1 exactly when full, 0 exactly when
empty, and grows with the storage. -/
theorem C12_formula (s m e : ℝ) (kind : Swb) (hm : 0 < m) (he : 0 < e) (h0 : emptyStorage kind m ≤ s)
    (h1 : s ≤ m) :
    swbRedfactor s m e kind = 1 - ((m - s) / (m - emptyStorage kind m)) ^ e ∧
    (swbRedfactor s m e kind = 1 ↔ s = m) ∧ (swbRedfactor s m e kind = 0 ↔ s = emptyStorage kind m) := by
  have hn : nFactor kind * m = m - emptyStorage kind m := by
    cases kind <;> simp [nFactor, emptyStorage] <;> ring
  have hn0 : 0 < m - emptyStorage kind m := by
    rw [← hn]; exact mul_pos (nFactor_pos kind) hm
  have habs : |s - m| = m - s := by rw [abs_sub_comm]; exact abs_of_nonneg (by linarith)
  have hx0 : 0 ≤ (m - s) / (m - emptyStorage kind m) := div_nonneg (by linarith) hn0.le
  have hx1 : (m - s) / (m - emptyStorage kind m) ≤ 1 := (div_le_one hn0).mpr (by linarith)
  have hp0 : 0 ≤ ((m - s) / (m - emptyStorage kind m)) ^ e := Real.rpow_nonneg hx0 e
  have hp1 := Real.rpow_le_one hx0 hx1 he.le
  have hform : swbRedfactor s m e kind = 1 - ((m - s) / (m - emptyStorage kind m)) ^ e := by
    unfold swbRedfactor
    simp only
    rw [hn, habs, if_neg (by linarith), if_neg (by linarith)]
  refine ⟨hform, ?_, ?_⟩
  · rw [hform]
    constructor
    · intro h
      have hz : ((m - s) / (m - emptyStorage kind m)) ^ e = 0 := by linarith
      have := (Real.rpow_eq_zero hx0 he.ne').mp hz
      rw [div_eq_zero_iff] at this
      rcases this with h | h <;> linarith
    · rintro rfl
      simp [Real.zero_rpow he.ne']
  · rw [hform]
    constructor
    · intro h
      have hz : ((m - s) / (m - emptyStorage kind m)) ^ e = 1 := by linarith
      rw [← Real.one_rpow e] at hz
      have := (Real.rpow_left_inj hx0 zero_le_one he.ne').mp hz
      rw [div_eq_one_iff_eq hn0.ne'] at this
      linarith
    · rintro rfl
      rw [div_self hn0.ne', Real.one_rpow, sub_self]

/-- C12: more water, larger (or equal) area. -/
theorem C12_monotone (s1 s2 m e : ℝ) (kind : Swb) (hm : 0 < m) (he : 0 < e)
    (h0 : emptyStorage kind m ≤ s1) (h : s1 ≤ s2) (h1 : s2 ≤ m) :
    swbRedfactor s1 m e kind ≤ swbRedfactor s2 m e kind := by
  rw [(C12_formula s1 m e kind hm he h0 (h.trans h1)).1, (C12_formula s2 m e kind hm he (h0.trans h) h1).1]
  have hd : 0 < m - emptyStorage kind m := by
    cases kind <;> simp [emptyStorage] <;> linarith
  have : (m - s2) / (m - emptyStorage kind m) ≤ (m - s1) / (m - emptyStorage kind m) :=
    div_le_div_of_nonneg_right (by linarith) hd.le
  have := Real.rpow_le_rpow (div_nonneg (by linarith) hd.le) this he.le
  linarith

example : swbRedfactor (-5) 5 3.32 .globalLake = 0 :=
  ((C12_formula (-5) 5 3.32 .globalLake (by norm_num) (by norm_num) (by norm_num [emptyStorage])
    (by norm_num)).2.2).mpr rfl
example : swbRedfactor 5 5 3.32 .globalWetland = 1 :=
  ((C12_formula 5 5 3.32 .globalWetland (by norm_num) (by norm_num) (by norm_num [emptyStorage])
    (by norm_num)).2.1).mpr rfl

end WG
