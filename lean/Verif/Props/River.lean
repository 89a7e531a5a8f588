import Verif.Model.River
import Verif.Lemmas.Exp
import Mathlib.Analysis.Complex.ExponentialBounds

/-! Properties C15, C16: river balance, velocity and geometry. -/

namespace WG

/-! ### C15 -/

/-- What physical inputs of one river day are. -/
structure RiverDay.Physical (x : RiverDay) : Prop where
  k : 0 < x.k
  inflow : 0 ≤ x.inflow

theorem cancel1 (k s e : ℝ) (hk : 0 < k) (h : 0 < 1 - e) :
    -(k * s * e / (1 - e)) * ((1 - e) / k) = -(s * e) := by
  have := h.ne'
  field_simp

theorem river_release_ratio (k : ℝ) (hk : 0 < k) :
    0 < k * Real.exp (-1 * k) / (1 - Real.exp (-1 * k)) ∧
    k * Real.exp (-1 * k) / (1 - Real.exp (-1 * k)) ≤ 1 := by
  obtain ⟨e0, e1, e2, -⟩ := release_facts k hk
  have h : 0 < 1 - Real.exp (-1 * k) := by linarith
  refine ⟨by positivity, ?_⟩
  rw [div_le_one h]; linarith

theorem riverAvail_eq (s q k : ℝ) :
    riverAvail s q k = q + s * (k * Real.exp (-1 * k) / (1 - Real.exp (-1 * k))) := by
  unfold riverAvail; ring

/-- The analytic storage of the day, before the guard on small volumes. -/
theorem river_analytic_nonneg (s q k d : ℝ) (hk : 0 < k) (hd : d ≤ riverAvail s q k) :
    0 ≤ s * Real.exp (-1 * k) + ((q - d) / k) * (1 - Real.exp (-1 * k)) := by
  obtain ⟨e0, e1, e2, -⟩ := release_facts k hk
  have h : 0 < 1 - Real.exp (-1 * k) := by linarith
  unfold riverAvail at hd
  have h1 : (q - d) / k * (1 - Real.exp (-1 * k)) ≥ -(s * Real.exp (-1 * k)) := by
    have h2 : q - d ≥ -(k * s * Real.exp (-1 * k) / (1 - Real.exp (-1 * k))) := by linarith
    have h3 : 0 < (1 - Real.exp (-1 * k)) / k := by positivity
    have h4 := mul_le_mul_of_nonneg_right h2 h3.le
    have h5 : -(k * s * Real.exp (-1 * k) / (1 - Real.exp (-1 * k))) * ((1 - Real.exp (-1 * k)) / k) =
        -(s * Real.exp (-1 * k)) := cancel1 k s _ hk h
    have h6 : (q - d) * ((1 - Real.exp (-1 * k)) / k) = (q - d) / k * (1 - Real.exp (-1 * k)) := by ring
    rw [h5, h6] at h4
    exact h4
  linarith

theorem river_flow_nonneg (minV s q k d : ℝ) (hk : 0 < k) (hs : 0 ≤ s) (hd : d ≤ riverAvail s q k) :
    riverNewStorage minV s q k d ≤ q + s - d ∧ 0 ≤ riverNewStorage minV s q k d := by
  have h0 := river_analytic_nonneg s q k d hk hd
  obtain ⟨e0, e1, e2, c0, c1, -⟩ := release_facts k hk
  obtain ⟨r0, r1⟩ := river_release_ratio k hk
  have h : 0 < 1 - Real.exp (-1 * k) := by linarith
  have h1 : s * Real.exp (-1 * k) + ((q - d) / k) * (1 - Real.exp (-1 * k)) ≤ q + s - d := by
    rw [riverAvail_eq] at hd
    have h2 : (q - d) / k * (1 - Real.exp (-1 * k)) = (q - d) * ((1 - Real.exp (-1 * k)) / k) := by ring
    rw [h2]
    have h3 : -(s * (k * Real.exp (-1 * k) / (1 - Real.exp (-1 * k)))) ≤ q - d := by linarith
    have h4 := mul_le_mul_of_nonneg_right h3 (by linarith : 0 ≤ 1 - (1 - Real.exp (-1 * k)) / k)
    have h5 : (k * Real.exp (-1 * k) / (1 - Real.exp (-1 * k))) * ((1 - Real.exp (-1 * k)) / k) =
        Real.exp (-1 * k) := by
      have := cancel1 k 1 _ hk h
      simp only [mul_one, one_mul] at this
      linarith
    have h6 : -(s * (k * Real.exp (-1 * k) / (1 - Real.exp (-1 * k)))) * (1 - (1 - Real.exp (-1 * k)) / k) =
        -(s * (k * Real.exp (-1 * k) / (1 - Real.exp (-1 * k)))) + s * Real.exp (-1 * k) := by
      generalize (k * Real.exp (-1 * k) / (1 - Real.exp (-1 * k))) = r at *
      linear_combination s * h5
    rw [h6] at h4
    have h7 : s * (k * Real.exp (-1 * k) / (1 - Real.exp (-1 * k))) ≤ s * 1 :=
      mul_le_mul_of_nonneg_left r1 hs
    nlinarith
  unfold riverNewStorage flush
  split_ifs
  · exact ⟨h0.trans h1, le_rfl⟩
  · exact ⟨h1, h0⟩

/-- C15: what the river supplies is the smaller of the demand and of the water that can leave the river during the
day; what is left unsatisfied is the exact remainder, and is never negative. -/
theorem C15_abstraction (minV corr k s q d : ℝ) (hk : 0 < k) (hs : 0 ≤ s) (hq : 0 ≤ q) :
    let o := riverBalance minV corr k s q d
    o.use = min d (q + k * s * Real.exp (-1 * k) / (1 - Real.exp (-1 * k))) ∧
    o.use + o.unsat = d ∧ 0 ≤ o.unsat ∧ (o.unsat > 0 → o.storage = 0) := by
  obtain ⟨e0, e1, -⟩ := release_facts k hk
  have hmx : 0 ≤ riverAvail s q k := by
    have h : 0 < 1 - Real.exp (-1 * k) := by linarith
    unfold riverAvail; positivity
  have hav : q + k * s * Real.exp (-1 * k) / (1 - Real.exp (-1 * k)) = riverAvail s q k := rfl
  rw [hav]
  simp only [riverBalance]
  by_cases h : d > riverAvail s q k
  · have hd : d > 0 := lt_of_le_of_lt hmx h
    have h2 : d * (riverAvail s q k / d) = riverAvail s q k := by field_simp
    simp only [if_pos h, if_pos hd, h2]
    refine ⟨?_, by ring, by linarith, fun _ => trivial⟩
    rw [min_eq_right h.le]; ring
  · simp only [if_neg h]
    refine ⟨?_, by ring, le_rfl, fun h => absurd h (lt_irrefl _)⟩
    rw [min_eq_left (not_lt.mp h)]; ring

/-- C15: the balance of the day closes (without station correction), storage and streamflow are not negative. -/
theorem C15_river_balance (minV k s q d : ℝ) (hk : 0 < k) (hs : 0 ≤ s) (hq : 0 ≤ q) :
    let o := riverBalance minV 1 k s q d
    s + q = o.storage + o.streamflow + o.use ∧ 0 ≤ o.storage ∧ 0 ≤ o.streamflow := by
  obtain ⟨e0, e1, -⟩ := release_facts k hk
  obtain ⟨r0, r1⟩ := river_release_ratio k hk
  have hmx : 0 ≤ riverAvail s q k := by
    have h : 0 < 1 - Real.exp (-1 * k) := by linarith
    unfold riverAvail; positivity
  simp only [riverBalance]
  by_cases h : d > riverAvail s q k
  · have hd : d > 0 := lt_of_le_of_lt hmx h
    have h2 : d * (riverAvail s q k / d) = riverAvail s q k := by field_simp
    have h3 : ¬ q + s - riverAvail s q k < 0 := by
      rw [riverAvail_eq]
      have : s * (k * Real.exp (-1 * k) / (1 - Real.exp (-1 * k))) ≤ s * 1 :=
        mul_le_mul_of_nonneg_left r1 hs
      linarith
    simp only [if_pos h, if_pos hd, h2, if_neg h3]
    exact ⟨by ring, le_rfl, by linarith [not_lt.mp h3]⟩
  · obtain ⟨f1, f2⟩ := river_flow_nonneg minV s q k d hk hs (not_lt.mp h)
    have h3 : ¬ q + s - riverNewStorage minV s q k d - d < 0 := by linarith
    simp only [if_neg h, if_neg h3]
    exact ⟨by ring, f2, by linarith⟩

/-- C15: the station correction factor scales the streamflow only; the water it adds or removes is exactly
`(corr - 1)` times the uncorrected streamflow. -/
theorem C15_station_correction (minV corr k s q d : ℝ) :
    (riverBalance minV corr k s q d).streamflow = corr * (riverBalance minV 1 k s q d).streamflow ∧
    (riverBalance minV corr k s q d).storage = (riverBalance minV 1 k s q d).storage ∧
    (riverBalance minV corr k s q d).use = (riverBalance minV 1 k s q d).use ∧
    (riverBalance minV corr k s q d).unsat = (riverBalance minV 1 k s q d).unsat := by
  unfold riverBalance
  exact ⟨by simp only; ring, rfl, rfl, rfl⟩

/-- C15: with a factor other than one water is created or lost: the balance closes exactly when the factor is one
or nothing flows. -/
theorem C15_correction_breaks_balance (minV corr k s q d : ℝ) (hk : 0 < k) (hs : 0 ≤ s) (hq : 0 ≤ q) :
    let o := riverBalance minV corr k s q d
    s + q = o.storage + o.streamflow + o.use ↔ corr = 1 ∨ (riverBalance minV 1 k s q d).streamflow = 0 := by
  obtain ⟨b, -, -⟩ := C15_river_balance minV k s q d hk hs hq
  obtain ⟨c1, c2, c3, -⟩ := C15_station_correction minV corr k s q d
  simp only
  rw [c1, c2, c3]
  constructor
  · intro h
    have : (corr - 1) * (riverBalance minV 1 k s q d).streamflow = 0 := by linarith
    rcases mul_eq_zero.mp this with h | h
    · left; linarith
    · right; exact h
  · rintro (h | h)
    · rw [h]; linarith
    · rw [h] at b ⊢; linarith

/-- C15: over any sequence of days the river neither creates nor loses water and never holds less than none. -/
theorem C15_history (minV : ℝ) (days : List RiverDay) (hd : ∀ x ∈ days, x.Physical) :
    ∀ s, 0 ≤ s →
    s + (days.map (·.inflow)).sum = (riverRun minV 1 s days).1 + (riverRun minV 1 s days).2.1
      + (riverRun minV 1 s days).2.2 ∧
    0 ≤ (riverRun minV 1 s days).1 ∧ 0 ≤ (riverRun minV 1 s days).2.1 ∧
    (riverRun minV 1 s days).2.2 ≤ (days.map (·.demand)).sum := by
  induction days with
  | nil => intro s hs; simp [riverRun, hs]
  | cons x xs ih =>
    intro s hs
    have hx := hd x (List.mem_cons_self ..)
    obtain ⟨b, b1, b2⟩ := C15_river_balance minV x.k s x.inflow x.demand hx.k hs hx.inflow
    obtain ⟨a, a1, a2, -⟩ := C15_abstraction minV 1 x.k s x.inflow x.demand hx.k hs hx.inflow
    obtain ⟨h1, h2, h3, h4⟩ := ih (fun y hy => hd y (List.mem_cons_of_mem _ hy)) _ b1
    simp only [riverRun, List.map_cons, List.sum_cons]
    exact ⟨by linarith, h2, by linarith, by linarith⟩

/-- C15: the solved storage is the linear reservoir `dS/dt = q - d - k S` over one day: without demand and inflow
the river empties exponentially. -/
theorem C15_recession (minV k s : ℝ) (hk : 0 < k) (hs : 0 ≤ s) (hbig : minV < s * Real.exp (-1 * k)) :
    (riverBalance minV 1 k s 0 0).storage = s * Real.exp (-k) ∧
    (riverBalance minV 1 k s 0 0).streamflow = s * (1 - Real.exp (-k)) := by
  obtain ⟨e0, e1, -⟩ := release_facts k hk
  have hmx : ¬ (0:ℝ) > riverAvail s 0 k := by
    have h : 0 < 1 - Real.exp (-1 * k) := by linarith
    unfold riverAvail; rw [not_lt]; positivity
  have hst : riverNewStorage minV s 0 k 0 = s * Real.exp (-1 * k) := by
    unfold riverNewStorage flush
    have h0 : 0 ≤ s * Real.exp (-1 * k) := by positivity
    have : ¬ |s * Real.exp (-1 * k)| ≤ minV := by rw [abs_of_nonneg h0]; linarith
    simp only [sub_zero, zero_div, zero_mul, add_zero]
    rw [if_neg this]
  have hneg : ¬ (0 + s - s * Real.exp (-1 * k) - 0 < 0) := by
    rw [not_lt]; nlinarith
  simp only [riverBalance, if_neg hmx, hst, if_neg hneg]
  have he : -1 * k = -k := by ring
  rw [he]
  exact ⟨rfl, by ring⟩

/-- C15: with demand and inflow, up to the guard on small volumes, the storage after the day is that of the linear
reservoir: `S(0)` the storage before, `S'(t) = q - d - k S(t)`, as long as the demand can be served. -/
theorem C15_linear_reservoir (minV k s q d : ℝ) (hk : 0 < k)
    (hd : d ≤ q + k * s * Real.exp (-1 * k) / (1 - Real.exp (-1 * k))) :
    ∃ S : ℝ → ℝ, S 0 = s ∧ (∀ t, HasDerivAt S (q - d - k * S t) t) ∧
      ((minV < |S 1| ∧ (riverBalance minV 1 k s q d).storage = S 1) ∨
       (|S 1| ≤ minV ∧ (riverBalance minV 1 k s q d).storage = 0)) := by
  refine ⟨fun t => s * Real.exp (-k * t) + ((q - d) / k) * (1 - Real.exp (-k * t)), by simp, ?_, ?_⟩
  · intro t
    have hexp : HasDerivAt (fun t : ℝ => Real.exp (-k * t)) (Real.exp (-k * t) * -k) t := by
      have := ((hasDerivAt_id t).const_mul (-k)).exp
      simpa using this
    have h2 := (hexp.const_mul s).add (((hasDerivAt_const t (1 : ℝ)).sub hexp).const_mul ((q - d) / k))
    refine h2.congr_deriv ?_
    field_simp
    ring
  · have hmx : ¬ d > riverAvail s q k := by unfold riverAvail; exact not_lt.mpr hd
    simp only [riverBalance, if_neg hmx, riverNewStorage, flush]
    rw [show -k * 1 = -1 * k by ring]
    generalize s * Real.exp (-1 * k) + ((q - d) / k) * (1 - Real.exp (-1 * k)) = x
    by_cases hx : |x| ≤ minV
    · right; exact ⟨hx, if_pos hx⟩
    · left; exact ⟨not_le.mp hx, if_neg hx⟩

example := C15_river_balance 1e-15 0.5 2 1 10 (by norm_num) (by norm_num) (by norm_num)
example := C15_abstraction 1e-15 1.2 0.5 2 1 (-3) (by norm_num) (by norm_num) (by norm_num)
example := C15_correction_breaks_balance 1e-15 1.2 0.5 2 1 (-3) (by norm_num) (by norm_num) (by norm_num)
example := C15_history 1e-15 [⟨0.5, 1, 2⟩, ⟨0.1, 0, 20⟩]
  (by intro x hx; simp at hx; rcases hx with rfl | rfl <;> constructor <;> norm_num) 3 (by norm_num)
example := C15_recession 1e-15 1 2 one_pos (by norm_num) (by
  have h : Real.exp 1 < 3 := by have := Real.exp_one_lt_d9; linarith
  have h2 : Real.exp (-1 * 1) * Real.exp 1 = 1 := by rw [← Real.exp_add]; simp
  have h3 : 0 < Real.exp (-1 * 1 : ℝ) := Real.exp_pos _
  generalize Real.exp (-1 * 1 : ℝ) = e at *
  nlinarith)

/-! ### C16 -/

/-- C16: the water depth reproduces the stored volume in a trapezoidal bed with bank slope 0.5 and is not
negative; lengths in m, volume in m³ (1 km³ of storage over 1 km is 1e6 m²). -/
theorem C16_depth (storage len width : ℝ) (hs : 0 ≤ storage) (hl : 0 < len) (_hw : 0 ≤ width) :
    let D := riverDepth storage len width
    0 ≤ D ∧ (D * (width * 1000) + 2 * D ^ 2) * (len * 1000) = storage * 1e9 := by
  have hA : 0 ≤ crossSection storage len := by unfold crossSection; positivity
  have hr : 0 ≤ (width * 1000) ^ 2 / 16 + 0.5 * crossSection storage len := by positivity
  have hsq := Real.sq_sqrt hr
  set R := Real.sqrt ((width * 1000) ^ 2 / 16 + 0.5 * crossSection storage len) with hR
  have hR0 : 0 ≤ R := Real.sqrt_nonneg _
  have hRge : width * 1000 / 4 ≤ R := by
    rw [hR]; apply Real.le_sqrt_of_sq_le; nlinarith
  simp only [riverDepth, ← hR]
  refine ⟨by linarith, ?_⟩
  have : (-1 / 4 * (width * 1000) + R) * (width * 1000) + 2 * (-1 / 4 * (width * 1000) + R) ^ 2
      = 2 * R ^ 2 - (width * 1000) ^ 2 / 8 := by ring
  rw [this, hsq]
  unfold crossSection
  field_simp
  ring

/-- C16: a dry river has depth zero, and more stored water means deeper water. -/
theorem C16_depth_monotone (len width : ℝ) (hl : 0 < len) (hw : 0 ≤ width) :
    riverDepth 0 len width = 0 ∧
    ∀ a b, 0 ≤ a → a ≤ b → riverDepth a len width ≤ riverDepth b len width := by
  constructor
  · unfold riverDepth crossSection
    have : (width * 1000) ^ 2 / 16 + 0.5 * (0 / len * 1e6) = (width * 1000 / 4) ^ 2 := by ring
    rw [this, Real.sqrt_sq (by positivity)]; ring
  · intro a b _ hab
    unfold riverDepth crossSection
    have : a / len ≤ b / len := div_le_div_of_nonneg_right hab hl.le
    have := Real.sqrt_le_sqrt (by linarith :
      (width * 1000) ^ 2 / 16 + 0.5 * (a / len * 1e6) ≤ (width * 1000) ^ 2 / 16 + 0.5 * (b / len * 1e6))
    linarith

/-- C16: the velocity is at least 1e-5 km/day, so that the outflow constant is positive. -/
theorem C16_velocity_floor (storage len width rough mult slope : ℝ) (hl : 0 < len) :
    0.00001 ≤ riverVelocity storage len width rough mult slope ∧
    0 < outflowConstant storage len width rough mult slope ∧
    outflowConstant storage len width rough mult slope * len
      = riverVelocity storage len width rough mult slope := by
  have h : 0.00001 ≤ riverVelocity storage len width rough mult slope := by
    simp only [riverVelocity]
    split_ifs with h
    · exact le_rfl
    · exact not_lt.mp h
  refine ⟨h, ?_, ?_⟩
  · unfold outflowConstant
    have : (0:ℝ) < 0.00001 := by norm_num
    exact div_pos (this.trans_le h) hl
  · unfold outflowConstant; field_simp

/-- The hydraulic radius in terms of the depth. -/
theorem hydraulicRadius_eq (storage len width : ℝ) (hs : 0 ≤ storage) (hl : 0 < len) (hw : 0 ≤ width) :
    hydraulicRadius storage len width =
      (riverDepth storage len width * (width * 1000) + 2 * riverDepth storage len width ^ 2) /
      (width * 1000 + 2 * riverDepth storage len width * Real.sqrt 5) := by
  have h := (C16_depth storage len width hs hl hw).2
  have : crossSection storage len =
      riverDepth storage len width * (width * 1000) + 2 * riverDepth storage len width ^ 2 := by
    have hl' : len * 1000 ≠ 0 := by positivity
    apply mul_right_cancel₀ hl'
    rw [h]; unfold crossSection; field_simp; norm_num; ring
  unfold hydraulicRadius wettedPerimeter
  rw [this]

/-- C16: the more water a river holds the faster it flows, and rougher beds are slower. -/
theorem C16_velocity_monotone (len width rough mult slope : ℝ) (hl : 0 < len) (hw : 0 ≤ width)
    (hr : 0 < rough) (hm : 0 < mult) :
    (∀ a b, 0 ≤ a → a ≤ b →
      riverVelocity a len width rough mult slope ≤ riverVelocity b len width rough mult slope) ∧
    (∀ a m', 0 ≤ a → mult ≤ m' →
      riverVelocity a len width rough m' slope ≤ riverVelocity a len width rough mult slope) := by
  have clamp : ∀ v w : ℝ, v ≤ w → (if v < 0.00001 then (0.00001:ℝ) else v) ≤ if w < 0.00001 then 0.00001 else w := by
    intro v w h
    split_ifs with h1 h2 h2
    · exact le_rfl
    · exact not_lt.mp h2
    · exact absurd (lt_of_le_of_lt h h2) h1
    · exact h
  have hrad : ∀ a, 0 ≤ a → 0 ≤ hydraulicRadius a len width := by
    intro a ha
    rw [hydraulicRadius_eq a len width ha hl hw]
    have := (C16_depth a len width ha hl hw).1
    positivity
  constructor
  · intro a b ha hab
    have hb := ha.trans hab
    have hR : hydraulicRadius a len width ≤ hydraulicRadius b len width := by
      have da := (C16_depth a len width ha hl hw).1
      have dab := (C16_depth_monotone len width hl hw).2 a b ha hab
      rw [hydraulicRadius_eq a len width ha hl hw, hydraulicRadius_eq b len width hb hl hw]
      generalize riverDepth a len width = x at *
      generalize riverDepth b len width = y at *
      have h5 : 1 ≤ Real.sqrt 5 := by
        rw [show (1:ℝ) = Real.sqrt 1 by simp]; exact Real.sqrt_le_sqrt (by norm_num)
      generalize Real.sqrt 5 = r at *
      generalize hW : width * 1000 = W at *
      have hW0 : 0 ≤ W := by rw [← hW]; positivity
      rcases (da.trans dab).eq_or_lt with hy | hy
      · have : x = 0 := le_antisymm (by linarith) da
        rw [this, ← hy]
      · have hy2 : 0 < W + 2 * y * r := by positivity
        rcases da.eq_or_lt with hx | hx
        · rw [← hx]
          have : (0 * W + 2 * (0:ℝ) ^ 2) / (W + 2 * 0 * r) = 0 := by norm_num
          rw [this]; positivity
        · have hx2 : 0 < W + 2 * x * r := by positivity
          rw [div_le_div_iff₀ hx2 hy2]
          have e : (y * W + 2 * y ^ 2) * (W + 2 * x * r) - (x * W + 2 * x ^ 2) * (W + 2 * y * r) =
              (y - x) * (W ^ 2 + 2 * (y + x) * W + 4 * x * y * r) := by ring
          have : 0 ≤ (y - x) * (W ^ 2 + 2 * (y + x) * W + 4 * x * y * r) := by
            apply mul_nonneg (by linarith); positivity
          linarith
    simp only [riverVelocity]
    apply clamp
    have hp := Real.rpow_le_rpow (hrad a ha) hR (by norm_num : (0:ℝ) ≤ 2 / 3)
    have hs := Real.sqrt_nonneg slope
    gcongr
  · intro a m' ha hmm
    simp only [riverVelocity]
    apply clamp
    have hp := Real.rpow_nonneg (hrad a ha) (2 / 3)
    have hs := Real.sqrt_nonneg slope
    gcongr

theorem bankfull_ge (q : ℝ) : 0.05 ≤ bankfullFlow q := by
  unfold bankfullFlow; split_ifs with h
  · exact le_rfl
  · exact not_lt.mp h

/-- C16: whatever the bankfull flow of the input (also negative or zero), bed width, top width, depth and bankfull
storage are positive. -/
theorem C16_geometry_positive (len contFrac q : ℝ) (hl : 0 < len) (hc : 0 < contFrac) :
    0 < bottomWidth q ∧ 0 < topWidth q ∧ 0 < bankDepth q ∧ bottomWidth q < topWidth q ∧
    0 < maxRiverStorage len contFrac q := by
  have hq := bankfull_ge q
  have hq0 : 0 < bankfullFlow q := by linarith [show (0:ℝ) < 0.05 by norm_num]
  have key : (1396 / 2710 : ℝ) < bankfullFlow q ^ (0.216 : ℝ) := by
    have h1 : (0.05 : ℝ) ^ (0.216 : ℝ) ≤ bankfullFlow q ^ (0.216 : ℝ) :=
      Real.rpow_le_rpow (by norm_num) hq (by norm_num)
    refine lt_of_lt_of_le ?_ h1
    have h2 : ((0.05 : ℝ) ^ (0.216 : ℝ)) ^ (125 : ℕ) = (0.05 : ℝ) ^ (27 : ℕ) := by
      rw [← Real.rpow_natCast, ← Real.rpow_mul (by norm_num), ← Real.rpow_natCast]
      norm_num
    have h3 : ((1396 / 2710 : ℝ)) ^ (125 : ℕ) < ((0.05 : ℝ) ^ (0.216 : ℝ)) ^ (125 : ℕ) := by
      rw [h2]; norm_num
    exact lt_of_pow_lt_pow_left₀ 125 (by positivity) h3
  have hsplit : bankfullFlow q ^ (0.557 : ℝ) = bankfullFlow q ^ (0.216 : ℝ) * bankfullFlow q ^ (0.341 : ℝ) := by
    rw [← Real.rpow_add hq0]; norm_num
  have hp : 0 < bankfullFlow q ^ (0.341 : ℝ) := Real.rpow_pos_of_pos hq0 _
  have hb : 0 < bottomWidth q := by
    unfold bottomWidth topWidth bankDepth
    rw [hsplit]
    nlinarith
  have hd : 0 < bankDepth q := by unfold bankDepth; positivity
  have hbt : bottomWidth q < topWidth q := by unfold bottomWidth; linarith
  have ht : 0 < topWidth q := hb.trans hbt
  refine ⟨hb, ht, hd, hbt, ?_⟩
  unfold maxRiverStorage riverLength
  positivity

/-- C16: at bankfull storage the depth that the routing computes is the bankfull depth of the initialisation
(m against km), so the two modules use the same bed. -/
theorem C16_bankfull_depth (len contFrac q : ℝ) (hl : 0 < len) (hc : 0 < contFrac) :
    riverDepth (maxRiverStorage len contFrac q) (riverLength len contFrac) (bottomWidth q)
      = bankDepth q * 1000 := by
  obtain ⟨hb, ht, hd, hbt, hm⟩ := C16_geometry_positive len contFrac q hl hc
  have hL : 0 < riverLength len contFrac := by unfold riverLength; positivity
  have hcross : crossSection (maxRiverStorage len contFrac q) (riverLength len contFrac)
      = (bankDepth q * 1000) * (bottomWidth q * 1000) + 2 * (bankDepth q * 1000) ^ 2 := by
    unfold crossSection maxRiverStorage
    have : topWidth q = bottomWidth q + 4 * bankDepth q := by unfold bottomWidth; ring
    rw [this]
    field_simp
    ring
  unfold riverDepth
  rw [hcross]
  have : (bottomWidth q * 1000) ^ 2 / 16 +
      0.5 * (bankDepth q * 1000 * (bottomWidth q * 1000) + 2 * (bankDepth q * 1000) ^ 2)
      = (bottomWidth q * 1000 / 4 + bankDepth q * 1000) ^ 2 := by ring
  rw [this, Real.sqrt_sq (by positivity)]
  ring

/-- C16: the Manning-Strickler equation in km per day.  For the water depth `D` (m) that holds the stored volume in the
trapezoidal bed with bottom width `W` (m), the velocity is `86.4 · R^(2/3) · √slope / (multiplier · roughness)`, with
the hydraulic radius `R` = wetted area over wetted perimeter, and at least 1e-5 km per day. -/
theorem C16_manning (storage len width rough mult slope D : ℝ) (hs : 0 ≤ storage) (hl : 0 < len)
    (hw : 0 ≤ width) (hD : 0 ≤ D)
    (hvol : (D * (width * 1000) + 2 * D ^ 2) * (len * 1000) = storage * 1e9) :
    let W := width * 1000
    let R := (D * W + 2 * D ^ 2) / (W + 2 * (D * Real.sqrt 5))
    riverVelocity storage len width rough mult slope =
      max 0.00001 (86.4 * (R ^ ((2 : ℝ) / 3) * Real.sqrt slope / (mult * rough))) ∧
    outflowConstant storage len width rough mult slope * len =
      riverVelocity storage len width rough mult slope := by
  intro W R
  have hDeq : riverDepth storage len width = D := by
    obtain ⟨h1, h2⟩ := C16_depth storage len width hs hl hw
    have h3 : (riverDepth storage len width * (width * 1000) + 2 * riverDepth storage len width ^ 2) =
        D * (width * 1000) + 2 * D ^ 2 := by
      have : (0 : ℝ) < len * 1000 := by positivity
      exact mul_right_cancel₀ this.ne' (h2.trans hvol.symm)
    have h4 : (riverDepth storage len width - D) *
        (width * 1000 + 2 * (riverDepth storage len width + D)) = 0 := by linarith
    rcases mul_eq_zero.mp h4 with h5 | h5
    · linarith
    · have : riverDepth storage len width = 0 := by linarith
      linarith
  have hR : hydraulicRadius storage len width = R := by
    rw [hydraulicRadius_eq storage len width hs hl hw, hDeq]
    simp only [R, W]
    congr 1
    ring
  refine ⟨?_, ?_⟩
  · unfold riverVelocity
    simp only [hR]
    rw [show 1 / (mult * rough) * R ^ ((2 : ℝ) / 3) * Real.sqrt slope * 86.4 =
      86.4 * (R ^ ((2 : ℝ) / 3) * Real.sqrt slope / (mult * rough)) by ring]
    generalize 86.4 * (R ^ ((2 : ℝ) / 3) * Real.sqrt slope / (mult * rough)) = v
    by_cases hv : v < 0.00001
    · rw [if_pos hv, max_eq_left hv.le]
    · rw [if_neg hv, max_eq_right (not_lt.mp hv)]
  · unfold outflowConstant
    field_simp

/-- C16: the bed follows the hydraulic geometry of Allen et al. 1994 (m, m³/s) with a bankfull flow of at least
0.05 m³/s and banks that rise one metre per two metres; a coastal cell has the continental part of the length, the
bankfull storage (km³) is length times the area of the trapezoid. -/
theorem C16_hydraulic_geometry (len contFrac q : ℝ) :
    topWidth q * 1000 = 2.71 * max q 0.05 ^ (0.557 : ℝ) ∧
    bankDepth q * 1000 = 0.349 * max q 0.05 ^ (0.341 : ℝ) ∧
    (topWidth q - bottomWidth q) / 2 = 2 * bankDepth q ∧
    riverLength len 100 = len ∧ riverLength len 0 = 0 ∧
    riverLength len contFrac * 100 = len * contFrac ∧
    maxRiverStorage len contFrac q =
      riverLength len contFrac * (bankDepth q * ((bottomWidth q + topWidth q) / 2)) := by
  have hb : bankfullFlow q = max q 0.05 := by
    unfold bankfullFlow
    by_cases h : q < 0.05
    · rw [if_pos h, max_eq_right h.le]
    · rw [if_neg h, max_eq_left (not_lt.mp h)]
  unfold bottomWidth maxRiverStorage topWidth bankDepth riverLength
  rw [hb]
  refine ⟨by ring, by ring, by ring, by ring, by ring, by ring, ?_⟩
  unfold bottomWidth topWidth bankDepth
  rw [hb]
  ring

example := C16_depth 3 55 0.02 (by norm_num) (by norm_num) (by norm_num)
example := (C16_velocity_monotone 55 0.02 0.03 3 0.001 (by norm_num) (by norm_num) (by norm_num) (by norm_num)).1
  1 2 (by norm_num) (by norm_num)
example := C16_geometry_positive 55 80 (-1) (by norm_num) (by norm_num)
example := C16_bankfull_depth 55 80 1000 (by norm_num) (by norm_num)

/-- A depth of 2 m in a bed of 20 m and 1000 m length: 48000 m³. -/
example := C16_manning (4.8e-5) 1 0.02 0.03 3 0.001 2 (by norm_num) (by norm_num) (by norm_num) (by norm_num)
  (by norm_num)

end WG
