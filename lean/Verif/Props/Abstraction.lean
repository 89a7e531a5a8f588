import Verif.Model.Abstraction
import Verif.Props.Reservoir

/-! Properties C19–C24: fractional routing and the handling of water demand. -/

namespace WG

set_option linter.unusedSectionVars false

/-! ### C19 -/

/-- C19: runoff and groundwater discharge are split without loss between the surface water bodies and the river;
no part is negative, and in an inland sink all goes to the surface water bodies. -/
theorem C19_frac_routing (runoff discharge loclake locwet glowet factor : ℝ) (sink : Bool)
    (hr : 0 ≤ runoff) (hg : 0 ≤ discharge) (h1 : 0 ≤ loclake) (h2 : 0 ≤ locwet) (h3 : 0 ≤ glowet) (hf : 0 ≤ factor) :
    let o := fracRouting runoff discharge loclake locwet glowet factor sink
    o.1 + o.2 = runoff + discharge ∧ 0 ≤ o.1 ∧ 0 ≤ o.2 ∧
    (sink = true → o.1 = runoff + discharge ∧ o.2 = 0) ∧
    (sink = false → o.1 = min 1 ((loclake + locwet + glowet) * factor) * (runoff + discharge)) := by
  have hs : swbShare loclake locwet glowet factor = min 1 ((loclake + locwet + glowet) * factor) := by
    unfold swbShare; simp only; split_ifs with h
    · rw [min_eq_left h.le]
    · rw [min_eq_right (not_lt.mp h)]
  have h0 : 0 ≤ min 1 ((loclake + locwet + glowet) * factor) := le_min zero_le_one (by positivity)
  have h1' : min 1 ((loclake + locwet + glowet) * factor) ≤ 1 := min_le_left _ _
  simp only [fracRouting, hs]
  generalize min 1 ((loclake + locwet + glowet) * factor) = f at *
  have h2' : 0 ≤ 1 - f := by linarith
  cases sink
  · simp only [Bool.false_eq_true, if_false]
    exact ⟨by ring, by positivity, by positivity, by simp, fun _ => by ring⟩
  · simp only [if_true]
    exact ⟨by ring, by positivity, by simp, fun _ => ⟨trivial, by ring⟩, by simp⟩

/-- C19: the split itself loses nothing whatever the signs of the inputs. -/
theorem C19_no_loss (runoff discharge loclake locwet glowet factor : ℝ) (sink : Bool) :
    (fracRouting runoff discharge loclake locwet glowet factor sink).1
      + (fracRouting runoff discharge loclake locwet glowet factor sink).2 = runoff + discharge := by
  unfold fracRouting; cases sink
  · simp; ring
  · simp

example := C19_frac_routing 3 2 0.01 0.05 0.02 20 false (by norm_num) (by norm_num) (by norm_num) (by norm_num)
  (by norm_num) (by norm_num)

/-! ### C20 -/

section
variable {α : Type} [DecidableEq α]

/-- The demand that `c` carries after aggregation, as a specification: riparian cells of a unit with an outflow cell
`o` give up their positive demand, which is all moved to `o`; negative demand stays. -/
noncomputable def aggSpec (cells : List α) (unit : α → ℕ) (netabs : α → ℝ) (o : Option α) (c : α) : ℝ :=
  match o with
  | none => netabs c
  | some o => min (netabs c) 0 +
      if c = o then ((cells.filter fun d => unit d = unit c).map fun d => max (netabs d) 0).sum else 0

theorem lastOutflow_unit (cells : List α) (unit : α → ℕ) (lake res : α → ℝ) (u : ℕ) (o : α)
    (h : lastOutflow cells unit lake res u = some o) :
    o ∈ cells ∧ unit o = u ∧ (lake o > 0 ∨ res o > 0) := by
  unfold lastOutflow at h
  have h1 := List.mem_of_getLast? h
  rw [List.mem_filter] at h1
  have h2 := of_decide_eq_true h1.2
  exact ⟨h1.1, by tauto, by tauto⟩

theorem sum_pos_part (cells : List α) (unit : α → ℕ) (netabs : α → ℝ) (u : ℕ) :
    (cells.map fun c => if unit c = u ∧ netabs c > 0 then netabs c else 0).sum =
    ((cells.filter fun d => unit d = u).map fun d => max (netabs d) 0).sum := by
  induction cells with
  | nil => simp
  | cons x xs ih =>
    by_cases hu : unit x = u
    · simp only [List.map_cons, List.sum_cons, List.filter_cons, hu, decide_true, if_true, true_and, ih]
      congr 1
      split_ifs with h
      · rw [max_eq_left h.le]
      · rw [max_eq_right (not_lt.mp h)]
    · simp only [List.map_cons, List.sum_cons, List.filter_cons, hu, decide_false, false_and, if_false, ih, zero_add,
        Bool.false_eq_true]

theorem aggregate_invariant (cells : List α) (unit : α → ℕ) (lake res netabs : α → ℝ) (units : List ℕ) :
    ∀ (done : List ℕ) (agg : α → ℝ), (done ++ units).Nodup →
    (∀ c, agg c = if unit c ∈ done then aggSpec cells unit netabs (lastOutflow cells unit lake res (unit c)) c
      else netabs c) →
    ∀ c, units.foldl (aggStep cells unit lake res netabs) agg c =
      if unit c ∈ done ++ units then aggSpec cells unit netabs (lastOutflow cells unit lake res (unit c)) c
      else netabs c := by
  induction units with
  | nil => intro done agg _ h c; simpa using h c
  | cons u us ih =>
    intro done agg hn h c
    have hu : u ∉ done := by
      rw [List.nodup_append] at hn
      intro hc
      exact hn.2.2 u hc u (List.mem_cons_self ..) rfl
    rw [List.foldl_cons]
    have hn' : ((done ++ [u]) ++ us).Nodup := by simpa using hn
    have := ih (done ++ [u]) (aggStep cells unit lake res netabs agg u) hn' ?_ c
    · simpa using this
    · intro d
      unfold aggStep
      cases ho : lastOutflow cells unit lake res u with
      | none =>
        simp only
        rw [h d]
        by_cases hd : unit d = u
        · rw [if_neg (by rw [hd]; exact hu), if_pos (by simp [hd]), hd, ho]; rfl
        · simp [hd]
      | some o =>
        obtain ⟨-, hou, -⟩ := lastOutflow_unit cells unit lake res u o ho
        simp only
        by_cases hd : unit d = u
        · have hR : (if unit d ∈ done ++ [u] then
              aggSpec cells unit netabs (lastOutflow cells unit lake res (unit d)) d else netabs d)
              = aggSpec cells unit netabs (some o) d := by
            rw [if_pos (by simp [hd]), hd, ho]
          rw [hR]
          have hagg : agg d = netabs d := by rw [h d, if_neg (by rw [hd]; exact hu)]
          have hcut : (if unit d = u ∧ netabs d > 0 then (0:ℝ) else agg d) = min (netabs d) 0 := by
            rw [hagg]
            split_ifs with hc
            · rw [min_eq_right hc.2.le]
            · rw [min_eq_left]
              by_contra hx
              exact hc ⟨hd, not_le.mp hx⟩
          by_cases hdo : d = o
          · subst hdo
            rw [Function.update_self, hcut, sum_pos_part]
            simp only [aggSpec, if_true, hd]
          · rw [Function.update_of_ne hdo, hcut]
            simp [aggSpec, hdo]
        · have hdo : d ≠ o := by rintro rfl; exact hd hou
          rw [Function.update_of_ne hdo, if_neg (fun hc => hd hc.1), h d]
          simp [hd]

/-- C20: what every cell carries after aggregation. A cell whose unit has no global lake or reservoir (or no unit)
keeps its demand; of a unit with one, the last such cell gets the sum of all positive demands of the unit in addition
to its own negative demand, and every other cell keeps only its negative demand. -/
theorem C20_aggregate (cells : List α) (unit : α → ℕ) (lake res netabs : α → ℝ) (units : List ℕ)
    (hu : units.Nodup) (c : α) :
    (unit c ∉ units → aggregate cells unit lake res netabs units c = netabs c) ∧
    (unit c ∈ units → (∀ d ∈ cells, unit d = unit c → lake d ≤ 0 ∧ res d ≤ 0) →
      aggregate cells unit lake res netabs units c = netabs c) ∧
    (∀ o, unit c ∈ units → lastOutflow cells unit lake res (unit c) = some o →
      aggregate cells unit lake res netabs units c = min (netabs c) 0 +
        if c = o then ((cells.filter fun d => unit d = unit c).map fun d => max (netabs d) 0).sum else 0) := by
  have h := aggregate_invariant cells unit lake res netabs units [] netabs (by simpa using hu) (by simp) c
  simp only [List.nil_append] at h
  unfold aggregate
  rw [h]
  refine ⟨fun hc => if_neg hc, fun hc hno => ?_, fun o hc ho => ?_⟩
  · rw [if_pos hc]
    have : lastOutflow cells unit lake res (unit c) = none := by
      cases ho : lastOutflow cells unit lake res (unit c) with
      | none => rfl
      | some o =>
        obtain ⟨h1, h2, h3⟩ := lastOutflow_unit _ _ _ _ _ _ ho
        obtain ⟨h4, h5⟩ := hno o h1 h2
        rcases h3 with h3 | h3 <;> linarith
    rw [this]; rfl
  · rw [if_pos hc, ho]; rfl

theorem aggStep_sum (cells : List α) (hc : cells.Nodup) (unit : α → ℕ) (lake res netabs agg : α → ℝ) (u : ℕ)
    (hagg : ∀ c ∈ cells, unit c = u → agg c = netabs c) :
    (cells.map (aggStep cells unit lake res netabs agg u)).sum = (cells.map agg).sum := by
  unfold aggStep
  cases ho : lastOutflow cells unit lake res u with
  | none => rfl
  | some o =>
    obtain ⟨hmem, -, -⟩ := lastOutflow_unit cells unit lake res u o ho
    simp only
    have key : ∀ (l : List α) (f : α → ℝ) (v : ℝ), l.Nodup → o ∈ l →
        (l.map (Function.update f o (f o + v))).sum = (l.map f).sum + v := by
      intro l f v hl ho
      induction l with
      | nil => simp at ho
      | cons y ys ih =>
        simp only [List.map_cons, List.sum_cons]
        rw [List.nodup_cons] at hl
        by_cases hy : y = o
        · subst hy
          have : ys.map (Function.update f y (f y + v)) = ys.map f := by
            apply List.map_congr_left
            intro z hz
            rw [Function.update_of_ne]
            rintro rfl; exact hl.1 hz
          rw [this, Function.update_self]; ring
        · rw [Function.update_of_ne hy, ih hl.2 (by simpa [Ne.symm hy] using ho)]; ring
    rw [key cells _ _ hc hmem]
    have : ∀ l : List α, (∀ c ∈ l, unit c = u → agg c = netabs c) →
        (l.map fun c => if unit c = u ∧ netabs c > 0 then (0:ℝ) else agg c).sum +
        (l.map fun c => if unit c = u ∧ netabs c > 0 then netabs c else 0).sum = (l.map agg).sum := by
      intro l hl
      induction l with
      | nil => simp
      | cons y ys ih =>
        have ih' := ih (fun c hc => hl c (List.mem_cons_of_mem _ hc))
        simp only [List.map_cons, List.sum_cons]
        rw [← ih']
        split_ifs with h
        · rw [hl y (List.mem_cons_self ..) h.1]; ring
        · ring
    exact this cells hagg

/-- C20: the total demand of the grid is unchanged by the aggregation. -/
theorem C20_total_demand (cells : List α) (hc : cells.Nodup) (unit : α → ℕ) (lake res netabs : α → ℝ)
    (units : List ℕ) (hu : units.Nodup) :
    (cells.map (aggregate cells unit lake res netabs units)).sum = (cells.map netabs).sum := by
  have key : ∀ (units : List ℕ) (agg : α → ℝ), units.Nodup →
      (∀ c ∈ cells, unit c ∈ units → agg c = netabs c) →
      (cells.map (units.foldl (aggStep cells unit lake res netabs) agg)).sum = (cells.map agg).sum := by
    intro units
    induction units with
    | nil => intros; rfl
    | cons u us ih =>
      intro agg hn hagg
      rw [List.nodup_cons] at hn
      rw [List.foldl_cons, ih _ hn.2, aggStep_sum cells hc unit lake res netabs agg u]
      · intro c hc' hcu; exact hagg c hc' (by simp [hcu])
      · intro c hc' hcu
        have hne : unit c ≠ u := by rintro h; exact hn.1 (h ▸ hcu)
        rw [← hagg c hc' (List.mem_cons_of_mem _ hcu)]
        unfold aggStep
        cases ho : lastOutflow cells unit lake res u with
        | none => rfl
        | some o =>
          obtain ⟨-, hou, -⟩ := lastOutflow_unit cells unit lake res u o ho
          simp only
          rw [Function.update_of_ne (by rintro rfl; exact hne hou), if_neg (fun h => hne h.1)]
  exact key units netabs hu (fun _ _ _ => rfl)

/-! ### C21 -/

/-- The riparian cells of the outflow cell `x`. -/
def RedistIn.riparian (i : RedistIn α) : List α := i.order.filter fun r => i.unit i.x = i.unit r ∧ i.x ≠ r

/-- The sum of the positive demands of the outflow cell and its riparian cells. -/
noncomputable def RedistIn.positive (i : RedistIn α) : ℝ :=
  max (i.unagg i.x) 0 + (i.riparian.map fun r => max (i.unagg r) 0).sum

/-- The share of cell `r` in the unsatisfied demand of the day. -/
noncomputable def RedistIn.share (i : RedistIn α) (r : α) : ℝ :=
  max (i.unagg r) 0 / i.positive * (i.acc - i.carried)

/-- The aggregated demand handed to the outflow cell is the one `aggregate` computes. -/
def RedistIn.Consistent (i : RedistIn α) : Prop := i.pot = min (i.unagg i.x) 0 + i.positive

theorem sum_max_nonneg (l : List α) (f : α → ℝ) : 0 ≤ (l.map fun r => max (f r) 0).sum := by
  apply List.sum_nonneg
  intro y hy
  simp only [List.mem_map] at hy
  obtain ⟨z, -, rfl⟩ := hy
  exact le_max_right _ _

theorem redist_value (i : RedistIn α) (hcons : i.Consistent) (hpos : 0 < i.positive)
    (st : ℝ × (α → ℝ)) (r : α) (hr : i.unit i.x = i.unit r ∧ i.x ≠ r) (hd : i.acc - i.carried > 0) :
    redistStep i st r = (i.carried + i.share i.x, Function.update st.2 r (i.share r)) := by
  unfold redistStep
  rw [if_pos hr, if_pos hd]
  unfold RedistIn.Consistent at hcons
  by_cases hx : i.unagg i.x ≤ 0
  · have h1 : i.pot - i.unagg i.x = i.positive := by rw [hcons, min_eq_left hx]; ring
    rw [if_pos hx, h1, if_pos hpos]
    have hs0 : i.share i.x = 0 := by unfold RedistIn.share; rw [max_eq_right hx]; ring
    rw [hs0, add_zero]
    congr 2
    split_ifs with hr0
    · unfold RedistIn.share; rw [max_eq_right hr0]; ring
    · unfold RedistIn.share; rw [max_eq_left (not_le.mp hr0).le]
  · have hx' := not_le.mp hx
    have h1 : i.pot = i.positive := by rw [hcons, min_eq_right hx'.le]; ring
    rw [if_neg hx, h1, if_pos hpos, if_pos hpos]
    have hs0 : i.unagg i.x / i.positive * (i.acc - i.carried) + i.carried = i.carried + i.share i.x := by
      unfold RedistIn.share; rw [max_eq_left hx'.le]; ring
    rw [hs0]
    congr 2
    split_ifs with hr0
    · unfold RedistIn.share; rw [max_eq_right hr0]; ring
    · unfold RedistIn.share; rw [max_eq_left (not_le.mp hr0).le]

theorem redist_fold (i : RedistIn α) (hcons : i.Consistent) (hpos : 0 < i.positive) (hd : i.acc - i.carried > 0) :
    ∀ (l : List α) (st : ℝ × (α → ℝ)),
    (l.foldl (redistStep i) st).1 =
      (if (l.filter fun r => i.unit i.x = i.unit r ∧ i.x ≠ r) = [] then st.1 else i.carried + i.share i.x) ∧
    ∀ c, (l.foldl (redistStep i) st).2 c =
      if c ∈ l.filter (fun r => i.unit i.x = i.unit r ∧ i.x ≠ r) then i.share c else st.2 c := by
  intro l
  induction l with
  | nil => intro st; simp
  | cons y ys ih =>
    intro st
    rw [List.foldl_cons]
    by_cases hy : i.unit i.x = i.unit y ∧ i.x ≠ y
    · rw [redist_value i hcons hpos st y hy hd]
      obtain ⟨h1, h2⟩ := ih (i.carried + i.share i.x, Function.update st.2 y (i.share y))
      constructor
      · rw [h1]
        have : ((y :: ys).filter fun r => decide (i.unit i.x = i.unit r ∧ i.x ≠ r)) ≠ [] := by
          rw [List.filter_cons, if_pos (by simpa using hy)]; simp
        rw [if_neg this]; split_ifs <;> rfl
      · intro c
        rw [h2 c]
        by_cases hcy : c = y
        · subst hcy
          rw [if_pos (List.mem_filter.mpr ⟨List.mem_cons_self .., by simpa using hy⟩)]
          simp
        · have : (c ∈ (y :: ys).filter fun r => decide (i.unit i.x = i.unit r ∧ i.x ≠ r)) ↔
              c ∈ ys.filter fun r => decide (i.unit i.x = i.unit r ∧ i.x ≠ r) := by
            simp [List.mem_filter, hcy]
          simp only [this, Function.update_of_ne hcy]
    · have hs : redistStep i st y = st := by unfold redistStep; rw [if_neg hy]
      rw [hs]
      obtain ⟨h1, h2⟩ := ih st
      have : (y :: ys).filter (fun r => decide (i.unit i.x = i.unit r ∧ i.x ≠ r)) =
          ys.filter fun r => decide (i.unit i.x = i.unit r ∧ i.x ≠ r) := by
        rw [List.filter_cons, if_neg (by simpa using hy)]
      rw [this]; exact ⟨h1, h2⟩

theorem redist_fold_none (i : RedistIn α) (hd : ¬ i.acc - i.carried > 0) :
    ∀ (l : List α) (st : ℝ × (α → ℝ)), st.1 = i.acc →
    (l.foldl (redistStep i) st).1 = i.acc ∧
    (∀ c, c ∈ l.filter (fun r => i.unit i.x = i.unit r ∧ i.x ≠ r) → (l.foldl (redistStep i) st).2 c = 0) ∧
    (∀ c, c ∉ l.filter (fun r => i.unit i.x = i.unit r ∧ i.x ≠ r) → c ≠ i.x →
      (l.foldl (redistStep i) st).2 c = st.2 c) := by
  intro l
  induction l with
  | nil => intro st h; simp [h]
  | cons y ys ih =>
    intro st hst
    rw [List.foldl_cons]
    by_cases hy : i.unit i.x = i.unit y ∧ i.x ≠ y
    · have hs : redistStep i st y = (i.acc, Function.update (Function.update st.2 y 0) i.x 0) := by
        unfold redistStep; rw [if_pos hy, if_neg hd]
      rw [hs]
      obtain ⟨h1, h2, h3⟩ := ih (i.acc, Function.update (Function.update st.2 y 0) i.x 0) rfl
      have hfc : (y :: ys).filter (fun r => decide (i.unit i.x = i.unit r ∧ i.x ≠ r)) =
          y :: ys.filter fun r => decide (i.unit i.x = i.unit r ∧ i.x ≠ r) := by
        rw [List.filter_cons, if_pos (by simpa using hy)]
      rw [hfc]
      refine ⟨h1, fun c hc => ?_, fun c hc hcx => ?_⟩
      · by_cases hin : c ∈ ys.filter fun r => decide (i.unit i.x = i.unit r ∧ i.x ≠ r)
        · exact h2 c hin
        · have hcy : c = y := (List.mem_cons.mp hc).resolve_right hin
          subst hcy
          rw [h3 c hin (Ne.symm hy.2)]
          simp [Function.update_of_ne (Ne.symm hy.2)]
      · rw [List.mem_cons, not_or] at hc
        rw [h3 c hc.2 hcx]
        simp only
        rw [Function.update_of_ne hcx, Function.update_of_ne hc.1]
    · have hs : redistStep i st y = st := by unfold redistStep; rw [if_neg hy]
      rw [hs]
      have : (y :: ys).filter (fun r => decide (i.unit i.x = i.unit r ∧ i.x ≠ r)) =
          ys.filter fun r => decide (i.unit i.x = i.unit r ∧ i.x ≠ r) := by
        rw [List.filter_cons, if_neg (by simpa using hy)]
      rw [this]; exact ih st hst

theorem sum_div_mul (l : List α) (f : α → ℝ) (p d : ℝ) :
    (l.map fun r => f r / p * d).sum = (l.map f).sum / p * d := by
  induction l with
  | nil => simp
  | cons y ys ih => simp only [List.map_cons, List.sum_cons, ih]; ring

/-- C21: the unsatisfied demand of an outflow cell with riparian cells is shared without loss: each riparian cell
gets the part of the unsatisfied demand of the day that its positive demand has in the aggregated demand, the
outflow cell keeps its own part and what it carried over from before, and other cells are not touched. -/
theorem C21_redistribute (i : RedistIn α) (hcons : i.Consistent) (hpos : 0 < i.positive)
    (hne : i.riparian ≠ []) (hd : i.acc > i.carried) (rip : α → ℝ) :
    let o := redistribute i rip
    (∀ r ∈ i.riparian, o.2 r = max (i.unagg r) 0 / i.positive * (i.acc - i.carried)) ∧
    o.1 = i.carried + max (i.unagg i.x) 0 / i.positive * (i.acc - i.carried) ∧
    (∀ c, c ∉ i.riparian → o.2 c = rip c) ∧
    (i.riparian.map o.2).sum + o.1 = i.acc := by
  have hd' : i.acc - i.carried > 0 := by linarith
  obtain ⟨h1, h2⟩ := redist_fold i hcons hpos hd' i.order (i.acc, rip)
  have hr : (i.order.filter fun r => decide (i.unit i.x = i.unit r ∧ i.x ≠ r)) = i.riparian := rfl
  rw [hr] at h1 h2
  rw [if_neg hne] at h1
  have a : ∀ r ∈ i.riparian, (redistribute i rip).2 r = max (i.unagg r) 0 / i.positive * (i.acc - i.carried) := by
    intro r hr; unfold redistribute; rw [h2 r, if_pos hr]; rfl
  have b : (redistribute i rip).1 = i.carried + max (i.unagg i.x) 0 / i.positive * (i.acc - i.carried) := h1
  refine ⟨a, b, fun c hc => ?_, ?_⟩
  · unfold redistribute; rw [h2 c, if_neg hc]
  · have : i.riparian.map (redistribute i rip).2 =
        i.riparian.map fun r => max (i.unagg r) 0 / i.positive * (i.acc - i.carried) :=
      List.map_congr_left a
    rw [this, b, sum_div_mul]
    have hp : i.positive ≠ 0 := hpos.ne'
    have : (i.riparian.map fun r => max (i.unagg r) 0).sum = i.positive - max (i.unagg i.x) 0 := by
      unfold RedistIn.positive; ring
    rw [this]
    field_simp
    ring

/-- C21: if the day left nothing more unsatisfied than was carried over, the outflow cell keeps it all and the
riparian cells get nothing; an outflow cell without riparian cells keeps its demand. -/
theorem C21_nothing_to_share (i : RedistIn α) (rip : α → ℝ) :
    (i.acc ≤ i.carried →
      (redistribute i rip).1 = i.acc ∧ (∀ r ∈ i.riparian, (redistribute i rip).2 r = 0) ∧
      (∀ c, c ∉ i.riparian → c ≠ i.x → (redistribute i rip).2 c = rip c)) ∧
    (i.riparian = [] → redistribute i rip = (i.acc, rip)) := by
  constructor
  · intro h
    exact redist_fold_none i (by linarith) i.order (i.acc, rip) rfl
  · intro h
    unfold redistribute
    have : ∀ (l : List α) (st : ℝ × (α → ℝ)), (l.filter fun r => decide (i.unit i.x = i.unit r ∧ i.x ≠ r)) = [] →
        l.foldl (redistStep i) st = st := by
      intro l
      induction l with
      | nil => intros; rfl
      | cons y ys ih =>
        intro st hl
        rw [List.filter_eq_nil_iff] at hl
        have hy := hl y (List.mem_cons_self ..)
        rw [List.foldl_cons]
        have hs : redistStep i st y = st := by
          unfold redistStep; rw [if_neg (by simpa using hy)]
        rw [hs]
        exact ih st (by rw [List.filter_eq_nil_iff]; exact fun c hc => hl c (List.mem_cons_of_mem _ hc))
    exact this i.order (i.acc, rip) h

/-- C21, spelled out: demand passed on by neighbours and demand open from the days before (what came back from the
neighbour that was asked, if that is not zero, else what was known before) are the outflow cell's own and come
first; only what is left of the unsatisfied demand after them is shared, in proportion to positive demands. -/
theorem C21_own_first (i : RedistIn α) (hcons : i.Consistent) (hpos : 0 < i.positive) (hne : i.riparian ≠ [])
    (rip : α → ℝ) (before : ℝ)
    (hb : ∀ v, i.prevReturned = some v → v ≠ 0 → before = v)
    (hb0 : i.prevReturned = none ∨ i.prevReturned = some 0 → before = i.prev) :
    let o := redistribute i rip
    let today := max 0 (i.acc - (i.toSupply + before))
    o.1 = i.acc - today + max (i.unagg i.x) 0 / i.positive * today ∧
    (∀ r ∈ i.riparian, o.2 r = max (i.unagg r) 0 / i.positive * today) := by
  have hc : i.carried = i.toSupply + before := by
    unfold RedistIn.carried
    rcases hv : i.prevReturned with _ | v
    · simp [hb0 (Or.inl hv)]
    · by_cases h0 : v = 0
      · subst h0; simp [hb0 (Or.inr hv)]
      · simp [h0, hb v hv h0]
  intro o today
  by_cases h : i.acc > i.carried
  · obtain ⟨a, b, -, -⟩ := C21_redistribute i hcons hpos hne h rip
    have ht : today = i.acc - i.carried := by
      simp only [today]; rw [← hc]; exact max_eq_right (by linarith)
    rw [ht]
    exact ⟨by simp only [o]; rw [b]; ring, a⟩
  · obtain ⟨a, b, -⟩ := (C21_nothing_to_share i rip).1 (by linarith)
    have ht : today = 0 := by
      simp only [today]; rw [← hc]; exact max_eq_left (by linarith)
    rw [ht]
    refine ⟨by simp only [o]; rw [a]; ring, fun r hr => ?_⟩
    simp only [o]; rw [b r hr]; ring

end

/-! A unit of three cells, 1 and 2 with a global lake; demands 1, 2 and 3. -/

/-- The outflow cell with the aggregated demand, of which nothing could be supplied. -/
noncomputable def unitA : RedistIn ℕ :=
  { prev := 0, toSupply := 0, acc := 6, unagg := fun c => c, pot := 6, unit := fun _ => 7,
    order := [1, 2, 3], prevReturned := none, x := 2 }

/-- The other cell of the unit with a lake, whose positive demand the aggregation has moved away; it has received
its share from `unitA` and could satisfy none of it. -/
noncomputable def unitB : RedistIn ℕ :=
  { unitA with acc := 1, pot := 0, x := 1 }

theorem unitA_riparian : unitA.riparian = [1, 3] := by
  simp [RedistIn.riparian, unitA]

theorem unitA_carried : unitA.carried = 0 := by simp [RedistIn.carried, unitA]

theorem unitA_positive : unitA.positive = 6 := by
  unfold RedistIn.positive; rw [unitA_riparian]; norm_num [unitA]

example := C21_redistribute unitA (by unfold RedistIn.Consistent; rw [unitA_positive]; norm_num [unitA])
  (by rw [unitA_positive]; norm_num) (by rw [unitA_riparian]; simp) (by rw [unitA_carried]; norm_num [unitA])
  (fun _ => 0)

/-- Two of the six come from a neighbour, one came back from the day before. -/
noncomputable def unitC : RedistIn ℕ := { unitA with toSupply := 2, prevReturned := some 1 }

theorem unitC_positive : unitC.positive = 6 := unitA_positive

example := C21_own_first unitC (by unfold RedistIn.Consistent; rw [unitC_positive]; norm_num [unitC, unitA])
  (by rw [unitC_positive]; norm_num) (by rw [show unitC.riparian = [1, 3] from unitA_riparian]; simp) (fun _ => 0) 1
  (by intro v hv _; simp only [unitC, Option.some.injEq] at hv; exact hv) (by simp [unitC])

/-- C21 is violated when the neighbour an outflow cell asked supplied everything: then zero comes back, the code takes
it for "nothing came back" and counts what was open before the cell asked, here five, as still open. So the outflow
cell keeps 16/3 of an unsatisfied demand of six, instead of its own two, and the riparian cells get 1/6 and 1/2
instead of one and three. -/
theorem C21_violated_answered_in_full :
    let i : RedistIn ℕ := { unitA with prev := 5, prevReturned := some 0 }
    let o := redistribute i (fun _ => 0)
    (o.1 = 16 / 3 ∧ o.2 1 = 1 / 6 ∧ o.2 3 = 1 / 2) ∧
    (max (i.unagg i.x) 0 / i.positive * i.acc = 2 ∧ max (i.unagg 1) 0 / i.positive * i.acc = 1 ∧
      max (i.unagg 3) 0 / i.positive * i.acc = 3) := by
  intro i o
  have hp : i.positive = 6 := unitA_positive
  have hr : i.riparian = [1, 3] := unitA_riparian
  obtain ⟨a, b⟩ := C21_own_first i (by unfold RedistIn.Consistent; rw [hp]; norm_num [i, unitA]) (by rw [hp]; norm_num)
    (by rw [hr]; simp) (fun _ => 0) 5 (by intro v hv h; simp only [i, Option.some.injEq] at hv; exact absurd hv.symm h)
    (by intro _; rfl)
  refine ⟨⟨?_, ?_, ?_⟩, ?_, ?_, ?_⟩
  · simp only [o]; rw [a, hp]; norm_num [i, unitA]
  · simp only [o]; rw [b 1 (by rw [hr]; simp), hp]; norm_num [i, unitA]
  · simp only [o]; rw [b 3 (by rw [hr]; simp), hp]; norm_num [i, unitA]
  all_goals rw [hp]; norm_num [i, unitA]

example := C20_total_demand [1, 2, 3] (by decide) (fun _ => 7) (fun _ => 1) (fun _ => 0) (fun c : ℕ => (c : ℝ) - 2) [7]
  (by decide)
example : lastOutflow [1, 2, 3] (fun _ => 7) (fun c : ℕ => if c = 3 then 0 else 1) (fun _ => 0) 7 = some 2 := by
  norm_num [lastOutflow]

/-- C21 is violated by units with two outflow cells: the aggregation moves the demand to the last one only, but
both redistribute. The second call (here for a cell that could satisfy nothing of its share) overwrites with zero
what the first had left for the riparian cell 3, and drops the demand of the second cell itself: of six units of
unsatisfied demand two are left (those kept by the first outflow cell). -/
theorem C21_violated_two_outflow_cells :
    let first := redistribute unitA (fun _ => 0)
    let second := redistribute unitB first.2
    first.1 + (first.2 1 + first.2 3) = 6 ∧ first.2 1 = unitB.acc ∧
    first.1 + (second.1 + second.2 3) = 2 := by
  have hA : redistribute unitA (fun _ => 0) = (2, Function.update (Function.update (fun _ => 0) 1 1) 3 3) := by
    unfold redistribute
    have ho : unitA.order = [1, 2, 3] := rfl
    rw [ho]
    simp only [List.foldl_cons, List.foldl_nil, redistStep, unitA_carried]
    norm_num [unitA]
  have hBc : unitB.carried = 0 := by simp [RedistIn.carried, unitB, unitA]
  have hB : ∀ f : ℕ → ℝ, redistribute unitB f = (0, Function.update (Function.update f 2 0) 3 0) := by
    intro f
    unfold redistribute
    have ho : unitB.order = [1, 2, 3] := rfl
    rw [ho]
    simp only [List.foldl_cons, List.foldl_nil, redistStep, hBc]
    norm_num [unitB, unitA]
  simp only [hA, hB]
  norm_num [unitB, Function.update]

/-! ### C22 -/

/-- C22: what a local lake supplies is the smaller of the demand and of the water above its lowest level; demand and
storage are accounted for exactly, and the lake stays within its bounds. -/
theorem C22_local_lake (s m frac redExp d : ℝ) (hd : 0 ≤ d) (hs : -m ≤ s) (hs1 : s ≤ m) :
    let o := localLakeAbstract s m frac redExp d
    let use := o.2.2.2
    use = min d (s + m) ∧ o.1 = s - use ∧ use + o.2.1 = d ∧ 0 ≤ o.2.1 ∧ -m ≤ o.1 ∧ o.1 ≤ m ∧
    (d ≤ s + m → o.2.1 = 0) := by
  simp only [localLakeAbstract]
  split_ifs with h
  · refine ⟨?_, by ring, by ring, le_rfl, by simp only; linarith, by simp only; linarith, fun _ => rfl⟩
    rw [min_eq_left h.le]; ring
  · have h' := not_lt.mp h
    refine ⟨?_, by ring, by ring, by simp only; linarith, by simp only; linarith, by simp only; linarith,
      fun h2 => by simp only; linarith⟩
    rw [min_eq_right h']; ring

/-- C22: the area fraction left to the lake is a fraction of the old one and does not grow. -/
theorem C22_fraction (s m frac redExp d : ℝ) (hf : 0 ≤ frac) :
    0 ≤ (localLakeAbstract s m frac redExp d).2.2.1 ∧ (localLakeAbstract s m frac redExp d).2.2.1 ≤ frac := by
  simp only [localLakeAbstract]
  generalize (if d < s + m then (s - d, (0:ℝ)) else (-1 * m, d - (s + m))).1 = t
  obtain ⟨h0, h1⟩ := C12_fraction t m redExp .localLake
  exact ⟨mul_nonneg h0 hf, by nlinarith⟩

example := C22_local_lake (-0.5) 1 0.1 3 2 (by norm_num) (by norm_num) (by norm_num)

/-! ### C23 -/

/-- A neighbour that may supply `x`: it exists, does not drain into `x` and has water. -/
def Eligible (avail : Cell → ℝ) (x : Cell) (nb : Cell × Cell) : Prop :=
  nb.1 ≠ (0, 0) ∧ nb.2 ≠ x ∧ 0 < avail nb.1

theorem neighbour_fold (avail : Cell → ℝ) (x : Cell) (l : List (Cell × Cell)) :
    ∀ best : Cell × ℝ, 0 ≤ best.2 →
    let r := l.foldl (neighbourStep avail x) best
    best.2 ≤ r.2 ∧ (∀ nb ∈ l, Eligible avail x nb → avail nb.1 ≤ r.2) ∧
    (r = best ∨ ∃ nb ∈ l, Eligible avail x nb ∧ r = (nb.1, avail nb.1)) := by
  induction l with
  | nil => intro best h; simp
  | cons y ys ih =>
    intro best hb
    simp only [List.foldl_cons]
    have hstep : (neighbourStep avail x best y = best ∧ (Eligible avail x y → avail y.1 ≤ best.2)) ∨
        (neighbourStep avail x best y = (y.1, avail y.1) ∧ Eligible avail x y ∧ best.2 < avail y.1) := by
      unfold neighbourStep
      split_ifs with h1 h2 h3
      · left; exact ⟨rfl, fun he => absurd h1 he.1⟩
      · left; exact ⟨rfl, fun he => absurd h3 he.2.1⟩
      · right; exact ⟨rfl, ⟨h1, h3, lt_of_le_of_lt hb h2⟩, h2⟩
      · left; exact ⟨rfl, fun _ => not_lt.mp h2⟩
    rcases hstep with ⟨he, hle⟩ | ⟨he, hel, hlt⟩
    · rw [he]
      obtain ⟨h1, h2, h3⟩ := ih best hb
      refine ⟨h1, ?_, ?_⟩
      · intro nb hnb hel
        rcases List.mem_cons.mp hnb with rfl | hnb
        · exact (hle hel).trans h1
        · exact h2 nb hnb hel
      · rcases h3 with h3 | ⟨nb, h4, h5⟩
        · exact Or.inl h3
        · exact Or.inr ⟨nb, List.mem_cons_of_mem _ h4, h5⟩
    · rw [he]
      obtain ⟨h1, h2, h3⟩ := ih (y.1, avail y.1) (hb.trans hlt.le)
      refine ⟨hlt.le.trans h1, ?_, ?_⟩
      · intro nb hnb hel'
        rcases List.mem_cons.mp hnb with rfl | hnb
        · exact h1
        · exact h2 nb hnb hel'
      · rcases h3 with h3 | ⟨nb, h4, h5⟩
        · exact Or.inr ⟨y, List.mem_cons_self .., hel, h3⟩
        · exact Or.inr ⟨nb, List.mem_cons_of_mem _ h4, h5⟩

/-- C23: except on 31 December, a cell with unsatisfied demand gets a listed neighbour that has the most water of
all listed neighbours that do not drain into it, or none if none of these has water. A cell without demand gets
none. -/
theorem C23_best_neighbour (avail : Cell → ℝ) (nbs : List (Cell × Cell)) (d : ℝ) (x : Cell) (month day : ℕ)
    (calcd : Cell → ℕ) (hdate : ¬ (month = 12 ∧ day = 31)) :
    let r := getNeighbour avail nbs d x month day calcd
    (d ≤ 0 → r = (0, 0)) ∧
    (0 < d → (∃ nb ∈ nbs, Eligible avail x nb) →
      ∃ nb ∈ nbs, Eligible avail x nb ∧ r = nb.1 ∧ ∀ nb' ∈ nbs, Eligible avail x nb' → avail nb'.1 ≤ avail r) ∧
    (0 < d → (∀ nb ∈ nbs, ¬ Eligible avail x nb) → r = (0, 0)) := by
  simp only [getNeighbour]
  obtain ⟨-, h2, h3⟩ := neighbour_fold avail x nbs ((0, 0), 0) le_rfl
  refine ⟨fun h => if_neg (not_lt.mpr h), fun h hex => ?_, fun h hno => ?_⟩
  · rw [if_pos h, if_neg hdate]
    rcases h3 with h3 | ⟨nb, h4, h5, h6⟩
    · obtain ⟨nb, hn, he⟩ := hex
      have := h2 nb hn he
      rw [h3] at this
      exact absurd he.2.2 (not_lt.mpr this)
    · rw [h6] at h2 ⊢
      exact ⟨nb, h4, h5, rfl, fun nb' hn he => h2 nb' hn he⟩
  · rw [if_pos h, if_neg hdate]
    rcases h3 with h3 | ⟨nb, h4, h5, -⟩
    · rw [h3]
    · exact absurd h5 (hno nb h4)

/-- C23: on 31 December the selected neighbour is dropped, without a substitute, if the routing has already passed
it; otherwise the selection is the one of any other day. -/
theorem C23_last_day (avail : Cell → ℝ) (nbs : List (Cell × Cell)) (d : ℝ) (x : Cell) (calcd : Cell → ℕ) :
    let best := getNeighbour avail nbs d x 1 1 calcd
    getNeighbour avail nbs d x 12 31 calcd = if 0 < d ∧ calcd best > calcd x then (0, 0) else best := by
  simp only [getNeighbour]
  by_cases h : d > 0
  · have : ¬ ((1:ℕ) = 12 ∧ (1:ℕ) = 31) := by decide
    rw [if_pos h, if_pos h, if_neg this]
    simp [h]
  · rw [if_neg h, if_neg h]; simp

/-- C23: the water a neighbour is judged by is everything in its river, lakes and (if simulated) reservoir, lakes
counted from their lowest level; less than 1e-12 km³ counts as none. -/
theorem C23_available (river loc glo maxLoc maxGlo res : Cell → ℝ) (resOpt : Bool) (c : Cell) :
    let total := river c + (loc c + maxLoc c) + (glo c + maxGlo c) + (if resOpt then res c else 0)
    (1e-12 ≤ total → cellStorage river loc glo maxLoc maxGlo res resOpt c = total) ∧
    (total < 1e-12 → cellStorage river loc glo maxLoc maxGlo res resOpt c = 0) := by
  simp only [cellStorage]
  have e : (if resOpt then river c + loc c + glo c + maxLoc c + maxGlo c + res c
      else river c + loc c + glo c + maxLoc c + maxGlo c) =
      river c + (loc c + maxLoc c) + (glo c + maxGlo c) + (if resOpt then res c else 0) := by
    cases resOpt <;> simp <;> ring
  rw [e]
  exact ⟨fun h => if_neg (not_lt.mpr h), fun h => if_pos h⟩

example : getNeighbour (fun c => c.1) [((3, 1), (9, 9)), ((5, 1), (2, 2)), ((4, 1), (8, 8))] 1 (2, 2) 6 1
    (fun _ => 0) = (4, 1) := by
  norm_num [getNeighbour, neighbourStep]

/-! ### C24 -/

theorem alloc_fold (i : AllocIn) (v : ℝ) (l : List Cell) : ∀ r : Cell → Option ℝ, ∀ c,
    l.foldl (fun r c => if (i.nbMap c).1 = i.x.1 ∧ (i.nbMap c).2 = i.x.2 then
        Function.update r c (some (v * i.fromDemand c * (1 / i.toSupply))) else r) r c =
      if c ∈ l ∧ i.nbMap c = i.x then some (v * i.fromDemand c * (1 / i.toSupply)) else r c := by
  induction l with
  | nil => intro r c; simp
  | cons y ys ih =>
    intro r c
    rw [List.foldl_cons, ih]
    have hiff : ((i.nbMap y).1 = i.x.1 ∧ (i.nbMap y).2 = i.x.2) ↔ i.nbMap y = i.x := Prod.ext_iff.symm
    by_cases hc : c ∈ ys ∧ i.nbMap c = i.x
    · rw [if_pos hc, if_pos ⟨List.mem_cons_of_mem _ hc.1, hc.2⟩]
    · rw [if_neg hc]
      by_cases hy : i.nbMap y = i.x
      · rw [if_pos (hiff.mpr hy)]
        by_cases hcy : c = y
        · subst hcy; simp [hy]
        · rw [Function.update_of_ne hcy, if_neg]
          rintro ⟨h1, h2⟩
          rcases List.mem_cons.mp h1 with h | h
          · exact hcy h
          · exact hc ⟨h, h2⟩
      · rw [if_neg (fun h => hy (hiff.mp h)), if_neg]
        rintro ⟨h1, h2⟩
        rcases List.mem_cons.mp h1 with h | h
        · subst h; exact hy h2
        · exact hc ⟨h, h2⟩

/-- C24: a supply cell that was asked for water by other cells (the asked amounts sum to `toSupply`) returns what it
could not supply to exactly these cells, in proportion to what each asked for; the returned demands sum to the total
returned, and what is not returned stays with the supply cell. -/
theorem C24_returned (i : AllocIn) (returned : Cell → Option ℝ) (hpos : 0 < i.toSupply) (hacc : 0 ≤ i.acc)
    (hsum : ((i.order.filter fun c => i.nbMap c = i.x).map i.fromDemand).sum = i.toSupply) :
    let o := allocate i returned
    (∀ c ∈ i.order, i.nbMap c = i.x → o.2.1 c = some (i.fromDemand c / i.toSupply * o.2.2)) ∧
    (∀ c, i.nbMap c ≠ i.x → o.2.1 c = returned c) ∧
    ((i.order.filter fun c => i.nbMap c = i.x).map fun c => (o.2.1 c).getD 0).sum = o.2.2 ∧
    o.1 + o.2.2 = i.acc := by
  have hval : ∀ c, (allocate i returned).2.1 c =
      if c ∈ i.order ∧ i.nbMap c = i.x then some ((allocSplit i).2 * i.fromDemand c * (1 / i.toSupply))
      else returned c := by
    intro c
    simp only [allocate, if_pos hpos]
    exact alloc_fold i _ i.order returned c
  have h22 : (allocate i returned).2.2 = (allocSplit i).2 := rfl
  have h1 : ∀ c ∈ i.order, i.nbMap c = i.x →
      (allocate i returned).2.1 c = some (i.fromDemand c / i.toSupply * (allocate i returned).2.2) := by
    intro c hc hx
    rw [hval c, if_pos ⟨hc, hx⟩, h22]
    congr 1; ring
  refine ⟨h1, fun c hx => ?_, ?_, ?_⟩
  · rw [hval c, if_neg (fun h => hx h.2)]
  · have : ((i.order.filter fun c => i.nbMap c = i.x).map fun c => ((allocate i returned).2.1 c).getD 0) =
        ((i.order.filter fun c => i.nbMap c = i.x).map fun c =>
          i.fromDemand c / i.toSupply * (allocate i returned).2.2) := by
      apply List.map_congr_left
      intro c hc
      rw [List.mem_filter] at hc
      rw [h1 c hc.1 (of_decide_eq_true hc.2)]
      rfl
    rw [this, sum_div_mul, hsum]
    field_simp
  · simp only [allocate, allocSplit, if_pos hpos]
    by_cases h2 : i.acc > 0
    · rw [if_pos h2]
      split_ifs <;> simp
    · rw [if_neg h2]
      have : i.acc = 0 := le_antisymm (not_lt.mp h2) hacc
      simp [this]

/-- C24: own demand has priority. If the unsatisfied demand is what is left of own demand plus asked demand after the
actual use and the riparian part, then no more is returned than was asked, and the supply cell keeps only what exceeds
that. Nothing is returned by a cell that was not asked. -/
theorem C24_own_demand_first (i : AllocIn) (returned : Cell → Option ℝ)
    (hbal : i.acc = i.totalNoAlloc + i.toSupply - i.actualUse - i.riparian) (hpos : 0 < i.toSupply) (hacc : 0 ≤ i.acc) :
    (0 < i.totalNoAlloc →
      (allocate i returned).2.2 = min i.acc i.toSupply ∧ (allocate i returned).1 = max 0 (i.acc - i.toSupply)) ∧
    (i.totalNoAlloc ≤ 0 → (allocate i returned).2.2 = i.acc ∧ (allocate i returned).1 = 0) := by
  have h22 : (allocate i returned).2.2 = (allocSplit i).2 := rfl
  have h1 : (allocate i returned).1 = (allocSplit i).1 := rfl
  rw [h22, h1]
  have hown : i.totalNoAlloc - i.actualUse - i.riparian = i.acc - i.toSupply := by linarith
  unfold allocSplit
  rw [if_pos hpos]
  by_cases h2 : i.acc > 0
  · rw [if_pos h2]
    refine ⟨fun h => ?_, fun h => ?_⟩
    · rw [if_pos h]
      simp only [hown]
      split_ifs with h3
      · rw [min_eq_left (by linarith), max_eq_left h3.le]; exact ⟨by ring, rfl⟩
      · rw [min_eq_right (by linarith), max_eq_right (by linarith)]; exact ⟨by ring, rfl⟩
    · rw [if_neg (not_lt.mpr h)]; exact ⟨rfl, rfl⟩
  · rw [if_neg h2]
    have : i.acc = 0 := le_antisymm (not_lt.mp h2) hacc
    rw [this]
    exact ⟨fun _ => ⟨(min_eq_left hpos.le).symm, (max_eq_left (by linarith)).symm⟩, fun _ => ⟨rfl, rfl⟩⟩

/-- C24: a cell that was not asked for water returns nothing and keeps its own unsatisfied demand. -/
theorem C24_not_asked (i : AllocIn) (returned : Cell → Option ℝ) (h : i.toSupply ≤ 0) :
    allocate i returned = (i.acc, returned, 0) := by
  simp [allocate, allocSplit, not_lt.mpr h]

/-- Two cells asked cell (5,5) for one and for three units; two are left. -/
noncomputable def sampleAlloc : AllocIn :=
  { x := (5, 5), nbMap := fun c => if c.1 = 4 then (5, 5) else (1, 1), acc := 2,
    fromDemand := fun c => if c = (4, 5) then 1 else 3, toSupply := 4, totalNoAlloc := 1, actualUse := 3,
    riparian := 0, order := [(4, 5), (2, 2), (4, 6)] }

example := C24_returned sampleAlloc (fun _ => none) (by norm_num [sampleAlloc]) (by norm_num [sampleAlloc])
  (by norm_num [sampleAlloc, List.filter_cons])
example := (C24_own_demand_first sampleAlloc (fun _ => none) (by norm_num [sampleAlloc])
  (by norm_num [sampleAlloc]) (by norm_num [sampleAlloc])).1 (by norm_num [sampleAlloc])

end WG
