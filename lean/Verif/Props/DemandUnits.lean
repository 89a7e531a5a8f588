import Verif.Model.DemandUnits
import Verif.Props.Abstraction
import Verif.Props.YearStart

/-!
# C20 for the map of units: every unit aggregates its demand, if the map has a cell without unit and a cell with NaN
-/

namespace WG

variable {α : Type} [DecidableEq α]

/-- The maps of units: no number is below zero. -/
def UnitMap (cells : List α) (glwd : α → WithTop ℤ) : Prop := ∀ x ∈ cells, (0 : WithTop ℤ) ≤ glwd x

omit [DecidableEq α] in
theorem mem_demandUnits (cells : List α) (glwd : α → WithTop ℤ) (hm : UnitMap cells glwd) (k : ℕ) :
    k ∈ demandUnits cells glwd ↔ (∃ x ∈ cells, glwd x = ((k : ℤ) : WithTop ℤ)) ∧
      (∃ x ∈ cells, glwd x < ((k : ℤ) : WithTop ℤ)) ∧ ∃ x ∈ cells, ((k : ℤ) : WithTop ℤ) < glwd x := by
  rw [← mem_assignedUnits cells glwd ((k : ℤ) : WithTop ℤ)]
  simp only [demandUnits, List.mem_filterMap]
  constructor
  · rintro ⟨u, hu, h⟩
    obtain ⟨⟨x, hx, hxu⟩, -⟩ := (mem_assignedUnits cells glwd u).1 hu
    have h0 := hm x hx
    cases u with
    | top => exact absurd h (by intro h'; cases h')
    | coe n =>
      have hk : n.toNat = k := Option.some.inj h
      rw [hxu] at h0
      have hn : 0 ≤ n := by exact_mod_cast h0
      rw [← hk, Int.toNat_of_nonneg hn]
      exact hu
  · intro h
    exact ⟨_, h, congrArg some (Int.toNat_natCast k)⟩

omit [DecidableEq α] in
theorem demandUnits_nodup (cells : List α) (glwd : α → WithTop ℤ) (hm : UnitMap cells glwd) :
    (demandUnits cells glwd).Nodup := by
  unfold demandUnits
  rw [List.Nodup, List.pairwise_filterMap]
  refine (assignedUnits_nodup cells glwd).imp_of_mem fun {a b} ha hb hne k hk l hl e => hne ?_
  have nn : ∀ u ∈ assignedUnits cells glwd, (0 : WithTop ℤ) ≤ u := by
    intro u hu
    obtain ⟨⟨x, hx, rfl⟩, -⟩ := (mem_assignedUnits cells glwd u).1 hu
    exact hm x hx
  have h1 := nn a ha
  have h2 := nn b hb
  cases a with
  | top => cases hk
  | coe n =>
    cases b with
    | top => cases hl
    | coe m =>
      have e1 : n.toNat = k := Option.some.inj hk
      have e2 : m.toNat = l := Option.some.inj hl
      have a1 : 0 ≤ n := by exact_mod_cast h1
      have a2 : 0 ≤ m := by exact_mod_cast h2
      have : n = m := by omega
      rw [this]

omit [DecidableEq α] in
theorem unitOf_eq (cells : List α) (glwd : α → WithTop ℤ) (hm : UnitMap cells glwd) (x : α) (hx : x ∈ cells) (k : ℕ) (hk : 0 < k) :
    unitOf glwd x = k ↔ glwd x = ((k : ℤ) : WithTop ℤ) := by
  have h0 := hm x hx
  unfold unitOf
  cases hg : glwd x with
  | top =>
    constructor
    · intro h
      change 0 = k at h
      omega
    · intro h; cases h
  | coe n =>
    rw [hg] at h0
    have a1 : 0 ≤ n := by exact_mod_cast h0
    change n.toNat = k ↔ _
    constructor
    · intro h
      have : n = (k : ℤ) := by omega
      rw [this]
    · intro h
      have : n = (k : ℤ) := by exact_mod_cast h
      omega

open Classical in
/-- **C20 (every unit).**  If the map of units has a cell without unit (0) and a cell without value (NaN), the demand of the
shore cells of every unit is aggregated at the last cell of the unit with a lake or reservoir; cells without unit, and
cells of units without lake and reservoir area, keep their demand. -/
theorem C20_every_unit (cells : List α) (glwd : α → WithTop ℤ) (hm : UnitMap cells glwd)
    (h0 : ∃ x ∈ cells, glwd x = 0) (hnan : ∃ x ∈ cells, glwd x = ⊤) (lake res netabs : α → ℝ) (c : α) (hc : c ∈ cells) :
    ((glwd c = 0 ∨ glwd c = ⊤) → aggregateRiparian cells glwd lake res netabs c = netabs c) ∧
    ∀ k : ℕ, 0 < k → glwd c = ((k : ℤ) : WithTop ℤ) →
      ((∀ d ∈ cells, glwd d = glwd c → lake d ≤ 0 ∧ res d ≤ 0) → aggregateRiparian cells glwd lake res netabs c = netabs c) ∧
      ∀ o, (cells.filter fun d => decide (glwd d = glwd c ∧ (0 < lake d ∨ 0 < res d))).getLast? = some o →
        aggregateRiparian cells glwd lake res netabs c = min (netabs c) 0 +
          if c = o then ((cells.filter fun d => glwd d = glwd c).map fun d => max (netabs d) 0).sum else 0 := by
  have hu := C20_aggregate cells (unitOf glwd) lake res netabs (demandUnits cells glwd) (demandUnits_nodup cells glwd hm) c
  obtain ⟨z, hz, hz0⟩ := h0
  obtain ⟨w, hw, hw0⟩ := hnan
  constructor
  · intro h
    refine hu.1 fun hmem => ?_
    have hunit : unitOf glwd c = 0 := by
      rcases h with h | h
      · unfold unitOf; rw [h]; rfl
      · unfold unitOf; rw [h]
    rw [hunit, mem_demandUnits cells glwd hm] at hmem
    obtain ⟨-, ⟨x, hx, hlt⟩, -⟩ := hmem
    exact absurd (hm x hx) (not_le.2 (by simpa using hlt))
  · intro k hk hck
    have hunit : unitOf glwd c = k := (unitOf_eq cells glwd hm c hc k hk).2 hck
    have hmem : unitOf glwd c ∈ demandUnits cells glwd := by
      rw [hunit, mem_demandUnits cells glwd hm]
      refine ⟨⟨c, hc, hck⟩, ⟨z, hz, ?_⟩, ⟨w, hw, ?_⟩⟩
      · rw [hz0]; exact_mod_cast hk
      · rw [hw0]; exact WithTop.coe_lt_top _
    have same : ∀ d ∈ cells, (unitOf glwd d = unitOf glwd c ↔ glwd d = glwd c) := by
      intro d hd
      rw [hunit, hck]; exact unitOf_eq cells glwd hm d hd k hk
    constructor
    · intro hno
      exact hu.2.1 hmem fun d hd hdc => hno d hd ((same d hd).1 hdc)
    · intro o ho
      have := hu.2.2 o hmem (by
        rw [← ho]
        unfold lastOutflow
        congr 1
        apply List.filter_congr
        intro d hd
        apply decide_eq_decide.2
        rw [same d hd]
        constructor
        · rintro (⟨a, b⟩ | ⟨a, b⟩)
          exacts [⟨a, .inl b⟩, ⟨a, .inr b⟩]
        · rintro ⟨a, b | b⟩
          exacts [.inl ⟨a, b⟩, .inr ⟨a, b⟩])
      rw [aggregateRiparian, this]
      have hf : (cells.filter fun d => decide (unitOf glwd d = unitOf glwd c)) =
          cells.filter fun d => decide (glwd d = glwd c) :=
        List.filter_congr fun d hd => decide_eq_decide.2 (same d hd)
      rw [hf]

/-- **C20 violated (largest number).**  On a map without a missing value the unit with the largest number is left out: its
shore cells keep their demand although the unit has a lake or reservoir. -/
theorem C20_violated_largest_unit (cells : List α) (glwd : α → WithTop ℤ) (hm : UnitMap cells glwd) (c : α) (hc : c ∈ cells)
    (hmax : ∀ x ∈ cells, glwd x ≤ glwd c) (hnum : glwd c ≠ ⊤) (lake res netabs : α → ℝ) :
    aggregateRiparian cells glwd lake res netabs c = netabs c := by
  refine (C20_aggregate cells (unitOf glwd) lake res netabs (demandUnits cells glwd) (demandUnits_nodup cells glwd hm) c).1
    fun hmem => ?_
  rw [mem_demandUnits cells glwd hm] at hmem
  obtain ⟨-, -, x, hx, hlt⟩ := hmem
  have h0 := hm c hc
  obtain ⟨n, hn⟩ := WithTop.ne_top_iff_exists.1 hnum
  rw [← hn] at h0
  have a1 : 0 ≤ n := by exact_mod_cast h0
  have : unitOf glwd c = n.toNat := by unfold unitOf; rw [← hn]
  rw [this, Int.toNat_of_nonneg a1, hn] at hlt
  exact absurd (hmax x hx) (not_le.2 hlt)

/-- Cells 0 to 4: ocean, no unit, shore and outflow cell of unit 7, shore of unit 9 without a lake. -/
def exUnits : Fin 5 → WithTop ℤ := ![⊤, 0, 7, 7, 9]

/-- The demand 3 of the shore cell of unit 7 goes to its outflow cell, which has 4 with its own. -/
example : aggregateRiparian [0, 1, 2, 3, 4] exUnits ![0, 0, 0, 50, 0] 0 ![0, 2, 3, 1, 6] 3 = 4 ∧
    aggregateRiparian [0, 1, 2, 3, 4] exUnits ![0, 0, 0, 50, 0] 0 ![0, 2, 3, 1, 6] 2 = 0 := by
  have hm : UnitMap [0, 1, 2, 3, 4] exUnits := by
    intro x _
    fin_cases x <;> simp [exUnits]
  have h := fun c hc => C20_every_unit [0, 1, 2, 3, 4] exUnits hm ⟨1, by simp, rfl⟩ ⟨0, by simp, rfl⟩ ![0, 0, 0, 50, 0] 0
    ![0, 2, 3, 1, 6] c hc
  constructor
  · rw [((h 3 (by simp)).2 7 (by norm_num) rfl).2 3 ?_]
    · simp [exUnits]
      norm_num
    · simp [exUnits]
  · rw [((h 2 (by simp)).2 7 (by norm_num) rfl).2 3 ?_]
    · simp
    · simp [exUnits]

/-- Without the ocean cell the unit 7 is the largest and its shore cell keeps its demand. -/
example : aggregateRiparian [1, 2, 3] exUnits ![0, 0, 0, 50, 0] 0 ![0, 2, 3, 1, 6] 2 = 3 :=
  (C20_violated_largest_unit [1, 2, 3] exUnits (by intro x hx; fin_cases x <;> simp [exUnits]) 2 (by simp)
    (by intro x hx; fin_cases x <;> simp_all [exUnits]) (by simp [exUnits]) _ _ _).trans rfl

end WG
