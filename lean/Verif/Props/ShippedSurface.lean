import Verif.Model.ShippedSurface
import Verif.Props.ShippedNetwork
import Verif.Props.SurfaceCheck
import Verif.Props.Runoff

/-!
# C81: the shipped maps of drainage directions, lakes and reservoirs
-/

namespace WG

/-! ## From the checks to facts -/

theorem surfaceCheck_all (k : ℕ) (hk : k < shippedSize) : surfaceCheck k = true := by
  refine check_cover _ ?_ k hk
  simp only [pieces, List.forall_mem_cons]
  exact ⟨surface_0, surface_3371, surface_6742, surface_10113, surface_13484, surface_16855, surface_20226, surface_23597,
    surface_26968, surface_30339, surface_33710, surface_37081, surface_40452, surface_43823, surface_47194, surface_50565,
    surface_53936, surface_57307, surface_60678, surface_64049, by simp⟩

theorem certCheck_all (u : ℕ) (hu : u < 2473) : certCheck u = true :=
  checkFrom_spec _ 0 2473 units_checked u (by omega) (by omega)

theorem surfR_eq (k : ℕ) : surfR k = surfaceRow k := rfl

theorem several_iff (u : ℕ) : several u = true ↔ u = 734 ∨ u = 1858 ∨ u = 2288 ∨ u = 2467 := by
  simp only [several, Bool.cond_true_left, Bool.or_eq_true, Nat.beq_eq]

theorem not_iff' (b : Bool) : (!b) = true ↔ ¬ b = true := by cases b <;> simp

/-- The digit of the drainage direction. -/
noncomputable def dirDigit (k : ℕ) : ℕ := surfaceRow k / 10 ^ 11

theorem dirDigit_lt (k : ℕ) : dirDigit k < 10 := by
  unfold dirDigit surfaceRow
  have : surfaceData.get (k / 64) / 10 ^ (12 * (63 - k % 64)) % 10 ^ 12 < 10 ^ 12 := Nat.mod_lt _ (by norm_num)
  omega

theorem surface_facts (k : ℕ) (hk : k < shippedSize) :
    dirCheck (routingRow k) (dirDigit k) = true ∧
    unitCheck k (shippedUnit k) (!Nat.beq (shippedBodies k % 4) 0) = true ∧
    resCheck (shippedBodies k) (shippedResType k) (shippedStartYear k) = true := by
  have h : surfaceCheck1 k (routingRow k) (surfaceRow k) (shippedBodies k) = true := surfaceCheck_all k hk
  simp only [surfaceCheck1, Bool.cond_false_right, Bool.and_eq_true] at h
  exact h

/-! ## Specification -/

/-- The step in latitude index (to the south) and in longitude index (to the east) that a key of the number pad stands
for, 8 being north. -/
def keypad (d : ℤ) : ℤ × ℤ := (1 - (d - 1) / 3, (d - 1) % 3 - 1)

example : (List.range 9).map (fun i : ℕ => keypad (i + 1)) =
    [(1, -1), (1, 0), (1, 1), (0, -1), (0, 0), (0, 1), (-1, -1), (-1, 0), (-1, 1)] := by decide

/-- Cell `k` is an outflow cell: it has the area of a global lake or of a reservoir or regulated lake. -/
def IsOutflow (k : ℕ) : Prop := HasLake k ∨ HasRes k

theorem isOutflow_iff (k : ℕ) : IsOutflow k ↔ shippedBodies k % 4 ≠ 0 := by
  unfold IsOutflow HasLake HasRes
  omega

/-! ## C81 -/

/-- C81: the map of drainage directions and the routing order agree. Inland sinks (-1) and cells at the coast (5) have no
outflow cell; every other cell has one, which is its neighbour in the direction of the map (the grid closes in
longitude). -/
theorem C81_directions (k : ℕ) (hk : k < shippedSize) :
    (shippedDirection k = -1 ∨ (1 ≤ shippedDirection k ∧ shippedDirection k ≤ 9)) ∧
    (shippedDirection k = -1 ∨ shippedDirection k = 5 ↔ ¬ drains (shippedOut k)) ∧
    (drains (shippedOut k) →
      ((shippedOut k).1 : ℤ) = (shippedCell k).1 + (keypad (shippedDirection k)).1 ∧
      ((shippedOut k).2 : ℤ) = ((shippedCell k).2 + (keypad (shippedDirection k)).2) % 720) := by
  obtain ⟨h, -, -⟩ := surface_facts k hk
  have hd := dirDigit_lt k
  have hdir : shippedDirection k = if dirDigit k = 0 then -1 else (dirDigit k : ℤ) := rfl
  have hout : drains (shippedOut k) ↔ routingRow k % 10 ^ 11 ≠ 0 := by
    rcases out_cases k hk with ⟨c1, c2⟩ | ⟨-, -, -, -, -, c⟩
    · have : ¬ drains (shippedOut k) := by rw [c1]; simp [drains]
      refine ⟨fun h => absurd h this, fun h => ?_⟩
      exfalso
      rcases (row_facts k hk).2.2.2.2.2.2 with h' | ⟨-, -, -, -, h5, -⟩
      · exact h h'
      · have e : outCode k / 1000 = 0 := congrArg Prod.fst c1
        omega
    · refine ⟨fun _ h => ?_, fun _ => c⟩
      have e : routingRow k % 10 ^ 6 = 0 := by omega
      have : shippedOut k = (0, 0) := by unfold shippedOut cellOf; rw [e]
      rw [this] at c
      simp [drains] at c
  rw [hdir, hout]
  simp only [dirCheck, Bool.cond_true_left] at h
  by_cases h05 : dirDigit k = 0 ∨ dirDigit k = 5
  · have hb : (Nat.beq (dirDigit k) 0 || Nat.beq (dirDigit k) 5) = true := by
      rw [Bool.or_eq_true, Nat.beq_eq, Nat.beq_eq]; exact h05
    rw [hb, cond_true, Nat.beq_eq] at h
    change routingRow k % 10 ^ 11 = 0 at h
    refine ⟨?_, ⟨fun _ h' => h' h, fun _ => ?_⟩, fun h' => absurd h h'⟩
    · split_ifs <;> omega
    · split_ifs <;> omega
  · have hb : (Nat.beq (dirDigit k) 0 || Nat.beq (dirDigit k) 5) = false := by
      rw [Bool.eq_false_iff, Ne, Bool.or_eq_true, Nat.beq_eq, Nat.beq_eq]; exact h05
    rw [hb, cond_false, Bool.cond_false_left, Bool.and_eq_true, not_iff', Nat.beq_eq, Bool.cond_false_right, Bool.and_eq_true, Nat.beq_eq,
      Nat.beq_eq] at h
    obtain ⟨h1, h2, h3⟩ := h
    change ¬ routingRow k % 10 ^ 11 = 0 at h1
    change (shippedOut k).1 + (dirDigit k - 1) / 3 = (shippedCell k).1 + 1 at h2
    change (shippedOut k).2 = ((shippedCell k).2 + 719 + (dirDigit k - 1) % 3) % 720 at h3
    rw [if_neg (fun h0 => h05 (Or.inl h0))]
    refine ⟨by omega, ⟨fun h' => by omega, fun h' => absurd h1 h'⟩, fun _ => ?_⟩
    simp only [keypad]
    omega

theorem unitCheck_iff (k u : ℕ) (b : Bool) : unitCheck k u b = true ↔
    u < 2473 ∧ (if u = 0 ∨ u = 2265 then ¬ b = true else several u = true ∨ (outR u < 67420 ∧ (b = true → outR u = k))) := by
  unfold unitCheck
  rw [Bool.cond_false_right, Bool.and_eq_true, blt_iff]
  apply and_congr_right
  intro _
  by_cases h0 : u = 0
  · subst h0; simp
  by_cases h1 : u = 2265
  · subst h1
    have e1 : Nat.beq 2265 2265 = true := by rw [Nat.beq_eq]
    have e0 : Nat.beq 2265 0 = false := rfl
    rw [if_pos (Or.inr rfl), e0, e1, cond_false, cond_true, not_iff']
  have e0 : Nat.beq u 0 = false := by rw [Bool.eq_false_iff, Ne, Nat.beq_eq]; exact h0
  have e1 : Nat.beq u 2265 = false := by rw [Bool.eq_false_iff, Ne, Nat.beq_eq]; exact h1
  rw [if_neg (by tauto), e0, e1, cond_false, cond_false, Bool.cond_true_left, Bool.or_eq_true]
  apply or_congr_right
  change (bif Nat.blt (outR u) 67420 then bif b then Nat.beq (outR u) k else true else false) = true ↔ _
  rw [Bool.cond_false_right, Bool.and_eq_true, blt_iff]
  cases b <;> simp

theorem unit_facts (k : ℕ) (hk : k < shippedSize) : shippedUnit k < 2473 ∧
    (if shippedUnit k = 0 ∨ shippedUnit k = 2265 then ¬ IsOutflow k
     else several (shippedUnit k) = true ∨ (outR (shippedUnit k) < shippedSize ∧ (IsOutflow k → outR (shippedUnit k) = k))) := by
  have h := (unitCheck_iff _ _ _).1 (surface_facts k hk).2.1
  have e : (!Nat.beq (shippedBodies k % 4) 0) = true ↔ IsOutflow k := by
    rw [not_iff', Nat.beq_eq, isOutflow_iff]
  rw [e] at h
  exact h

theorem cert_facts (u : ℕ) (hu : u < 2473) (h : outR u < shippedSize) :
    shippedUnit (outR u) = u ∧ IsOutflow (outR u) := by
  have hc := certCheck_all u hu
  have h9 : Nat.beq (outR u) 99999 = false := by
    rw [Bool.eq_false_iff, Ne, Nat.beq_eq]; unfold shippedSize at h; omega
  unfold certCheck at hc
  simp only [h9, cond_false, Bool.cond_false_right, Bool.and_eq_true, blt_iff, Nat.beq_eq, not_iff'] at hc
  exact ⟨hc.2.1, (isOutflow_iff _).2 hc.2.2⟩

/-- C81: every lake and reservoir belongs to a unit, and on the map of units every unit except five has exactly one outflow
cell, as the aggregation of demands and the distribution of unsatisfied demands assume. -/
theorem C81_units (k : ℕ) (hk : k < shippedSize) :
    (IsOutflow k → 0 < shippedUnit k) ∧
    (0 < shippedUnit k → shippedUnit k ∉ [734, 1858, 2265, 2288, 2467] →
      ∃! j, j < shippedSize ∧ shippedUnit j = shippedUnit k ∧ IsOutflow j) := by
  obtain ⟨hu, h⟩ := unit_facts k hk
  constructor
  · intro ho
    by_contra h0
    rw [if_pos (Or.inl (by omega))] at h
    exact h ho
  · intro h0 hex
    simp only [List.mem_cons, List.not_mem_nil, or_false, not_or] at hex
    rw [if_neg (by omega), several_iff] at h
    rcases h with h | ⟨h1, -⟩
    · omega
    obtain ⟨c1, c2⟩ := cert_facts _ hu h1
    refine ⟨outR (shippedUnit k), ⟨h1, c1, c2⟩, ?_⟩
    rintro j ⟨hj, hju, hjo⟩
    obtain ⟨-, h'⟩ := unit_facts j hj
    rw [hju, if_neg (by omega), several_iff] at h'
    rcases h' with h' | ⟨-, h'⟩
    · omega
    · exact (h' hjo).symm

/-- Row `k` has the cell `c`, the unit `u` and the area of a lake or reservoir. -/
noncomputable def isOutR (u c k : ℕ) : Bool :=
  cond (Nat.blt k 67420) (cond (Nat.beq (Nat.mod (Nat.div (rowR k) 100000000000) 1000000) c)
    ((fun s => cond (Nat.beq (Nat.mod (Nat.div s 10000000) 10000) u)
      (not (Nat.beq (Nat.mod (Nat.mod (Nat.div s 100000) 100) 4) 0)) false) (surfR k)) false) false

theorem isOutR_spec (u c k : ℕ) (h : isOutR u c k = true) :
    k < shippedSize ∧ shippedCell k = cellOf c ∧ shippedUnit k = u ∧ IsOutflow k := by
  unfold isOutR at h
  simp only [Bool.cond_false_right, Bool.and_eq_true, blt_iff, Nat.beq_eq, not_iff'] at h
  exact ⟨h.1, congrArg cellOf h.2.1, h.2.2.1, (isOutflow_iff _).2 h.2.2.2⟩

theorem out_734 : isOutR 734 52385 6401 = true ∧ isOutR 734 53386 42989 = true := by decide +kernel
theorem out_1858 : isOutR 1858 109193 16775 = true ∧ isOutR 1858 109192 36562 = true := by decide +kernel
theorem out_2288 : isOutR 2288 80222 55509 = true ∧ isOutR 2288 79222 58710 = true := by decide +kernel
theorem out_2467 : isOutR 2467 86202 35124 = true ∧ isOutR 2467 85202 44287 = true ∧ isOutR 2467 86201 61505 = true := by
  decide +kernel

/-- C81, finding: four units of the shipped map have two or three outflow cells (here with two of their cells); see
`C21_violated_two_outflow_cells` for what becomes of their demand. -/
theorem C81_violated_several_outflow_cells :
    ∀ t ∈ [(734, (52, 385), (53, 386)), (1858, (109, 193), (109, 192)), (2288, (80, 222), (79, 222)),
           (2467, (86, 202), (85, 202)), (2467, (86, 202), (86, 201))],
      ∃ j < shippedSize, ∃ k < shippedSize, j ≠ k ∧ shippedCell j = t.2.1 ∧ shippedCell k = t.2.2 ∧
        shippedUnit j = t.1 ∧ shippedUnit k = t.1 ∧ IsOutflow j ∧ IsOutflow k := by
  have key : ∀ u c d j k, isOutR u c j = true → isOutR u d k = true → j ≠ k →
      ∃ j < shippedSize, ∃ k < shippedSize, j ≠ k ∧ shippedCell j = cellOf c ∧ shippedCell k = cellOf d ∧
        shippedUnit j = u ∧ shippedUnit k = u ∧ IsOutflow j ∧ IsOutflow k := by
    intro u c d j k hj hk hne
    obtain ⟨a1, a2, a3, a4⟩ := isOutR_spec _ _ _ hj
    obtain ⟨b1, b2, b3, b4⟩ := isOutR_spec _ _ _ hk
    exact ⟨j, a1, k, b1, hne, a2, b2, a3, b3, a4, b4⟩
  intro t ht
  simp only [List.mem_cons, List.not_mem_nil, or_false] at ht
  rcases ht with rfl | rfl | rfl | rfl | rfl
  · exact key 734 52385 53386 _ _ out_734.1 out_734.2 (by norm_num)
  · exact key 1858 109193 109192 _ _ out_1858.1 out_1858.2 (by norm_num)
  · exact key 2288 80222 79222 _ _ out_2288.1 out_2288.2 (by norm_num)
  · exact key 2467 86202 85202 _ _ out_2467.1 out_2467.2.1 (by norm_num)
  · exact key 2467 86202 86201 _ _ out_2467.1 out_2467.2.2 (by norm_num)

/-- C81, finding: the assumption of the theorems about the ledger of demands (every lake or reservoir unit has one outflow
cell, `UnitsOk`) does not hold for a simulation of the whole world with the shipped lakes and reservoirs. -/
theorem C81_violated_unit_assumption (base : Cell → CellIn) (unit : Cell → ℕ)
    (hu : ∀ k < shippedSize, unit (shippedCell k) = shippedUnit k)
    (hb : ∀ k < shippedSize, IsOutflow k → (base (shippedCell k)).hasLake) (cells : List Cell) :
    ¬ UnitsOk base unit cells := by
  intro h
  obtain ⟨j, hj, k, hk, hne, -, -, u1, u2, o1, o2⟩ := C81_violated_several_outflow_cells _ List.mem_cons_self
  refine hne (shippedCell_inj hj hk (h.unique _ _ (hb j hj o1) (hb k hk o2) ?_))
  rw [hu j hj, hu k hk, u1, u2]

/-- C81: the assumption does hold if no lake or reservoir of the four units is simulated (for instance before the start
years of their reservoirs, or without reservoirs where a unit has one lake). -/
theorem C81_unit_assumption (base : Cell → CellIn) (unit : Cell → ℕ)
    (hu : ∀ k < shippedSize, unit (shippedCell k) = shippedUnit k)
    (hb : ∀ x, (base x).hasLake → ∃ k < shippedSize, x = shippedCell k ∧ IsOutflow k ∧ shippedUnit k ∉ [734, 1858, 2288, 2467]) :
    UnitsOk base unit (shippedOrder.map Prod.fst) where
  here := by
    intro x hx
    obtain ⟨k, hk, e, -⟩ := hb x hx
    exact (mem_shippedCells x).2 ⟨k, hk, e⟩
  pos := by
    intro x hx
    obtain ⟨k, hk, rfl, ho, -⟩ := hb x hx
    rw [hu k hk]
    exact (C81_units k hk).1 ho
  unique := by
    intro x y hx hy hxy
    obtain ⟨k, hk, rfl, ho, hs⟩ := hb x hx
    obtain ⟨j, hj, rfl, ho', -⟩ := hb y hy
    rw [hu k hk, hu j hj] at hxy
    have h0 := (C81_units k hk).1 ho
    have h5 : shippedUnit k ≠ 2265 := by
      intro h5
      have := (unit_facts k hk).2
      rw [if_pos (Or.inr h5)] at this
      exact this ho
    obtain ⟨m, -, hm⟩ := (C81_units k hk).2 h0 (by
      simp only [List.mem_cons, List.not_mem_nil, or_false, not_or] at hs ⊢
      tauto)
    rw [hm k ⟨hk, rfl, ho⟩, hm j ⟨hj, hxy.symm, ho'⟩]

/-- C81: the data of reservoirs are complete: where a reservoir or regulated lake has its area it has a storage
capacity, one of the two types the release rule knows, and a start year; elsewhere there is none of these. -/
theorem C81_reservoirs (k : ℕ) (hk : k < shippedSize) :
    (HasRes k ↔ HasCap k) ∧ (HasRes k ↔ 0 < shippedStartYear k) ∧ (HasRes k ↔ shippedResType k = 1 ∨ shippedResType k = 2) ∧
    (IsRegulated k → HasRes k) ∧ (¬ HasRes k → shippedResType k = 0) := by
  obtain ⟨-, -, h⟩ := surface_facts k hk
  unfold resCheck at h
  unfold HasRes HasCap IsRegulated
  by_cases h2 : shippedBodies k / 2 % 2 = 0
  · have e : Nat.beq (Nat.mod (Nat.div (shippedBodies k) 2) 2) 0 = true := by rw [Nat.beq_eq]; exact h2
    rw [e, cond_true] at h
    simp only [Bool.cond_false_right, Bool.and_eq_true, Nat.beq_eq] at h
    obtain ⟨h4, ht, hy⟩ := h
    change shippedBodies k / 4 = 0 at h4
    omega
  · have e : Nat.beq (Nat.mod (Nat.div (shippedBodies k) 2) 2) 0 = false := by rw [Bool.eq_false_iff, Ne, Nat.beq_eq]; exact h2
    rw [e, cond_false] at h
    simp only [Bool.cond_false_right, Bool.cond_true_left, Bool.and_eq_true, Bool.or_eq_true, Nat.beq_eq, blt_iff] at h
    obtain ⟨h4, ht, hy⟩ := h
    change shippedBodies k / 4 % 2 = 1 at h4
    omega

/-! ## C80 for the shipped network -/

/-- The inland sinks of a simulation are those of the shipped map. -/
def ShippedSinks {δ : Type} (d : SimDay δ) : Prop :=
  ∀ l, ∀ k < shippedSize, ((d.lateral l (shippedCell k)).sink = true ↔ shippedDirection k < 0)

theorem shipped_sinksEnd {δ : Type} (par : Cell → FullPar) (s : Sim δ) (days : List (SimDay δ)) (hd : ∀ d ∈ days, ShippedSinks d) :
    SinksEndRun par shippedOrder s days := by
  induction days generalizing s with
  | nil => trivial
  | cons d ds ih =>
    refine ⟨?_, ih _ fun e he => hd e (List.mem_cons_of_mem _ he)⟩
    intro e he hsk
    obtain ⟨k, hk, rfl⟩ := (mem_shippedOrder e).1 he
    have hneg := (hd d List.mem_cons_self s.demand k hk).1 hsk
    obtain ⟨h1, h2, -⟩ := C81_directions k hk
    exact h2.1 (Or.inl (by rcases h1 with h1 | h1 <;> omega))

/-- C80 for the shipped river network and map of inland sinks: in every simulation, for every region that includes
everything upstream of it, net cell runoff adds up to the discharge that leaves the region, day by day. -/
theorem C80_shipped {δ : Type} (par : Cell → FullPar) (cf : Cell → ℝ) (B : Cell → Bool) (hB : UpstreamClosed shippedOrder B)
    (s : Sim δ) (days : List (SimDay δ)) (hd : ∀ d ∈ days, ShippedSinks d)
    (ha : ∀ x ∈ shippedOrder.map Prod.fst, (par x).area ≠ 0) (hc : ∀ x ∈ shippedOrder.map Prod.fst, cf x ≠ 0) :
    ∀ r ∈ runoffRun par shippedOrder cf s days, regionRunoff par shippedOrder cf B r = regionOutflow shippedOrder B r :=
  C80_runoff_is_discharge par shippedOrder cf shipped_sound B hB s days (shipped_sinksEnd par s days hd) ha hc

/-! ## Non-vacuity -/

/-- There is such a cell; its unit is the one with two outflow cells. -/
example : ∃ k < shippedSize, shippedUnit k = 734 ∧ IsOutflow k ∧ shippedCell k = (53, 386) := by
  obtain ⟨a1, a2, a3, a4⟩ := isOutR_spec 734 53386 42989 out_734.2
  exact ⟨42989, a1, a3, a4, a2⟩

theorem out_1 : isOutR 1 87191 64696 = true := by decide +kernel

/-- A world in which one of the shipped lakes, that of unit 1, is simulated. -/
example (unit : Cell → ℕ) (hu : ∀ k < shippedSize, unit (shippedCell k) = shippedUnit k) :
    UnitsOk (fun x => if x = (87, 191) then exLat else { exLat with glolakeArea := 0, resArea := 0 }) unit
      (shippedOrder.map Prod.fst) := by
  refine C81_unit_assumption _ unit hu fun x hx => ?_
  by_cases h : x = (87, 191)
  · obtain ⟨a1, a2, a3, a4⟩ := isOutR_spec 1 87191 64696 out_1
    exact ⟨64696, a1, by rw [h, a2]; rfl, a4, by rw [a3]; decide⟩
  · simp [h, CellIn.hasLake] at hx

/-- The sinks of the shipped map, as a Boolean. -/
noncomputable def shippedSinkAt (x : Cell) : Bool :=
  open Classical in decide (∃ k < shippedSize, x = shippedCell k ∧ shippedDirection k < 0)

theorem shippedSinkAt_iff (k : ℕ) (hk : k < shippedSize) : shippedSinkAt (shippedCell k) = true ↔ shippedDirection k < 0 := by
  unfold shippedSinkAt
  rw [decide_eq_true_eq]
  constructor
  · rintro ⟨j, hj, he, hn⟩
    rwa [shippedCell_inj hk hj he]
  · exact fun h => ⟨k, hk, rfl, h⟩

/-- A day on the shipped network. -/
noncomputable def sinkDay (sink : Cell → Bool) : SimDay Unit :=
  { weather := fun _ => exWeather, lateral := fun _ x => { exLat with sink := sink x }, start := id
    get := fun _ _ => (0, id), upd := fun u _ _ => u, close := id }

theorem sinkDay_sink (sink : Cell → Bool) (l : Unit) (x : Cell) : ((sinkDay sink).lateral l x).sink = sink x := rfl

/-- The whole world. -/
example (s : Sim Unit) := C80_shipped (fun _ => exFull) (fun _ => 80) (fun _ => true) (fun _ _ _ _ => rfl) s
  [sinkDay shippedSinkAt, sinkDay shippedSinkAt]
  (by
    intro d hd
    simp only [List.mem_cons, List.not_mem_nil, or_false, or_self] at hd
    subst hd
    intro l k hk
    rw [sinkDay_sink]
    exact shippedSinkAt_iff k hk)
  (fun x _ => by simp [exFull]) (fun x _ => by norm_num)

end WG
