import Verif.Model.ShippedNetwork
import Verif.Props.NetworkCheck1
import Verif.Props.NetworkCheck2
import Verif.Props.NetworkCheck3
import Verif.Props.NetworkCheck4
import Verif.Props.Network
import Verif.Props.Basin
import Mathlib.Tactic.IntervalCases

/-!
# C75: the shipped river network

The tables of the river network shipped with the model fit together, and every theorem about routing applies to them.
-/

namespace WG

/-! ## From the checks to facts -/

/-- Where the checked pieces of the tables start. -/
def pieces : List ℕ := [0, 3371, 6742, 10113, 13484, 16855, 20226, 23597, 26968, 30339, 33710, 37081, 40452, 43823, 47194, 50565, 53936, 57307, 60678, 64049]

theorem check_cover (f : ℕ → Bool) (h : ∀ b ∈ pieces, checkFrom f b 3371 = true) (k : ℕ) (hk : k < shippedSize) : f k = true := by
  unfold shippedSize at hk
  have hj : k / 3371 < 20 := by omega
  refine checkFrom_spec f (k / 3371 * 3371) 3371 (h _ ?_) k (by omega) (by omega)
  generalize k / 3371 = j at hj
  unfold pieces
  interval_cases j <;> simp

theorem rowCheck_all (k : ℕ) (hk : k < shippedSize) : rowCheck k = true := by
  refine check_cover _ ?_ k hk
  simp only [pieces, List.forall_mem_cons]
  exact ⟨rows_0, rows_3371, rows_6742, rows_10113, rows_13484, rows_16855, rows_20226, rows_23597, rows_26968, rows_30339, rows_33710, rows_37081, rows_40452, rows_43823, rows_47194, rows_50565, rows_53936, rows_57307, rows_60678, rows_64049, by simp⟩

theorem arcCheck_all (k : ℕ) (hk : k < shippedSize) : arcCheck k = true := by
  refine check_cover _ ?_ k hk
  simp only [pieces, List.forall_mem_cons]
  exact ⟨arcs_0, arcs_3371, arcs_6742, arcs_10113, arcs_13484, arcs_16855, arcs_20226, arcs_23597, arcs_26968, arcs_30339, arcs_33710, arcs_37081, arcs_40452, arcs_43823, arcs_47194, arcs_50565, arcs_53936, arcs_57307, arcs_60678, arcs_64049, by simp⟩

theorem memR_iff (u : ℕ) (l : List ℕ) : memR u l = true ↔ u ∈ l := by
  induction l with
  | nil => simp [memR]
  | cons x l ih =>
    have h : memR u (x :: l) = cond (Nat.beq x u) true (memR u l) := rfl
    rw [h, Bool.cond_true_left, Bool.or_eq_true, Nat.beq_eq, ih, List.mem_cons, eq_comm]

theorem rowR_eq (k : ℕ) : rowR k = routingRow k := rfl
theorem upR_eq (a : ℕ) : upR a = shippedUp a := rfl
theorem coordR_eq (a : ℕ) : coordR a = arcidRow a := rfl

/-- The position the certificate gives for a cell with the code `c`, and its height. -/
noncomputable def certPos (c : ℕ) : ℕ := certR c / 128
noncomputable def certHeight (c : ℕ) : ℕ := certR c % 128

/-- The code of the cell of row `k` and of its outflow cell. -/
noncomputable def codeAt (k : ℕ) : ℕ := routingRow k / 10 ^ 11 % 10 ^ 6
noncomputable def outCode (k : ℕ) : ℕ := routingRow k % 10 ^ 6

theorem blt_iff (a b : ℕ) : Nat.blt a b = true ↔ a < b := by
  simp [Nat.blt]

theorem adjR_iff (lat lon olat olon : ℕ) : adjR lat lon olat olon = true ↔
    lat ≤ olat + 1 ∧ olat ≤ lat + 1 ∧ (olon = lon ∨ olon = (lon + 1) % 720 ∨ lon = (olon + 1) % 720) := by
  simp only [adjR, Bool.cond_false_right, Bool.cond_true_left, Bool.and_eq_true, Bool.or_eq_true, Nat.beq_eq, Nat.ble_eq]
  rfl

theorem row_facts (k : ℕ) (hk : k < shippedSize) :
    certPos (codeAt k) = k ∧ codeAt k / 1000 < 360 ∧ codeAt k % 1000 < 720 ∧ 0 < shippedArc k ∧ shippedArc k ≤ shippedSize ∧
    arcidRow (shippedArc k) + 50 * (codeAt k / 1000) = 5000000 * (codeAt k % 1000) + 2517975 ∧
    (routingRow k % 10 ^ 11 = 0 ∨
      (k < certPos (outCode k) ∧ certPos (outCode k) < shippedSize ∧ certHeight (codeAt k) < certHeight (outCode k) ∧
       routingRow (certPos (outCode k)) / 10 ^ 11 = routingRow k % 10 ^ 11 ∧ 0 < outCode k / 1000 ∧ 0 < outCode k % 1000 ∧
       (codeAt k / 1000 ≤ outCode k / 1000 + 1 ∧ outCode k / 1000 ≤ codeAt k / 1000 + 1 ∧
        (outCode k % 1000 = codeAt k % 1000 ∨ outCode k % 1000 = (codeAt k % 1000 + 1) % 720 ∨
          codeAt k % 1000 = (outCode k % 1000 + 1) % 720)) ∧
       shippedArc k ∈ shippedUp (shippedOutArc k))) := by
  have h : rowCheck1 k (routingRow k) (codeAt k) (certR (codeAt k)) = true := rowCheck_all k hk
  simp only [rowCheck1, drainR, Bool.cond_false_right, Bool.cond_true_left, Bool.and_eq_true, Bool.or_eq_true, Nat.beq_eq, Nat.ble_eq,
    blt_iff, memR_iff, adjR_iff] at h
  exact h

theorem arc_facts (a : ℕ) (h1 : 1 ≤ a) (h2 : a ≤ shippedSize) :
    posR a < shippedSize ∧ shippedArc (posR a) = a ∧
    ∀ u ∈ shippedUp a, posR u < shippedSize ∧ shippedArc (posR u) = u ∧ shippedOutArc (posR u) = a := by
  obtain ⟨b, rfl⟩ : ∃ b, a = b + 1 := ⟨a - 1, by omega⟩
  have h := arcCheck_all b (by omega)
  have h' : cond (Nat.blt (posR (b + 1)) 67420) (cond (Nat.beq (shippedArc (posR (b + 1))) (b + 1))
    (List.rec (motive := fun _ => Bool) true (fun u _ t => cond (cond (Nat.blt (posR u) 67420)
        (cond (Nat.beq (shippedArc (posR u)) u) (Nat.beq (shippedOutArc (posR u)) (b + 1)) false) false) t false)
      (shippedUp (b + 1))) false) false = true := h
  simp only [Bool.cond_false_right, Bool.and_eq_true, Nat.beq_eq, blt_iff] at h'
  obtain ⟨e1, e2, e3⟩ := h'
  refine ⟨e1, e2, ?_⟩
  generalize shippedUp (b + 1) = l at e3
  induction l with
  | nil => simp
  | cons u l ih =>
    simp only [Bool.and_eq_true, Nat.beq_eq, blt_iff] at e3
    intro v hv
    rcases List.mem_cons.1 hv with rfl | hv
    · exact ⟨e3.1.1, e3.1.2.1, e3.1.2.2⟩
    · exact ih e3.2 v hv

theorem cellOf_inj {c d : ℕ} (h : cellOf c = cellOf d) : c = d := by
  unfold cellOf at h
  rw [Prod.mk.injEq] at h
  omega

theorem shippedCell_inj {k j : ℕ} (hk : k < shippedSize) (hj : j < shippedSize) (h : shippedCell k = shippedCell j) : k = j := by
  have hc : codeAt k = codeAt j := cellOf_inj h
  rw [← (row_facts k hk).1, ← (row_facts j hj).1, hc]

theorem shippedArc_inj {k j : ℕ} (hk : k < shippedSize) (hj : j < shippedSize) (h : shippedArc k = shippedArc j) : k = j := by
  obtain ⟨p1, a1, a2, -, -, a3, -⟩ := row_facts k hk
  obtain ⟨p2, b1, b2, -, -, b3, -⟩ := row_facts j hj
  rw [h] at a3
  have hc : codeAt k = codeAt j := by omega
  rw [← p1, ← p2, hc]

/-- The position of the cell that row `k` drains to. -/
noncomputable def nextPos (k : ℕ) : ℕ := certPos (outCode k)

theorem out_cases (k : ℕ) (hk : k < shippedSize) :
    (shippedOut k = (0, 0) ∧ shippedOutArc k = 0) ∨
    (k < nextPos k ∧ nextPos k < shippedSize ∧ shippedCell (nextPos k) = shippedOut k ∧
      shippedArc (nextPos k) = shippedOutArc k ∧ certHeight (codeAt k) < certHeight (codeAt (nextPos k)) ∧
      drains (shippedOut k)) := by
  obtain ⟨-, -, -, -, -, -, h | ⟨h1, h2, h3, h4, h5, h6, -, -⟩⟩ := row_facts k hk
  · left
    constructor
    · have : routingRow k % 10 ^ 6 = 0 := by omega
      unfold shippedOut cellOf
      rw [this]
    · unfold shippedOutArc; omega
  · right
    have hcode : codeAt (nextPos k) = outCode k := by
      unfold codeAt nextPos
      rw [h4]
      unfold outCode
      omega
    refine ⟨h1, h2, congrArg cellOf hcode, ?_, by rw [hcode]; exact h3, h5, h6⟩
    have h4' : routingRow (nextPos k) / 10 ^ 11 = routingRow k % 10 ^ 11 := h4
    unfold shippedArc shippedOutArc
    omega

theorem mem_shippedOrder (e : Cell × Cell) :
    e ∈ shippedOrder ↔ ∃ k < shippedSize, e = (shippedCell k, shippedOut k) := by
  unfold shippedOrder
  rw [List.mem_map]
  constructor
  · rintro ⟨k, hk, rfl⟩; exact ⟨k, List.mem_range.1 hk, rfl⟩
  · rintro ⟨k, hk, rfl⟩; exact ⟨k, List.mem_range.2 hk, rfl⟩

theorem mem_shippedCells (x : Cell) :
    x ∈ shippedOrder.map Prod.fst ↔ ∃ k < shippedSize, x = shippedCell k := by
  rw [List.mem_map]
  constructor
  · rintro ⟨e, he, rfl⟩
    obtain ⟨k, hk, rfl⟩ := (mem_shippedOrder e).1 he
    exact ⟨k, hk, rfl⟩
  · rintro ⟨k, hk, rfl⟩
    exact ⟨_, (mem_shippedOrder _).2 ⟨k, hk, rfl⟩, rfl⟩

theorem shipped_sound : Sound shippedOrder := by
  refine ⟨?_, ?_, ?_⟩
  · unfold shippedOrder
    rw [List.map_map]
    refine (List.nodup_range).map_on fun k hk j hj h => ?_
    exact shippedCell_inj (List.mem_range.1 hk) (List.mem_range.1 hj) h
  · unfold shippedOrder
    rw [List.pairwise_map]
    refine List.pairwise_lt_range.imp_of_mem fun {j k} hj hk hlt hd h => ?_
    have hj := List.mem_range.1 hj
    have hk := List.mem_range.1 hk
    rcases out_cases k hk with ⟨h0, -⟩ | ⟨h1, h2, h3, -⟩
    · simp [h0, drains] at hd
    · have := shippedCell_inj h2 hj (h3.trans h)
      omega
  · intro e he hd h
    obtain ⟨k, hk, rfl⟩ := (mem_shippedOrder e).1 he
    rcases out_cases k hk with ⟨h0, -⟩ | ⟨h1, h2, h3, -⟩
    · simp [h0, drains] at hd
    · have := shippedCell_inj h2 hk (h3.trans h)
      omega

theorem shipped_length : shippedOrder.length = 67420 := by simp [shippedOrder, shippedSize]

attribute [local irreducible] shippedOrder routingRow

/-! ## Specification -/

/-- Specification: `y` is one of the eight neighbours of `x` (or `x`) on a grid of 720 columns that closes around the globe. -/
def Adjacent (x y : Cell) : Prop :=
  (y.1 = x.1 ∨ y.1 = x.1 + 1 ∨ x.1 = y.1 + 1) ∧
  (y.2 = x.2 ∨ y.2 = (x.2 + 1) % 720 ∨ x.2 = (y.2 + 1) % 720)

/-- Specification: the water of the routed cell `x` flows through the cell `y` (or `x` is `y`) along the routing order. -/
def FlowsTo (order : List (Cell × Cell)) (x y : Cell) : Prop :=
  x ∈ order.map Prod.fst ∧ Relation.ReflTransGen (fun a b => (a, b) ∈ order ∧ drains b) x y

/-- Specification: longitude and latitude of the centre of a cell of the half-degree grid, in hundredths of a degree. -/
def centre (x : Cell) : ℤ × ℤ := (-17975 + 50 * (x.2 : ℤ), 8975 - 50 * (x.1 : ℤ))

/-! ## The property -/

/-- **C75 (routing order).**  In the shipped routing order 67420 cells of the half-degree grid are routed, each once and
before the cell it drains to.  A cell without outflow cell has the outflow indices 0, 0; every other cell drains to one of
its eight neighbours, which is routed and does not lie in the first row or column of the grid (which the code would take for
no outflow cell). -/
theorem C75_routing : Sound shippedOrder ∧ shippedOrder.length = 67420 ∧
    ∀ e ∈ shippedOrder, e.1.1 < 360 ∧ e.1.2 < 720 ∧
      (e.2 = (0, 0) ∨ (drains e.2 ∧ e.2 ∈ shippedOrder.map Prod.fst ∧ e.2 ≠ e.1 ∧ Adjacent e.1 e.2)) := by
  refine ⟨shipped_sound, shipped_length, fun e he => ?_⟩
  obtain ⟨k, hk, rfl⟩ := (mem_shippedOrder e).1 he
  have hf := row_facts k hk
  refine ⟨hf.2.1, hf.2.2.1, ?_⟩
  rcases out_cases k hk with ⟨h0, -⟩ | ⟨h1, h2, h3, h4, h5, h6⟩
  · exact .inl h0
  · refine .inr ⟨h6, (mem_shippedCells _).2 ⟨_, h2, h3.symm⟩, shipped_sound.noself _ he h6, ?_⟩
    rcases hf.2.2.2.2.2.2 with h | ⟨-, -, -, -, -, -, ⟨a1, a2, a3⟩, -⟩
    · exfalso
      have : routingRow k % 10 ^ 6 = 0 := by omega
      unfold shippedOut cellOf at h6
      rw [this] at h6
      exact absurd h6.1 (by norm_num)
    · refine ⟨?_, a3⟩
      change outCode k / 1000 = codeAt k / 1000 ∨ _
      change _ ∨ outCode k / 1000 = codeAt k / 1000 + 1 ∨ codeAt k / 1000 = outCode k / 1000 + 1
      omega

theorem no_loss_of_out {σ : Type} (node : σ → Cell → ℝ → σ × ℝ × ℝ) (l : σ) (order : List (Cell × Cell)) (hS : Sound order)
    (hout : ∀ e ∈ order, e.2 = (0, 0) ∨ (drains e.2 ∧ e.2 ∈ order.map Prod.fst)) :
    ((order.map Prod.fst).map (route node order l).flow).sum = ((order.map Prod.fst).map (route node order l).up).sum
      + ((order.filter fun e => e.2 = (0, 0)).map fun e => (route node order l).flow e.1).sum := by
  have h := C26_no_loss node order hS l
  have hf : (order.filter fun e => decide (¬ (drains e.2 ∧ e.2 ∈ order.map Prod.fst))) =
      order.filter fun e => decide (e.2 = (0, 0)) := by
    apply List.filter_congr
    intro e he
    rw [decide_eq_decide]
    rcases hout e he with h0 | ⟨h1, h2⟩
    · simp [h0, drains]
    · constructor
      · intro hn; exact absurd ⟨h1, h2⟩ hn
      · intro h0; rw [h0] at h1; exact absurd h1.1 (by norm_num)
  rw [← hf]
  exact h

/-- **C75 (no water is lost).**  Whatever the cells do with their water, the streamflow of all cells of the shipped network
either enters a routed cell as inflow or leaves a cell without outflow cell. -/
theorem C75_no_loss {σ : Type} (node : σ → Cell → ℝ → σ × ℝ × ℝ) (l : σ) :
    ((shippedOrder.map Prod.fst).map (route node shippedOrder l).flow).sum =
      ((shippedOrder.map Prod.fst).map (route node shippedOrder l).up).sum
      + ((shippedOrder.filter fun e => e.2 = (0, 0)).map fun e => (route node shippedOrder l).flow e.1).sum :=
  no_loss_of_out node l shippedOrder shipped_sound fun e he => (C75_routing.2.2 e he).2.2.imp_right fun h => ⟨h.1, h.2.1⟩

/-- **C75 (table of upstream cells).**  The ids 1 to 67420 are those of the routed cells, one each; the row of an id in the
shipped table of upstream cells lists exactly the ids of the cells that drain to its cell in the routing order; ids outside
1 to 67420 have no row. -/
theorem C75_upstream_table :
    (∀ k < shippedSize, ∀ j < shippedSize, shippedArc k = shippedArc j → k = j) ∧
    (∀ a : ℕ, (1 ≤ a ∧ a ≤ 67420) ↔ ∃ k < shippedSize, shippedArc k = a) ∧
    (∀ a : ℤ, (shippedTable a = none ↔ ¬ (1 ≤ a ∧ a ≤ 67420))) ∧
    ∀ k < shippedSize, ∃ row, shippedTable (shippedArc k) = some row ∧
      ∀ u : ℤ, u ∈ row ↔ ∃ j < shippedSize, u = shippedArc j ∧ drains (shippedOut j) ∧ shippedOut j = shippedCell k := by
  refine ⟨fun k hk j hj h => shippedArc_inj hk hj h, fun a => ⟨?_, ?_⟩, fun a => ?_, fun k hk => ?_⟩
  · rintro ⟨h1, h2⟩
    obtain ⟨b1, b2, -⟩ := arc_facts a h1 h2
    exact ⟨_, b1, b2⟩
  · rintro ⟨k, hk, rfl⟩
    have := row_facts k hk
    exact ⟨this.2.2.2.1, this.2.2.2.2.1⟩
  · unfold shippedTable
    have : ((shippedSize : ℕ) : ℤ) = 67420 := rfl
    rw [this]
    split_ifs with h <;> simp [h]
  · have hk' := row_facts k hk
    have a1 := hk'.2.2.2.1
    have a2 := hk'.2.2.2.2.1
    obtain ⟨c1, c2, c3⟩ := arc_facts (shippedArc k) a1 a2
    have hpk : posR (shippedArc k) = k := shippedArc_inj c1 hk c2
    refine ⟨(shippedUp (shippedArc k)).map fun u : ℕ => (u : ℤ), ?_, fun u => ?_⟩
    · unfold shippedTable
      rw [if_pos ⟨by exact_mod_cast a1, by exact_mod_cast a2⟩, Int.toNat_natCast]
    · rw [List.mem_map]
      constructor
      · rintro ⟨v, hv, rfl⟩
        obtain ⟨d1, d2, d3⟩ := c3 v hv
        refine ⟨posR v, d1, by rw [d2], ?_⟩
        rcases out_cases (posR v) d1 with ⟨-, h0⟩ | ⟨-, h2, h3, h4, -, h6⟩
        · rw [d3] at h0; omega
        · have : nextPos (posR v) = k := shippedArc_inj h2 hk (h4.trans d3)
          exact ⟨h6, by rw [← h3, this]⟩
      · rintro ⟨j, hj, rfl, hd, ho⟩
        refine ⟨shippedArc j, ?_, rfl⟩
        rcases out_cases j hj with ⟨h0, -⟩ | ⟨-, h2, h3, h4, -, -⟩
        · rw [h0] at hd; exact absurd hd.1 (by norm_num)
        · have hn : nextPos j = k := shippedCell_inj h2 hk (h3.trans ho)
          rw [hn] at h4
          rw [h4]
          rcases (row_facts j hj).2.2.2.2.2.2 with h | h
          · exfalso
            have : shippedOutArc j = 0 := by unfold shippedOutArc; omega
            omega
          · exact h.2.2.2.2.2.2.2

/-! ## Basins -/

theorem drainsInto_iff (a b : ℤ) : DrainsInto shippedTable a b ↔
    ∃ j < shippedSize, ∃ k < shippedSize, a = shippedArc j ∧ b = shippedArc k ∧ drains (shippedOut j) ∧ shippedOut j = shippedCell k := by
  obtain ⟨-, h2, h3, h4⟩ := C75_upstream_table
  constructor
  · rintro ⟨-, row, hrow, ha⟩
    have hb : 1 ≤ b ∧ b ≤ 67420 := by
      by_contra hb
      rw [(h3 b).2 hb] at hrow
      cases hrow
    obtain ⟨k, hk, hkb⟩ := (h2 b.toNat).1 ⟨by omega, by omega⟩
    have e : b = shippedArc k := by rw [hkb]; omega
    subst e
    obtain ⟨row', hr', hm⟩ := h4 k hk
    rw [hrow] at hr'
    cases hr'
    obtain ⟨j, hj, e1, e2, e3⟩ := (hm a).1 ha
    exact ⟨j, hj, k, hk, e1, rfl, e2, e3⟩
  · rintro ⟨j, hj, k, hk, rfl, rfl, h5, h6⟩
    obtain ⟨row, hr, hm⟩ := h4 k hk
    refine ⟨?_, row, hr, (hm _).2 ⟨j, hj, rfl, h5, h6⟩⟩
    have := ((h2 (shippedArc j)).2 ⟨j, hj, rfl⟩).1
    omega

theorem reaches_iff (j k : ℕ) (hj : j < shippedSize) (hk : k < shippedSize) :
    Reaches shippedTable (shippedArc j) (shippedArc k) ↔ FlowsTo shippedOrder (shippedCell j) (shippedCell k) := by
  constructor
  · intro h
    refine ⟨(mem_shippedCells _).2 ⟨j, hj, rfl⟩, ?_⟩
    have key : ∀ b : ℤ, Reaches shippedTable (shippedArc j) b → ∃ m < shippedSize, b = shippedArc m ∧
        Relation.ReflTransGen (fun a b => (a, b) ∈ shippedOrder ∧ drains b) (shippedCell j) (shippedCell m) := by
      intro b hb
      induction hb with
      | refl => exact ⟨j, hj, rfl, .refl⟩
      | tail _ hstep ih =>
        obtain ⟨m, hm, rfl, hr⟩ := ih
        obtain ⟨m', hm', n, hn, e1, rfl, e3, e4⟩ := (drainsInto_iff _ _).1 hstep
        have : m = m' := shippedArc_inj hm hm' (by exact_mod_cast e1)
        subst this
        exact ⟨n, hn, rfl, hr.tail ⟨(mem_shippedOrder _).2 ⟨m, hm, by rw [e4]⟩, e4 ▸ e3⟩⟩
    obtain ⟨m, hm, e, hr⟩ := key _ h
    have : k = m := shippedArc_inj hk hm (by exact_mod_cast e)
    rw [this]; exact hr
  · rintro ⟨-, h⟩
    have key : ∀ y, Relation.ReflTransGen (fun a b => (a, b) ∈ shippedOrder ∧ drains b) (shippedCell j) y →
        ∃ m < shippedSize, y = shippedCell m ∧ Reaches shippedTable (shippedArc j) (shippedArc m) := by
      intro y hy
      induction hy with
      | refl => exact ⟨j, hj, rfl, .refl⟩
      | tail _ hstep ih =>
        obtain ⟨m, hm, rfl, hr⟩ := ih
        obtain ⟨hmem, hd⟩ := hstep
        obtain ⟨m', hm', e⟩ := (mem_shippedOrder _).1 hmem
        rw [Prod.mk.injEq] at e
        obtain ⟨e1, rfl⟩ := e
        have : m = m' := shippedCell_inj hm hm' e1
        subst this
        rcases out_cases m hm with ⟨h0, -⟩ | ⟨-, g2, g3, -⟩
        · rw [h0] at hd; exact absurd hd.1 (by norm_num)
        · exact ⟨nextPos m, g2, g3.symm, hr.tail ((drainsInto_iff _ _).2 ⟨m, hm, nextPos m, g2, rfl, rfl, hd, g3.symm⟩)⟩
    obtain ⟨m, hm, e, hr⟩ := key _ h
    have : k = m := shippedCell_inj hk hm e
    rw [this]; exact hr

theorem arcidCoord_eq (k : ℕ) (hk : k < shippedSize) : arcidCoord (shippedArc k) = centre (shippedCell k) := by
  obtain ⟨-, a1, a2, -, -, a3, -⟩ := row_facts k hk
  have e1 : (shippedCell k).1 = codeAt k / 1000 := rfl
  have e2 : (shippedCell k).2 = codeAt k % 1000 := rfl
  unfold arcidCoord centre
  rw [e1, e2, Prod.mk.injEq]
  constructor <;> omega

theorem centre_inj {x y : Cell} (h : centre x = centre y) : x = y := by
  unfold centre at h
  rw [Prod.mk.injEq] at h
  ext <;> omega

theorem stationId_shipped (k : ℕ) (hk : k < shippedSize) : stationId shippedCoords (centre (shippedCell k)) = some (shippedArc k : ℤ) := by
  obtain ⟨-, h2, -, -⟩ := C75_upstream_table
  have hmem : ∀ r, r ∈ shippedCoords ↔ ∃ j < shippedSize, r = (centre (shippedCell j), ((shippedArc j : ℕ) : ℤ)) := by
    intro r
    unfold shippedCoords
    rw [List.mem_map]
    constructor
    · rintro ⟨i, hi, rfl⟩
      have hi := List.mem_range.1 hi
      obtain ⟨j, hj, e⟩ := (h2 (i + 1)).1 ⟨by omega, by unfold shippedSize at hi; omega⟩
      exact ⟨j, hj, by rw [← arcidCoord_eq j hj, e]⟩
    · rintro ⟨j, hj, rfl⟩
      have := (h2 (shippedArc j)).2 ⟨j, hj, rfl⟩
      refine ⟨shippedArc j - 1, List.mem_range.2 (by unfold shippedSize; omega), ?_⟩
      rw [show shippedArc j - 1 + 1 = shippedArc j by omega, arcidCoord_eq j hj]
  unfold stationId
  cases hf : shippedCoords.find? fun r => decide (r.1 = centre (shippedCell k)) with
  | none =>
    rw [List.find?_eq_none] at hf
    exact absurd (by simp) (hf _ ((hmem _).2 ⟨k, hk, rfl⟩))
  | some r =>
    have h1 := List.find?_some hf
    obtain ⟨j, hj, rfl⟩ := (hmem r).1 (List.mem_of_find?_eq_some hf)
    have : j = k := shippedCell_inj hj hk (centre_inj (by simpa using h1))
    rw [this]; rfl

theorem certHeight_lt (c : ℕ) : certHeight c < 128 := Nat.mod_lt _ (by norm_num)

/-- **C75 (basins).**  With the shipped tables, and a grid of ids that gives every routed cell its id and other cells none,
the selection of basins succeeds for every list of stations at centres of routed cells (Python's recursion limit of 1000 is
more than enough: 128 calls suffice), and selects exactly the cells whose water flows through a station. -/
theorem C75_basin (grid : Cell → Option ℤ) (hgrid : ∀ x a, grid x = some a ↔ ∃ k < shippedSize, x = shippedCell k ∧ a = shippedArc k)
    (stations : List (ℤ × ℤ)) (hst : ∀ st ∈ stations, ∃ y ∈ shippedOrder.map Prod.fst, st = centre y) (limit : ℕ) (hlim : 128 ≤ limit) :
    ∃ mask, basinMask true grid shippedCoords shippedTable stations limit = .ok mask ∧
      ∀ x, (mask x = some 0 ∨ mask x = none) ∧
        (mask x = some 0 ↔ ∃ y, centre y ∈ stations ∧ FlowsTo shippedOrder x y) := by
  have hst' : ∀ st ∈ stations, ∃ k < shippedSize, st = centre (shippedCell k) ∧ stationId shippedCoords st = some (shippedArc k : ℤ) := by
    intro st h
    obtain ⟨y, hy, rfl⟩ := hst st h
    obtain ⟨k, hk, rfl⟩ := (mem_shippedCells y).1 hy
    exact ⟨k, hk, rfl, stationId_shipped k hk⟩
  obtain ⟨ids, hids, hid⟩ : ∃ ids, stationIds shippedCoords stations = .ok ids ∧ ∀ i ∈ ids, ∃ k < shippedSize, i = (shippedArc k : ℤ) := by
    clear hst
    induction stations with
    | nil => exact ⟨[], rfl, by simp⟩
    | cons st rest ih =>
      obtain ⟨l, hl, hl'⟩ := ih fun s hs => hst' s (by simp [hs])
      obtain ⟨k, hk, -, e⟩ := hst' st (by simp)
      refine ⟨(shippedArc k : ℤ) :: l, by rw [stationIds, e, hl], fun i hi => ?_⟩
      rcases List.mem_cons.1 hi with rfl | hi
      · exact ⟨k, hk, rfl⟩
      · exact hl' i hi
  obtain ⟨-, h2, h3, -⟩ := C75_upstream_table
  have hrow : ∀ k < shippedSize, posR (shippedArc k) = k := by
    intro k hk
    obtain ⟨f1, f2⟩ := (h2 (shippedArc k)).2 ⟨k, hk, rfl⟩
    obtain ⟨c1, c2, -⟩ := arc_facts (shippedArc k) f1 f2
    exact shippedArc_inj c1 hk c2
  obtain ⟨all, hall⟩ := C40_terminates shippedTable (fun a => certHeight (codeAt (posR a.toNat))) (by
      intro a b hab
      obtain ⟨j, hj, k, hk, rfl, rfl, e3, e4⟩ := (drainsInto_iff a b).1 hab
      simp only [Int.toNat_natCast]
      rw [hrow j hj, hrow k hk]
      rcases out_cases j hj with ⟨h0, -⟩ | ⟨-, g2, g3, -, g5, -⟩
      · rw [h0] at e3; exact absurd e3.1 (by norm_num)
      · rw [shippedCell_inj g2 hk (g3.trans e4)] at g5; exact g5)
    ids (by
      rintro x ⟨s, hs, hx⟩
      have hxk : ∃ k < shippedSize, x = (shippedArc k : ℤ) := by
        rcases Relation.ReflTransGen.cases_head hx with rfl | ⟨c, hc, -⟩
        · exact hid x hs
        · obtain ⟨j, hj, -, -, e, -⟩ := (drainsInto_iff x c).1 hc
          exact ⟨j, hj, e⟩
      obtain ⟨k, hk, rfl⟩ := hxk
      obtain ⟨f1, f2⟩ := (h2 (shippedArc k)).2 ⟨k, hk, rfl⟩
      cases ht : shippedTable (shippedArc k) with
      | none => exact absurd ((h3 _).1 ht) (not_not.2 ⟨by exact_mod_cast f1, by exact_mod_cast f2⟩)
      | some r => rfl) limit (by omega) (fun s _ => lt_of_lt_of_le (certHeight_lt _) hlim)
  obtain ⟨mask, hmask⟩ : ∃ mask, basinMask true grid shippedCoords shippedTable stations limit = .ok mask := by
    rw [basinMask, if_pos rfl, hids]
    simp only [hall]
    exact ⟨_, rfl⟩
  refine ⟨_, hmask, fun x => ?_⟩
  obtain ⟨m1, m2⟩ := C40_mask grid shippedCoords shippedTable stations limit _ hmask x
  refine ⟨m1, m2.trans ?_⟩
  constructor
  · rintro ⟨a, ha, st, hs, s, hsid, hr⟩
    obtain ⟨j, hj, rfl, rfl⟩ := (hgrid x a).1 ha
    obtain ⟨k, hk, rfl, e⟩ := hst' st hs
    rw [hsid, Option.some.injEq] at e
    subst e
    exact ⟨_, hs, (reaches_iff j k hj hk).1 hr⟩
  · rintro ⟨y, hy, hf⟩
    obtain ⟨j, hj, rfl⟩ := (mem_shippedCells x).1 hf.1
    obtain ⟨k, hk, e, e'⟩ := hst' _ hy
    have : y = shippedCell k := centre_inj e
    subst this
    exact ⟨_, (hgrid _ _).2 ⟨j, hj, rfl, rfl⟩, _, hy, _, e', (reaches_iff j k hj hk).2 hf⟩

theorem Sound.filter {order : List (Cell × Cell)} (h : Sound order) (p : Cell × Cell → Bool) : Sound (order.filter p) :=
  ⟨h.nodup.sublist (List.filter_sublist.map _), h.before.sublist List.filter_sublist,
    fun e he => h.noself e (List.mem_filter.1 he).1⟩

/-- **C75 (basin runs).**  With the shipped tables a run for the basins of any stations gives every cell of these basins the
inflow and the streamflow of the global run (for cells that exchange water only along the rivers). -/
theorem C75_basin_run (grid : Cell → Option ℤ) (hgrid : ∀ x a, grid x = some a ↔ ∃ k < shippedSize, x = shippedCell k ∧ a = shippedArc k)
    (stations : List (ℤ × ℤ)) (hst : ∀ st ∈ stations, ∃ y ∈ shippedOrder.map Prod.fst, st = centre y) (limit : ℕ) (hlim : 128 ≤ limit)
    (f : Cell → ℝ → ℝ × ℝ) :
    ∃ mask, basinMask true grid shippedCoords shippedTable stations limit = .ok mask ∧
      ∀ x, mask x = some 0 →
        (route (plainNode f) (shippedOrder.filter fun e => mask e.1 = some 0) ()).up x = (route (plainNode f) shippedOrder ()).up x ∧
        (route (plainNode f) (shippedOrder.filter fun e => mask e.1 = some 0) ()).flow x = (route (plainNode f) shippedOrder ()).flow x := by
  obtain ⟨mask, hmask, hm⟩ := C75_basin grid hgrid stations hst limit hlim
  refine ⟨mask, hmask, fun x hx => ?_⟩
  have hcell : ∀ y, y ∈ (shippedOrder.filter fun e => decide (mask e.1 = some 0)).map Prod.fst ↔ mask y = some 0 := by
    intro y
    rw [List.mem_map]
    constructor
    · rintro ⟨e, he, rfl⟩
      simpa using (List.mem_filter.1 he).2
    · intro hy
      obtain ⟨z, -, hf⟩ := (hm y).2.1 hy
      obtain ⟨e, he, rfl⟩ := List.mem_map.1 hf.1
      exact ⟨e, List.mem_filter.2 ⟨he, by simpa using hy⟩, rfl⟩
  refine C26_basin_equals_global f _ shippedOrder (shipped_sound.filter _) shipped_sound (fun e he => (List.mem_filter.1 he).1) ?_ x
    ((hcell x).2 hx)
  intro e he hd hin
  obtain ⟨z, hz, hf⟩ := (hm e.2).2.1 ((hcell _).1 hin)
  refine List.mem_filter.2 ⟨he, ?_⟩
  have : mask e.1 = some 0 := (hm e.1).2.2 ⟨z, hz, List.mem_map.2 ⟨e, he, rfl⟩, .head ⟨he, hd⟩ hf.2⟩
  simpa using this

/-! ## The shipped stations -/

/-- The cell of row `p` has the code `c` and its centre is the point `x`. -/
noncomputable def stationCheck1 (x c p : ℕ) : Bool :=
  cond (Nat.blt p 67420) (cond (Nat.beq (Nat.mod (Nat.div (rowR p) 100000000000) 1000000) c)
    (Nat.beq (Nat.add x (Nat.mul 50 (Nat.div c 1000))) (Nat.add (Nat.mul 5000000 (Nat.mod c 1000)) 2517975)) false) false

noncomputable def stationCheck (i : ℕ) : Bool :=
  (fun x => (fun c => stationCheck1 x c (Nat.div (certR c) 128))
    (Nat.add (Nat.mul 1000 (Nat.div (Nat.sub 17975 (Nat.mod x 100000)) 50)) (Nat.div (Nat.div x 100000) 50))) (stationRow i)

theorem stations_checked : checkFrom stationCheck 0 1509 = true := by decide +kernel

theorem station_check1 (x c p : ℕ) (hc : stationCheck1 x c p = true) :
    p < 67420 ∧ codeAt p = c ∧ x + 50 * (c / 1000) = 5000000 * (c % 1000) + 2517975 := by
  have e : Nat.mod (Nat.div (rowR p) 100000000000) 1000000 = codeAt p := by
    rw [rowR_eq]
    unfold codeAt
    generalize routingRow p = r
    norm_num
    rfl
  simp only [stationCheck1, Bool.cond_false_right, Bool.and_eq_true, Nat.beq_eq, blt_iff, e] at hc
  exact hc

theorem station_routed (st : ℤ × ℤ) (h : st ∈ shippedStations) : ∃ y ∈ shippedOrder.map Prod.fst, st = centre y := by
  unfold shippedStations at h
  obtain ⟨i, hi, rfl⟩ := List.mem_map.1 h
  have hi := List.mem_range.1 hi
  have hc := checkFrom_spec _ _ _ stations_checked i (by omega) (by omega)
  obtain ⟨h1, h2, h3⟩ := station_check1 (stationRow i) _ _ hc
  generalize (certR _).div 128 = p at h1 h2
  rw [← h2] at h3
  refine ⟨_, (mem_shippedCells _).2 ⟨p, h1, rfl⟩, ?_⟩
  obtain ⟨-, a1, a2, -⟩ := row_facts p h1
  have e1 : (shippedCell p).1 = codeAt p / 1000 := rfl
  have e2 : (shippedCell p).2 = codeAt p % 1000 := rfl
  unfold centre
  rw [e1, e2, Prod.mk.injEq]
  constructor <;> omega

/-- **C75 (stations).**  All 1509 shipped stations are centres of routed cells, so that the selection of their basins succeeds. -/
theorem C75_stations (grid : Cell → Option ℤ) (hgrid : ∀ x a, grid x = some a ↔ ∃ k < shippedSize, x = shippedCell k ∧ a = shippedArc k)
    (stations : List (ℤ × ℤ)) (hst : ∀ st ∈ stations, st ∈ shippedStations) :
    ∃ mask, basinMask true grid shippedCoords shippedTable stations 1000 = .ok mask :=
  (C75_basin grid hgrid stations (fun st h => station_routed st (hst st h)) 1000 (by norm_num)).imp fun _ h => h.1

/-! ## Non-vacuity -/

/-- Row 20001 of the file: `44306,132,570,44022,131,571`. -/
example : shippedArc 20000 = 44306 ∧ shippedCell 20000 = (132, 570) ∧ shippedOutArc 20000 = 44022 ∧ shippedOut 20000 = (131, 571) := by
  refine ⟨?_, ?_, ?_, ?_⟩ <;> decide +kernel

/-- The rows of ids 44022 and 1 in the table of upstream cells, and the coordinates of id 1. -/
example : 44306 ∈ shippedUp 44022 ∧ shippedUp 1 = [] ∧ arcidCoord 1 = (-3775, 8375) ∧ arcidCoord 1 = centre (12, 284) := by
  refine ⟨?_, ?_, ?_, ?_⟩ <;> decide +kernel

open Classical in
/-- The grid of ids: there is one as `C75_basin` asks for. -/
noncomputable def idGrid (x : Cell) : Option ℤ :=
  if h : ∃ k < shippedSize, x = shippedCell k then some (shippedArc h.choose) else none

theorem idGrid_spec (x : Cell) (a : ℤ) : idGrid x = some a ↔ ∃ k < shippedSize, x = shippedCell k ∧ a = shippedArc k := by
  unfold idGrid
  split_ifs with h
  · obtain ⟨h1, h2⟩ := h.choose_spec
    constructor
    · intro e
      exact ⟨_, h1, h2, (Option.some.inj e).symm⟩
    · rintro ⟨k, hk, e1, rfl⟩
      rw [shippedCell_inj hk h1 (e1.symm.trans h2)]
  · constructor
    · intro e; cases e
    · rintro ⟨k, hk, e, -⟩; exact absurd ⟨k, hk, e⟩ h

/-- The station at row 20001 of the routing order selects its own cell. -/
example : ∃ mask, basinMask true idGrid shippedCoords shippedTable [centre (132, 570)] 1000 = .ok mask ∧ mask (132, 570) = some 0 := by
  have h : (132, 570) ∈ shippedOrder.map Prod.fst := (mem_shippedCells _).2 ⟨20000, by norm_num [shippedSize], by decide +kernel⟩
  obtain ⟨mask, hm, hx⟩ := C75_basin idGrid idGrid_spec [centre (132, 570)] (by simpa using ⟨132, 570, by simpa using h, rfl⟩) 1000 (by norm_num)
  exact ⟨mask, hm, (hx _).2.2 ⟨_, by simp, h, .refl⟩⟩

end WG
