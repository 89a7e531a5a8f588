import Verif.Model.ShippedAlloc
import Verif.Props.AllocCheck
import Verif.Props.ShippedSurface
import Verif.Props.Reservoir
import Mathlib.Algebra.BigOperators.Field

/-!
# C92: the demand of a cell is divided among the reservoirs upstream of it

The release of an irrigation reservoir follows the demand of its own cell and of up to five cells downstream, each times the allocation
coefficient of the reservoir for this cell.  With the shipped coefficients and the shipped river network, the reservoirs upstream of a
cell share its demand: their coefficients for this cell add up to one (to a millionth).  For the mean annual demand this holds in every
year; for the monthly demand it holds once all reservoirs are in operation, and fails in earlier years.
-/

namespace WG

open Finset

/-! ## From the checks to facts -/

theorem allocCheck_all (k : ℕ) (hk : k < shippedSize) : allocCheck k = true := by
  refine check_cover _ ?_ k hk
  simp only [pieces, List.forall_mem_cons]
  exact ⟨alloc_0, alloc_3371, alloc_6742, alloc_10113, alloc_13484, alloc_16855, alloc_20226, alloc_23597, alloc_26968, alloc_30339, alloc_33710,
    alloc_37081, alloc_40452, alloc_43823, alloc_47194, alloc_50565, alloc_53936, alloc_57307, alloc_60678, alloc_64049, by simp⟩

theorem damR_iff (k : ℕ) : damR k = true ↔ HasRes k := by
  unfold damR HasRes
  rw [Nat.beq_eq]
  rfl

theorem alR_eq (k : ℕ) : alR k = allocTable.get (allocId k) := rfl

theorem coefR_eq (k j : ℕ) : coefR (alR k) j = allocMicro k j := rfl

theorem stopR_iff (k : ℕ) : stopR k = true ↔ HasRes k ∧ k ∉ idleRows := by
  unfold stopR
  rw [Bool.cond_false_right, Bool.and_eq_true, damR_iff, not_iff', memR_iff]

/-- One step downstream; 67420 is the end. -/
noncomputable def stepN (p : ℕ) : ℕ := if p = 67420 then 67420 else stepR p

theorem stepN_end (j : ℕ) : stepN^[j] 67420 = 67420 := by
  induction j with
  | zero => rfl
  | succ j ih =>
    rw [Function.iterate_succ_apply]
    have : stepN 67420 = 67420 := by unfold stepN; rw [if_pos rfl]
    rw [this, ih]

theorem stepN_of_ne {p : ℕ} (h : p ≠ 67420) : stepN p = stepR p := by unfold stepN; rw [if_neg h]

theorem allDown_iff (f : ℕ → Bool) (n : ℕ) : ∀ p, p ≠ 67420 →
    allDown f n p = true → ∀ j < n, stepN^[j + 1] p ≠ 67420 → f (stepN^[j + 1] p) = true := by
  induction n with
  | zero => intro p _ _ j hj; omega
  | succ n ih =>
    intro p hp h j hj hne
    have h' : cond (Nat.beq (stepR p) 67420) true (cond (f (stepR p)) (allDown f n (stepR p)) false) = true := h
    rw [Function.iterate_succ_apply, stepN_of_ne hp] at hne ⊢
    by_cases hq : stepR p = 67420
    · rw [hq, stepN_end] at hne; exact absurd rfl hne
    · have e : Nat.beq (stepR p) 67420 = false := by
        rw [← Bool.not_eq_true, Nat.beq_eq]; exact hq
      rw [e, cond_false, Bool.cond_false_right, Bool.and_eq_true] at h'
      cases j with
      | zero => exact h'.1
      | succ j => exact ih _ hq h'.2 j (by omega) hne

theorem shareR_eq (c a n : ℕ) (hc : c ≠ 67420) : ∀ p, p ≠ 67420 →
    shareR c a n p = ∑ j ∈ range n, if stepN^[j + 1] p = c then coefR a (4 - (n - 1 - j)) else 0 := by
  induction n with
  | zero => intro p _; rfl
  | succ n ih =>
    intro p hp
    have h : shareR c a (n + 1) p = cond (Nat.beq (stepR p) 67420) 0
        (cond (Nat.beq (stepR p) c) (coefR a (4 - n)) 0 + shareR c a n (stepR p)) := rfl
    rw [h, sum_range_succ']
    simp only [Function.iterate_succ_apply _ _ p, stepN_of_ne hp]
    by_cases hq : stepR p = 67420
    · have e : Nat.beq (stepR p) 67420 = true := by rw [Nat.beq_eq]; exact hq
      rw [e, cond_true, hq]
      symm
      rw [Nat.add_eq_zero_iff]
      constructor
      · apply sum_eq_zero
        intro j _
        rw [stepN_end, if_neg (Ne.symm hc)]
      · rw [Function.iterate_zero, id, if_neg (Ne.symm hc)]
    · have e : Nat.beq (stepR p) 67420 = false := by
        rw [← Bool.not_eq_true, Nat.beq_eq]; exact hq
      rw [e, cond_false, ih _ hq, add_comm]
      congr 1
      · apply sum_congr rfl
        intro j hj
        rw [mem_range] at hj
        have : n + 1 - 1 - (j + 1) = n - 1 - j := by omega
        rw [this]
      · simp only [Function.iterate_zero, id, Nat.add_sub_cancel, Nat.sub_zero]
        by_cases hqc : stepR p = c
        · rw [if_pos hqc, hqc]; simp
        · have e : Nat.beq (stepR p) c = false := by
            rw [← Bool.not_eq_true, Nat.beq_eq]; exact hqc
          rw [if_neg hqc, e, cond_false]

/-- The coefficient of the reservoir of row `k` for row `c`, in millionths. -/
noncomputable def share (k c : ℕ) : ℕ := ∑ j ∈ range 5, if stepN^[j + 1] k = c then allocMicro k j else 0

theorem shareR_share (k c : ℕ) (hk : k < shippedSize) (hc : c < shippedSize) : shareR c (alR k) 5 k = share k c := by
  unfold shippedSize at hk hc
  rw [shareR_eq c (alR k) 5 (by omega) k (by omega)]
  unfold share
  apply sum_congr rfl
  intro j hj
  rw [mem_range] at hj
  have : 4 - (5 - 1 - j) = j := by omega
  rw [this, coefR_eq]

theorem sortedR_spec (l : List ℕ) : ∀ b, sortedR l b = true →
    l.Nodup ∧ ∀ k ∈ l, b ≤ k ∧ k < 67420 ∧ HasRes k := by
  induction l with
  | nil => intro b _; simp
  | cons a l ih =>
    intro b h
    have h' : cond (Nat.ble b a) (cond (Nat.blt a 67420) (cond (damR a) (sortedR l (a + 1)) false) false) false = true := h
    simp only [Bool.cond_false_right, Bool.and_eq_true, damR_iff, blt_iff, Nat.ble_eq] at h'
    obtain ⟨h1, h2, h3, h4⟩ := h'
    obtain ⟨hn, hm⟩ := ih _ h4
    refine ⟨List.nodup_cons.2 ⟨fun hmem => ?_, hn⟩, ?_⟩
    · have := (hm a hmem).1; omega
    · intro k hk
      rcases List.mem_cons.1 hk with rfl | hk
      · exact ⟨h1, h2, h3⟩
      · obtain ⟨q1, q2, q3⟩ := hm k hk
        exact ⟨by omega, q2, q3⟩

theorem sumR_eq (c : ℕ) (hc : c < shippedSize) (l : List ℕ) (hl : ∀ k ∈ l, k < 67420) :
    sumR c l = (l.map fun k => share k c).sum := by
  induction l with
  | nil => rfl
  | cons a l ih =>
    have h : sumR c (a :: l) = shareR c (alR a) 5 a + sumR c l := rfl
    rw [h, ih (fun k hk => hl k (List.mem_cons_of_mem _ hk)), List.map_cons, List.sum_cons,
      shareR_share a c (hl a List.mem_cons_self) hc]

theorem coefficient_facts (k : ℕ) (hk : k < shippedSize) :
    (HasRes k → ∀ j < 5, stepN^[j + 1] k ≠ 67420 → ¬ HasRes (stepN^[j + 1] k) ∧ k ∈ serveR (stepN^[j + 1] k)) ∧
    shippedStartYear k ≤ 2020 ∧
    (serveR k).Nodup ∧ (∀ i ∈ serveR k, i < shippedSize ∧ HasRes i) ∧
    (serveR k ≠ [] → 999999 ≤ ((serveR k).map fun i => share i k).sum) ∧ ((serveR k).map fun i => share i k).sum ≤ 1000001 := by
  have h := allocCheck_all k hk
  unfold allocCheck at h
  rw [Bool.cond_false_right, Bool.and_eq_true, Bool.cond_false_right, Bool.and_eq_true] at h
  obtain ⟨h1, h2, h3⟩ := h
  refine ⟨?_, ?_, ?_⟩
  · intro hr j hj hne
    rw [(damR_iff k).2 hr, cond_true] at h1
    have := allDown_iff _ 5 k (by unfold shippedSize at hk; omega) h1 j hj hne
    generalize stepN^[j + 1] k = q at this ⊢
    by_cases hq : damR q = true
    · rw [hq] at this; exact absurd this (by simp)
    · rw [Bool.not_eq_true] at hq
      rw [hq, cond_false, memR_iff] at this
      exact ⟨fun h => by rw [← damR_iff, hq] at h; exact absurd h (by simp), this⟩
  · rw [Nat.ble_eq] at h2; exact h2
  · generalize hl : serveR k = l at h3
    cases l with
    | nil => simp
    | cons a t =>
      have h3' : cond (sortedR (a :: t) 0) (cond (Nat.ble 999999 (sumR k (a :: t))) (Nat.ble (sumR k (a :: t)) 1000001) false) false = true := h3
      simp only [Bool.cond_false_right, Bool.and_eq_true, Nat.ble_eq] at h3'
      obtain ⟨hs, hlo, hhi⟩ := h3'
      obtain ⟨hn, hm⟩ := sortedR_spec _ _ hs
      rw [sumR_eq k hk _ (fun i hi => (hm i hi).2.1)] at hlo hhi
      exact ⟨hn, fun i hi => ⟨(hm i hi).2.1, (hm i hi).2.2⟩, fun _ => hlo, hhi⟩

theorem idle_end : ∀ k ∈ idleRows, stepR k = 67420 := by
  have h : checkFrom (fun i => Nat.beq (stepR (idleRows.getD i 18472)) 67420) 0 5 = true := by decide +kernel
  intro k hk
  obtain ⟨i, hi, rfl⟩ := List.getElem_of_mem hk
  have := checkFrom_spec _ 0 5 h i (by omega) (by simpa [idleRows] using hi)
  rw [Nat.beq_eq] at this
  have e : idleRows.getD i 18472 = idleRows[i] := by rw [List.getD_eq_getElem?_getD, List.getElem?_eq_getElem hi]; rfl
  rwa [e] at this

theorem step_cases (p : ℕ) (hp : p < shippedSize) :
    (shippedOut p = (0, 0) ∧ stepN p = 67420) ∨
    (∃ q < shippedSize, shippedOut p = shippedCell q ∧ drains (shippedOut p) ∧
      stepN p = if stopR q = true then 67420 else q) := by
  have hp' : p ≠ 67420 := by unfold shippedSize at hp; omega
  have hs : stepN p = cond (Nat.beq (outCode p) 0) 67420 (cond (stopR (nextPos p)) 67420 (nextPos p)) := stepN_of_ne hp'
  rcases out_cases p hp with ⟨h, -⟩ | ⟨-, h2, h3, -, -, h6⟩
  · left
    refine ⟨h, ?_⟩
    have h0 : outCode p = 0 := by
      unfold shippedOut cellOf at h
      simp only [Prod.mk.injEq] at h
      unfold outCode
      omega
    rw [hs, h0]
    rfl
  · right
    refine ⟨nextPos p, h2, h3.symm, h6, ?_⟩
    have h0 : Nat.beq (outCode p) 0 = false := by
      rw [← Bool.not_eq_true, Nat.beq_eq]
      intro h
      have : shippedOut p = (0, 0) := by
        have e : shippedOut p = cellOf (outCode p) := rfl
        rw [e, h]; rfl
      rw [this] at h6
      exact absurd h6.1 (by simp)
    rw [hs, h0, cond_false]
    cases stopR (nextPos p) <;> simp

/-! ## Specification -/

/-- The reservoir of row `k` is used in year `y`: regulated lakes in every year, other reservoirs from their start year on,
`waterbalance_lateral.py:405-422`. -/
def UsedIn (y k : ℕ) : Prop := HasRes k ∧ (IsRegulated k ∨ shippedStartYear k ≤ y)

/-- The arrays of the demand of reservoirs are those of year `y` with the shipped network, reservoirs and coefficients.  `idle` are the
reservoirs whose mean annual inflow is zero: from their start year on they are global lakes, `waterbalance_lateral.py:436-447`. -/
structure ShippedDemand (g : DemandGrid) (y : ℕ) (idle : Set ℕ) : Prop where
  down : ∀ k < shippedSize, g.down (shippedCell k) = shippedOut k
  alloc : ∀ k < shippedSize, ∀ j < 5, g.alloc (shippedCell k) j = shippedAlloc k j
  res : ∀ k < shippedSize, (0 < g.resArea (shippedCell k) ↔ UsedIn y k ∧ ¬ (k ∈ idle ∧ shippedStartYear k ≤ y))
  all : ∀ k < shippedSize, (0 < g.allResArea (shippedCell k) ↔ HasRes k ∧ ¬ (k ∈ idle ∧ shippedStartYear k ≤ y))
  idle : ∀ k ∈ idle, k ∈ idleRows

/-! ## The walk downstream, in rows of the routing order -/

theorem walk_rows {g : DemandGrid} (hd : ∀ k < shippedSize, g.down (shippedCell k) = shippedOut k) (a : Cell → ℝ)
    (ha : ∀ q < shippedSize, HasRes q → q ∉ idleRows → 0 < a (shippedCell q)) {k : ℕ} (hk : k < shippedSize) (j : ℕ)
    (h : ∀ i < j, a (g.down^[i + 1] (shippedCell k)) ≤ 0 ∧ drains (g.down^[i + 1] (shippedCell k))) :
    stepN^[j] k < shippedSize ∧ g.down^[j] (shippedCell k) = shippedCell (stepN^[j] k) := by
  induction j with
  | zero => exact ⟨hk, rfl⟩
  | succ j ih =>
    obtain ⟨h1, h2⟩ := ih (fun i hi => h i (by omega))
    obtain ⟨h3, h4⟩ := h j (by omega)
    have e : g.down^[j + 1] (shippedCell k) = shippedOut (stepN^[j] k) := by
      rw [Function.iterate_succ_apply', h2, hd _ h1]
    rw [e] at h3 h4 ⊢
    rw [Function.iterate_succ_apply' stepN]
    rcases step_cases _ h1 with ⟨h5, -⟩ | ⟨q, hq, h5, -, h7⟩
    · rw [h5] at h4; exact absurd h4.1 (by simp)
    · have hns : ¬ stopR q = true := by
        intro hs
        rw [stopR_iff] at hs
        have := ha q hq hs.1 hs.2
        rw [← h5] at this
        linarith
      rw [if_neg hns] at h7
      rw [h7]
      exact ⟨hq, h5⟩

theorem rows_walk {g : DemandGrid} (hd : ∀ k < shippedSize, g.down (shippedCell k) = shippedOut k) {k : ℕ} (hk : k < shippedSize) (j : ℕ)
    (h : stepN^[j + 1] k ≠ 67420) :
    stepN^[j] k < shippedSize ∧ stepN^[j + 1] k < shippedSize ∧ g.down^[j + 1] (shippedCell k) = shippedCell (stepN^[j + 1] k) ∧
      drains (g.down^[j + 1] (shippedCell k)) := by
  induction j with
  | zero =>
    simp only [zero_add, Function.iterate_one] at h ⊢
    rw [hd k hk]
    rcases step_cases k hk with ⟨-, h5⟩ | ⟨q, hq, h5, h6, h7⟩
    · exact absurd h5 h
    · by_cases hs : stopR q = true
      · rw [if_pos hs] at h7; exact absurd h7 h
      · rw [if_neg hs] at h7
        rw [h7]
        exact ⟨hk, hq, h5, h6⟩
  | succ j ih =>
    have hj : stepN^[j + 1] k ≠ 67420 := by
      intro hj
      rw [Function.iterate_succ_apply', hj] at h
      exact h (stepN_end 1)
    obtain ⟨-, h1, h2, -⟩ := ih hj
    have e : g.down^[j + 1 + 1] (shippedCell k) = shippedOut (stepN^[j + 1] k) := by
      rw [Function.iterate_succ_apply', h2, hd _ h1]
    rw [e]
    rw [Function.iterate_succ_apply' stepN (j + 1)] at h ⊢
    rcases step_cases _ h1 with ⟨-, h5⟩ | ⟨q, hq, h5, h6, h7⟩
    · exact absurd h5 h
    · by_cases hs : stopR q = true
      · rw [if_pos hs] at h7; exact absurd h7 h
      · rw [if_neg hs] at h7
        rw [h7]
        exact ⟨h1, hq, h5, h6⟩

theorem stepN_lt {k : ℕ} (hk : k < shippedSize) (j : ℕ) (h : stepN^[j + 1] k ≠ 67420) : stepN^[j + 1] k < shippedSize := by
  induction j with
  | zero =>
    simp only [zero_add, Function.iterate_one] at h ⊢
    rcases step_cases k hk with ⟨-, h5⟩ | ⟨q, hq, -, -, h7⟩
    · exact absurd h5 h
    · by_cases hs : stopR q = true
      · rw [if_pos hs] at h7; exact absurd h7 h
      · rw [if_neg hs] at h7; rw [h7]; exact hq
  | succ j ih =>
    have hj : stepN^[j + 1] k ≠ 67420 := by
      intro hj
      rw [Function.iterate_succ_apply', hj] at h
      exact h (stepN_end 1)
    have h1 := ih hj
    rw [Function.iterate_succ_apply'] at h ⊢
    rcases step_cases _ h1 with ⟨-, h5⟩ | ⟨q, hq, -, -, h7⟩
    · exact absurd h5 h
    · by_cases hs : stopR q = true
      · rw [if_pos hs] at h7; exact absurd h7 h
      · rw [if_neg hs] at h7; rw [h7]; exact hq

/-- What the reservoir of row `k` counts of the demand `w` of the cells downstream. -/
noncomputable def counted (w : Cell → ℝ) (k : ℕ) : ℝ :=
  ∑ j ∈ range 5, if stepN^[j + 1] k = 67420 then 0 else w (shippedCell (stepN^[j + 1] k)) * shippedAlloc k j

theorem counted_eq (w : Cell → ℝ) {k : ℕ} (hk : k < shippedSize) :
    counted w k = ∑ c ∈ range shippedSize, w (shippedCell c) * ((share k c : ℝ) / 1000000) := by
  unfold counted share
  have h : ∀ c, w (shippedCell c) * (((∑ j ∈ range 5, if stepN^[j + 1] k = c then allocMicro k j else 0 : ℕ) : ℝ) / 1000000)
      = ∑ j ∈ range 5, if stepN^[j + 1] k = c then w (shippedCell c) * shippedAlloc k j else 0 := by
    intro c
    push_cast
    rw [Finset.sum_div, mul_sum]
    apply sum_congr rfl
    intro j _
    unfold shippedAlloc
    split_ifs <;> simp
  simp only [h]
  rw [sum_comm]
  apply sum_congr rfl
  intro j _
  rw [sum_ite_eq]
  by_cases he : stepN^[j + 1] k = 67420
  · rw [if_pos he, if_neg]
    rw [mem_range, he]; unfold shippedSize; omega
  · rw [if_neg he, if_pos (mem_range.2 (stepN_lt hk j he))]

theorem shippedAlloc_nonneg (k j : ℕ) : 0 ≤ shippedAlloc k j := by unfold shippedAlloc; positivity

theorem counted_nonneg (w : Cell → ℝ) (hw : ∀ x, 0 ≤ w x) (k j : ℕ) :
    0 ≤ if stepN^[j + 1] k = 67420 then 0 else w (shippedCell (stepN^[j + 1] k)) * shippedAlloc k j := by
  split_ifs
  · exact le_rfl
  · exact mul_nonneg (hw _) (shippedAlloc_nonneg k j)

/-- Terms of the demand of a reservoir, in rows of the routing order. -/
theorem terms_eq {g : DemandGrid} {y : ℕ} {idle : Set ℕ} (hg : ShippedDemand g y idle) (a : Cell → ℝ)
    (ha : ∀ q < shippedSize, HasRes q → q ∉ idleRows → 0 < a (shippedCell q)) (w : Cell → ℝ) {k : ℕ} (hk : k < shippedSize) (m : ℕ) (hm : m ≤ 5)
    (h : ∀ i < m, a (g.down^[i + 1] (shippedCell k)) ≤ 0 ∧ drains (g.down^[i + 1] (shippedCell k))) :
    ∑ j ∈ range m, w (g.down^[j + 1] (shippedCell k)) * g.alloc (shippedCell k) j =
      ∑ j ∈ range m, if stepN^[j + 1] k = 67420 then 0 else w (shippedCell (stepN^[j + 1] k)) * shippedAlloc k j := by
  apply sum_congr rfl
  intro j hj
  rw [mem_range] at hj
  obtain ⟨h1, h2⟩ := walk_rows hg.down a ha hk (j + 1) (fun i hi => h i (by omega))
  rw [if_neg (by unfold shippedSize at h1; omega), h2, hg.alloc k hk j (by omega)]

theorem ShippedDemand.all_pos {g : DemandGrid} {y : ℕ} {idle : Set ℕ} (hg : ShippedDemand g y idle) (q : ℕ) (hq : q < shippedSize)
    (hr : HasRes q) (hi : q ∉ idleRows) : 0 < g.allResArea (shippedCell q) :=
  (hg.all q hq).2 ⟨hr, fun h => hi (hg.idle q h.1)⟩

theorem ShippedDemand.res_pos {g : DemandGrid} {y : ℕ} {idle : Set ℕ} (hg : ShippedDemand g y idle) (hy : 2020 ≤ y) (q : ℕ)
    (hq : q < shippedSize) (hr : HasRes q) (hi : q ∉ idleRows) : 0 < g.resArea (shippedCell q) :=
  (hg.res q hq).2 ⟨⟨hr, Or.inr (by have := (coefficient_facts q hq).2.1; omega)⟩, fun h => hi (hg.idle q h.1)⟩

theorem annual_le {g : DemandGrid} {y : ℕ} {idle : Set ℕ} (hg : ShippedDemand g y idle) (hw : ∀ x, 0 ≤ g.annual x) {k : ℕ}
    (hk : k < shippedSize) : (downstreamDemand g (shippedCell k)).2 ≤ g.annual (shippedCell k) + counted g.annual k := by
  obtain ⟨n, m, h1, h2, h3, -, h5, -, -, h8⟩ := C18_downstream_demand g (shippedCell k)
  rw [h8, terms_eq hg g.allResArea hg.all_pos g.annual hk m (by omega) (fun i hi => ⟨h5 i hi, (h3 i (by omega)).2⟩)]
  refine add_le_add le_rfl ?_
  exact sum_le_sum_of_subset_of_nonneg (range_mono (by omega)) (fun j _ _ => counted_nonneg _ hw k j)

theorem monthly_le {g : DemandGrid} {y : ℕ} {idle : Set ℕ} (hg : ShippedDemand g y idle) (hy : 2020 ≤ y) (hw : ∀ x, 0 ≤ g.monthly x)
    {k : ℕ} (hk : k < shippedSize) : (downstreamDemand g (shippedCell k)).1 ≤ g.monthly (shippedCell k) + counted g.monthly k := by
  obtain ⟨n, m, h1, h2, h3, -, h5, -, h7, -⟩ := C18_downstream_demand g (shippedCell k)
  rw [h7, terms_eq hg g.resArea (hg.res_pos hy) g.monthly hk n h1 (fun i hi => ⟨(h3 i hi).1, (h3 i hi).2⟩)]
  refine add_le_add le_rfl ?_
  exact sum_le_sum_of_subset_of_nonneg (range_mono h1) (fun j _ _ => counted_nonneg _ hw k j)

theorem stepN_ne_of_le {k i j : ℕ} (hij : i ≤ j) (h : stepN^[j] k ≠ 67420) : stepN^[i] k ≠ 67420 := by
  intro hi
  obtain ⟨d, rfl⟩ := Nat.exists_eq_add_of_le hij
  rw [Nat.add_comm, Function.iterate_add_apply, hi] at h
  exact h (stepN_end d)

theorem monthly_eq {g : DemandGrid} {y : ℕ} {idle : Set ℕ} (hg : ShippedDemand g y idle) (hy : 2020 ≤ y) {k : ℕ}
    (hk : k < shippedSize) (hr : HasRes k) :
    (downstreamDemand g (shippedCell k)).1 = g.monthly (shippedCell k) + counted g.monthly k := by
  obtain ⟨n, m, h1, h2, h3, h4, h5, -, h7, -⟩ := C18_downstream_demand g (shippedCell k)
  rw [h7, terms_eq hg g.resArea (hg.res_pos hy) g.monthly hk n h1 (fun i hi => ⟨(h3 i hi).1, (h3 i hi).2⟩)]
  congr 1
  refine sum_subset (range_mono h1) ?_
  intro j hj hn
  rw [mem_range] at hj hn
  by_contra hne
  have hj' : stepN^[j + 1] k ≠ 67420 := by
    intro h; rw [if_pos h] at hne; exact hne rfl
  have hn' : stepN^[n + 1] k ≠ 67420 := stepN_ne_of_le (by omega) hj'
  obtain ⟨-, q1, q2, q3⟩ := rows_walk hg.down hk n hn'
  refine h4 (by omega) ⟨?_, q3⟩
  rw [q2, ← not_lt, hg.res _ q1]
  rintro ⟨⟨hres, -⟩, -⟩
  exact ((coefficient_facts k hk).1 hr n (by omega) hn').1 hres

/-! ## What all reservoirs count of one cell -/

theorem share_served {k c : ℕ} (hk : k < shippedSize) (hc : c < shippedSize) (hr : HasRes k) (h : share k c ≠ 0) :
    ¬ HasRes c ∧ k ∈ serveR c := by
  unfold share at h
  obtain ⟨j, hj, hne⟩ := exists_ne_zero_of_sum_ne_zero h
  rw [mem_range] at hj
  by_cases he : stepN^[j + 1] k = c
  · have := (coefficient_facts k hk).1 hr j hj (by rw [he]; unfold shippedSize at hc; omega)
    rwa [he] at this
  · rw [if_neg he] at hne; exact absurd rfl hne

theorem share_total (S : Finset ℕ) (hS : ∀ k ∈ S, k < shippedSize ∧ HasRes k) {c : ℕ} (hc : c < shippedSize) :
    (if c ∈ S then 1000000 else 0) + ∑ k ∈ S, share k c ≤ 1000001 := by
  by_cases hr : HasRes c
  · have : ∑ k ∈ S, share k c = 0 := by
      apply sum_eq_zero
      intro k hk
      by_contra hne
      exact (share_served (hS k hk).1 hc (hS k hk).2 hne).1 hr
    rw [this]
    split_ifs <;> omega
  · rw [if_neg (fun h => hr (hS c h).2), zero_add]
    obtain ⟨-, -, hn, -, -, hhi⟩ := coefficient_facts c hc
    refine le_trans ?_ hhi
    rw [← List.sum_toFinset _ hn]
    apply sum_le_sum_of_ne_zero
    intro k hk hne
    rw [List.mem_toFinset]
    exact (share_served (hS k hk).1 hc (hS k hk).2 hne).2

theorem counted_total (S : Finset ℕ) (hS : ∀ k ∈ S, k < shippedSize ∧ HasRes k) (w : Cell → ℝ) :
    ∑ k ∈ S, (w (shippedCell k) + counted w k) =
      ∑ c ∈ range shippedSize, w (shippedCell c) * ((((if c ∈ S then 1000000 else 0) + ∑ k ∈ S, share k c : ℕ) : ℝ) / 1000000) := by
  have h1 : ∑ k ∈ S, w (shippedCell k) = ∑ c ∈ range shippedSize, if c ∈ S then w (shippedCell c) else 0 := by
    rw [← sum_filter]
    apply sum_congr _ (fun _ _ => rfl)
    ext c
    rw [mem_filter, mem_range]
    exact ⟨fun h => ⟨(hS c h).1, h⟩, fun h => h.2⟩
  have h2 : ∑ k ∈ S, counted w k = ∑ c ∈ range shippedSize, ∑ k ∈ S, w (shippedCell c) * ((share k c : ℝ) / 1000000) := by
    rw [sum_comm]
    exact sum_congr rfl fun k hk => counted_eq w (hS k hk).1
  rw [sum_add_distrib, h1, h2, ← sum_add_distrib]
  apply sum_congr rfl
  intro c _
  rw [← mul_sum, ← Finset.sum_div]
  push_cast
  by_cases hc : c ∈ S
  · rw [if_pos hc, if_pos hc]; ring
  · rw [if_neg hc, if_neg hc]; ring

theorem counted_le (S : Finset ℕ) (hS : ∀ k ∈ S, k < shippedSize ∧ HasRes k) (w : Cell → ℝ) (hw : ∀ x, 0 ≤ w x) :
    ∑ k ∈ S, (w (shippedCell k) + counted w k) ≤ 1.000001 * ∑ c ∈ range shippedSize, w (shippedCell c) := by
  rw [counted_total S hS, mul_sum]
  apply sum_le_sum
  intro c hc
  rw [mul_comm]
  refine mul_le_mul_of_nonneg_right ?_ (hw _)
  have : (((if c ∈ S then 1000000 else 0) + ∑ k ∈ S, share k c : ℕ) : ℝ) ≤ 1000001 := by
    exact_mod_cast share_total S hS (mem_range.1 hc)
  rw [div_le_iff₀ (by norm_num)]
  norm_num at this ⊢
  exact this

/-! ## Results -/

/-- C92: in every year, the mean annual demands that the releases of any reservoirs follow are together not more than the mean annual
demand of all cells (to one millionth): no demand is counted twice. -/
theorem C92_annual (g : DemandGrid) (y : ℕ) (idle : Set ℕ) (hg : ShippedDemand g y idle) (hw : ∀ x, 0 ≤ g.annual x) (S : Finset ℕ)
    (hS : ∀ k ∈ S, k < shippedSize ∧ HasRes k) :
    ∑ k ∈ S, (downstreamDemand g (shippedCell k)).2 ≤ 1.000001 * ∑ c ∈ range shippedSize, g.annual (shippedCell c) :=
  le_trans (sum_le_sum fun k hk => annual_le hg hw (hS k hk).1) (counted_le S hS g.annual hw)

/-- C92: from 2020 on, when all reservoirs are in operation, the monthly demands that the releases of any reservoirs follow are together
not more than the monthly demand of all cells (to one millionth). -/
theorem C92_monthly (g : DemandGrid) (y : ℕ) (hy : 2020 ≤ y) (idle : Set ℕ) (hg : ShippedDemand g y idle) (hw : ∀ x, 0 ≤ g.monthly x)
    (S : Finset ℕ) (hS : ∀ k ∈ S, k < shippedSize ∧ HasRes k) :
    ∑ k ∈ S, (downstreamDemand g (shippedCell k)).1 ≤ 1.000001 * ∑ c ∈ range shippedSize, g.monthly (shippedCell c) :=
  le_trans (sum_le_sum fun k hk => monthly_le hg hy hw (hS k hk).1) (counted_le S hS g.monthly hw)

/-- The cell of row `c` is supplied by a reservoir of `S`: it has one itself, or one of them is at most five cells upstream with no other
reservoir in between. -/
def Supplied (g : DemandGrid) (S : Finset ℕ) (c : ℕ) : Prop :=
  c ∈ S ∨ ∃ k ∈ S, ∃ j < 5, g.down^[j + 1] (shippedCell k) = shippedCell c ∧ ∀ i ≤ j, g.open_ (shippedCell k) i

theorem share_idle {k : ℕ} (hk : k < shippedSize) (h : k ∈ idleRows) {c : ℕ} (hc : c < shippedSize) : share k c = 0 := by
  unfold share
  apply sum_eq_zero
  intro j _
  have : stepN^[j + 1] k = 67420 := by
    rw [Function.iterate_succ_apply, stepN_of_ne (by unfold shippedSize at hk; omega), idle_end k h, stepN_end]
  rw [this, if_neg]
  unfold shippedSize at hc
  omega

theorem supplied_share {g : DemandGrid} {y : ℕ} {idle : Set ℕ} (hg : ShippedDemand g y idle) (hy : 2020 ≤ y) (S : Finset ℕ)
    (hS : ∀ k ∈ S, k < shippedSize ∧ HasRes k) (hall : ∀ k < shippedSize, HasRes k → k ∉ idleRows → k ∈ S) {c : ℕ} (hc : c < shippedSize) :
    (Supplied g S c → 999999 ≤ (if c ∈ S then 1000000 else 0) + ∑ k ∈ S, share k c) ∧
    (¬ Supplied g S c → (if c ∈ S then 1000000 else 0) + ∑ k ∈ S, share k c = 0) := by
  constructor
  · rintro (h | ⟨k, hkS, j, hj, hd, ho⟩)
    · rw [if_pos h]; omega
    · obtain ⟨hk, hr⟩ := hS k hkS
      obtain ⟨h1, h2⟩ := walk_rows hg.down g.resArea (hg.res_pos hy) hk (j + 1) (fun i hi => ⟨(ho i (by omega)).1, (ho i (by omega)).2⟩)
      have he : stepN^[j + 1] k = c := shippedCell_inj h1 hc (by rw [← h2, hd])
      have hm := ((coefficient_facts k hk).1 hr j hj (by unfold shippedSize at h1; omega)).2
      rw [he] at hm
      obtain ⟨-, -, hn, hres, hlo, -⟩ := coefficient_facts c hc
      have h3 := hlo (List.ne_nil_of_mem hm)
      rw [← List.sum_toFinset _ hn] at h3
      refine le_trans h3 (le_trans ?_ (Nat.le_add_left _ _))
      apply sum_le_sum_of_ne_zero
      intro i hi hne
      rw [List.mem_toFinset] at hi
      obtain ⟨q1, q2⟩ := hres i hi
      exact hall i q1 q2 (fun hidle => hne (share_idle q1 hidle hc))
  · intro hns
    rw [if_neg (fun h => hns (Or.inl h)), zero_add]
    apply sum_eq_zero
    intro k hkS
    by_contra hne
    obtain ⟨hk, hr⟩ := hS k hkS
    unfold share at hne
    obtain ⟨j, hj, hne⟩ := exists_ne_zero_of_sum_ne_zero hne
    rw [mem_range] at hj
    by_cases he : stepN^[j + 1] k = c
    · have hne' : stepN^[j + 1] k ≠ 67420 := by rw [he]; unfold shippedSize at hc; omega
      refine hns (Or.inr ⟨k, hkS, j, hj, ?_, ?_⟩)
      · rw [(rows_walk hg.down hk j hne').2.2.1, he]
      · intro i hi
        have hi' := stepN_ne_of_le (show i + 1 ≤ j + 1 by omega) hne'
        obtain ⟨-, q1, q2, q3⟩ := rows_walk hg.down hk i hi'
        refine ⟨?_, q3⟩
        rw [q2, ← not_lt, hg.res _ q1]
        rintro ⟨⟨hres, -⟩, -⟩
        exact ((coefficient_facts k hk).1 hr i (by omega) hi').1 hres
    · rw [if_neg he] at hne; exact hne rfl

open Classical in
/-- C92: from 2020 on, the monthly demands of all reservoirs together are the demand of the supplied cells, to one millionth: every
supplied cell is counted once. -/
theorem C92_supplied (g : DemandGrid) (y : ℕ) (hy : 2020 ≤ y) (idle : Set ℕ) (hg : ShippedDemand g y idle) (hw : ∀ x, 0 ≤ g.monthly x)
    (S : Finset ℕ) (hS : ∀ k ∈ S, k < shippedSize ∧ HasRes k) (hall : ∀ k < shippedSize, HasRes k → k ∉ idleRows → k ∈ S) :
    |∑ k ∈ S, (downstreamDemand g (shippedCell k)).1 - ∑ c ∈ (range shippedSize).filter (Supplied g S), g.monthly (shippedCell c)| ≤
      1e-6 * ∑ c ∈ (range shippedSize).filter (Supplied g S), g.monthly (shippedCell c) := by
  have h1 : ∑ k ∈ S, (downstreamDemand g (shippedCell k)).1 = ∑ k ∈ S, (g.monthly (shippedCell k) + counted g.monthly k) :=
    sum_congr rfl fun k hk => monthly_eq hg hy (hS k hk).1 (hS k hk).2
  rw [h1, counted_total S hS, sum_filter, ← sum_sub_distrib, mul_sum]
  refine le_trans (abs_sum_le_sum_abs _ _) (sum_le_sum fun c hc => ?_)
  rw [mem_range] at hc
  have hhi := share_total S hS hc
  obtain ⟨hlo, h0⟩ := supplied_share hg hy S hS hall hc
  generalize (if c ∈ S then 1000000 else 0) + ∑ k ∈ S, share k c = b at *
  by_cases hsup : Supplied g S c
  · have h2 : (999999 : ℝ) ≤ b := by exact_mod_cast hlo hsup
    have h3 : (b : ℝ) ≤ 1000001 := by exact_mod_cast hhi
    rw [if_pos hsup]
    have e : g.monthly (shippedCell c) * ((b : ℝ) / 1000000) - g.monthly (shippedCell c) =
        ((b : ℝ) / 1000000 - 1) * g.monthly (shippedCell c) := by ring
    rw [e, abs_mul, abs_of_nonneg (hw _)]
    refine mul_le_mul_of_nonneg_right ?_ (hw _)
    rw [abs_le]
    constructor <;> norm_num <;> linarith
  · rw [if_neg hsup, h0 hsup]
    simp

/-! ## Earlier years -/

noncomputable def usedR (y k : ℕ) : Bool :=
  cond (damR k) (cond (Nat.beq (Nat.mod (Nat.div (Nat.mod (Nat.div (surfR k) 100000) 100) 8) 2) 1) true (Nat.ble (Nat.mod (surfR k) 10000) y)) false

theorem usedR_iff (y k : ℕ) : usedR y k = true ↔ UsedIn y k := by
  unfold usedR UsedIn IsRegulated
  rw [Bool.cond_false_right, Bool.and_eq_true, damR_iff, Bool.cond_true_left, Bool.or_eq_true, Nat.beq_eq, Nat.ble_eq]
  rfl

/-- The rows of `l` follow downstream of row `p`, and have no reservoir in year `y`. -/
noncomputable def pathR (y p : ℕ) (l : List ℕ) : Bool :=
  List.rec (motive := fun _ => ℕ → Bool) (fun _ => true)
    (fun q _ ih p => cond (Nat.beq (Nat.mod (rowR p) 1000000) 0) false (cond (Nat.beq (Nat.div (certR (Nat.mod (rowR p) 1000000)) 128) q)
      (cond (usedR y q) false (ih q)) false)) l p

theorem pathR_spec {g : DemandGrid} {y : ℕ} {idle : Set ℕ} (hg : ShippedDemand g y idle) (l : List ℕ) : ∀ p, p < shippedSize →
    pathR y p l = true → ∀ j (hj : j < l.length), g.down^[j + 1] (shippedCell p) = shippedCell l[j] ∧ g.open_ (shippedCell p) j := by
  induction l with
  | nil => intro p _ _ j hj; exact absurd hj (by simp)
  | cons q l ih =>
    intro p hp h j hj
    have h' : cond (Nat.beq (outCode p) 0) false (cond (Nat.beq (nextPos p) q) (cond (usedR y q) false (pathR y q l)) false) = true := h
    rw [Bool.cond_false_left, Bool.and_eq_true, not_iff', Nat.beq_eq, Bool.cond_false_right, Bool.and_eq_true, Nat.beq_eq, Bool.cond_false_left,
      Bool.and_eq_true, not_iff', usedR_iff] at h'
    obtain ⟨h1, h2, h3, h4⟩ := h'
    rcases out_cases p hp with ⟨h5, -⟩ | ⟨-, h5, h6, -, -, h7⟩
    · exfalso
      apply h1
      unfold shippedOut cellOf at h5
      simp only [Prod.mk.injEq] at h5
      unfold outCode
      omega
    · rw [h2] at h5 h6
      have hd : g.down (shippedCell p) = shippedCell q := by rw [hg.down p hp, h6]
      have ho : g.open_ (shippedCell p) 0 := by
        unfold DemandGrid.open_
        rw [zero_add, Function.iterate_one, hd]
        rw [← h6] at h7
        refine ⟨?_, h7⟩
        rw [← not_lt, hg.res q h5]
        exact fun h => h3 h.1
      cases j with
      | zero => exact ⟨hd, ho⟩
      | succ j =>
        obtain ⟨q1, q2⟩ := ih q h5 h4 j (by simpa using hj)
        unfold DemandGrid.open_ at *
        rw [Function.iterate_succ_apply, hd]
        exact ⟨q1, q2⟩

theorem monthly_ge {g : DemandGrid} {y : ℕ} {idle : Set ℕ} (hg : ShippedDemand g y idle) (hw : ∀ x, 0 ≤ g.monthly x) {k : ℕ}
    (hk : k < shippedSize) (l : List ℕ) (c : ℕ) (hl : l.length < 5) (h : pathR y k (l ++ [c]) = true) (ha : Nat.beq (coefR (alR k) l.length) 1000000 = true) :
    g.monthly (shippedCell c) ≤ (downstreamDemand g (shippedCell k)).1 := by
  obtain ⟨n, m, h1, h2, h3, h4, h5, -, h7, -⟩ := C18_downstream_demand g (shippedCell k)
  have hp := pathR_spec hg _ k hk h
  simp only [List.length_append, List.length_singleton] at hp
  have hn : l.length < n := by
    by_contra hle
    exact h4 (by omega) (hp n (by omega)).2
  have hlast := (hp l.length (by omega)).1
  rw [List.getElem_concat_length rfl] at hlast
  have ha' : g.alloc (shippedCell k) l.length = 1 := by
    rw [hg.alloc k hk _ hl]
    unfold shippedAlloc
    rw [Nat.beq_eq, coefR_eq] at ha
    rw [ha]; norm_num
  rw [h7]
  have := single_le_sum (f := fun j => g.monthly (g.down^[j + 1] (shippedCell k)) * g.alloc (shippedCell k) j) (s := range n)
    (fun j hj => mul_nonneg (hw _) (by rw [hg.alloc k hk j (by rw [mem_range] at hj; omega)]; exact shippedAlloc_nonneg k j)) (mem_range.2 hn)
  simp only [hlast, ha', mul_one] at this
  have h0 := hw (shippedCell k)
  linarith

theorem path_15820 : pathR 2000 15820 ([59948, 60825, 61558] ++ [62175]) = true := by decide +kernel
theorem path_36173 : pathR 2000 36173 ([58842, 59948, 60825, 61558] ++ [62175]) = true := by decide +kernel
theorem path_57495 : pathR 2000 57495 ([58842, 59948, 60825, 61558] ++ [62175]) = true := by decide +kernel
theorem coef_three : Nat.beq (coefR (alR 15820) 3) 1000000 = true ∧ Nat.beq (coefR (alR 36173) 4) 1000000 = true ∧
    Nat.beq (coefR (alR 57495) 4) 1000000 = true := by decide +kernel
noncomputable def irrR (k : ℕ) : Bool := cond (usedR 2000 k) (Nat.beq (Nat.mod (Nat.div (surfR k) 10000) 10) 1) false
theorem irr_three : irrR 15820 = true ∧ irrR 36173 = true ∧ irrR 57495 = true := by decide +kernel
theorem irrR_spec (k : ℕ) (h : irrR k = true) : UsedIn 2000 k ∧ shippedResType k = 1 := by
  unfold irrR at h
  rw [Bool.cond_false_right, Bool.and_eq_true, usedR_iff, Nat.beq_eq] at h
  exact h

/-- The row of a cell. -/
noncomputable def rowOf (x : Cell) : ℕ := by
  classical
  exact if h : ∃ k < shippedSize, shippedCell k = x then h.choose else 0

theorem rowOf_cell {k : ℕ} (hk : k < shippedSize) : rowOf (shippedCell k) = k := by
  have h : ∃ i < shippedSize, shippedCell i = shippedCell k := ⟨k, hk, rfl⟩
  unfold rowOf
  rw [dif_pos h]
  exact shippedCell_inj h.choose_spec.1 hk h.choose_spec.2

open Classical in
/-- The arrays of year `y` with the demand `w`. -/
noncomputable def gridIn (y : ℕ) (w : Cell → ℝ) : DemandGrid where
  resArea x := if UsedIn y (rowOf x) then 1 else 0
  allResArea x := if HasRes (rowOf x) then 1 else 0
  monthly := w
  annual := w
  down x := shippedOut (rowOf x)
  alloc x j := shippedAlloc (rowOf x) j

theorem gridIn_shipped (y : ℕ) (w : Cell → ℝ) : ShippedDemand (gridIn y w) y ∅ := by
  refine ⟨?_, ?_, ?_, ?_, by simp⟩
  · intro k hk; simp only [gridIn, rowOf_cell hk]
  · intro k hk j _; simp only [gridIn, rowOf_cell hk]
  · intro k hk; simp only [gridIn, rowOf_cell hk]; split_ifs with h <;> rw [rowOf_cell hk] at h <;> simp [h]
  · intro k hk; simp only [gridIn, rowOf_cell hk]; split_ifs with h <;> rw [rowOf_cell hk] at h <;> simp [h]

/-- C92, finding: before all reservoirs are in operation, the monthly demand of a cell can be counted several times.  In 2000 the three
irrigation reservoirs of rows 15820, 36173 and 57495 each follow the whole demand of the cell of row 62175, where a reservoir exists only
from 2002 on: the coefficients were computed with all reservoirs, and the walk downstream goes on through cells whose reservoir is not yet
in operation. -/
theorem C92_violated_before_operation (g : DemandGrid) (idle : Set ℕ) (hg : ShippedDemand g 2000 idle) (hw : ∀ x, 0 ≤ g.monthly x) :
    (∀ k ∈ ({15820, 36173, 57495} : Finset ℕ), k < shippedSize ∧ UsedIn 2000 k ∧ shippedResType k = 1) ∧
    3 * g.monthly (shippedCell 62175) ≤ ∑ k ∈ ({15820, 36173, 57495} : Finset ℕ), (downstreamDemand g (shippedCell k)).1 := by
  have b1 : 15820 < shippedSize := by unfold shippedSize; omega
  have b2 : 36173 < shippedSize := by unfold shippedSize; omega
  have b3 : 57495 < shippedSize := by unfold shippedSize; omega
  constructor
  · intro k hk
    simp only [mem_insert, mem_singleton] at hk
    rcases hk with rfl | rfl | rfl
    · exact ⟨b1, irrR_spec _ irr_three.1⟩
    · exact ⟨b2, irrR_spec _ irr_three.2.1⟩
    · exact ⟨b3, irrR_spec _ irr_three.2.2⟩
  · have h1 := monthly_ge hg hw b1 _ _ (by simp) path_15820 coef_three.1
    have h2 := monthly_ge hg hw b2 _ _ (by simp) path_36173 coef_three.2.1
    have h3 := monthly_ge hg hw b3 _ _ (by simp) path_57495 coef_three.2.2
    rw [sum_insert (by simp), sum_insert (by simp), sum_singleton]
    linarith

/-- C92, finding, for a demand of one km³ in this cell and none elsewhere: the reservoirs follow a demand three times as large. -/
theorem C92_violated_exists : ∃ g : DemandGrid, ShippedDemand g 2000 ∅ ∧ (∀ x, 0 ≤ g.monthly x) ∧
    ∑ c ∈ range shippedSize, g.monthly (shippedCell c) = 1 ∧
    ∃ S : Finset ℕ, (∀ k ∈ S, k < shippedSize ∧ UsedIn 2000 k ∧ shippedResType k = 1) ∧
      3 ≤ ∑ k ∈ S, (downstreamDemand g (shippedCell k)).1 := by
  classical
  have hb : 62175 < shippedSize := by unfold shippedSize; omega
  generalize hrow : 62175 = r at hb
  have hw : ∀ x, 0 ≤ (gridIn 2000 fun x => if x = shippedCell r then 1 else 0).monthly x := by
    intro x; simp only [gridIn]; split_ifs <;> norm_num
  obtain ⟨h1, h2⟩ := C92_violated_before_operation _ ∅ (gridIn_shipped 2000 fun x => if x = shippedCell r then 1 else 0) hw
  refine ⟨_, gridIn_shipped 2000 _, hw, ?_, _, h1, le_trans ?_ h2⟩
  · rw [sum_eq_single r]
    · simp only [gridIn, if_true]
    · intro c hc hne
      simp only [gridIn]
      rw [if_neg]
      intro h
      exact hne (shippedCell_inj (mem_range.1 hc) hb h)
    · intro h; exact absurd (mem_range.2 hb) h
  · rw [hrow]
    simp only [gridIn, if_true]
    norm_num

/-! ## Cases that meet the hypotheses -/

open Classical in
/-- All rows with a reservoir. -/
noncomputable def allRes : Finset ℕ := (range shippedSize).filter HasRes

theorem mem_allRes {k : ℕ} : k ∈ allRes ↔ k < shippedSize ∧ HasRes k := by
  classical
  unfold allRes
  simp only [mem_filter, mem_range]

example := C92_annual _ 1950 ∅ (gridIn_shipped 1950 fun _ => 1) (fun _ => by simp [gridIn]) allRes (fun _ h => mem_allRes.1 h)
example := C92_monthly _ 2021 (by norm_num) ∅ (gridIn_shipped 2021 fun _ => 1) (fun _ => by simp [gridIn]) allRes (fun _ h => mem_allRes.1 h)
example := C92_supplied _ 2021 (by norm_num) ∅ (gridIn_shipped 2021 fun _ => 1) (fun _ => by simp [gridIn]) allRes (fun _ h => mem_allRes.1 h)
  (fun _ hk hr _ => mem_allRes.2 ⟨hk, hr⟩)
example := C92_violated_before_operation _ ∅ (gridIn_shipped 2000 fun _ => 1) (fun _ => by simp [gridIn])

/-- The set of reservoirs is not empty. -/
example : 15820 ∈ allRes := mem_allRes.2 ⟨by unfold shippedSize; omega, (irrR_spec 15820 irr_three.1).1.1⟩

end WG
