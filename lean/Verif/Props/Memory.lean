import Verif.Props.Groundwater
import Mathlib.Analysis.SpecificLimits.Basic

/-!
# C89: how long the groundwater remembers its initial storage

What a spin-up can and cannot do for the slowest storage of a cell: two histories of the same groundwater store, with the same net
inflow (recharge less abstraction) every day but different initial storages.
-/

namespace WG

/-- The groundwater discharge of each day of a sequence of days of net inflow. -/
noncomputable def gwFlows (k s : ℝ) : List ℝ → List ℝ
  | [] => []
  | n :: ns => (gwStorage s n k).2 :: gwFlows k (gwStorage s n k).1 ns

/-- A day: storage is what was there plus the inflow less the discharge, which is the positive part of an increasing
function of the storage. -/
theorem gw_shape (s n k : ℝ) : (gwStorage s n k).2 = max 0 ((1 - Real.exp (-1 * k)) * s + n * (1 - (1 - Real.exp (-1 * k)) / k)) ∧
    (gwStorage s n k).1 = s + n - (gwStorage s n k).2 := by
  have e : s - (s * Real.exp (-1 * k) + (n / k) * (1 - Real.exp (-1 * k))) + n =
      (1 - Real.exp (-1 * k)) * s + n * (1 - (1 - Real.exp (-1 * k)) / k) := by ring
  unfold gwStorage
  simp only
  rw [e]
  split_ifs with h
  · exact ⟨(max_eq_left h).symm, by ring⟩
  · refine ⟨(max_eq_right (by linarith)).symm, ?_⟩
    linarith

/-- One day with two storages. -/
theorem gw_two (s s' n k : ℝ) (hk : 0 < k) (h : s ≤ s') :
    (gwStorage s n k).1 ≤ (gwStorage s' n k).1 ∧ (gwStorage s n k).2 ≤ (gwStorage s' n k).2 ∧
    ((gwStorage s' n k).1 - (gwStorage s n k).1) + ((gwStorage s' n k).2 - (gwStorage s n k).2) = s' - s := by
  obtain ⟨a, b⟩ := gw_shape s n k
  obtain ⟨a', b'⟩ := gw_shape s' n k
  have h1 := one_sub_exp_pos k hk
  have h2 : (1 - Real.exp (-1 * k)) < 1 := by have := Real.exp_pos (-1 * k); linarith
  have hq : (gwStorage s n k).2 ≤ (gwStorage s' n k).2 := by
    rw [a, a']
    exact max_le_max le_rfl (by nlinarith)
  have hd : (gwStorage s' n k).2 - (gwStorage s n k).2 ≤ s' - s := by
    rw [a, a']
    generalize n * (1 - (1 - Real.exp (-1 * k)) / k) = c
    have : (1 - Real.exp (-1 * k)) * s' ≤ (1 - Real.exp (-1 * k)) * s + (s' - s) := by nlinarith
    rcases le_total 0 ((1 - Real.exp (-1 * k)) * s' + c) with h0 | h0
    · rw [max_eq_right h0]
      have := le_max_right 0 ((1 - Real.exp (-1 * k)) * s + c)
      linarith
    · rw [max_eq_left h0]
      have := le_max_left 0 ((1 - Real.exp (-1 * k)) * s + c)
      linarith
  exact ⟨by linarith, hq, by linarith⟩

/-- **C89.**  Whatever recharge and abstraction the days bring, a store that starts with more groundwater never holds less and never
discharges less on any day, and the difference at the start is exactly the difference left plus all the differences of the
discharge: an error in the initial storage is never amplified, and what it does to the discharge of all days together is at
most the error itself. -/
theorem C89_difference (k : ℝ) (hk : 0 < k) (s s' : ℝ) (h : s ≤ s') (ns : List ℝ) :
    gwRun k s ns ≤ gwRun k s' ns ∧ List.Forall₂ (· ≤ ·) (gwFlows k s ns) (gwFlows k s' ns) ∧
    (gwRun k s' ns - gwRun k s ns) + ((gwFlows k s' ns).sum - (gwFlows k s ns).sum) = s' - s := by
  induction ns generalizing s s' with
  | nil => exact ⟨h, .nil, by simp [gwRun, gwFlows]⟩
  | cons n ns ih =>
    obtain ⟨a, b, c⟩ := gw_two s s' n k hk h
    obtain ⟨a', b', c'⟩ := ih _ _ a
    refine ⟨a', .cons b b', ?_⟩
    simp only [gwRun, gwFlows, List.sum_cons] at c' ⊢
    linarith

example : (gwRun 0.01 7 [1, -3, 0.5] - gwRun 0.01 5 [1, -3, 0.5]) +
    ((gwFlows 0.01 7 [1, -3, 0.5]).sum - (gwFlows 0.01 5 [1, -3, 0.5]).sum) = 7 - 5 :=
  (C89_difference 0.01 (by norm_num) 5 7 (by norm_num) _).2.2

/-- A day on which the smaller storage discharges. -/
theorem gw_decay (s s' n k : ℝ) (hk : 0 < k) (h : s ≤ s') (hq : 0 < (gwStorage s n k).2) :
    (gwStorage s' n k).1 - (gwStorage s n k).1 = Real.exp (-1 * k) * (s' - s) := by
  obtain ⟨a, b⟩ := gw_shape s n k
  obtain ⟨a', b'⟩ := gw_shape s' n k
  have hq' := hq.trans_le (gw_two s s' n k hk h).2.1
  rw [a] at hq
  rw [a'] at hq'
  rw [b, b', a, a']
  generalize n * (1 - (1 - Real.exp (-1 * k)) / k) = c at *
  rw [max_eq_right ((lt_max_iff.1 hq).resolve_left (lt_irrefl _)).le,
    max_eq_right ((lt_max_iff.1 hq').resolve_left (lt_irrefl _)).le]
  ring

/-- **C89 (forgetting).**  As long as there is discharge, the difference shrinks by the same factor every day: after any number of
days it is `exp(-k · days)` times what it was. -/
theorem C89_forgetting (k : ℝ) (hk : 0 < k) (s s' : ℝ) (h : s ≤ s') (ns : List ℝ) (hq : ∀ q ∈ gwFlows k s ns, 0 < q) :
    gwRun k s' ns - gwRun k s ns = Real.exp (-k * ns.length) * (s' - s) := by
  induction ns generalizing s s' with
  | nil => simp [gwRun]
  | cons n ns ih =>
    simp only [gwFlows, List.mem_cons, forall_eq_or_imp] at hq
    simp only [gwRun]
    rw [ih _ _ (gw_two s s' n k hk h).1 hq.2, gw_decay s s' n k hk h hq.1, ← mul_assoc, ← Real.exp_add]
    congr 2
    rw [List.length_cons]
    push_cast
    ring

/-- Without net abstraction a store that is not empty discharges every day. -/
theorem gwFlows_pos (k : ℝ) (hk : 0 < k) (s : ℝ) (hs : 0 < s) (ns : List ℝ) (hn : ∀ n ∈ ns, 0 ≤ n) :
    ∀ q ∈ gwFlows k s ns, 0 < q := by
  induction ns generalizing s with
  | nil => simp [gwFlows]
  | cons n ns ih =>
    have h0 := hn n (by simp)
    have hq := (C10_discharge_sign s n k hk).2.1 hs.le h0 (by linarith)
    simp only [gwFlows, List.mem_cons, forall_eq_or_imp]
    refine ⟨hq, ih _ ?_ fun x hx => hn x (by simp [hx])⟩
    have h1 := one_sub_exp_pos k hk
    unfold gwStorage at hq ⊢
    simp only at hq ⊢
    split_ifs at hq ⊢ with h
    · exact absurd hq (lt_irrefl _)
    · have := Real.exp_pos (-1 * k)
      positivity

/-- **C89 (forgetting without net abstraction).**  With any recharge at all or none, two stores that are not empty differ after `n`
days by `exp(-k n)` times their difference at the start. -/
theorem C89_forgetting_recharge (k : ℝ) (hk : 0 < k) (s s' : ℝ) (hs : 0 < s) (hs' : 0 < s') (ns : List ℝ) (hn : ∀ n ∈ ns, 0 ≤ n) :
    |gwRun k s' ns - gwRun k s ns| = Real.exp (-k * ns.length) * |s' - s| := by
  rcases le_total s s' with h | h
  · rw [C89_forgetting k hk s s' h ns (gwFlows_pos k hk s hs ns hn), abs_mul, abs_of_pos (Real.exp_pos _)]
  · rw [abs_sub_comm, C89_forgetting k hk s' s h ns (gwFlows_pos k hk s' hs' ns hn), abs_mul, abs_of_pos (Real.exp_pos _),
      abs_sub_comm]

example : |gwRun 0.01 2 (List.replicate 365 0.3) - gwRun 0.01 50 (List.replicate 365 0.3)| = Real.exp (-0.01 * 365) * |2 - 50| := by
  have := C89_forgetting_recharge 0.01 (by norm_num) 50 2 (by norm_num) (by norm_num) (List.replicate 365 0.3)
    (by intro n hn; rw [(List.mem_replicate.1 hn).2]; norm_num)
  rwa [List.length_replicate] at this

/-- A store in equilibrium with its recharge stays there. -/
theorem gw_equilibrium (k n : ℝ) (hk : 0 < k) (hn : 0 ≤ n) : gwStorage (n / k) n k = (n / k, n) := by
  obtain ⟨a, b⟩ := gw_shape (n / k) n k
  have e : (1 - Real.exp (-1 * k)) * (n / k) + n * (1 - (1 - Real.exp (-1 * k)) / k) = n := by
    field_simp; ring
  rw [e, max_eq_right hn] at a
  exact Prod.ext (by rw [b, a]; ring) a

/-- **C89 (equilibrium).**  With the same recharge every day the storage of a store that is not empty is after `m` days
`n / k + (s - n / k) · exp(-k m)`: it approaches recharge over outflow coefficient, from any start, and the
discharge approaches the recharge. -/
theorem C89_equilibrium (k n s : ℝ) (hk : 0 < k) (hn : 0 < n) (hs : 0 < s) :
    (∀ m : ℕ, gwRun k s (List.replicate m n) = n / k + (s - n / k) * Real.exp (-k * m)) ∧
    Filter.Tendsto (fun m : ℕ => gwRun k s (List.replicate m n)) Filter.atTop (nhds (n / k)) := by
  have heq : ∀ m : ℕ, gwRun k (n / k) (List.replicate m n) = n / k := by
    intro m
    induction m with
    | zero => rfl
    | succ m ih => rw [List.replicate_succ, gwRun, gw_equilibrium k n hk hn.le]; exact ih
  have hp : 0 < n / k := by positivity
  have hall : ∀ m : ℕ, ∀ x ∈ List.replicate m n, 0 ≤ x := fun m x hx => by rw [(List.mem_replicate.1 hx).2]; exact hn.le
  have h1 : ∀ m : ℕ, gwRun k s (List.replicate m n) = n / k + (s - n / k) * Real.exp (-k * m) := by
    intro m
    rcases le_total s (n / k) with h | h
    · have := C89_forgetting k hk s (n / k) h _ (gwFlows_pos k hk s hs _ (hall m))
      rw [heq, List.length_replicate] at this
      linarith
    · have := C89_forgetting k hk (n / k) s h _ (gwFlows_pos k hk _ hp _ (hall m))
      rw [heq, List.length_replicate] at this
      linarith
  refine ⟨h1, ?_⟩
  simp only [h1]
  have ht : Filter.Tendsto (fun m : ℕ => Real.exp (-k * m)) Filter.atTop (nhds 0) := by
    have : (fun m : ℕ => Real.exp (-k * m)) = fun m : ℕ => Real.exp (-k) ^ m := by
      funext m
      rw [← Real.exp_nat_mul]
      ring_nf
    rw [this]
    exact tendsto_pow_atTop_nhds_zero_of_lt_one (Real.exp_pos _).le (by rw [Real.exp_lt_one_iff]; linarith)
  have := (ht.const_mul (s - n / k)).const_add (n / k)
  simpa using this

example := C89_equilibrium 0.01 0.3 50 (by norm_num) (by norm_num) (by norm_num)

/-- **C89 violated (no forgetting under depletion).**  Where the storage has been used up and abstraction is at least as large as
recharge on every day, a difference in the initial storage stays the same for ever: no spin-up, however long, removes it. -/
theorem C89_violated_depletion (k : ℝ) (hk : 0 < k) (s s' : ℝ) (hs : s ≤ 0) (hs' : s' ≤ 0) (ns : List ℝ) (hn : ∀ n ∈ ns, n ≤ 0) :
    gwRun k s' ns - gwRun k s ns = s' - s := by
  have key : ∀ (ns : List ℝ) (s : ℝ), s ≤ 0 → (∀ n ∈ ns, n ≤ 0) → gwRun k s ns = s + ns.sum := by
    intro ns
    induction ns with
    | nil => intro s _ _; simp [gwRun]
    | cons n ns ih =>
      intro s hs hn
      have h0 := hn n (by simp)
      have hd := (C10_discharge_sign s n k hk).1 hs h0
      simp only [gwRun, List.sum_cons]
      rw [hd.2, ih (s + n) (by linarith) fun x hx => hn x (by simp [hx])]
      ring
  rw [key ns s hs hn, key ns s' hs' hn]
  ring

example : gwRun 0.01 (-2) (List.replicate 3650 (-0.1)) - gwRun 0.01 (-40) (List.replicate 3650 (-0.1)) = -2 - -40 :=
  C89_violated_depletion 0.01 (by norm_num) _ _ (by norm_num) (by norm_num) _
    (fun n hn => by rw [(List.mem_replicate.1 hn).2]; norm_num)

end WG
