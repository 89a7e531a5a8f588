import Verif.Model.ShippedNeighbours
import Verif.Props.NeighbourCheck1
import Verif.Props.NeighbourCheck2
import Verif.Props.NeighbourCheck3
import Verif.Props.NeighbourCheck4
import Verif.Props.ShippedNetwork
import Verif.Props.Neighbour

/-!
# C95: the shipped outflow cells of neighbours fit the river network

A cell whose demand is not satisfied may be supplied by one of the eight cells around it, but not by one that drains directly into it.
-/

namespace WG

theorem nbCheck_all (k : ℕ) (hk : k < shippedSize) : nbCheck k = true := by
  refine check_cover _ ?_ k hk
  simp only [pieces, List.forall_mem_cons]
  exact ⟨neighbours_0, neighbours_3371, neighbours_6742, neighbours_10113, neighbours_13484, neighbours_16855, neighbours_20226,
    neighbours_23597, neighbours_26968, neighbours_30339, neighbours_33710, neighbours_37081, neighbours_40452, neighbours_43823,
    neighbours_47194, neighbours_50565, neighbours_53936, neighbours_57307, neighbours_60678, neighbours_64049, by simp⟩

theorem force_eq {α : Type} (f : ℕ → α) (n : ℕ) : force f n = f n := rfl

theorem nbR_eq (k : ℕ) : nbR k = neighbourRow k := rfl

attribute [local irreducible] shippedOrder routingRow neighbourRow certR

theorem cellOf_code (a b : ℕ) (hb : b < 1000) : cellOf (1000 * a + b) = (a, b) := by
  unfold cellOf
  rw [Prod.mk.injEq]
  omega

theorem outAtR_def (c p : ℕ) : outAtR c p = cond (Nat.blt p 67420) (cond (Nat.beq (codeAt p) c) (outCode p) 0) 0 := by
  unfold outAtR
  rw [force_eq, rowR_eq]
  rfl

/-- What the check says about the cell with the code `c`: the outflow of a routed cell. -/
theorem outAtR_cell (j : ℕ) (hj : j < shippedSize) : outAtR (codeAt j) (certPos (codeAt j)) = outCode j := by
  rw [(row_facts j hj).1, outAtR_def, (blt_iff _ _).2 (show j < 67420 from hj), Nat.beq_refl]
  rfl

theorem outAtR_none (c p : ℕ) (h : ∀ j < shippedSize, codeAt j ≠ c) : outAtR c p = 0 := by
  rw [outAtR_def]
  by_cases hp : p < 67420
  · have hb : Nat.beq (codeAt p) c = false := by
      rw [Bool.eq_false_iff]; exact fun h' => h p hp (Nat.beq_eq ▸ h')
    rw [(blt_iff _ _).2 hp, hb]; rfl
  · have : Nat.blt p 67420 = false := by
      rw [Bool.eq_false_iff]; exact fun h' => hp ((blt_iff _ _).1 h')
    rw [this]; rfl

/-! ## Specification -/

/-- Specification: the direction of a column, as steps to the south and to the east: east, north-east, north, north-west, west, south-west,
south, south-east. -/
def compass : ℕ → ℤ × ℤ
  | 0 => (0, 1)
  | 1 => (-1, 1)
  | 2 => (-1, 0)
  | 3 => (-1, -1)
  | 4 => (0, -1)
  | 5 => (1, -1)
  | 6 => (1, 0)
  | _ => (1, 1)

/-- Specification: `y` is the cell next to `x` in the direction of column `i`; the grid closes in longitude. -/
def Beside (x : Cell) (i : ℕ) (y : Cell) : Prop :=
  (y.1 : ℤ) = x.1 + (compass i).1 ∧ (y.2 : ℤ) = (x.2 + (compass i).2) % 720

/-- Specification: a table of neighbours, with its columns in the order of the shipped table: the routed cell in that direction, or (0, 0). -/
def NeighbourTable (nb : ℕ → ℕ → Cell) : Prop :=
  ∀ k < shippedSize, ∀ i < 8, (∀ j < shippedSize, Beside (shippedCell k) i (shippedCell j) → nb k i = shippedCell j) ∧
    ((∀ j < shippedSize, ¬ Beside (shippedCell k) i (shippedCell j)) → nb k i = (0, 0))

/-! ## Lemmas -/

theorem oneR_spec (r m a b : ℕ) (hb : b < 1000) (h : oneR r m (Nat.add (Nat.mul 1000 a) b) = true) :
    (∀ j < shippedSize, shippedCell j = (a, b) → cellOf (r / m % 10 ^ 6) = shippedOut j) ∧
    ((∀ j < shippedSize, shippedCell j ≠ (a, b)) → cellOf (r / m % 10 ^ 6) = (0, 0)) := by
  unfold oneR at h
  rw [force_eq, Nat.beq_eq] at h
  change outAtR (1000 * a + b) (certPos (1000 * a + b)) = r / m % 10 ^ 6 at h
  rw [← h]
  have key : ∀ j, shippedCell j = (a, b) ↔ codeAt j = 1000 * a + b := by
    intro j
    rw [← cellOf_code a b hb]
    exact ⟨fun h => cellOf_inj h, fun h => by rw [← h]; rfl⟩
  constructor
  · intro j hj he
    rw [← (key j).1 he, outAtR_cell j hj]
    rfl
  · intro hn
    rw [outAtR_none _ _ fun j hj he => hn j hj ((key j).2 he)]
    rfl

set_option linter.unusedSimpArgs false in
theorem eight_facts (k : ℕ) (hk : k < shippedSize) :
    0 < (shippedCell k).1 ∧ (shippedCell k).2 < 720 ∧
    ∀ i < 8, oneR (neighbourRow k) (10 ^ (6 * (7 - i)))
      (Nat.add (Nat.mul 1000 ((shippedCell k).1 + (compass i).1).toNat) (((shippedCell k).2 + (compass i).2) % 720).toNat) = true := by
  have h := nbCheck_all k hk
  have hl : (shippedCell k).2 < 720 := (row_facts k hk).2.2.1
  unfold nbCheck at h
  rw [rowR_eq] at h
  change (fun c : ℕ => force (fun t => force (fun l => force (fun r => cond (Nat.blt 0 t)
    (eightR r (Nat.mul 1000 t) l (Nat.mul 1000 (Nat.sub t 1)) (Nat.mul 1000 (Nat.succ t)) (Nat.mod (Nat.succ l) 720)
    (Nat.mod (Nat.add l 719) 720)) false) (nbR k)) (Nat.mod c 1000)) (Nat.div c 1000)) (codeAt k) = true at h
  simp only [force_eq, nbR_eq] at h
  change cond (Nat.blt 0 (shippedCell k).1) (eightR (neighbourRow k) (Nat.mul 1000 (shippedCell k).1) (shippedCell k).2
    (Nat.mul 1000 ((shippedCell k).1 - 1)) (Nat.mul 1000 ((shippedCell k).1 + 1)) (((shippedCell k).2 + 1) % 720)
    (((shippedCell k).2 + 719) % 720)) false = true at h
  generalize (shippedCell k).1 = t at h ⊢
  generalize (shippedCell k).2 = l at h hl ⊢
  rw [Bool.cond_false_right, Bool.and_eq_true, blt_iff] at h
  obtain ⟨h0, h⟩ := h
  unfold eightR at h
  simp only [Bool.cond_false_right, Bool.and_eq_true] at h
  obtain ⟨a0, a1, a2, a3, a4, a5, a6, a7⟩ := h
  generalize neighbourRow k = r at a0 a1 a2 a3 a4 a5 a6 a7 ⊢
  refine ⟨h0, hl, fun i hi => ?_⟩
  have e1 : (((l : ℤ) + 1) % 720).toNat = (l + 1) % 720 := by omega
  have e2 : (((l : ℤ) + -1) % 720).toNat = (l + 719) % 720 := by omega
  have e3 : (((l : ℤ) + 0) % 720).toNat = l := by omega
  have e4 : ((t : ℤ) + -1).toNat = t - 1 := by omega
  have e5 : ((t : ℤ) + 1).toNat = t + 1 := by omega
  have e6 : ((t : ℤ) + 0).toNat = t := by omega
  interval_cases i
  · rw [show (10 : ℕ) ^ (6 * (7 - 0)) = 1000000000000000000000000000000000000000000 by norm_num]; simp only [compass, e1, e2, e3, e4, e5, e6]; exact a0
  · rw [show (10 : ℕ) ^ (6 * (7 - 1)) = 1000000000000000000000000000000000000 by norm_num]; simp only [compass, e1, e2, e3, e4, e5, e6]; exact a1
  · rw [show (10 : ℕ) ^ (6 * (7 - 2)) = 1000000000000000000000000000000 by norm_num]; simp only [compass, e1, e2, e3, e4, e5, e6]; exact a2
  · rw [show (10 : ℕ) ^ (6 * (7 - 3)) = 1000000000000000000000000 by norm_num]; simp only [compass, e1, e2, e3, e4, e5, e6]; exact a3
  · rw [show (10 : ℕ) ^ (6 * (7 - 4)) = 1000000000000000000 by norm_num]; simp only [compass, e1, e2, e3, e4, e5, e6]; exact a4
  · rw [show (10 : ℕ) ^ (6 * (7 - 5)) = 1000000000000 by norm_num]; simp only [compass, e1, e2, e3, e4, e5, e6]; exact a5
  · rw [show (10 : ℕ) ^ (6 * (7 - 6)) = 1000000 by norm_num]; simp only [compass, e1, e2, e3, e4, e5, e6]; exact a6
  · rw [show (10 : ℕ) ^ (6 * (7 - 7)) = 1 by norm_num]; simp only [compass, e1, e2, e3, e4, e5, e6]; exact a7

theorem beside_iff (k : ℕ) (hk : k < shippedSize) (i : ℕ) (y : Cell) :
    Beside (shippedCell k) i y ↔
      y = (((shippedCell k).1 + (compass i).1).toNat, (((shippedCell k).2 + (compass i).2) % 720).toNat) := by
  obtain ⟨h0, -, -⟩ := eight_facts k hk
  have hc : -1 ≤ (compass i).1 := by unfold compass; split <;> norm_num
  obtain ⟨a, b⟩ := y
  unfold Beside
  rw [Prod.mk.injEq]
  dsimp only
  omega

/-! ## The property -/

/-- **C95 (table).**  In every row of the shipped table, column by column: the outflow cell (as the routing order has it) of the routed cell
to the east, north-east, north, north-west, west, south-west, south and south-east of the cell of that row of the routing order, and (0, 0)
where there is no routed cell. -/
theorem C95_outflows (k : ℕ) (hk : k < shippedSize) (i : ℕ) (hi : i < 8) :
    (∀ j < shippedSize, Beside (shippedCell k) i (shippedCell j) → shippedNbOut k i = shippedOut j) ∧
    ((∀ j < shippedSize, ¬ Beside (shippedCell k) i (shippedCell j)) → shippedNbOut k i = (0, 0)) := by
  obtain ⟨-, -, h⟩ := eight_facts k hk
  obtain ⟨h1, h2⟩ := oneR_spec _ _ _ _ (by omega) (h i hi)
  exact ⟨fun j hj hb => h1 j hj ((beside_iff k hk i _).1 hb), fun hn => h2 fun j hj he => hn j hj ((beside_iff k hk i _).2 he)⟩

/-- C95: what the loop over the neighbours sees: pairs of a routed cell around the cell and its outflow cell, or (0, 0) twice. -/
theorem C95_pairs {nb : ℕ → ℕ → Cell} (hnb : NeighbourTable nb) (k : ℕ) (hk : k < shippedSize) :
    (∀ p ∈ shippedPairs nb k, p = ((0, 0), (0, 0)) ∨
      ∃ i < 8, ∃ j < shippedSize, Beside (shippedCell k) i (shippedCell j) ∧ p = (shippedCell j, shippedOut j)) ∧
    ∀ i < 8, ∀ j < shippedSize, Beside (shippedCell k) i (shippedCell j) → (shippedCell j, shippedOut j) ∈ shippedPairs nb k := by
  unfold shippedPairs
  constructor
  · intro p hp
    obtain ⟨i, hi, rfl⟩ := List.mem_map.1 hp
    have hi := List.mem_range.1 hi
    by_cases h : ∃ j < shippedSize, Beside (shippedCell k) i (shippedCell j)
    · obtain ⟨j, hj, hb⟩ := h
      exact .inr ⟨i, hi, j, hj, hb, by rw [(hnb k hk i hi).1 j hj hb, (C95_outflows k hk i hi).1 j hj hb]⟩
    · push Not at h
      exact .inl (by rw [(hnb k hk i hi).2 h, (C95_outflows k hk i hi).2 h])
  · intro i hi j hj hb
    exact List.mem_map.2 ⟨i, List.mem_range.2 hi, by rw [(hnb k hk i hi).1 j hj hb, (C95_outflows k hk i hi).1 j hj hb]⟩

/-- A cell is not beside itself. -/
theorem beside_ne {x y : Cell} {i : ℕ} (hx : x.2 < 720) (h : Beside x i y) : y ≠ x := by
  rintro rfl
  obtain ⟨h1, h2⟩ := h
  unfold compass at h1 h2
  split at h1 <;> simp only at h1 h2 <;> omega

/-- **C95 (never from upstream).**  Whatever the storages, the demand and the day: with the shipped table, the cell that is asked is one
of the eight routed cells around the cell, not the cell itself, and it does not drain into it; or none is asked. -/
theorem C95_not_upstream {nb : ℕ → ℕ → Cell} (hnb : NeighbourTable nb) (k : ℕ) (hk : k < shippedSize) (avail : Cell → ℝ) (d : ℝ)
    (month day : ℕ) (turned : Cell → ℕ) :
    let s := getNeighbour avail (shippedPairs nb k) d (shippedCell k) month day turned
    s = (0, 0) ∨ ∃ i < 8, ∃ j < shippedSize, Beside (shippedCell k) i (shippedCell j) ∧ s = shippedCell j ∧
      s ≠ shippedCell k ∧ shippedOut j ≠ shippedCell k ∧ 0 < avail s := by
  have key : ∀ s, s = (0, 0) ∨ (∃ p ∈ shippedPairs nb k, Eligible avail (shippedCell k) p ∧ s = p.1) →
      s = (0, 0) ∨ ∃ i < 8, ∃ j < shippedSize, Beside (shippedCell k) i (shippedCell j) ∧ s = shippedCell j ∧
        s ≠ shippedCell k ∧ shippedOut j ≠ shippedCell k ∧ 0 < avail s := by
    rintro s (h | ⟨p, hp, he, rfl⟩)
    · exact .inl h
    rcases (C95_pairs hnb k hk).1 p hp with rfl | ⟨i, hi, j, hj, hb, rfl⟩
    · exact .inl rfl
    · exact .inr ⟨i, hi, j, hj, hb, rfl, beside_ne (eight_facts k hk).2.1 hb, he.2.1, he.2.2⟩
  refine key _ ?_
  unfold getNeighbour
  obtain ⟨-, -, h⟩ := neighbour_fold avail (shippedCell k) (shippedPairs nb k) ((0, 0), 0) le_rfl
  by_cases hd : d > 0
  · simp only [if_pos hd]
    have h' : (List.foldl (neighbourStep avail (shippedCell k)) ((0, 0), 0) (shippedPairs nb k)).1 = (0, 0) ∨
        ∃ p ∈ shippedPairs nb k, Eligible avail (shippedCell k) p ∧
          (List.foldl (neighbourStep avail (shippedCell k)) ((0, 0), 0) (shippedPairs nb k)).1 = p.1 := by
      rcases h with h | ⟨p, hp, he, h⟩
      · exact .inl (by rw [h])
      · exact .inr ⟨p, hp, he, by rw [h]⟩
    split_ifs
    · exact .inl rfl
    · exact h'
    · exact h'
  · rw [if_neg hd]; exact .inl rfl

/-- **C95 (the best of the others).**  Except on 31 December, a cell with unsatisfied demand asks a cell with the most water among the
routed cells around it that do not drain into it, if one of them has any. -/
theorem C95_best {nb : ℕ → ℕ → Cell} (hnb : NeighbourTable nb) (k : ℕ) (hk : k < shippedSize) (avail : Cell → ℝ) (d : ℝ) (hd : 0 < d)
    (month day : ℕ) (hdate : ¬ (month = 12 ∧ day = 31)) (turned : Cell → ℕ) (i : ℕ) (hi : i < 8) (j : ℕ) (hj : j < shippedSize)
    (hb : Beside (shippedCell k) i (shippedCell j)) (ho : shippedOut j ≠ shippedCell k) (hw : 0 < avail (shippedCell j)) :
    let s := getNeighbour avail (shippedPairs nb k) d (shippedCell k) month day turned
    s ≠ (0, 0) ∧ avail (shippedCell j) ≤ avail s := by
  have hne : shippedCell j ≠ (0, 0) := by
    intro h
    have := (eight_facts j hj).1
    rw [h] at this
    exact absurd this (lt_irrefl 0)
  obtain ⟨-, h, -⟩ := C23_best_neighbour avail (shippedPairs nb k) d (shippedCell k) month day turned hdate
  have hel : Eligible avail (shippedCell k) (shippedCell j, shippedOut j) := ⟨hne, ho, hw⟩
  have hmem := (C95_pairs hnb k hk).2 i hi j hj hb
  obtain ⟨p, hp, he, hr, hmax⟩ := h hd ⟨_, hmem, hel⟩
  intro s
  exact ⟨by change getNeighbour _ _ _ _ _ _ _ ≠ _; rw [hr]; exact he.1, hmax _ hmem hel⟩

open Classical in
/-- The neighbours of a cell: those of its row of the shipped table. -/
noncomputable def shippedNbs (nb : ℕ → ℕ → Cell) (x : Cell) : List (Cell × Cell) :=
  if h : ∃ k < shippedSize, shippedCell k = x then shippedPairs nb h.choose else []

/-- C95: a run with the shipped routing order and the shipped table meets what C58, C59 and C78 ask of the geography of a run
with supply from neighbouring cells. -/
theorem C95_geography {nb : ℕ → ℕ → Cell} (hnb : NeighbourTable nb) (r : NbRun) (ho : r.order = shippedOrder) (hn : r.nbs = shippedNbs nb)
    (base : Cell → CellIn) (hu : UnitsOk base r.unit (shippedOrder.map Prod.fst)) : r.Good base := by
  refine ⟨by rw [ho]; exact shipped_sound, by rw [ho]; exact hu, fun x p hp => ?_⟩
  rw [hn] at hp
  unfold shippedNbs at hp
  by_cases h : ∃ k < shippedSize, shippedCell k = x
  · rw [dif_pos h] at hp
    obtain ⟨hk, hx⟩ := h.choose_spec
    generalize h.choose = k at hp hk hx
    subst hx
    rcases (C95_pairs hnb k hk).1 p hp with rfl | ⟨i, hi, j, hj, hb, rfl⟩
    · intro he
      have := (eight_facts k hk).1
      rw [← he] at this
      exact absurd this (lt_irrefl 0)
    · exact beside_ne (eight_facts k hk).2.1 hb
  · rw [dif_neg h] at hp
    cases hp

theorem row_2895 : shippedCell 2895 = (37, 1) ∧ shippedCell 2894 = (37, 0) ∧ shippedOut 2894 = (0, 0) ∧ shippedCell 2896 = (37, 2) ∧
    shippedOut 2896 = (0, 0) := by
  refine ⟨?_, ?_, ?_, ?_, ?_⟩ <;> decide +kernel

/-- C95, finding: a cell in the westernmost column of the grid (longitude index 0; the shipped routing order has eleven) can be chosen as
the best neighbour but is then taken for none, because its column number is 0: the demand of the cell is passed on to nobody, although
another neighbour has water.  Here the cell (37, 1): its neighbour (37, 0) has the most water, its neighbour (37, 2) some. -/
theorem C95_violated_date_line {nb : ℕ → ℕ → Cell} (hnb : NeighbourTable nb) (cin : Cell → CellIn) (q : NbDay) (l : NbLedger) (o : CellOut)
    (state : Cell → CellState) (hq : q.nbs (37, 1) = shippedPairs nb 2895) (hdate : ¬ (q.month = 12 ∧ q.day = 31))
    (h0 : 2 ≤ nbAvail cin q state (37, 0)) (h1 : ∀ y, y ≠ (37, 0) → nbAvail cin q state y ≤ 1) :
    (0 < nbAvail cin q state (37, 2) → 0 < (allocate (nbAlloc cin q l (37, 1) o)
        (if (l.takenUp (37, 1)).isSome then Function.update l.ret (37, 1) none else l.ret)).1 →
      Eligible (nbAvail cin q state) (37, 1) ((37, 2), (0, 0)) ∧ ((37, 2), (0, 0)) ∈ q.nbs (37, 1) ∧ realCell (37, 2) ∧
      (nbUpd cin q l (37, 1) o state).nbMap (37, 1) = (37, 0)) ∧
    (nbUpd cin q l (37, 1) o state).sent (37, 1) = 0 ∧ ∀ y, y ≠ (37, 1) → (nbUpd cin q l (37, 1) o state).toSupply y = l.toSupply y := by
  obtain ⟨c0, c1, c2, c3, c4⟩ := row_2895
  have hs0 : ∀ d : ℝ, 0 < d → getNeighbour (nbAvail cin q state) (shippedPairs nb 2895) d (37, 1) q.month q.day l.turned = (37, 0) := by
    intro d hd
    have h := C95_best hnb 2895 (by unfold shippedSize; norm_num) (nbAvail cin q state) d hd q.month q.day hdate l.turned 4 (by norm_num)
      2894 (by unfold shippedSize; norm_num) (by rw [c0, c1]; constructor <;> rfl) (by rw [c2, c0]; decide) (by rw [c1]; linarith)
    rw [c0, c1] at h
    obtain ⟨-, h⟩ := h
    by_contra hne
    have := h1 _ hne
    linarith
  have hnot : ∀ d : ℝ, ¬ realCell (getNeighbour (nbAvail cin q state) (q.nbs (37, 1)) d (37, 1) q.month q.day l.turned) := by
    intro d
    rw [hq]
    by_cases hd : 0 < d
    · rw [hs0 d hd]
      exact fun h => absurd h.2 (lt_irrefl 0)
    · unfold getNeighbour
      rw [if_neg hd]
      exact fun h => absurd h.2 (lt_irrefl 0)
  refine ⟨fun hw hd => ⟨⟨by decide, by decide, hw⟩, ?_, by decide, ?_⟩, ?_, fun y hy => ?_⟩
  · rw [hq, ← c3, ← c4]
    exact (C95_pairs hnb 2895 (by unfold shippedSize; norm_num)).2 0 (by norm_num) 2896 (by unfold shippedSize; norm_num)
      (by rw [c0, c3]; constructor <;> rfl)
  · simp only [nbUpd, Function.update_self]
    rw [hq]
    exact hs0 _ hd
  · simp only [nbUpd, Function.update_self, if_neg (hnot _)]
  · simp only [nbUpd, if_neg (hnot _)]
    split_ifs
    · exact Function.update_of_ne hy _ _
    · rfl

theorem row_190 : shippedCell 190 = (15, 287) ∧ shippedCell 30635 = (15, 288) ∧ shippedCell 47974 = (14, 288) ∧ shippedCell 41784 = (14, 287) ∧
    shippedCell 30623 = (14, 286) ∧ shippedCell 56734 = (15, 286) ∧ shippedCell 54730 = (16, 286) ∧ shippedCell 51938 = (16, 287) ∧
    shippedCell 54731 = (16, 288) ∧ shippedOut 30635 = (15, 289) ∧ shippedOut 47974 = (14, 289) ∧ shippedOut 41784 = (14, 288) ∧
    shippedOut 30623 = (14, 287) ∧ shippedOut 56734 = (15, 285) ∧ shippedOut 54730 = (15, 286) ∧ shippedOut 51938 = (16, 288) ∧
    shippedOut 54731 = (16, 289) := by
  refine ⟨?_, ?_, ?_, ?_, ?_, ?_, ?_, ?_, ?_, ?_, ?_, ?_, ?_, ?_, ?_, ?_, ?_⟩ <;> decide +kernel

/-- C95: the shipped table fits no other order of the eight directions, so the table of neighbours has to have its columns in this order. -/
theorem C95_column_order (f : ℕ → ℕ) (hf : ∀ i < 8, f i < 8)
    (h : ∀ k < shippedSize, ∀ i < 8, ∀ j < shippedSize, Beside (shippedCell k) (f i) (shippedCell j) → shippedNbOut k i = shippedOut j) :
    ∀ i < 8, f i = i := by
  obtain ⟨c, a0, a1, a2, a3, a4, a5, a6, a7, b0, b1, b2, b3, b4, b5, b6, b7⟩ := row_190
  have hk : (190 : ℕ) < shippedSize := by unfold shippedSize; norm_num
  let w : ℕ → Cell := fun i => match i with
    | 0 => (15, 289) | 1 => (14, 289) | 2 => (14, 288) | 3 => (14, 287) | 4 => (15, 285) | 5 => (15, 286) | 6 => (16, 288) | _ => (16, 289)
  have key : ∀ m < 8, ∃ j < shippedSize, Beside (shippedCell 190) m (shippedCell j) ∧ shippedOut j = w m := by
    intro m hm
    unfold shippedSize
    interval_cases m
    · exact ⟨30635, by norm_num, by rw [c, a0]; constructor <;> rfl, b0⟩
    · exact ⟨47974, by norm_num, by rw [c, a1]; constructor <;> rfl, b1⟩
    · exact ⟨41784, by norm_num, by rw [c, a2]; constructor <;> rfl, b2⟩
    · exact ⟨30623, by norm_num, by rw [c, a3]; constructor <;> rfl, b3⟩
    · exact ⟨56734, by norm_num, by rw [c, a4]; constructor <;> rfl, b4⟩
    · exact ⟨54730, by norm_num, by rw [c, a5]; constructor <;> rfl, b5⟩
    · exact ⟨51938, by norm_num, by rw [c, a6]; constructor <;> rfl, b6⟩
    · exact ⟨54731, by norm_num, by rw [c, a7]; constructor <;> rfl, b7⟩
  have inj : ∀ m < 8, ∀ n < 8, w m = w n → m = n := by decide
  intro i hi
  obtain ⟨j, hj, hb, ho⟩ := key (f i) (hf i hi)
  obtain ⟨j', hj', hb', ho'⟩ := key i hi
  exact inj _ (hf i hi) _ hi (by rw [← ho, ← ho', ← h 190 hk i hi j hj hb, (C95_outflows 190 hk i hi).1 j' hj' hb'])

/-! ## Non-vacuity -/

open Classical in
/-- There is a table of neighbours as the theorems ask for. -/
example : ∃ nb, NeighbourTable nb := by
  refine ⟨fun k i => if h : ∃ j < shippedSize, Beside (shippedCell k) i (shippedCell j) then shippedCell h.choose else (0, 0), ?_⟩
  intro k hk i hi
  constructor
  · intro j hj hb
    have h : ∃ j < shippedSize, Beside (shippedCell k) i (shippedCell j) := ⟨j, hj, hb⟩
    dsimp only
    rw [dif_pos h, (beside_iff k hk i _).1 h.choose_spec.2, ← (beside_iff k hk i _).1 hb]
  · intro hn
    exact dif_neg fun ⟨j, hj, hb⟩ => hn j hj hb

/-- The row 190 of the file: all eight neighbours of the cell (15, 287) have outflow cells. -/
example : shippedNbOut 190 0 = (15, 289) ∧ shippedNbOut 190 5 = (15, 286) ∧ shippedNbOut 190 7 = (16, 289) ∧ shippedNbOut 4 0 = (0, 0) := by
  refine ⟨?_, ?_, ?_, ?_⟩ <;> decide +kernel

/-- The cell (15, 287) drains nowhere near; the cell (14, 286) to its north-west drains to (14, 287) and may supply it. -/
example {nb : ℕ → ℕ → Cell} (hnb : NeighbourTable nb) :
    getNeighbour (fun y => if y = (14, 286) then 1 else 0) (shippedPairs nb 190) 1 (shippedCell 190) 6 1 (fun _ => 0) = (14, 286) := by
  obtain ⟨c, -, -, -, a3, -, -, -, -, -, -, -, b3, -⟩ := row_190
  have h := C95_best hnb 190 (by unfold shippedSize; norm_num) (fun y => if y = (14, 286) then 1 else 0) 1 one_pos 6 1 (by norm_num)
    (fun _ => 0) 3 (by norm_num) 30623 (by unfold shippedSize; norm_num) (by rw [c, a3]; constructor <;> rfl) (by rw [b3, c]; decide)
    (by rw [a3]; norm_num)
  obtain ⟨-, h⟩ := h
  by_contra hne
  rw [if_neg hne, a3, if_pos rfl] at h
  norm_num at h

end WG
