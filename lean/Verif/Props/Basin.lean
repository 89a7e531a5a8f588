import Verif.Model.Basin

/-!
# The selected basin is the upstream closure of the stations (C40)
-/

namespace WG

/-- Specification: cell `a` drains directly into cell `b`. -/
def DrainsInto (tab : InflowTable) (a b : ℤ) : Prop := 0 < a ∧ ∃ row, tab b = some row ∧ a ∈ row

/-- Specification: water of cell `a` reaches cell `b` (or `a` is `b`). -/
def Reaches (tab : InflowTable) (a b : ℤ) : Prop := Relation.ReflTransGen (DrainsInto tab) a b

theorem mem_nextLevel (tab : InflowTable) (cells next : List ℤ) (h : nextLevel tab cells = some next) (a : ℤ) :
    a ∈ next ↔ ∃ b ∈ cells, DrainsInto tab a b := by
  induction cells generalizing next with
  | nil => simp only [nextLevel, Option.some.injEq] at h; subst h; simp
  | cons i rest ih =>
    simp only [nextLevel] at h
    cases ht : tab i with
    | none => rw [ht] at h; simp at h
    | some row =>
      cases hr : nextLevel tab rest with
      | none => rw [ht, hr] at h; simp at h
      | some r =>
        rw [ht, hr] at h
        simp only [Option.some.injEq] at h
        subst h
        rw [List.mem_append, List.mem_filter, ih r hr]
        simp only [decide_eq_true_eq, List.mem_cons]
        constructor
        · rintro (⟨h1, h2⟩ | ⟨b, h1, h2⟩)
          · exact ⟨i, Or.inl rfl, h2, row, ht, h1⟩
          · exact ⟨b, Or.inr h1, h2⟩
        · rintro ⟨b, rfl | h1, h2⟩
          · obtain ⟨p, row', hrow, hm⟩ := h2
            rw [ht] at hrow; injection hrow with hrow; subst hrow
            exact Or.inl ⟨hm, p⟩
          · exact Or.inr ⟨b, h1, h2⟩

theorem mem_allUpstream (tab : InflowTable) (fuel : ℕ) (cells acc r : List ℤ)
    (h : allUpstream tab fuel cells acc = .ok r) (x : ℤ) :
    x ∈ r ↔ x ∈ acc ∨ ∃ b ∈ cells, ∃ a, Reaches tab x a ∧ DrainsInto tab a b := by
  induction fuel generalizing cells acc with
  | zero => simp [allUpstream] at h
  | succ n ih =>
    simp only [allUpstream] at h
    cases hn : nextLevel tab cells with
    | none => rw [hn] at h; simp at h
    | some next =>
      rw [hn] at h
      simp only at h
      have hm := mem_nextLevel tab cells next hn
      split_ifs at h with hl
      · rw [ih next (acc ++ next) h, List.mem_append, or_assoc]
        constructor
        · rintro (h1 | h1 | ⟨b, hb, a, hxa, hab⟩)
          · exact Or.inl h1
          · obtain ⟨b, hb, hd⟩ := (hm x).1 h1
            exact Or.inr ⟨b, hb, x, .refl, hd⟩
          · obtain ⟨b', hb', hd⟩ := (hm b).1 hb
            exact Or.inr ⟨b', hb', b, hxa.tail hab, hd⟩
        · rintro (h1 | ⟨b, hb, a, hxa, hab⟩)
          · exact Or.inl h1
          · have ha : a ∈ next := (hm a).2 ⟨b, hb, hab⟩
            right
            rcases Relation.ReflTransGen.cases_tail hxa with rfl | ⟨c, hxc, hca⟩
            · exact Or.inl ha
            · exact Or.inr ⟨a, ha, c, hxc, hca⟩
      · injection h with h
        have : next = [] := by
          cases next with
          | nil => rfl
          | cons => simp at hl
        subst this
        rw [← h, List.append_nil]
        constructor
        · exact Or.inl
        · rintro (h1 | ⟨b, hb, a, hxa, hab⟩)
          · exact h1
          · exact absurd ((hm a).2 ⟨b, hb, hab⟩) (by simp)

/-- **C40.**  Whenever the selection ends, it has found exactly the stations' cells and the cells whose water reaches
one of them. -/
theorem C40_closure (tab : InflowTable) (limit : ℕ) (ids all : List ℤ)
    (h : allUpstream tab limit ids ids = .ok all) (x : ℤ) :
    x ∈ all ↔ ∃ s ∈ ids, Reaches tab x s := by
  rw [mem_allUpstream tab limit ids ids all h]
  constructor
  · rintro (h1 | ⟨b, hb, a, hxa, hab⟩)
    · exact ⟨x, h1, .refl⟩
    · exact ⟨b, hb, hxa.tail hab⟩
  · rintro ⟨s, hs, hx⟩
    rcases Relation.ReflTransGen.cases_tail hx with rfl | ⟨c, hxc, hcs⟩
    · exact Or.inl hs
    · exact Or.inr ⟨s, hs, c, hxc, hcs⟩

/-- **C40.**  The mask of a basin run: 0 exactly in the cells of the grid that lie upstream of a station, missing
everywhere else; the coordinates of every station are found in the table. -/
theorem C40_mask {ι : Type} (grid : ι → Option ℤ) (coords : List ((ℤ × ℤ) × ℤ)) (tab : InflowTable)
    (stations : List (ℤ × ℤ)) (limit : ℕ) (mask : ι → Option ℤ)
    (h : basinMask true grid coords tab stations limit = .ok mask) (i : ι) :
    (mask i = some 0 ∨ mask i = none) ∧
    (mask i = some 0 ↔ ∃ a, grid i = some a ∧ ∃ st ∈ stations, ∃ s, stationId coords st = some s ∧ Reaches tab a s) := by
  have hids : ∀ (sts : List (ℤ × ℤ)) (l : List ℤ), stationIds coords sts = .ok l →
      ∀ s, s ∈ l ↔ ∃ st ∈ sts, stationId coords st = some s := by
    intro sts
    induction sts with
    | nil => intro l hl s; simp only [stationIds, Except.ok.injEq] at hl; subst hl; simp
    | cons st rest ih =>
      intro l hl s
      simp only [stationIds] at hl
      cases hst : stationId coords st with
      | none => rw [hst] at hl; simp at hl
      | some i =>
        cases hr : stationIds coords rest with
        | error e => rw [hst, hr] at hl; simp at hl
        | ok l' =>
          rw [hst, hr] at hl
          simp only [Except.ok.injEq] at hl
          subst hl
          rw [List.mem_cons, ih l' hr s]
          constructor
          · rintro (rfl | ⟨t, h1, h2⟩)
            · exact ⟨st, by simp, hst⟩
            · exact ⟨t, by simp [h1], h2⟩
          · rintro ⟨t, h1, h2⟩
            rcases List.mem_cons.1 h1 with rfl | h1
            · rw [hst] at h2; injection h2 with h2; exact Or.inl h2.symm
            · exact Or.inr ⟨t, h1, h2⟩
  unfold basinMask at h
  rw [if_pos rfl] at h
  cases hs : stationIds coords stations with
  | error e => rw [hs] at h; simp at h
  | ok ids =>
    rw [hs] at h
    cases ha : allUpstream tab limit ids ids with
    | error e => simp only [ha] at h; cases h
    | ok all =>
      simp only [ha, Except.ok.injEq] at h
      subst h
      have hc := C40_closure tab limit ids all ha
      simp only
      cases hg : grid i with
      | none => simp
      | some a =>
        simp only [Option.some.injEq, exists_eq_left']
        have : a ∈ all ↔ ∃ st ∈ stations, ∃ s, stationId coords st = some s ∧ Reaches tab a s := by
          rw [hc]
          constructor
          · rintro ⟨s, h1, h2⟩
            obtain ⟨st, h3, h4⟩ := (hids stations ids hs s).1 h1
            exact ⟨st, h3, s, h4, h2⟩
          · rintro ⟨st, h3, s, h4, h2⟩
            exact ⟨s, (hids stations ids hs s).2 ⟨st, h3, h4⟩, h2⟩
        split_ifs with hin
        · exact ⟨Or.inl rfl, fun _ => this.1 hin, fun _ => rfl⟩
        · exact ⟨Or.inr rfl, fun h => by simp at h, fun h => absurd (this.2 h) hin⟩

/-- **C40.**  Without the basin option no cell of the grid is masked out. -/
theorem C40_global {ι : Type} (grid : ι → Option ℤ) (coords : List ((ℤ × ℤ) × ℤ)) (tab : InflowTable)
    (stations : List (ℤ × ℤ)) (limit : ℕ) :
    ∃ mask, basinMask false grid coords tab stations limit = .ok mask ∧
      ∀ i, mask i = some 0 ↔ (grid i).isSome := by
  refine ⟨_, rfl, fun i => ?_⟩
  cases grid i <;> simp

/-- **C40.**  On a river network without cycles whose upstream cells are all in the table the selection ends; a
recursion limit above the largest rank of a station is enough. -/
theorem C40_terminates (tab : InflowTable) (rank : ℤ → ℕ) (hrank : ∀ a b, DrainsInto tab a b → rank a < rank b)
    (ids : List ℤ) (htab : ∀ x, (∃ s ∈ ids, Reaches tab x s) → (tab x).isSome) (limit : ℕ) (hpos : 0 < limit)
    (hlim : ∀ s ∈ ids, rank s < limit) : ∃ all, allUpstream tab limit ids ids = .ok all := by
  have hnext : ∀ cells : List ℤ, (∀ x ∈ cells, (tab x).isSome) → ∃ next, nextLevel tab cells = some next := by
    intro cells
    induction cells with
    | nil => intro _; exact ⟨[], rfl⟩
    | cons i rest ih =>
      intro h
      obtain ⟨r, hr⟩ := ih fun x hx => h x (by simp [hx])
      obtain ⟨row, hrow⟩ := Option.isSome_iff_exists.1 (h i (by simp))
      exact ⟨_, by simp [nextLevel, hrow, hr]; rfl⟩
  have key : ∀ (limit : ℕ) (cells acc : List ℤ), (∀ c ∈ cells, rank c < limit) → limit ≠ 0 →
      (∀ c ∈ cells, ∃ s ∈ ids, Reaches tab c s) → ∃ all, allUpstream tab limit cells acc = .ok all := by
    intro limit
    induction limit with
    | zero => intro _ _ _ h; exact absurd rfl h
    | succ n ih =>
      intro cells acc hr _ hreach
      obtain ⟨next, hn⟩ := hnext cells fun x hx => htab x (hreach x hx)
      have hm := mem_nextLevel tab cells next hn
      simp only [allUpstream, hn]
      split_ifs with hl
      · have hlt : ∀ c ∈ next, rank c < n := by
          intro c hc
          obtain ⟨b, hb, hd⟩ := (hm c).1 hc
          have := hrank c b hd; have := hr b hb; omega
        refine ih next (acc ++ next) hlt ?_ ?_
        · rintro rfl
          obtain ⟨c, hc⟩ := List.exists_mem_of_length_pos (Nat.pos_of_ne_zero hl)
          exact absurd (hlt c hc) (by omega)
        · intro c hc
          obtain ⟨b, hb, hd⟩ := (hm c).1 hc
          obtain ⟨s, hs, hbs⟩ := hreach b hb
          exact ⟨s, hs, Relation.ReflTransGen.head hd hbs⟩
      · exact ⟨_, rfl⟩
  exact key limit ids ids hlim (by omega) fun c hc => ⟨c, hc, .refl⟩

/-- **C40 violated.**  If a station lies on a cycle of the network, the selection never ends: it fails at every
recursion limit. -/
theorem C40_violated_cycle (tab : InflowTable) (ids : List ℤ) (s a : ℤ) (hs : s ∈ ids) (ha : Reaches tab s a)
    (hc : DrainsInto tab a s) (limit : ℕ) (all : List ℤ) : allUpstream tab limit ids ids ≠ .ok all := by
  have key : ∀ (limit : ℕ) (cells acc : List ℤ), (∃ b ∈ cells, Relation.TransGen (DrainsInto tab) b b) →
      allUpstream tab limit cells acc ≠ .ok all := by
    intro limit
    induction limit with
    | zero => intro cells acc _ h; simp [allUpstream] at h
    | succ n ih =>
      rintro cells acc ⟨b, hb, hcyc⟩ h
      simp only [allUpstream] at h
      cases hn : nextLevel tab cells with
      | none => rw [hn] at h; simp at h
      | some next =>
        rw [hn] at h
        obtain ⟨c, hbc, hcb⟩ := Relation.TransGen.tail'_iff.1 hcyc
        have hcn : c ∈ next := (mem_nextLevel tab cells next hn c).2 ⟨b, hb, hcb⟩
        have hne : next.length ≠ 0 := by
          intro h0; rw [List.length_eq_zero_iff] at h0; subst h0; simp at hcn
        simp only [if_pos hne] at h
        exact ih next _ ⟨c, hcn, Relation.TransGen.head' hcb hbc⟩ h
  exact key limit ids ids ⟨s, hs, Relation.TransGen.tail'_iff.2 ⟨a, ha, hc⟩⟩

/-- **C40.**  A station whose coordinates are not in the table ends the run; no basin is simulated in its place. -/
theorem C40_unknown_station {ι : Type} (grid : ι → Option ℤ) (coords : List ((ℤ × ℤ) × ℤ)) (tab : InflowTable)
    (stations : List (ℤ × ℤ)) (limit : ℕ) (st : ℤ × ℤ) (hst : st ∈ stations) (hno : ∀ r ∈ coords, r.1 ≠ st) :
    basinMask true grid coords tab stations limit = .error .keyError := by
  have : stationIds coords stations = .error .keyError := by
    induction stations with
    | nil => simp at hst
    | cons s rest ih =>
      simp only [stationIds]
      rcases List.mem_cons.1 hst with rfl | h
      · have : stationId coords st = none := by
          simp only [stationId, Option.map_eq_none_iff, List.find?_eq_none]
          intro r hr; simpa using hno r hr
        rw [this]
      · rw [ih h]
        cases stationId coords s <;> rfl
  simp [basinMask, this]

/-- Non-vacuity: 5 ← {3, 4}, 3 ← {1, 2}; 6 is elsewhere.  The row of 3 is filled up with zeros. -/
def exTab : InflowTable := fun i =>
  if i = 5 then some [3, 4] else if i = 3 then some [1, 2, 0, 0] else if 0 < i ∧ i ≤ 6 then some [0] else none

example : ∃ mask, basinMask true (fun i : Fin 7 => if i = 0 then none else some (i : ℤ)) [((2, 2), 5), ((1, 1), 3)] exTab
    [(1, 1)] 1000 = .ok mask ∧ mask 1 = some 0 ∧ mask 3 = some 0 ∧ mask 4 = none ∧ mask 0 = none :=
  ⟨_, rfl, rfl, rfl, rfl, rfl⟩

example : ∃ all, allUpstream exTab 1000 [3] [3] = .ok all := by
  refine C40_terminates exTab (fun a => a.toNat) ?_ [3] ?_ 1000 (by decide) (by decide)
  · rintro a b ⟨ha, row, hrow, hm⟩
    simp only [exTab] at hrow
    split_ifs at hrow with h1 h2 h3
    all_goals
      injection hrow with hrow
      subst hrow
      simp at hm
      omega
  · rintro x ⟨s, hs, hx⟩
    have hx6 : 0 < x ∧ x ≤ 6 := by
      rw [List.mem_singleton] at hs
      subst hs
      rcases Relation.ReflTransGen.cases_head hx with rfl | ⟨c, ⟨hp, row, hrow, hm⟩, -⟩
      · decide
      · refine ⟨hp, ?_⟩
        simp only [exTab] at hrow
        split_ifs at hrow
        all_goals
          injection hrow with hrow
          subst hrow
          simp at hm
          omega
    unfold exTab
    split_ifs <;> rfl

example (limit : ℕ) (all : List ℤ) :
    allUpstream (fun i => if i = 1 then some [2] else if i = 2 then some [1] else none) limit [1] [1] ≠ .ok all :=
  C40_violated_cycle _ [1] 1 2 (by simp) (.single ⟨by decide, [1], rfl, by simp⟩) ⟨by decide, [2], rfl, by simp⟩ limit all

example : basinMask true (fun i : Fin 3 => some (i : ℤ)) [((2, 2), 5)] exTab [(2, 2), (9, 9)] 1000 = .error .keyError :=
  C40_unknown_station _ _ _ _ _ (9, 9) (by simp) (by simp)

end WG
