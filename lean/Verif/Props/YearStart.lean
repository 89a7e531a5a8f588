import Verif.Model.YearStart
import Verif.Props.GlobalBalance
import Verif.Props.LandFrac

/-! C70: water on land that a new reservoir takes goes to the reservoir of the unit. -/

namespace WG

section sorted
variable {α : Type} [LinearOrder α]

theorem mem_inner {l : List α} (h : l.Pairwise (· < ·)) (a : α) :
    a ∈ l.tail.dropLast ↔ a ∈ l ∧ (∃ b ∈ l, b < a) ∧ ∃ c ∈ l, a < c := by
  cases l with
  | nil => simp
  | cons b t =>
    rw [List.pairwise_cons] at h
    rw [List.tail_cons]
    rcases List.eq_nil_or_concat t with rfl | ⟨i, c, rfl⟩
    · simp only [List.dropLast_nil, List.not_mem_nil, List.mem_singleton, exists_eq_left, false_iff, not_and]
      rintro rfl h1
      exact absurd h1 (lt_irrefl _)
    · rw [List.concat_eq_append] at h ⊢
      rw [List.dropLast_concat]
      have h2 := List.pairwise_append.mp h.2
      constructor
      · intro ha
        exact ⟨by simp [ha], ⟨b, by simp, h.1 a (by simp [ha])⟩, c, by simp, h2.2.2 a ha c (by simp)⟩
      · rintro ⟨h3, ⟨d, hd, hda⟩, e, he, hae⟩
        simp only [List.mem_cons, List.mem_append, List.not_mem_nil, or_false] at h3 hd he
        rcases h3 with rfl | h3 | rfl
        · rcases hd with rfl | hd
          · exact absurd hda (lt_irrefl _)
          · exact absurd (h.1 d (by simpa using hd)) (lt_asymm hda)
        · exact h3
        · rcases he with rfl | he | rfl
          · exact absurd (h.1 a (by simp)) (lt_asymm hae)
          · exact absurd (h2.2.2 e he a (by simp)) (lt_asymm hae)
          · exact absurd hae (lt_irrefl _)

end sorted

section units
variable {ι : Type} [DecidableEq ι] (cells : List ι) (assign : ι → WithTop ℤ) (area lost : ι → ℝ)

omit [DecidableEq ι] in
theorem sum_ite_filter_unit (l : List ι) (p : ι → Prop) [DecidablePred p] (f : ι → ℝ) :
    (l.map fun y => if p y then f y else 0).sum = ((l.filter fun x => p x).map f).sum := by
  induction l with
  | nil => rfl
  | cons a t ih =>
    by_cases h : p a
    · simp [h, ih]
    · simp [h, ih]

omit [DecidableEq ι] in
theorem mem_assignedUnits (u : WithTop ℤ) :
    u ∈ assignedUnits cells assign ↔
      (∃ x ∈ cells, assign x = u) ∧ (∃ x ∈ cells, assign x < u) ∧ ∃ x ∈ cells, u < assign x := by
  unfold assignedUnits
  rw [mem_inner (Finset.sortedLT_sort _).pairwise]
  simp

omit [DecidableEq ι] in
theorem assignedUnits_nodup : (assignedUnits cells assign).Nodup := by
  unfold assignedUnits
  exact ((Finset.sort_nodup _ _).sublist (List.tail_sublist _)).sublist (List.dropLast_sublist _)

open Classical in
/-- The unit has a reservoir. -/
def HasReservoir (u : WithTop ℤ) : Prop := u ≠ ⊤ ∧ ∃ x ∈ cells, assign x = u ∧ 0 < area x

open Classical in
theorem handUnit_cases (st : ι → ℝ) (u : WithTop ℤ) :
    (HasReservoir cells assign area u ∧ ∃ x ∈ cells, assign x = u ∧ 0 < area x ∧
      handUnit cells assign area lost st u
        = Function.update st x (st x + (cells.map fun y => if assign y = u then lost y else 0).sum)) ∨
    (¬ HasReservoir cells assign area u ∧ handUnit cells assign area lost st u = st) := by
  unfold handUnit
  cases hf : cells.find? fun x => decide (assign x = u ∧ u ≠ ⊤ ∧ 0 < area x) with
  | none =>
    right
    refine ⟨?_, rfl⟩
    rintro ⟨h1, x, hx, h2, h3⟩
    have := List.find?_eq_none.mp hf x hx
    exact this (by simp [h1, h2, h3])
  | some x =>
    left
    have h1 := List.find?_some hf
    have h2 := List.mem_of_find?_eq_some hf
    simp only [decide_eq_true_eq] at h1
    exact ⟨⟨h1.2.1, x, h2, h1.1, h1.2.2⟩, x, h2, h1.1, h1.2.2, rfl⟩

theorem sum_update_unit {cells : List ι} (hn : cells.Nodup) {x : ι} (hx : x ∈ cells) (st : ι → ℝ) (v : ℝ) :
    (cells.map (Function.update st x (st x + v))).sum = (cells.map st).sum + v := by
  induction cells with
  | nil => cases hx
  | cons c cs ih =>
    rw [List.nodup_cons] at hn
    rw [List.map_cons, List.map_cons, List.sum_cons, List.sum_cons]
    rcases List.mem_cons.mp hx with rfl | hx'
    · rw [Function.update_self, List.map_congr_left (g := st) fun y hy => by
        rw [Function.update_of_ne]; rintro rfl; exact hn.1 hy]
      ring
    · rw [ih hn.2 hx', Function.update_of_ne (by rintro rfl; exact hn.1 hx')]
      ring

open Classical in
theorem handUnits_cell (units : List (WithTop ℤ)) (hu : units.Nodup) (st : ι → ℝ) (x : ι) :
    let r := units.foldl (handUnit cells assign area lost) st
    (r x = st x ∨ (0 < area x ∧ x ∈ cells ∧ assign x ∈ units ∧ assign x ≠ ⊤ ∧
      r x = st x + (cells.map fun y => if assign y = assign x then lost y else 0).sum)) := by
  induction units generalizing st with
  | nil => exact .inl rfl
  | cons u us ih =>
    rw [List.nodup_cons] at hu
    have i := ih hu.2 (handUnit cells assign area lost st u)
    simp only [List.foldl_cons] at i ⊢
    rcases handUnit_cases cells assign area lost st u with ⟨⟨h0, -⟩, y, hy, h1, h2, h3⟩ | ⟨-, h3⟩
    · by_cases hxy : x = y
      · subst hxy
        right
        rcases i with i | ⟨-, -, i2, -⟩
        · refine ⟨h2, hy, by simp [h1], by rw [h1]; exact h0, ?_⟩
          rw [i, h3, Function.update_self, h1]
        · exact absurd (h1 ▸ i2) hu.1
      · have e : handUnit cells assign area lost st u x = st x := by rw [h3, Function.update_of_ne hxy]
        rw [e] at i
        rcases i with i | ⟨i0, i1, i2, i3, i4⟩
        · exact .inl i
        · exact .inr ⟨i0, i1, List.mem_cons_of_mem _ i2, i3, i4⟩
    · rw [h3] at i ⊢
      rcases i with i | ⟨i0, i1, i2, i3, i4⟩
      · exact .inl i
      · exact .inr ⟨i0, i1, List.mem_cons_of_mem _ i2, i3, i4⟩

open Classical in
theorem handUnits_sum (hn : cells.Nodup) (units : List (WithTop ℤ)) (hu : units.Nodup) (st : ι → ℝ) (P : ι → Prop)
    (hP : ∀ x y, assign x = assign y → (P x ↔ P y)) :
    ((cells.filter fun x => P x).map (units.foldl (handUnit cells assign area lost) st)).sum
      = ((cells.filter fun x => P x).map st).sum
        + ((cells.filter fun x => P x).map fun y =>
          if assign y ∈ units ∧ HasReservoir cells assign area (assign y) then lost y else 0).sum := by
  induction units generalizing st with
  | nil => simp
  | cons u us ih =>
    rw [List.nodup_cons] at hu
    rw [List.foldl_cons, ih hu.2]
    have key : ((cells.filter fun x => P x).map (handUnit cells assign area lost st u)).sum
        = ((cells.filter fun x => P x).map st).sum
          + ((cells.filter fun x => P x).map fun y =>
            if assign y = u ∧ HasReservoir cells assign area (assign y) then lost y else 0).sum := by
      rcases handUnit_cases cells assign area lost st u with ⟨h0, x, hx, h1, -, h3⟩ | ⟨h0, h3⟩
      · have hs : (cells.map fun y => if assign y = u then lost y else 0).sum
            = ((cells.filter fun x => assign x = u).map lost).sum := by
          rw [sum_ite_filter_unit]
        by_cases hp : P x
        · rw [h3, sum_update_unit (hn.filter _) (List.mem_filter.mpr ⟨hx, by simpa using hp⟩)]
          congr 1
          rw [hs]
          have : (cells.filter fun x => assign x = u).map lost
              = (((cells.filter fun x => P x).filter fun x => assign x = u)).map lost := by
            rw [List.filter_filter]
            congr 1
            apply List.filter_congr
            intro y _
            by_cases hy : assign y = u
            · simp [hy, (hP y x (hy.trans h1.symm)).mpr hp]
            · simp [hy]
          rw [this, ← sum_ite_filter_unit]
          congr 1
          apply List.map_congr_left
          intro y _
          by_cases hy : assign y = u
          · simp [hy, h0]
          · simp [hy]
        · have e1 : ((cells.filter fun x => P x).map (handUnit cells assign area lost st u))
              = (cells.filter fun x => P x).map st := by
            apply List.map_congr_left
            intro y hy
            rw [h3, Function.update_of_ne]
            rintro rfl
            exact hp (by simpa using (List.mem_filter.mp hy).2)
          rw [e1]
          have e2 : ((cells.filter fun x => P x).map fun y =>
              if assign y = u ∧ HasReservoir cells assign area (assign y) then lost y else 0).sum = 0 := by
            apply List.sum_eq_zero
            intro v hv
            obtain ⟨y, hy, rfl⟩ := List.mem_map.mp hv
            rw [if_neg]
            rintro ⟨h4, -⟩
            exact hp ((hP y x (h4.trans h1.symm)).mp (by simpa using (List.mem_filter.mp hy).2))
          rw [e2, add_zero]
      · rw [h3]
        have e2 : ((cells.filter fun x => P x).map fun y =>
            if assign y = u ∧ HasReservoir cells assign area (assign y) then lost y else 0).sum = 0 := by
          apply List.sum_eq_zero
          intro v hv
          obtain ⟨y, hy, rfl⟩ := List.mem_map.mp hv
          rw [if_neg]
          rintro ⟨h4, h5⟩
          exact h0 (h4 ▸ h5)
        rw [e2, add_zero]
    rw [key, add_assoc, ← List.sum_map_add]
    congr 2
    apply List.map_congr_left
    intro y _
    by_cases h4 : assign y = u
    · have : assign y ∉ us := h4 ▸ hu.1
      simp [h4, h4 ▸ this]
    · simp [h4]

/-- The water lost by the cell arrives somewhere: the number of its unit is neither the smallest nor the largest value
of the assignment map (a cell without a number counts as the largest), and some cell of the unit has reservoir area. -/
def Served (y : ι) : Prop :=
  (∃ x ∈ cells, assign x < assign y) ∧ (∃ x ∈ cells, assign y < assign x) ∧
    ∃ x ∈ cells, assign x = assign y ∧ 0 < area x

omit [DecidableEq ι] in
theorem served_iff {y : ι} (hy : y ∈ cells) :
    (assign y ∈ assignedUnits cells assign ∧ HasReservoir cells assign area (assign y)) ↔
      Served cells assign area y := by
  rw [mem_assignedUnits]
  constructor
  · rintro ⟨⟨-, h1, h2⟩, -, h3⟩
    exact ⟨h1, h2, h3⟩
  · rintro ⟨h1, h2, h3⟩
    refine ⟨⟨⟨y, hy, rfl⟩, h1, h2⟩, ?_, h3⟩
    obtain ⟨x, -, hx⟩ := h2
    exact ne_top_of_lt hx

open Classical in
/-- **C70.** At the start of a reservoir year the reservoirs of every unit (every set of cells given by numbers of units)
together gain exactly the water lost by the served cells of these units. -/
theorem C70_unit_volume (hn : cells.Nodup) (st : ι → ℝ) (U : Set (WithTop ℤ)) :
    ((cells.filter fun x => assign x ∈ U).map (handLost cells assign area lost st)).sum
      = ((cells.filter fun x => assign x ∈ U).map st).sum
        + ((cells.filter fun x => assign x ∈ U).map fun y => if Served cells assign area y then lost y else 0).sum := by
  unfold handLost
  rw [handUnits_sum cells assign area lost hn _ (assignedUnits_nodup cells assign) st (fun x => assign x ∈ U)
    (fun x y h => by rw [h])]
  congr 2
  apply List.map_congr_left
  intro y hy
  have hy' := List.mem_of_mem_filter hy
  by_cases h : Served cells assign area y
  · rw [if_pos h, if_pos ((served_iff cells assign area hy').mpr h)]
  · rw [if_neg h, if_neg (fun h' => h ((served_iff cells assign area hy').mp h'))]

open Classical in
/-- C70, whole grid. -/
theorem C70_volume (hn : cells.Nodup) (st : ι → ℝ) :
    (cells.map (handLost cells assign area lost st)).sum
      = (cells.map st).sum + (cells.map fun y => if Served cells assign area y then lost y else 0).sum := by
  have h := C70_unit_volume cells assign area lost hn st Set.univ
  simpa using h

/-- C70: no water is lost exactly when every cell that loses land water belongs to a unit that is served. -/
theorem C70_exact_iff (hn : cells.Nodup) (st : ι → ℝ) (hl : ∀ x ∈ cells, 0 ≤ lost x) :
    (cells.map (handLost cells assign area lost st)).sum = (cells.map st).sum + (cells.map lost).sum ↔
      ∀ x ∈ cells, 0 < lost x → Served cells assign area x := by
  classical
  rw [C70_volume cells assign area lost hn st, add_right_inj]
  have hle : ∀ (l : List ι), (∀ x ∈ l, 0 ≤ lost x) →
      ((l.map fun y => if Served cells assign area y then lost y else 0).sum ≤ (l.map lost).sum ∧
      ((l.map fun y => if Served cells assign area y then lost y else 0).sum = (l.map lost).sum ↔
        ∀ x ∈ l, 0 < lost x → Served cells assign area x)) := by
    intro l
    induction l with
    | nil => intro _; simp
    | cons a t ih =>
      intro h
      obtain ⟨i1, i2⟩ := ih fun x hx => h x (by simp [hx])
      have ha := h a (by simp)
      simp only [List.map_cons, List.sum_cons, List.forall_mem_cons]
      by_cases hs : Served cells assign area a
      · rw [if_pos hs]
        exact ⟨by linarith, by rw [add_right_inj, i2]; simp [hs]⟩
      · rw [if_neg hs]
        refine ⟨by linarith, ?_⟩
        constructor
        · intro e
          have h0 : lost a = 0 := by linarith
          refine ⟨fun hp => absurd hp (by rw [h0]; exact lt_irrefl _), i2.mp (by linarith)⟩
        · rintro ⟨h1, h2⟩
          have h0 : lost a = 0 := le_antisymm (not_lt.mp fun hp => hs (h1 hp)) ha
          rw [h0, i2.mpr h2]
  exact (hle cells hl).2

open Classical in
/-- C70, cell by cell: the storage of a cell only changes in a cell with reservoir area, and then it grows by what all
the cells of the unit have lost. -/
theorem C70_cell (st : ι → ℝ) (x : ι) :
    handLost cells assign area lost st x = st x ∨
      (0 < area x ∧ handLost cells assign area lost st x
        = st x + (cells.map fun y => if assign y = assign x then lost y else 0).sum) := by
  rcases handUnits_cell cells assign area lost _ (assignedUnits_nodup cells assign) st x with h | ⟨h1, -, -, -, h2⟩
  · exact .inl h
  · exact .inr ⟨h1, h2⟩

open Classical in
/-- C70: the water goes to the first cell of the unit (in the order of the grid) that has reservoir area. -/
theorem C70_target (l₁ l₂ : List ι) (x : ι) (hc : cells = l₁ ++ x :: l₂)
    (hfirst : ∀ y ∈ l₁, assign y = assign x → ¬ 0 < area y) (ha : 0 < area x) (st : ι → ℝ)
    (hs : Served cells assign area x) :
    handLost cells assign area lost st x
      = st x + (cells.map fun y => if assign y = assign x then lost y else 0).sum := by
  have hx : x ∈ cells := by rw [hc]; simp
  obtain ⟨hm, hr⟩ := (served_iff cells assign area hx).mpr hs
  unfold handLost
  have hu := assignedUnits_nodup cells assign
  generalize assignedUnits cells assign = units at hm hu
  induction units generalizing st with
  | nil => cases hm
  | cons u us ih =>
    rw [List.nodup_cons] at hu
    rw [List.foldl_cons]
    by_cases h : assign x = u
    · subst h
      have hf : cells.find? (fun y => decide (assign y = assign x ∧ assign x ≠ ⊤ ∧ 0 < area y)) = some x := by
        rw [hc, List.find?_append, List.find?_eq_none.mpr, Option.none_or, List.find?_cons_of_pos]
        · simpa using ⟨hr.1, ha⟩
        · intro y hy
          simp only [decide_eq_true_eq]
          rintro ⟨h1, -, h2⟩
          exact hfirst y hy h1 h2
      have e : handUnit cells assign area lost st (assign x) x
          = st x + (cells.map fun y => if assign y = assign x then lost y else 0).sum := by
        unfold handUnit
        rw [hf]
        exact Function.update_self ..
      rcases handUnits_cell cells assign area lost us hu.2 (handUnit cells assign area lost st (assign x)) x with h | h
      · rw [h, e]
      · exact absurd h.2.2.1 hu.1
    · have hm' : assign x ∈ us := by
        rcases List.mem_cons.mp hm with h' | h'
        · exact absurd h' h
        · exact h'
      rw [ih _ hm' hu.2]
      congr 1
      rcases handUnit_cases cells assign area lost st u with ⟨-, y, -, h1, -, h3⟩ | ⟨-, h3⟩
      · rw [h3, Function.update_of_ne]
        rintro rfl
        exact h h1
      · rw [h3]

/-- C70: reservoirs never lose water at the start of a year. -/
theorem C70_mono (st : ι → ℝ) (hl : ∀ x ∈ cells, 0 ≤ lost x) (x : ι) : st x ≤ handLost cells assign area lost st x := by
  classical
  rcases C70_cell cells assign area lost st x with h | ⟨-, h⟩
  · exact h.ge
  · rw [h]
    have : 0 ≤ (cells.map fun y => if assign y = assign x then lost y else 0).sum := by
      apply List.sum_nonneg
      intro v hv
      obtain ⟨y, hy, rfl⟩ := List.mem_map.mp hv
      split_ifs
      · exact hl y hy
      · exact le_rfl
    linarith

/-- C70 is violated for the unit with the largest number if every cell of the map has a number: the water its land loses
to its reservoir disappears. -/
theorem C70_violated_last_unit : ∃ (cells : List ℕ) (assign : ℕ → WithTop ℤ) (area lost st : ℕ → ℝ),
    cells.Nodup ∧ (∀ x ∈ cells, assign x ≠ ⊤) ∧ (∀ x ∈ cells, 0 < lost x → 0 < area x) ∧
      (cells.map (handLost cells assign area lost st)).sum < (cells.map st).sum + (cells.map lost).sum := by
  classical
  refine ⟨[0, 1, 2], fun x => ((x : ℤ) : WithTop ℤ), fun x => if x = 2 then 5 else 0, fun x => if x = 2 then 1 else 0,
    fun _ => 0, by decide, fun x _ => WithTop.coe_ne_top, fun x _ h => ?_, ?_⟩
  · by_contra h'
    by_cases hx : x = 2
    · simp [hx] at h'
    · simp [hx] at h
  · rw [C70_volume _ _ _ _ (by decide)]
    have h2 : ¬ Served [0, 1, 2] (fun x : ℕ => ((x : ℤ) : WithTop ℤ)) (fun x => if x = 2 then 5 else 0) 2 := by
      rintro ⟨-, ⟨x, hx, h⟩, -⟩
      simp only [WithTop.coe_lt_coe, Nat.cast_lt] at h
      simp at hx
      omega
    simp only [List.map_cons, List.map_nil, List.sum_cons, List.sum_nil, if_neg h2]
    norm_num

/-- Non-vacuity: three cells of unit 7 (one with a reservoir), one of unit 3, one without a unit: the reservoir of unit 7
gets the water of its three cells. -/
example : handLost [0, 1, 2, 3, 4] (fun x : ℕ => if x = 0 then (3 : ℤ) else if x = 4 then ⊤ else (7 : ℤ))
    (fun x => if x = 2 then 10 else 0) (fun _ => 1) (fun _ => 100) 2 = 103 := by
  classical
  rw [C70_target [0, 1, 2, 3, 4] _ _ _ [0, 1] [3, 4] 2 rfl]
  · norm_num
  · intro y hy h
    simp only [List.mem_cons, List.not_mem_nil, or_false] at hy
    rcases hy with rfl | rfl <;> norm_num
  · norm_num
  · refine ⟨⟨0, by simp, ?_⟩, ⟨4, by simp, ?_⟩, ⟨2, by simp, by simp, by norm_num⟩⟩
    · simp only [if_true]; exact WithTop.coe_lt_coe.mpr (by norm_num)
    · simp only [if_true]; exact WithTop.coe_lt_top _

end units

end WG
