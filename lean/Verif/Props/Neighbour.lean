import Verif.Model.Neighbour
import Verif.Props.Demand

/-! # C58, C59: demand passed on to neighbouring cells -/

namespace WG

set_option linter.unusedSectionVars false
set_option linter.unusedSimpArgs false

/-! ### Redistribution, whatever was returned -/

theorem redist_other' (i : RedistIn Cell) (rip : Cell → ℝ) (c : Cell) (hc : c ∉ i.riparian) (hcx : c ≠ i.x) :
    (redistribute i rip).2 c = rip c := by
  unfold redistribute
  have hc' : ∀ l : List Cell, (∀ r ∈ l, r ∈ i.order) → ∀ st : ℝ × (Cell → ℝ),
      (l.foldl (redistStep i) st).2 c = st.2 c := by
    intro l
    induction l with
    | nil => intros; rfl
    | cons r l ih =>
      intro hl st
      rw [List.foldl_cons, ih (fun a ha => hl a (by simp [ha]))]
      unfold redistStep
      by_cases hr : i.unit i.x = i.unit r ∧ i.x ≠ r
      · have hrc : c ≠ r := by
          rintro rfl
          exact hc (List.mem_filter.mpr ⟨hl c (by simp), by simpa using hr⟩)
        simp only [if_pos hr]
        by_cases hd : i.acc - i.carried > 0
        · simp only [if_pos hd]
          by_cases hu : i.unagg i.x ≤ 0
          · simp only [if_pos hu, Function.update_of_ne hrc]
          · simp only [if_neg hu, Function.update_of_ne hrc]
        · simp only [if_neg hd, Function.update_of_ne hrc, Function.update_of_ne hcx]
      · rw [if_neg hr]
  exact hc' i.order (fun _ h => h) _

theorem redist_sum' (i : RedistIn Cell) (rip : Cell → ℝ) (hcons : i.Consistent)
    (hu : 0 < i.positive ∨ i.acc ≤ i.carried) :
    i.acc - (redistribute i rip).1 = (i.riparian.map (redistribute i rip).2).sum := by
  by_cases hne : i.riparian = []
  · rw [(C21_nothing_to_share i rip).2 hne, hne]; simp
  by_cases hle : i.acc ≤ i.carried
  · obtain ⟨h1, h2, -⟩ := (C21_nothing_to_share i rip).1 hle
    rw [h1, sub_self]
    symm
    apply List.sum_eq_zero
    intro y hy
    obtain ⟨r, hr, rfl⟩ := List.mem_map.mp hy
    exact h2 r hr
  · have hp := hu.resolve_right hle
    have := (C21_redistribute i hcons hp hne (not_le.mp hle) rip).2.2.2
    linarith

/-! ### Sums over the cells -/

theorem sum_update (cells : List Cell) (hnd : cells.Nodup) (e : Cell) (he : e ∈ cells) (f : Cell → ℝ) (v : ℝ) :
    (cells.map (Function.update f e v)).sum = (cells.map f).sum - f e + v := by
  have h1 : Function.update f e v = fun x => f x + if e = x then v - f e else 0 := by
    funext x
    by_cases hx : x = e
    · subst hx; simp
    · rw [Function.update_of_ne hx, if_neg (Ne.symm hx), add_zero]
  rw [h1, List.sum_map_add, sum_indicator cells hnd, if_pos he]
  ring

/-! ### Riparian cells -/

section
variable (cin : Cell → CellIn) (q : DemandDay)

open Classical in
/-- What the turn of cell `e` does to the demand waiting at shore cells. -/
theorem waiting_step (hu : ∀ x y, (cin x).hasLake → (cin y).hasLake → q.unit x = q.unit y → x = y)
    {P S : List Cell} {e : Cell} (hnd : (P ++ e :: S).Nodup) (hord : q.order = P ++ e :: S) (rip : Cell → ℝ)
    (i : RedistIn Cell) (hi : i.x = e) (hio : i.order = q.order) (hiu : i.unit = q.unit) :
    let rip' := if (cin e).hasLake then (redistribute i rip).2 else rip
    ((P ++ e :: S).map fun x => if Waits cin q (P ++ e :: S) (P ++ [e]) x then rip' x else 0).sum =
      ((P ++ e :: S).map fun x => if Waits cin q (P ++ e :: S) P x then rip x else 0).sum
      - (if Waits cin q (P ++ e :: S) P e then rip e else 0)
      + (if (cin e).hasLake then (i.riparian.map (redistribute i rip).2).sum else 0) := by
  intro rip'
  have hriparian : i.riparian = (P ++ e :: S).filter fun x => decide (q.unit e = q.unit x ∧ e ≠ x) := by
    unfold RedistIn.riparian; rw [hio, hiu, hi, hord]
  have h3 : ((P ++ e :: S).map fun x => if q.unit e = q.unit x ∧ e ≠ x then
        (if (cin e).hasLake then (redistribute i rip).2 x else 0) else 0).sum =
      (i.riparian.map fun x => if (cin e).hasLake then (redistribute i rip).2 x else 0).sum := by
    rw [sum_ite_filter (P ++ e :: S) (fun x => q.unit e = q.unit x ∧ e ≠ x), hriparian]
  have hpt : ∀ x ∈ P ++ e :: S, (if Waits cin q (P ++ e :: S) (P ++ [e]) x then rip' x else 0) =
      (if Waits cin q (P ++ e :: S) P x then rip x else 0)
      + (if e = x then -(if Waits cin q (P ++ e :: S) P e then rip e else 0) else 0)
      + (if q.unit e = q.unit x ∧ e ≠ x then (if (cin e).hasLake then (redistribute i rip).2 x else 0) else 0) := by
    intro x _
    by_cases hxe : x = e
    · subst hxe
      have hw := (waits_self cin q hnd).1
      rw [if_neg hw]
      simp
    · rw [if_neg (Ne.symm hxe)]
      by_cases hn : (cin e).hasLake ∧ q.unit e = q.unit x
      · obtain ⟨w1, w2⟩ := waits_shore cin q hu hnd hxe hn.1 hn.2
        have hn1 : q.unit e = q.unit x ∧ e ≠ x := ⟨hn.2, Ne.symm hxe⟩
        have hr : rip' x = (redistribute i rip).2 x := by simp only [rip', if_pos hn.1]
        rw [if_pos w2, if_neg w1, if_pos hn1, if_pos hn.1, hr]
        ring
      · have hz : (if q.unit e = q.unit x ∧ e ≠ x then
            (if (cin e).hasLake then (redistribute i rip).2 x else 0) else 0) = (0 : ℝ) := by
          by_cases h1 : q.unit e = q.unit x ∧ e ≠ x
          · rw [if_pos h1, if_neg (fun hl => hn ⟨hl, h1.1⟩)]
          · rw [if_neg h1]
        have hr : rip' x = rip x := by
          by_cases hl : (cin e).hasLake
          · simp only [rip', if_pos hl]
            refine redist_other' i rip x (fun hm => ?_) (by rw [hi]; exact hxe)
            rw [hriparian] at hm
            have := (List.mem_filter.mp hm).2
            simp only [decide_eq_true_eq] at this
            exact hn ⟨hl, this.1⟩
          · simp only [rip', if_neg hl]
        rw [hz, hr]
        simp only [waits_other cin q (P ++ e :: S) hxe hn]
        ring
  rw [List.map_congr_left hpt, List.sum_map_add, List.sum_map_add, sum_indicator _ hnd, if_pos (by simp),
    h3]
  by_cases hl : (cin e).hasLake
  · simp only [if_pos hl]; ring
  · simp only [if_neg hl, List.map_const', List.sum_replicate, smul_zero]; ring

end

/-! ### The neighbour -/

theorem neighbour_cases (avail : Cell → ℝ) (nbs : List (Cell × Cell)) (d : ℝ) (x : Cell) (month day : ℕ)
    (turned : Cell → ℕ) :
    getNeighbour avail nbs d x month day turned = (0, 0) ∨
    (0 < d ∧ ∃ p ∈ nbs, getNeighbour avail nbs d x month day turned = p.1 ∧ 0 < avail p.1 ∧
      (month = 12 ∧ day = 31 → ¬ turned p.1 > turned x)) := by
  unfold getNeighbour
  by_cases hd : d > 0
  · simp only [if_pos hd]
    obtain ⟨-, -, h⟩ := neighbour_fold avail x nbs ((0, 0), 0) le_rfl
    rcases h with h | ⟨p, hp, he, h⟩
    · left; rw [h]; split_ifs <;> rfl
    · rw [h]
      by_cases hdate : month = 12 ∧ day = 31
      · simp only [if_pos hdate]
        by_cases hc : turned p.1 > turned x
        · left; rw [if_pos hc]
        · right; exact ⟨hd, p, hp, if_neg hc, he.2.2, fun _ => hc⟩
      · simp only [if_neg hdate]
        right; exact ⟨hd, p, hp, rfl, he.2.2, fun h => absurd h hdate⟩
  · left; rw [if_neg hd]

/-! ### The ledger of a day -/

section
variable (cin : Cell → CellIn) (q : NbDay)

/-- Whether what cell `c` passed on is still waiting at the supply cell `s` after the cells `p` have had their turn. -/
def Pend (cells p : List Cell) (c s : Cell) : Prop :=
  if s ∈ p then c ∈ p ∧ cells.idxOf s < cells.idxOf c else c ∈ p ∨ cells.idxOf s < cells.idxOf c

/-- A sensible day with sensible remains of the day before: water use is on; lakes and their units
as in `DemandOk`; no cell is its own neighbour; what waits at a supply cell is what the cells that come
later in the routing order passed on the day before, to a cell of the basin; and a cell whose demand waits
elsewhere carried nothing over. -/
structure NbOk (cells : List Cell) (l : NbLedger) : Prop where
  order : q.order = cells
  use : ∀ x, (cin x).useOpt = true
  unit : ∀ x, (cin x).hasLake → 0 < q.unit x
  unique : ∀ x y, (cin x).hasLake → (cin y).hasLake → q.unit x = q.unit y → x = y
  cons : ∀ x, (cin x).hasLake → q.pot x = min (q.unagg x) 0 + q.positive x
  prev : ∀ x, (cin x).hasLake → 0 ≤ q.prev x ∧ l.acc x ≤ max (q.pot x) 0 + q.prev x
  waiting : ∀ x ∈ cells, (cin x).hasLake → realCell (l.nbMap x) → cells.idxOf (l.nbMap x) < cells.idxOf x →
    l.acc x ≤ max (q.pot x) 0
  rip : ∀ x, (∀ L ∈ cells, ¬ Outlet cin q.toDemandDay L x) → l.rip x = 0
  sign : ∀ x, 0 < (cin x).glolakeArea → 0 ≤ l.acc x
  sent : ∀ x, 0 ≤ l.sent x
  real : ∀ x ∈ cells, l.sent x ≠ 0 → realCell (l.nbMap x) ∧ l.nbMap x ∈ cells
  self : ∀ x ∈ cells, realCell (l.nbMap x) → l.nbMap x ≠ x
  pend : ∀ s ∈ cells, l.toSupply s =
    ((cells.filter fun c => l.nbMap c = s ∧ cells.idxOf s < cells.idxOf c).map l.sent).sum
  ret : ∀ x, l.ret x = none
  retNext : ∀ x, l.retNext x = none
  daily : ∀ x, (l.daily x).isSome
  turned : ∀ x, l.turned x = 0
  nbs : ∀ x, ∀ p ∈ q.nbs x, p.1 ≠ x

open Classical in
/-- What holds after the cells `p` have had their turn. -/
structure NbInv (cells : List Cell) (l0 : NbLedger) (p : List Cell) (l : NbLedger) : Prop where
  accNew : ∀ x ∉ p, l.acc x = l0.acc x
  accOld : ∀ x ∈ p, 0 ≤ l.acc x
  ripLake : ∀ x, (∀ L ∈ cells, ¬ Outlet cin q.toDemandDay L x) → l.rip x = 0
  sent : ∀ x, 0 ≤ l.sent x
  real : ∀ x ∈ cells, l.sent x ≠ 0 → realCell (l.nbMap x) ∧ l.nbMap x ∈ cells
  self : ∀ x ∈ cells, realCell (l.nbMap x) → l.nbMap x ≠ x
  mapNew : ∀ x ∉ p, l.nbMap x = l0.nbMap x
  pend : ∀ s ∈ cells, l.toSupply s = (cells.map fun c => if l.nbMap c = s ∧ Pend cells p c s then l.sent c else 0).sum
  ret : ∀ x ∈ cells, ∀ r, l.ret x = some r →
    0 ≤ r ∧ l.nbMap x ∈ p ∧ realCell (l.nbMap x) ∧ (x ∈ p → cells.idxOf x < cells.idxOf (l.nbMap x))
  passed : ∀ x ∈ p, realCell (l.nbMap x) → l.acc x = 0
  dailyNew : ∀ x ∉ p, l.daily x = l0.daily x
  dailyOld : ∀ x ∈ p, (l.daily x = none ↔ realCell (l.nbMap x) ∧ l.nbMap x ∈ cells ∧
    cells.idxOf (l.nbMap x) < cells.idxOf x)
  retNextNew : ∀ x ∉ p, l.retNext x = none
  turned : ∀ x, l.turned x = if x ∈ p then 1 else 0
  yearEnd : q.month = 12 ∧ q.day = 31 → ∀ x ∈ p, l.daily x ≠ none

open Classical in
/-- All demand in the ledger after the cells `p` have had their turn. -/
noncomputable def nbOpen (cells p : List Cell) (l : NbLedger) : ℝ :=
  (cells.map l.acc).sum + (cells.map fun x => if Waits cin q.toDemandDay cells p x then l.rip x else 0).sum
    + (cells.map l.toSupply).sum + (cells.map fun x => (l.ret x).getD 0).sum


variable {cin q}

theorem takenUp_eq {cells P : List Cell} {l0 l : NbLedger} (hI : NbInv cin q cells l0 P l) {e : Cell} (he : e ∈ cells) :
    l.takenUp e = l.ret e := by
  unfold NbLedger.takenUp
  cases hr : l.ret e with
  | none => rfl
  | some r => simp only [if_pos (hI.ret e he r hr).1]

theorem retNext_eq {cells P : List Cell} {l0 l : NbLedger} (hI : NbInv cin q cells l0 P l) {e : Cell} (he : e ∈ cells)
    (heP : e ∉ P) : nbRetNext l e = l.ret e := by
  unfold nbRetNext
  rw [takenUp_eq hI he]
  cases hr : l.ret e with
  | none => exact hI.retNextNew e heP
  | some r => rfl

theorem asked_sum {cells P S : List Cell} {e : Cell} {l0 l : NbLedger} (hcells : cells = P ++ e :: S) (hnd : cells.Nodup)
    (hI : NbInv cin q cells l0 P l) :
    ((cells.filter fun c => l.nbMap c = e).map l.sent).sum = l.toSupply e := by
  classical
  have hnd' := hnd
  rw [hcells] at hnd'
  obtain ⟨i1, i2, i3⟩ := idx_split hnd'
  rw [← hcells] at i1 i2 i3
  have heP : e ∉ P := fun hm => by have := i2 e hm; omega
  have he : e ∈ cells := by rw [hcells]; simp
  rw [hI.pend e he, ← sum_ite_filter]
  congr 1
  apply List.map_congr_left
  intro c hc
  by_cases hm : l.nbMap c = e
  · by_cases hs0 : l.sent c = 0
    · rw [hs0]; simp
    have hce : c ≠ e := fun h' => hI.self c hc (hI.real c hc hs0).1 (by rw [hm, h'])
    have hp : Pend cells P c e := by
      unfold Pend
      rw [if_neg heP]
      by_cases hcP : c ∈ P
      · exact Or.inl hcP
      · right; have := i3 c hcP hce; omega
    rw [if_pos hm, if_pos ⟨hm, hp⟩]
  · rw [if_neg hm, if_neg (fun h' => hm h'.1)]

/-- A supply cell that was asked is a real cell. -/
theorem asked_real {cells P S : List Cell} {e : Cell} {l0 l : NbLedger} (hcells : cells = P ++ e :: S) (hnd : cells.Nodup)
    (hI : NbInv cin q cells l0 P l) (ht : l.toSupply e > 0) : realCell e := by
  by_contra hre
  have hz : ((cells.filter fun c => l.nbMap c = e).map l.sent).sum = 0 := by
    apply List.sum_eq_zero
    intro y hy
    obtain ⟨c', hc', rfl⟩ := List.mem_map.mp hy
    rw [List.mem_filter] at hc'
    have hm' : l.nbMap c' = e := by simpa using hc'.2
    by_contra hne
    exact hre (hm' ▸ (hI.real c' hc'.1 hne).1)
  rw [asked_sum hcells hnd hI] at hz
  linarith

/-- What a supply cell gives back. -/
theorem alloc_facts {cells P S : List Cell} {e : Cell} {l0 l : NbLedger} (hcells : cells = P ++ e :: S) (hnd : cells.Nodup)
    (hord : q.order = cells) (hI : NbInv cin q cells l0 P l) (o : CellOut)
    (hbal : o.nas + o.unsat + o.handed = nbDemand cin q l e) (hun : 0 ≤ o.unsat) (ret0 : Cell → Option ℝ)
    (hret0 : ∀ c, c ≠ e → ret0 c = l.ret c) :
    let a := allocate (nbAlloc cin q l e o) ret0
    a.1 + a.2.2 = o.unsat ∧ 0 ≤ a.1 ∧
    (∀ c ∈ cells, l.nbMap c = e → l.toSupply e > 0 → ∃ r, 0 ≤ r ∧ a.2.1 c = some r) ∧
    (∀ c, l.nbMap c ≠ e ∨ ¬ l.toSupply e > 0 → a.2.1 c = ret0 c) ∧
    (cells.map fun c => (a.2.1 c).getD 0).sum = (cells.map fun c => (ret0 c).getD 0).sum + a.2.2 := by
  classical
  intro a
  have hsum := asked_sum hcells hnd hI
  have hnd' := hnd
  rw [hcells] at hnd'
  obtain ⟨i1, i2, i3⟩ := idx_split hnd'
  have heP : e ∉ P := fun hm => by have := i2 e hm; omega
  by_cases ht : l.toSupply e > 0
  · have h24 := C24_returned (nbAlloc cin q l e o) ret0 ht hun (by
      simp only [nbAlloc, hord]; exact hsum)
    simp only at h24
    obtain ⟨r1, r2, r3, r4⟩ := h24
    change ∀ c ∈ q.order, l.nbMap c = e → a.2.1 c = some (l.sent c / l.toSupply e * a.2.2) at r1
    change ∀ c, l.nbMap c ≠ e → a.2.1 c = ret0 c at r2
    change ((q.order.filter fun c => l.nbMap c = e).map fun c => (a.2.1 c).getD 0).sum = a.2.2 at r3
    change a.1 + a.2.2 = o.unsat at r4
    rw [hord] at r1 r3
    have hfirst := C24_own_demand_first (nbAlloc cin q l e o) ret0 (by
      simp only [nbAlloc]; unfold nbDemand at hbal; linarith) ht hun
    have hpos : 0 ≤ a.1 ∧ 0 ≤ a.2.2 := by
      by_cases hn : 0 < (nbAlloc cin q l e o).totalNoAlloc
      · obtain ⟨f1, f2⟩ := hfirst.1 hn
        change a.2.2 = _ at f1
        change a.1 = _ at f2
        rw [f1, f2]
        exact ⟨le_max_left _ _, le_min hun ht.le⟩
      · obtain ⟨f1, f2⟩ := hfirst.2 (not_lt.mp hn)
        change a.2.2 = _ at f1
        change a.1 = _ at f2
        rw [f1, f2]
        exact ⟨le_rfl, hun⟩
    refine ⟨r4, hpos.1, ?_, ?_, ?_⟩
    · intro c hc hm _
      exact ⟨_, mul_nonneg (div_nonneg (hI.sent c) ht.le) hpos.2, r1 c hc hm⟩
    · rintro c (hc | hc)
      · exact r2 c hc
      · exact absurd ht hc
    · have hpt : ∀ c ∈ cells, (a.2.1 c).getD 0 = (ret0 c).getD 0 + if l.nbMap c = e then (a.2.1 c).getD 0 else 0 := by
        intro c hc
        by_cases hm : l.nbMap c = e
        · rw [if_pos hm]
          have hce : c ≠ e := fun h' => hI.self c hc (by rw [hm]; exact asked_real hcells hnd hI ht) (by rw [hm, h'])
          have : ret0 c = none := by
            rw [hret0 c hce]
            cases hr : l.ret c with
            | none => rfl
            | some r => exact absurd ((hI.ret c hc r hr).2.1) (by rw [hm]; exact heP)
          rw [this]; simp
        · rw [if_neg hm, r2 c hm, add_zero]
      rw [List.map_congr_left hpt, List.sum_map_add, sum_ite_filter, r3]
  · have hz : a = (o.unsat, ret0, 0) := C24_not_asked (nbAlloc cin q l e o) ret0 (not_lt.mp ht)
    rw [hz]
    refine ⟨by simp, hun, fun c _ _ h' => absurd h' ht, fun c _ => rfl, by simp⟩

/-- The neighbour a cell asks is another cell of the basin. -/
theorem neighbour_facts (cin : Cell → CellIn) {cells : List Cell} (hord : q.order = cells) (hnbs : ∀ x, ∀ p ∈ q.nbs x, p.1 ≠ x) (d : ℝ) (e : Cell)
    (turned : Cell → ℕ) (state : Cell → CellState)
    (hr : realCell (getNeighbour (nbAvail cin q state) (q.nbs e) d e q.month q.day turned)) :
    let nb := getNeighbour (nbAvail cin q state) (q.nbs e) d e q.month q.day turned
    nb ∈ cells ∧ nb ≠ e ∧ 0 < d ∧ (q.month = 12 ∧ q.day = 31 → ¬ turned nb > turned e) := by
  intro nb
  rcases neighbour_cases (nbAvail cin q state) (q.nbs e) d e q.month q.day turned with h | ⟨hd, p, hp, he, ha, ht⟩
  · rw [h] at hr; exact absurd hr.1 (by simp)
  · have hnb : nb = p.1 := he
    rw [hnb]
    refine ⟨?_, hnbs e p hp, hd, ht⟩
    by_contra hc
    rw [nbAvail, hord, if_neg hc] at ha
    exact lt_irrefl _ ha

open Classical in
/-- The turn of a cell keeps the books. -/
theorem nb_step {cells P S : List Cell} {e : Cell} {l0 l : NbLedger} (hcells : cells = P ++ e :: S) (hnd : cells.Nodup)
    (h : NbOk cin q cells l0) (hI : NbInv cin q cells l0 P l) (o : CellOut) (state : Cell → CellState)
    (hbal : o.nas + o.unsat + o.handed = nbDemand cin q l e) (hun : 0 ≤ o.unsat)
    (hhand : o.handed = if (cin e).hasLake then
      ((nbRedist q l e o.lakeUnsat).riparian.map (redistribute (nbRedist q l e o.lakeUnsat) l.rip).2).sum else 0) :
    NbInv cin q cells l0 (P ++ [e]) (nbUpd cin q l e o state) ∧
    nbOpen cin q cells (P ++ [e]) (nbUpd cin q l e o state) + o.nas
      + (if q.delayed then 0 else (nbRetNext l e).getD 0) = nbOpen cin q cells P l := by
  have hnd' := hnd
  rw [hcells] at hnd'
  obtain ⟨i1, i2, i3⟩ := idx_split hnd'
  rw [← hcells] at i1 i2 i3
  have heP : e ∉ P := fun hm => by have := i2 e hm; omega
  have he : e ∈ cells := by rw [hcells]; simp
  have htk := takenUp_eq hI he
  set ret0 := if (l.takenUp e).isSome then Function.update l.ret e none else l.ret with hret0
  have hret0e : ret0 e = none := by
    rw [hret0]
    by_cases hs : (l.takenUp e).isSome
    · rw [if_pos hs, Function.update_self]
    · rw [if_neg hs, ← htk]; simpa using hs
  have hret0o : ∀ c, c ≠ e → ret0 c = l.ret c := by
    intro c hc
    rw [hret0]
    split_ifs
    · rw [Function.update_of_ne hc]
    · rfl
  obtain ⟨a1, a2, a3, a4, a5⟩ := alloc_facts hcells hnd h.order hI o hbal hun ret0 hret0o
  set a := allocate (nbAlloc cin q l e o) ret0 with ha
  set to0 := if l.toSupply e > 0 then Function.update l.toSupply e 0 else l.toSupply with hto0
  set nb := getNeighbour (nbAvail cin q state) (q.nbs e) a.1 e q.month q.day l.turned with hnb
  set L := nbUpd cin q l e o state with hL
  have Lacc : L.acc = Function.update l.acc e (if realCell nb then 0 else a.1) := rfl
  have Lrip : L.rip = if (cin e).hasLake then (redistribute (nbRedist q l e o.lakeUnsat) l.rip).2 else l.rip := by
    have : L.rip = if (cin e).useOpt = true ∧ (cin e).hasLake then
      (redistribute (nbRedist q l e o.lakeUnsat) l.rip).2 else l.rip := rfl
    rw [this]; simp only [h.use e, true_and]
  have Lsent : L.sent = Function.update l.sent e (if realCell nb then a.1 else 0) := rfl
  have Lto : L.toSupply = if realCell nb then Function.update to0 nb (to0 nb + a.1) else to0 := rfl
  have Lret : L.ret = a.2.1 := rfl
  have LretNext : L.retNext = Function.update l.retNext e (nbRetNext l e) := rfl
  have Ldaily : L.daily = if realCell nb ∧ l.turned nb > l.turned e then
      Function.update (Function.update l.daily e (nbDaily q l e)) e none
      else Function.update l.daily e (nbDaily q l e) := rfl
  have Lmap : L.nbMap = Function.update l.nbMap e nb := rfl
  have Lturned : L.turned = Function.update l.turned e 1 := rfl
  have hnbf : realCell nb → nb ∈ cells ∧ nb ≠ e ∧ 0 < a.1 := fun hr =>
    let k := neighbour_facts cin h.order h.nbs a.1 e l.turned state hr
    ⟨k.1, k.2.1, k.2.2.1⟩
  have hte : 0 ≤ l.toSupply e := by
    rw [← asked_sum hcells hnd hI]
    apply List.sum_nonneg
    intro y hy
    obtain ⟨c, -, rfl⟩ := List.mem_map.mp hy
    exact hI.sent c
  have hto0e : to0 e = 0 := by
    rw [hto0]
    by_cases ht : l.toSupply e > 0
    · rw [if_pos ht, Function.update_self]
    · rw [if_neg ht]; linarith [not_lt.mp ht]
  have hto0o : ∀ c, c ≠ e → to0 c = l.toSupply c := by
    intro c hc
    rw [hto0]; split_ifs
    · rw [Function.update_of_ne hc]
    · rfl
  have hmemP : ∀ x, x ∈ P ++ [e] ↔ x ∈ P ∨ x = e := by intro x; simp
  refine ⟨⟨?_, ?_, ?_, ?_, ?_, ?_, ?_, ?_, ?_, ?_, ?_, ?_, ?_, ?_, ?_⟩, ?_⟩
  · -- accNew
    intro x hx
    rw [hmemP, not_or] at hx
    rw [Lacc, Function.update_of_ne hx.2]; exact hI.accNew x hx.1
  · -- accOld
    intro x hx
    rw [Lacc]
    by_cases hxe : x = e
    · subst hxe; rw [Function.update_self]; split_ifs
      · exact le_rfl
      · exact a2
    · rw [Function.update_of_ne hxe]
      exact hI.accOld x (((hmemP x).1 hx).resolve_right hxe)
  · -- ripLake
    intro x hx
    rw [Lrip]
    by_cases hl : (cin e).hasLake
    · rw [if_pos hl]
      by_cases hxe : x = e
      · subst hxe; exact redist_self_zero (nbRedist q l x o.lakeUnsat) _ (hI.ripLake x hx)
      · rw [redist_other' _ _ x _ hxe]
        · exact hI.ripLake x hx
        · intro hm
          have := (List.mem_filter.mp hm).2
          have := of_decide_eq_true this
          exact hx e he ⟨hl, this.1, this.2⟩
    · rw [if_neg hl]; exact hI.ripLake x hx
  · -- sent
    intro x
    rw [Lsent]
    by_cases hxe : x = e
    · subst hxe; rw [Function.update_self]; split_ifs
      · exact a2
      · exact le_rfl
    · rw [Function.update_of_ne hxe]; exact hI.sent x
  · -- real
    intro x hx hs
    rw [Lsent] at hs
    rw [Lmap]
    by_cases hxe : x = e
    · subst hxe
      rw [Function.update_self] at hs ⊢
      by_cases hr : realCell nb
      · exact ⟨hr, (hnbf hr).1⟩
      · rw [if_neg hr] at hs; exact absurd rfl hs
    · rw [Function.update_of_ne hxe] at hs ⊢; exact hI.real x hx hs
  · -- self
    intro x hx
    rw [Lmap]
    by_cases hxe : x = e
    · subst hxe
      rw [Function.update_self]
      exact fun hr => (hnbf hr).2.1
    · rw [Function.update_of_ne hxe]; exact hI.self x hx
  · -- mapNew
    intro x hx
    rw [hmemP, not_or] at hx
    rw [Lmap, Function.update_of_ne hx.2]; exact hI.mapNew x hx.1
  · -- pend
    intro s hs
    have hpt : ∀ c ∈ cells, (if L.nbMap c = s ∧ Pend cells (P ++ [e]) c s then L.sent c else 0) =
        (if s = e then 0 else if l.nbMap c = s ∧ Pend cells P c s then l.sent c else 0)
        + (if e = c then (if nb = s ∧ realCell nb then a.1 else 0) else 0) := by
      intro c hc
      by_cases hse : s = e
      · subst hse
        have hp : ¬ Pend cells (P ++ [s]) c s := by
          unfold Pend
          rw [if_pos (by simp)]
          rintro ⟨h1, h2⟩
          rcases (hmemP c).1 h1 with h1 | h1
          · have := i2 c h1; omega
          · subst h1; omega
        rw [if_neg (fun h' => hp h'.2), if_pos rfl]
        by_cases hr : nb = s ∧ realCell nb
        · exact absurd hr.1 (hnbf hr.2).2.1
        · rw [if_neg hr]; simp
      · rw [if_neg hse]
        have hsP : s ∈ P ++ [e] ↔ s ∈ P := by simp [hse]
        by_cases hce : c = e
        · subst hce
          have hold : ¬ Pend cells P c s := by
            unfold Pend
            by_cases hs' : s ∈ P
            · rw [if_pos hs']; exact fun h' => heP h'.1
            · rw [if_neg hs']
              rintro (h' | h')
              · exact heP h'
              · have := i3 s hs' hse; omega
          have hnew : Pend cells (P ++ [c]) c s := by
            unfold Pend
            by_cases hs' : s ∈ P
            · rw [if_pos (hsP.2 hs')]; exact ⟨by simp, by have := i2 s hs'; omega⟩
            · rw [if_neg (fun h' => hs' (hsP.1 h'))]; left; simp
          have hz : (if l.nbMap c = s ∧ Pend cells P c s then l.sent c else 0) = 0 := if_neg (fun h' => hold h'.2)
          rw [hz, if_pos rfl, Lmap, Lsent, Function.update_self, Function.update_self, zero_add]
          by_cases hn : nb = s
          · rw [if_pos ⟨hn, hnew⟩]
            by_cases hr : realCell nb
            · rw [if_pos hr, if_pos ⟨hn, hr⟩]
            · rw [if_neg hr, if_neg (fun h' => hr h'.2)]
          · rw [if_neg (fun h' => hn h'.1), if_neg (fun h' => hn h'.1)]
        · have hcP : c ∈ P ++ [e] ↔ c ∈ P := by simp [hce]
          rw [Lmap, Lsent, Function.update_of_ne hce, Function.update_of_ne hce, if_neg (Ne.symm hce), add_zero]
          have : Pend cells (P ++ [e]) c s ↔ Pend cells P c s := by
            unfold Pend; simp only [hsP, hcP]
          simp only [this]
    rw [List.map_congr_left hpt, List.sum_map_add, sum_indicator _ hnd, if_pos he]
    by_cases hse : s = e
    · subst hse
      have hr : ¬ (nb = s ∧ realCell nb) := fun hr => (hnbf hr.2).2.1 hr.1
      simp only [if_true, if_neg hr, List.map_const', List.sum_replicate, smul_zero, add_zero]
      rw [Lto]
      by_cases hrn : realCell nb
      · rw [if_pos hrn, Function.update_of_ne (Ne.symm (hnbf hrn).2.1), hto0e]
      · rw [if_neg hrn, hto0e]
    · simp only [if_neg hse]
      rw [← hI.pend s hs, Lto]
      by_cases hrn : realCell nb
      · rw [if_pos hrn]
        by_cases hns : nb = s
        · rw [if_pos ⟨hns, hrn⟩, ← hns, Function.update_self, hto0o nb (hnbf hrn).2.1]
        · rw [if_neg (fun h' => hns h'.1), Function.update_of_ne (Ne.symm hns), hto0o s hse, add_zero]
      · rw [if_neg hrn, if_neg (fun h' => hrn h'.2), hto0o s hse, add_zero]
  · -- ret
    intro x hx r hr
    rw [Lret] at hr
    rw [Lmap]
    by_cases hxe : x = e
    · exfalso
      subst hxe
      by_cases hm : l.nbMap x = x ∧ l.toSupply x > 0
      · exact hI.self x hx (by rw [hm.1]; exact asked_real hcells hnd hI hm.2) hm.1
      · rw [a4 x (by by_contra hc; push Not at hc; exact hm hc), hret0e] at hr
        exact absurd hr (by simp)
    · rw [Function.update_of_ne hxe]
      by_cases hm : l.nbMap x = e ∧ l.toSupply e > 0
      · obtain ⟨r', hr', hs'⟩ := a3 x hx hm.1 hm.2
        rw [hs'] at hr
        obtain rfl : r' = r := by simpa using hr
        refine ⟨hr', by rw [hm.1]; simp, by rw [hm.1]; exact asked_real hcells hnd hI hm.2, fun hxP => ?_⟩
        rw [hm.1, i1]
        exact i2 x (((hmemP x).1 hxP).resolve_right hxe)
      · rw [a4 x (by by_contra hc; push Not at hc; exact hm hc), hret0o x hxe] at hr
        obtain ⟨b1, b2, b3, b4⟩ := hI.ret x hx r hr
        exact ⟨b1, (hmemP _).2 (Or.inl b2), b3, fun hxP => b4 (((hmemP x).1 hxP).resolve_right hxe)⟩
  · -- passed
    intro x hx hr
    rw [Lmap] at hr
    rw [Lacc]
    by_cases hxe : x = e
    · subst hxe
      rw [Function.update_self] at hr ⊢
      rw [if_pos hr]
    · rw [Function.update_of_ne hxe] at hr ⊢
      exact hI.passed x (((hmemP x).1 hx).resolve_right hxe) hr
  · -- dailyNew
    intro x hx
    rw [hmemP, not_or] at hx
    rw [Ldaily]
    split_ifs
    · rw [Function.update_of_ne hx.2, Function.update_of_ne hx.2]; exact hI.dailyNew x hx.1
    · rw [Function.update_of_ne hx.2]; exact hI.dailyNew x hx.1
  · -- dailyOld
    intro x hx
    rw [Lmap]
    by_cases hxe : x = e
    · subst hxe
      rw [Function.update_self, Ldaily]
      have hsome : (nbDaily q l x).isSome := by
        unfold nbDaily
        cases l.takenUp x with
        | some r => rfl
        | none => rw [hI.dailyNew x heP]; exact h.daily x
      have hturn : realCell nb → (l.turned nb > l.turned x ↔ cells.idxOf nb < cells.idxOf x) := by
        intro hr
        rw [hI.turned nb, hI.turned x, if_neg heP]
        by_cases hnP : nb ∈ P
        · rw [if_pos hnP]; have := i2 nb hnP; simp; omega
        · rw [if_neg hnP]; have := i3 nb hnP (hnbf hr).2.1; simp; omega
      by_cases hc : realCell nb ∧ l.turned nb > l.turned x
      · rw [if_pos hc, Function.update_self]
        simp only [true_iff]
        exact ⟨hc.1, (hnbf hc.1).1, (hturn hc.1).1 hc.2⟩
      · rw [if_neg hc, Function.update_self]
        constructor
        · intro hn; rw [hn] at hsome; exact absurd hsome (by simp)
        · rintro ⟨h1, -, h2⟩; exact absurd ⟨h1, (hturn h1).2 h2⟩ hc
    · rw [Function.update_of_ne hxe, Ldaily]
      rw [← hI.dailyOld x (((hmemP x).1 hx).resolve_right hxe)]
      split_ifs
      · rw [Function.update_of_ne hxe, Function.update_of_ne hxe]
      · rw [Function.update_of_ne hxe]
  · -- retNextNew
    intro x hx
    rw [hmemP, not_or] at hx
    rw [LretNext, Function.update_of_ne hx.2]; exact hI.retNextNew x hx.1
  · -- turned
    intro x
    rw [Lturned]
    by_cases hxe : x = e
    · subst hxe; rw [Function.update_self, if_pos (by simp)]
    · rw [Function.update_of_ne hxe, hI.turned x]
      simp only [hmemP, hxe, or_false]
  · -- yearEnd
    intro hdate x hx
    rw [Ldaily]
    have hno : ¬ (realCell nb ∧ l.turned nb > l.turned e) := fun hr =>
      (neighbour_facts cin h.order h.nbs a.1 e l.turned state hr.1).2.2.2 hdate hr.2
    rw [if_neg hno]
    by_cases hxe : x = e
    · subst hxe
      rw [Function.update_self]
      unfold nbDaily
      cases l.takenUp x with
      | some r => simp
      | none =>
        have := h.daily x
        rw [← hI.dailyNew x heP] at this
        intro hn
        simp only at hn
        rw [hn] at this
        exact absurd this (by simp)
    · rw [Function.update_of_ne hxe]
      exact hI.yearEnd hdate x (((hmemP x).1 hx).resolve_right hxe)
  · -- the sum
    have hDval : nbDemand cin q l e = l.acc e
        + (if Waits cin q.toDemandDay (P ++ e :: S) P e then l.rip e else 0)
        + (if q.delayed then (l.ret e).getD 0 else 0) + l.toSupply e := by
      unfold nbDemand nbOwn
      simp only [h.use e, and_true, htk]
      by_cases hw : ∃ L ∈ P ++ e :: S, Outlet cin q.toDemandDay L e
      · rw [if_pos ((waits_self cin q.toDemandDay hnd').2.2 hw)]
        obtain ⟨L', -, ho⟩ := hw
        have : q.unit e > 0 := by rw [← ho.2.1]; exact h.unit L' ho.1
        rw [if_pos this]
      · have hz := hI.ripLake e (fun L' hL' hO => hw ⟨L', by rw [← hcells]; exact hL', hO⟩)
        rw [if_neg (fun hh => hw ((waits_self cin q.toDemandDay hnd').2.1 hh)), hz]
        split_ifs <;> rfl
    have hrip := waiting_step cin q.toDemandDay h.unique hnd' (h.order.trans hcells) l.rip (nbRedist q l e o.lakeUnsat)
      rfl rfl rfl
    simp only at hrip
    rw [← Lrip, ← hhand, ← hcells] at hrip
    have hret : (cells.map fun c => (L.ret c).getD 0).sum
        = (cells.map fun c => (l.ret c).getD 0).sum - (l.ret e).getD 0 + a.2.2 := by
      rw [Lret, a5]
      have : (fun c => (ret0 c).getD 0) = Function.update (fun c => (l.ret c).getD 0) e 0 := by
        funext c
        by_cases hc : c = e
        · subst hc; rw [Function.update_self, hret0e]; rfl
        · rw [Function.update_of_ne hc, hret0o c hc]
      rw [this, sum_update cells hnd e he]
      ring
    have hto : (cells.map L.toSupply).sum + L.acc e = (cells.map l.toSupply).sum - l.toSupply e + a.1 := by
      have h0 : (cells.map to0).sum = (cells.map l.toSupply).sum - l.toSupply e := by
        have : to0 = Function.update l.toSupply e 0 := by
          funext c
          by_cases hc : c = e
          · subst hc; rw [Function.update_self, hto0e]
          · rw [Function.update_of_ne hc, hto0o c hc]
        rw [this, sum_update cells hnd e he]; ring
      rw [Lto, Lacc, Function.update_self]
      by_cases hr : realCell nb
      · rw [if_pos hr, if_pos hr, sum_update cells hnd nb (hnbf hr).1, h0]; ring
      · rw [if_neg hr, if_neg hr, h0]
    have hacc : (cells.map L.acc).sum = (cells.map l.acc).sum - l.acc e + L.acc e := by
      rw [Lacc, Function.update_self, sum_update cells hnd e he]
    have hrn := retNext_eq hI he heP
    unfold nbOpen
    rw [← hcells] at hDval
    rw [hrip, hret, hacc, hrn]
    cases hdl : q.delayed
    · simp only [hdl, Bool.false_eq_true, if_false] at hDval ⊢
      linarith
    · simp only [hdl, if_true] at hDval ⊢
      linarith

theorem physical_unsatNas {c : CellIn} (h : c.Physical) (v : ℝ) : ({ c with unsatNas := v } : CellIn).Physical :=
  ⟨h.precip, h.openPet, h.runoff, h.minV, h.factor, h.swbK, h.gwConst, h.redExp, h.len, h.locLake, h.locWet, h.gloWet,
    h.maxGlolake, h.cap⟩

theorem ok_unsatNas {c : CellIn} {st : CellState} (h : st.Ok c) (v : ℝ) : st.Ok ({ c with unsatNas := v } : CellIn) :=
  ⟨h.locLake, h.locWet, h.gloLake, h.res, h.gloWet, h.river⟩

open Classical in
/-- What a lake or reservoir leaves unsatisfied and the cell does not keep goes to the riparian cells. -/
theorem nb_handed {cells P S : List Cell} {e : Cell} {l0 l : NbLedger} (hcells : cells = P ++ e :: S) (hnd : cells.Nodup)
    (h : NbOk cin q cells l0) (hI : NbInv cin q cells l0 P l) (st : CellState) (up : ℝ) (hp : (cin e).Physical)
    (hs : st.Ok (cin e)) (hup : 0 ≤ up) (hsg : 0 < (cin e).glolakeArea → 0 ≤ nbDemand cin q l e) :
    let o := nbTurn cin q l e st up
    o.handed = if (cin e).hasLake then
      ((nbRedist q l e o.lakeUnsat).riparian.map (redistribute (nbRedist q l e o.lakeUnsat) l.rip).2).sum else 0 := by
  intro o
  have hnd' := hnd
  rw [hcells] at hnd'
  obtain ⟨i1, i2, i3⟩ := idx_split hnd'
  rw [← hcells] at i1 i2 i3
  have heP : e ∉ P := fun hm => by have := i2 e hm; omega
  have he : e ∈ cells := by rw [hcells]; simp
  set c := nbIn cin q l e with hc
  set D := nbDemand cin q l e with hD
  have hh : o.handed = cellUnsat1 c st up D - cellUnsat2 c st up D (nbKeep q l e) := rfl
  have hu1 : o.lakeUnsat = cellUnsat1 c st up D := rfl
  have huse : c.useOpt = true := h.use e
  by_cases hl : (cin e).hasLake
  · rw [if_pos hl]
    have hl' : c.hasLake := hl
    have h2 : cellUnsat2 c st up D (nbKeep q l e) = nbKeep q l e o.lakeUnsat := by
      unfold cellUnsat2
      rw [if_pos ⟨huse, hl'⟩, hu1]
    rw [hh, h2, ← hu1]
    have hle := cellUnsat1_le c st up D (physical_unsatNas hp _) (ok_unsatNas hs _) hup hsg hl'
    rw [← hu1] at hle
    have hcons := h.cons e hl
    have hpos : (nbRedist q l e o.lakeUnsat).positive = q.toDemandDay.positive e := rfl
    refine redist_sum' (nbRedist q l e o.lakeUnsat) l.rip hcons ?_
    rw [hpos]
    by_cases hq : 0 < q.toDemandDay.positive e
    · exact Or.inl hq
    · right
      obtain ⟨p1, p2⟩ := h.prev e hl
      have hrz : l.rip e = 0 := hI.ripLake e fun L' _ ho => ho.2.2 (h.unique L' e ho.1 hl ho.2.1)
      have hpot : q.pot e ≤ 0 := by
        rw [hcons]; have := min_le_right (q.unagg e) 0; linarith [not_lt.mp hq]
      rw [max_eq_right hpot] at p2
      have hto : 0 ≤ l.toSupply e := by
        rw [← asked_sum hcells hnd hI]
        apply List.sum_nonneg
        intro y hy
        obtain ⟨c, -, rfl⟩ := List.mem_map.mp hy
        exact hI.sent c
      have hr0 : 0 ≤ (l.ret e).getD 0 := by
        cases hr : l.ret e with
        | none => simp
        | some r => exact (hI.ret e he r hr).1
      have hDv : D ≤ l0.acc e + (l.ret e).getD 0 + l.toSupply e := by
        rw [hD]
        unfold nbDemand nbOwn
        rw [takenUp_eq hI he, hrz, hI.accNew e heP]
        cases q.delayed <;> simp [hr0]
      have hcar : (nbRedist q l e o.lakeUnsat).acc = o.lakeUnsat := rfl
      rw [hcar]
      have hcd : (nbRedist q l e o.lakeUnsat).carried =
          if (nbRetNext l e).getD 0 = 0 then l.toSupply e + q.prev e else l.toSupply e + (nbRetNext l e).getD 0 := rfl
      rw [hcd]
      rw [retNext_eq hI he heP]
      refine hle.trans ?_
      by_cases hz : (l.ret e).getD 0 = 0
      · rw [if_pos hz]; rw [hz] at hDv
        exact max_le (by linarith) (by linarith)
      · rw [if_neg hz]
        cases hr : l.ret e with
        | none => rw [hr] at hz; exact absurd rfl hz
        | some r =>
          obtain ⟨b1, b2, b3, b4⟩ := hI.ret e he r hr
          have hm := hI.mapNew e heP
          have hw := h.waiting e he hl (by rw [← hm]; exact b3) (by rw [← hm]; have := i2 _ b2; omega)
          rw [max_eq_right hpot] at hw
          rw [hr] at hDv
          simp only [Option.getD_some] at hDv ⊢
          exact max_le (by linarith) (by linarith)
  · rw [if_neg hl]
    have h2 : cellUnsat2 c st up D (nbKeep q l e) = cellUnsat1 c st up D := by
      unfold cellUnsat2
      exact if_neg (fun hh' => hl hh'.2)
    rw [hh, h2]; simp

/-- The unsatisfied demand the groundwater balance of cell `x` uses on the day: what came back from the neighbour less
what was known before if the neighbour had to finish first, otherwise what the cell's own day left. -/
noncomputable def nbSeen (q : NbDay) (l0 l : NbLedger) (x : Cell) : ℝ :=
  match l.retNext x with
  | some r => r - q.prev x
  | none => (l0.daily x).getD 0

open Classical in
/-- Loop invariant of a day. -/
theorem nb_inv {order : List (Cell × Cell)} (hS : Sound order) {l0 : NbLedger}
    (h : NbOk cin q (order.map Prod.fst) l0) (state : Cell → CellState)
    (hc : ∀ x ∈ order.map Prod.fst, (cin x).Physical ∧ (state x).Ok (cin x) ∧ 0 ≤ (cin x).corr)
    (P : List (Cell × Cell)) :
    ∀ S, order = P ++ S →
    let s := nbDayRun cin q P l0 state
    NbInv cin q (order.map Prod.fst) l0 (P.map Prod.fst) s.ledger.demand ∧ (∀ x, 0 ≤ s.inflow x) ∧
    (∀ x ∉ P.map Prod.fst, s.ledger.state x = state x) ∧
    nbOpen cin q (order.map Prod.fst) (P.map Prod.fst) s.ledger.demand + ((P.map Prod.fst).map (did s (·.nas))).sum
      + (if q.delayed then 0 else ((P.map Prod.fst).map fun x => (s.ledger.demand.retNext x).getD 0).sum)
      = nbOpen cin q (order.map Prod.fst) [] l0 ∧
    (∀ x ∈ P.map Prod.fst,
      CellDid (state x) { cin x with unsatNas := nbSeen q l0 s.ledger.demand x } (s.up x) (s.flow x)
        (s.ledger.state x) (s.ledger.out x) ∧
      (∀ r, s.ledger.demand.retNext x = some r → 0 ≤ r ∧ realCell (l0.nbMap x) ∧
        l0.nbMap x ∈ order.map Prod.fst ∧ (order.map Prod.fst).idxOf (l0.nbMap x) < (order.map Prod.fst).idxOf x)) := by
  induction P using List.reverseRecOn with
  | nil =>
    intro S _
    refine ⟨⟨fun _ _ => rfl, by simp, h.rip, h.sent, h.real, h.self, fun _ _ => rfl, ?_, ?_, by simp, fun _ _ => rfl, by simp,
      fun x _ => h.retNext x, fun x => by rw [if_neg (by simp)]; exact h.turned x, by simp⟩, by simp [nbDayRun, route, routeStart], fun x _ => rfl, ?_, by simp⟩
    · intro s hs
      change l0.toSupply s = _
      rw [h.pend s hs, ← sum_ite_filter]
      congr 1
      apply List.map_congr_left
      intro c _
      have : Pend (order.map Prod.fst) [] c s ↔ (order.map Prod.fst).idxOf s < (order.map Prod.fst).idxOf c := by
        unfold Pend; simp
      change _ = if l0.nbMap c = s ∧ _ then l0.sent c else 0
      simp only [List.map_nil, this]
    · intro x _ r hr
      change l0.ret x = some r at hr
      rw [h.ret x] at hr; exact absurd hr (by simp)
    · simp [nbDayRun, route, routeStart]
  | append_singleton P e ih =>
    intro S hos
    have hos' : order = P ++ (e :: S) := by rw [hos]; simp
    obtain ⟨j1, j2, j3, j4, j5⟩ := ih (e :: S) hos'
    have hcells : order.map Prod.fst = P.map Prod.fst ++ e.1 :: S.map Prod.fst := by rw [hos']; simp
    have hnd := hS.nodup
    have hnd' := hnd
    rw [hcells] at hnd'
    obtain ⟨i1, i2, i3⟩ := idx_split hnd'
    rw [← hcells] at i1 i2 i3
    have heP : e.1 ∉ P.map Prod.fst := fun hm => by have := i2 e.1 hm; omega
    have he : e.1 ∈ order.map Prod.fst := by rw [hcells]; simp
    obtain ⟨c1, c2, c3⟩ := hc e.1 he
    have hstep : nbDayRun cin q (P ++ [e]) l0 state = routeStep (nbNode cin q) (nbDayRun cin q P l0 state) e := by
      unfold nbDayRun; rw [route_append]
    have hPe : (P ++ [e]).map Prod.fst = P.map Prod.fst ++ [e.1] := by simp
    simp only at j1 j2 j3 j4 j5 ⊢
    rw [hstep, hPe]
    generalize nbDayRun cin q P l0 state = s at *
    set l := s.ledger.demand with hl
    have hst := j3 e.1 heP
    have hto : 0 ≤ l.toSupply e.1 := by
      rw [← asked_sum hcells hnd j1]
      apply List.sum_nonneg
      intro y hy
      obtain ⟨c, -, rfl⟩ := List.mem_map.mp hy
      exact j1.sent c
    have hsg : 0 < (cin e.1).glolakeArea → 0 ≤ nbDemand cin q l e.1 := by
      intro hg
      have hlk : (cin e.1).hasLake := Or.inr hg
      have hrz : l.rip e.1 = 0 := j1.ripLake e.1 fun L' _ ho => ho.2.2 (h.unique L' e.1 ho.1 hlk ho.2.1)
      have ha := h.sign e.1 hg
      have hr : 0 ≤ (l.ret e.1).getD 0 := by
        cases hr : l.ret e.1 with
        | none => simp
        | some r => exact (j1.ret e.1 he r hr).1
      unfold nbDemand nbOwn
      rw [takenUp_eq j1 he, hrz, j1.accNew e.1 heP]
      simp only [ite_self, add_zero]
      split_ifs <;> linarith
    set c := nbIn cin q l e.1 with hcdef
    have p1 : c.Physical := physical_unsatNas c1 _
    have p2 : (state e.1).Ok c := ok_unsatNas c2 _
    set o := nbTurn cin q l e.1 (state e.1) (s.inflow e.1) with ho
    have hbal := C25_demand c (state e.1) (s.inflow e.1) (nbDemand cin q l e.1) (nbKeep q l e.1) p1 p2 (j2 e.1) hsg
    have hun := (C25_unsat_nonneg c (state e.1) (s.inflow e.1) (nbDemand cin q l e.1) (nbKeep q l e.1) p1 p2 (j2 e.1) hsg).1
    have hhand := nb_handed hcells hnd h j1 (state e.1) (s.inflow e.1) c1 c2 (j2 e.1) hsg
    have hrin := (riverIn_facts c (state e.1) (s.inflow e.1) (nbDemand cin q l e.1) p1 p2 (j2 e.1) hsg).2
    have hfl := (C25_fluxes c (state e.1) (s.inflow e.1) (nbDemand cin q l e.1) (nbKeep q l e.1) p1 p2 (j2 e.1)
      (show 0 ≤ c.corr from c3) hsg).1
    obtain ⟨k1, k2⟩ := nb_step hcells hnd h j1 o (Function.update s.ledger.state e.1 o.state) hbal hun hhand
    have hL : (routeStep (nbNode cin q) s e).ledger =
        { demand := nbUpd cin q l e.1 o (Function.update s.ledger.state e.1 o.state)
          state := Function.update s.ledger.state e.1 o.state
          out := Function.update s.ledger.out e.1 (some o) } := by
      simp only [routeStep, nbNode, hst]
      rfl
    have hin : (routeStep (nbNode cin q) s e).inflow =
        if drains e.2 then Function.update (Function.update s.inflow e.1 (cellRiverIn c (state e.1) (s.inflow e.1) (nbDemand cin q l e.1))) e.2
          (Function.update s.inflow e.1 (cellRiverIn c (state e.1) (s.inflow e.1) (nbDemand cin q l e.1)) e.2 + o.streamflow)
        else Function.update s.inflow e.1 (cellRiverIn c (state e.1) (s.inflow e.1) (nbDemand cin q l e.1)) := by
      simp only [routeStep, nbNode, hst]
      rfl
    have hflow : (routeStep (nbNode cin q) s e).flow = Function.update s.flow e.1 o.streamflow := by
      simp only [routeStep, nbNode, hst]
      rfl
    have hup : (routeStep (nbNode cin q) s e).up = Function.update s.up e.1 (s.inflow e.1) := rfl
    refine ⟨by rw [hL]; exact k1, ?_, ?_, ?_, ?_⟩
    · intro x
      rw [hin]
      have base : ∀ y, 0 ≤ Function.update s.inflow e.1
          (cellRiverIn c (state e.1) (s.inflow e.1) (nbDemand cin q l e.1)) y := by
        intro y
        by_cases hy : y = e.1
        · subst hy; rw [Function.update_self]; exact hrin
        · rw [Function.update_of_ne hy]; exact j2 y
      by_cases hdr : drains e.2
      · rw [if_pos hdr]
        by_cases hx : x = e.2
        · rw [hx, Function.update_self]; exact add_nonneg (base _) hfl
        · rw [Function.update_of_ne hx]; exact base x
      · rw [if_neg hdr]; exact base x
    · intro x hx
      rw [List.mem_append, not_or] at hx
      have hxe : x ≠ e.1 := fun h' => hx.2 (by simp [h'])
      rw [hL]
      change Function.update s.ledger.state e.1 o.state x = state x
      rw [Function.update_of_ne hxe]; exact j3 x hx.1
    · rw [← j4, ← k2]
      have hd1 : ∀ x ∈ P.map Prod.fst, did (routeStep (nbNode cin q) s e) (·.nas) x = did s (·.nas) x := by
        intro x hx
        have hxe : x ≠ e.1 := fun h' => heP (h' ▸ hx)
        unfold did; rw [hL]; simp [Function.update_of_ne hxe]
      have hd2 : did (routeStep (nbNode cin q) s e) (·.nas) e.1 = o.nas := by
        unfold did; rw [hL]; simp
      rw [List.map_append, List.sum_append, List.map_congr_left hd1, List.map_singleton, List.sum_singleton, hd2]
      have hLd : (routeStep (nbNode cin q) s e).ledger.demand =
        nbUpd cin q l e.1 o (Function.update s.ledger.state e.1 o.state) := by rw [hL]
      have hn1 : ∀ x ∈ P.map Prod.fst, ((routeStep (nbNode cin q) s e).ledger.demand.retNext x).getD 0
          = (l.retNext x).getD 0 := by
        intro x hx
        have hxe : x ≠ e.1 := fun h' => heP (h' ▸ hx)
        rw [hLd]
        change ((Function.update l.retNext e.1 (nbRetNext l e.1)) x).getD 0 = _
        rw [Function.update_of_ne hxe]
      have hn2 : ((routeStep (nbNode cin q) s e).ledger.demand.retNext e.1).getD 0 = (nbRetNext l e.1).getD 0 := by
        rw [hLd]
        change ((Function.update l.retNext e.1 (nbRetNext l e.1)) e.1).getD 0 = _
        rw [Function.update_self]
      rw [List.map_append, List.sum_append, List.map_congr_left hn1, List.map_singleton, List.sum_singleton, hn2, hLd]
      cases q.delayed
      · simp only [Bool.false_eq_true, if_false]; ring
      · simp only [if_true]; ring
    · intro x hx
      have hLn : (routeStep (nbNode cin q) s e).ledger.demand.retNext = Function.update l.retNext e.1 (nbRetNext l e.1) := by
        rw [hL]; rfl
      by_cases hxe : x = e.1
      · subst hxe
        have hrn : nbRetNext l e.1 = l.ret e.1 := retNext_eq j1 he heP
        have hseen : nbSeen q l0 (routeStep (nbNode cin q) s e).ledger.demand e.1 = (nbDaily q l e.1).getD 0 := by
          unfold nbSeen nbDaily
          rw [hLn, Function.update_self, hrn, takenUp_eq j1 he]
          cases hr : l.ret e.1 with
          | none => rw [j1.dailyNew e.1 heP]
          | some r => rfl
        refine ⟨⟨nbDemand cin q l e.1, nbKeep q l e.1, hsg, ?_, ?_, ?_, ?_⟩, ?_⟩
        · rw [hup, Function.update_self]; exact j2 e.1
        · rw [hL, hup, Function.update_self]
          change Function.update s.ledger.out e.1 (some o) e.1 = _
          rw [Function.update_self, ← hL, hseen]
          rfl
        · rw [hup, Function.update_self, hseen, hL]
          change Function.update s.ledger.state e.1 o.state e.1 = _
          rw [Function.update_self]; rfl
        · rw [hup, Function.update_self, hseen, hflow, Function.update_self]; rfl
        · intro r hr
          rw [hLn, Function.update_self, hrn] at hr
          obtain ⟨b1, b2, b3, b4⟩ := j1.ret e.1 he r hr
          have hm := j1.mapNew e.1 heP
          rw [← hm]
          exact ⟨b1, b3, by rw [hcells]; exact List.mem_append_left _ b2, by have := i2 _ b2; omega⟩
      · have hxP : x ∈ P.map Prod.fst := by
          rw [List.mem_append] at hx
          exact hx.resolve_right (by simpa using hxe)
        obtain ⟨g1, g2⟩ := j5 x hxP
        have hseen : nbSeen q l0 (routeStep (nbNode cin q) s e).ledger.demand x = nbSeen q l0 l x := by
          unfold nbSeen
          rw [hLn, Function.update_of_ne hxe]
        rw [hseen, hLn, Function.update_of_ne hxe, hup, Function.update_of_ne hxe, hflow, Function.update_of_ne hxe, hL]
        change CellDid _ _ _ _ (Function.update s.ledger.state e.1 o.state x) (Function.update s.ledger.out e.1 (some o) x) ∧ _
        rw [Function.update_of_ne hxe, Function.update_of_ne hxe]
        exact ⟨g1, g2⟩

end

/-! ### Day after day -/

/-- A sensible day for the basin whose water bodies are `base` (as `DayIn.Good`). -/
structure NbDayIn.Good (base : Cell → CellIn) (r : NbRun) (d : NbDayIn) : Prop where
  same : ∀ x, SameBodies (base x) (d.cin x)
  cell : ∀ x ∈ r.order.map Prod.fst, (d.cin x).Physical ∧ 0 ≤ (d.cin x).corr ∧ (d.cin x).WetDeep
  use : ∀ x, (d.cin x).useOpt = true
  sign : ∀ x, 0 < (d.cin x).glolakeArea → 0 ≤ d.pot x
  cons : ∀ x, (base x).hasLake → d.pot x = min (d.unagg x) 0 + (max (d.unagg x) 0 +
    (((r.order.map Prod.fst).filter fun y => r.unit x = r.unit y ∧ x ≠ y).map fun y => max (d.unagg y) 0).sum)

/-- The geography: a sound routing order, lakes with their units, and no cell is its own neighbour. -/
structure NbRun.Good (base : Cell → CellIn) (r : NbRun) : Prop where
  sound : Sound r.order
  units : UnitsOk base r.unit (r.order.map Prod.fst)
  nbs : ∀ x, ∀ p ∈ r.nbs x, p.1 ≠ x

/-- Cell `x` passed its demand on to a cell that comes before it in the routing order, so that the answer comes on the
next day. -/
def NbRun.waits (r : NbRun) (c : NbCarry) (x : Cell) : Prop :=
  realCell (c.nbMap x) ∧ (r.order.map Prod.fst).idxOf (c.nbMap x) < (r.order.map Prod.fst).idxOf x

/-- What is carried over makes sense: as `Carry.Good`, and what waits at supply cells is what was passed on to
them. -/
structure NbCarry.Good (base : Cell → CellIn) (r : NbRun) (c : NbCarry) : Prop where
  state : ∀ x ∈ r.order.map Prod.fst, (c.state x).Ok (base x)
  lake : ∀ x, (base x).hasLake → 0 ≤ (c.unsat x).prev ∧
    (r.delayed = true → 0 ≤ (c.unsat x).acc ∧ (c.unsat x).acc ≤ (c.unsat x).prev)
  waits : ∀ x ∈ r.order.map Prod.fst, r.waits c x → (c.unsat x).acc = 0 ∧ (c.unsat x).daily = 0
  rip : ∀ x, (∀ L ∈ r.order.map Prod.fst, ¬ ((base L).hasLake ∧ r.unit L = r.unit x ∧ L ≠ x)) → c.rip x = 0
  sent : ∀ x, 0 ≤ c.sent x
  real : ∀ x ∈ r.order.map Prod.fst, c.sent x ≠ 0 → realCell (c.nbMap x) ∧ c.nbMap x ∈ r.order.map Prod.fst
  self : ∀ x ∈ r.order.map Prod.fst, realCell (c.nbMap x) → c.nbMap x ≠ x
  pend : ∀ s ∈ r.order.map Prod.fst, c.toSupply s = (((r.order.map Prod.fst).filter fun x =>
    c.nbMap x = s ∧ (r.order.map Prod.fst).idxOf s < (r.order.map Prod.fst).idxOf x).map c.sent).sum

/-- A run starts with nothing carried over (`waterbalance_lateral.py:287-300,352-364`). -/
theorem nbCarry_start (base : Cell → CellIn) (r : NbRun) (state : Cell → CellState)
    (hs : ∀ x ∈ r.order.map Prod.fst, (state x).Ok (base x)) :
    NbCarry.Good base r ⟨fun _ => ⟨0, 0, 0⟩, fun _ => 0, fun _ => 0, fun _ => 0, fun _ => (0, 0), state⟩ := by
  refine ⟨hs, fun _ _ => ⟨le_rfl, fun _ => ⟨le_rfl, le_rfl⟩⟩, fun _ _ _ => ⟨rfl, rfl⟩, fun _ _ => rfl, fun _ => le_rfl, fun _ _ h => absurd rfl h,
    fun _ _ h => absurd h.1 (by simp), fun s _ => ?_⟩
  simp

/-- All unsatisfied demand the basin carries over to the next day: of the cells (if use is delayed), handed to cells on
the shore of lakes for the next day, and waiting at supply cells. -/
noncomputable def NbCarry.open (base : Cell → CellIn) (r : NbRun) (c : NbCarry) : ℝ :=
  (if r.delayed then ((r.order.map Prod.fst).map fun x => (c.unsat x).acc).sum else 0)
    + onTheWay base ⟨fun _ => 0, fun _ => 0, r.unit, fun _ => 0, r.order.map Prod.fst⟩ (r.order.map Prod.fst) c.rip
    + ((r.order.map Prod.fst).map c.toSupply).sum

/-- What the cells took on the day. -/
noncomputable def NbDayIn.used (r : NbRun) (c : NbCarry) (d : NbDayIn) : ℝ :=
  ((r.order.map Prod.fst).map (did (d.routed r c) (·.nas))).sum

/-- The demand of a cell that is left at the end of a day's routing. -/
noncomputable def NbDayIn.left (r : NbRun) (c : NbCarry) (d : NbDayIn) (x : Cell) : ℝ :=
  ((d.routed r c).ledger.demand.ret x).getD ((d.routed r c).ledger.demand.acc x)

/-- What a cell got back on the day, before its turn, of the demand it had passed on the day before. -/
noncomputable def NbDayIn.answer (r : NbRun) (c : NbCarry) (d : NbDayIn) (x : Cell) : ℝ :=
  ((d.routed r c).ledger.demand.retNext x).getD 0

/-- What is given up: with delayed use the demand left on 31 December, without it the demand left at the end of every day
and what cells got back of the demand of the day before. -/
noncomputable def NbDayIn.givenUp (r : NbRun) (c : NbCarry) (d : NbDayIn) : ℝ :=
  if r.delayed then (if d.month = 12 ∧ d.day = 31 then ((r.order.map Prod.fst).map (d.left r c)).sum else 0)
  else ((r.order.map Prod.fst).map (d.left r c)).sum + ((r.order.map Prod.fst).map (d.answer r c)).sum

section
variable {base : Cell → CellIn} {r : NbRun} {d : NbDayIn} {c : NbCarry}

theorem nbDayIn_ok (hr : r.Good base) (hd : d.Good base r) (hc : c.Good base r) :
    NbOk d.cin (d.nbDay r c) (r.order.map Prod.fst) (d.ledger r c) := by
  have hl : ∀ x, (d.cin x).hasLake → (base x).hasLake := fun x h => (hasLake_same (hd.same x)).2 h
  have hacc : ∀ x, (d.ledger r c).acc x = d.pot x + if r.delayed then (c.unsat x).acc else 0 := by
    intro x; cases hdl : r.delayed <;> simp [NbDayIn.ledger, dayDemand, hd.use, hdl]
  refine ⟨rfl, hd.use, fun x hx => hr.units.pos x (hl x hx),
    fun x y hx hy => hr.units.unique x y (hl x hx) (hl y hy), fun x hx => hd.cons x (hl x hx), fun x hx => ?_,
    fun x hxc hx h1 h2 => ?_, fun x hx => ?_, fun x hx => ?_, hc.sent, hc.real, hc.self, hc.pend, fun _ => rfl, fun _ => rfl,
    fun _ => rfl, fun _ => rfl, hr.nbs⟩
  · obtain ⟨a1, a2⟩ := hc.lake x (hl x hx)
    refine ⟨a1, ?_⟩
    rw [hacc]
    have := le_max_left (d.pot x) 0
    change _ ≤ max (d.pot x) 0 + (c.unsat x).prev
    by_cases hdl : r.delayed = true
    · rw [if_pos hdl]; have := (a2 hdl).2; linarith
    · rw [if_neg hdl]; linarith
  · rw [hacc, (hc.waits x hxc ⟨h1, h2⟩).1, ite_self, add_zero]
    exact le_max_left (d.pot x) 0
  · apply hc.rip
    rintro L hL ⟨b1, b2, b3⟩
    exact hx L hL ⟨(hasLake_same (hd.same L)).1 b1, b2, b3⟩
  · have a := (hc.lake x (hl x (Or.inr hx))).2
    have := hd.sign x hx
    rw [hacc]
    by_cases hdl : r.delayed = true
    · rw [if_pos hdl]; have := (a hdl).1; linarith
    · rw [if_neg hdl]; linarith

/-- What the end of the day makes of the ledger without delayed use. -/
theorem nb_next_unsat' (hdl : r.delayed = false) (hd : d.Good base r) (x : Cell) :
    (d.next r c).unsat x = ⟨d.left r c x, (c.unsat x).prev, d.left r c x⟩ := by
  simp [NbDayIn.next, endOfDay, hd.use, hdl, NbDayIn.left]

/-- What the end of the day makes of the ledger with delayed use. -/
theorem nb_next_unsat (hdl : r.delayed = true) (hd : d.Good base r) (x : Cell) :
    let l := (d.routed r c).ledger.demand
    let u := (d.next r c).unsat x
    u.acc = (if d.month = 12 ∧ d.day = 31 then 0 else d.left r c x) ∧
    u.prev = (if (l.daily x).isSome then u.acc else (l.retNext x).getD (c.unsat x).prev) ∧
    u.daily = (if d.month = 12 ∧ d.day = 31 then 0 else if (l.daily x).isSome then
      u.acc - (l.retNext x).getD (c.unsat x).prev else 0) := by
  simp only [NbDayIn.next, endOfDay, hd.use, hdl, if_true, decide_eq_true_eq, NbDayIn.left]
  by_cases hdate : d.month = 12 ∧ d.day = 31
  · simp [hdate]
  · simp [hdate]

theorem nb_day (hr : r.Good base) (hd : d.Good base r) (hc : c.Good base r) :
    (d.next r c).Good base r ∧
    c.open base r + ((r.order.map Prod.fst).map d.pot).sum =
      d.used r c + d.givenUp r c + (d.next r c).open base r := by
  classical
  have hok := nbDayIn_ok hr hd hc
  have hcc : ∀ x ∈ r.order.map Prod.fst, (d.cin x).Physical ∧ (c.state x).Ok (d.cin x) ∧ 0 ≤ (d.cin x).corr :=
    fun x hx => ⟨(hd.cell x hx).1, Ok_same (hd.same x) (hc.state x hx), (hd.cell x hx).2.1⟩
  obtain ⟨j1, j2, j3, j4, j5⟩ := nb_inv hr.sound hok c.state hcc r.order [] (by simp)
  change NbInv _ _ _ _ _ (d.routed r c).ledger.demand at j1
  change nbOpen _ _ _ _ (d.routed r c).ledger.demand + d.used r c
    + (if r.delayed then 0 else ((r.order.map Prod.fst).map (d.answer r c)).sum) = _ at j4
  have hnu := fun (hdl : r.delayed = true) x => nb_next_unsat (c := c) hdl hd x
  have hnu' := fun (hdl : r.delayed = false) x => nb_next_unsat' (c := c) hdl hd x
  simp only at hnu
  change ∀ x ∈ _, CellDid _ _ _ _ ((d.next r c).state x) _ ∧ _ at j5
  set l := (d.routed r c).ledger.demand with hldef
  set cells := r.order.map Prod.fst with hcells
  have hreal : ∀ x ∈ cells, ∀ v, l.ret x = some v → l.acc x = 0 := fun x hx v hv =>
    j1.passed x hx (j1.ret x hx v hv).2.2.1
  have hwait : ∀ x ∈ cells, r.waits (d.next r c) x → l.daily x = none ∧ l.acc x = 0 ∧ l.ret x = none := by
    intro x hx hw
    have hw1 : realCell (l.nbMap x) := hw.1
    have hw2 : cells.idxOf (l.nbMap x) < cells.idxOf x := hw.2
    have hm : l.nbMap x ∈ cells := by
      rw [← List.idxOf_lt_length_iff]
      exact hw2.trans (List.idxOf_lt_length_of_mem hx)
    refine ⟨(j1.dailyOld x hx).2 ⟨hw1, hm, hw2⟩, j1.passed x hx hw1, ?_⟩
    cases hv : l.ret x with
    | none => rfl
    | some v =>
      have := (j1.ret x hx v hv).2.2.2 hx
      omega
  have hleft : ∀ x ∈ cells, d.left r c x = l.acc x + (l.ret x).getD 0 := by
    intro x hx
    unfold NbDayIn.left
    rw [← hldef]
    cases hv : l.ret x with
    | none => simp
    | some v => rw [hreal x hx v hv]; simp
  have hleft0 : ∀ x ∈ cells, 0 ≤ d.left r c x := by
    intro x hx
    rw [hleft x hx]
    have := j1.accOld x hx
    cases hv : l.ret x with
    | none => simpa using this
    | some v => have := (j1.ret x hx v hv).1; simp; linarith
  refine ⟨⟨?_, ?_, ?_, ?_, ?_, ?_, ?_, ?_⟩, ?_⟩
  · intro x hx
    obtain ⟨⟨dem, keep, k1, k2, k3, k4, k5⟩, -⟩ := j5 x hx
    obtain ⟨c1, c2, c3⟩ := hcc x hx
    refine Ok_same (hd.same x).symm ?_
    rw [k4]
    have := C25_state { d.cin x with unsatNas := nbSeen (d.nbDay r c) (d.ledger r c) l x } (c.state x) _ dem keep
      (physical_unsatNas c1 _) (ok_unsatNas c2 _) k2 k1 ((hd.cell x hx).2.2)
    exact ⟨this.locLake, this.locWet, this.gloLake, this.res, this.gloWet, this.river⟩
  · intro x hx
    have hxc := hr.units.here x hx
    cases hdl : r.delayed with
    | false => rw [hnu' hdl x]; exact ⟨(hc.lake x hx).1, fun h => absurd h (by simp)⟩
    | true =>
    obtain ⟨u1, u2, -⟩ := hnu hdl x
    have hacc0 : 0 ≤ ((d.next r c).unsat x).acc := by
      rw [u1]; split_ifs
      · exact le_rfl
      · exact hleft0 x hxc
    suffices hle : ((d.next r c).unsat x).acc ≤ ((d.next r c).unsat x).prev from ⟨hacc0.trans hle, fun _ => ⟨hacc0, hle⟩⟩
    rw [u2]
    by_cases hs : (l.daily x).isSome
    · rw [if_pos hs]
    · rw [if_neg hs]
      have hn : l.daily x = none := by simpa using hs
      obtain ⟨w1, w2, w3⟩ := (j1.dailyOld x hxc).1 hn
      obtain ⟨-, a1, a2⟩ := hwait x hxc ⟨w1, w3⟩
      have hz : d.left r c x = 0 := by rw [hleft x hxc, a1, a2]; simp
      have hp := hc.lake x hx
      have hge : 0 ≤ (l.retNext x).getD (c.unsat x).prev := by
        cases hv : l.retNext x with
        | none => exact hp.1
        | some v => exact ((j5 x hxc).2 v hv).1
      rw [u1, hz, ite_self]; exact hge
  · intro x hx hw
    obtain ⟨w1, w2, w3⟩ := hwait x hx hw
    have hz : d.left r c x = 0 := by rw [hleft x hx, w2, w3]; simp
    cases hdl : r.delayed with
    | false => rw [hnu' hdl x, hz]; exact ⟨rfl, rfl⟩
    | true =>
    obtain ⟨u1, u2, u3⟩ := hnu hdl x
    refine ⟨by rw [u1, hz, ite_self], ?_⟩
    rw [u3, w1]; simp
  · intro x hx
    apply j1.ripLake
    intro L hL ho
    exact hx L hL ⟨(hasLake_same (hd.same L)).2 ho.1, ho.2.1, ho.2.2⟩
  · exact j1.sent
  · exact j1.real
  · exact j1.self
  · intro s hs
    have := j1.pend s hs
    change l.toSupply s = _
    rw [this, sum_ite_filter]
    congr 2
    apply List.filter_congr
    intro x hx
    have : Pend cells cells x s ↔ cells.idxOf s < cells.idxOf x := by
      unfold Pend; rw [if_pos hs]; simp [hx]
    simp only [this]
    rfl
  · have e1 : c.open base r + (cells.map d.pot).sum = nbOpen d.cin (d.nbDay r c) cells [] (d.ledger r c) := by
      unfold nbOpen NbCarry.open
      rw [← hcells, sum_congr_nextDay base d.cin ⟨fun _ => 0, fun _ => 0, r.unit, fun _ => 0, cells⟩ (d.nbDay r c).toDemandDay cells c.rip
        (fun x => hasLake_same (hd.same x)) rfl]
      have h1 : (d.ledger r c).acc = fun x => d.pot x + if r.delayed then (c.unsat x).acc else 0 := by
        funext x; cases hdl : r.delayed <;> simp [NbDayIn.ledger, dayDemand, hd.use, hdl]
      have h2 : (cells.map fun x => if Waits d.cin (d.nbDay r c).toDemandDay cells [] x then (d.ledger r c).rip x else 0).sum
          = onTheWay d.cin (d.nbDay r c).toDemandDay cells c.rip := by
        unfold onTheWay
        rw [← sum_ite_filter]
        simp only [waits_nil]
        rfl
      have h3 : (cells.map fun x => ((d.ledger r c).ret x).getD 0).sum = 0 := by
        simp [NbDayIn.ledger]
      rw [h1, h2, h3, List.sum_map_add]
      have h4 : (d.ledger r c).toSupply = c.toSupply := rfl
      rw [h4]
      cases r.delayed
      · simp only [Bool.false_eq_true, if_false]; simp; ring
      · simp only [if_true]; ring
    have e2 : (d.next r c).open base r + d.givenUp r c = nbOpen d.cin (d.nbDay r c) cells cells l
        + (if r.delayed then 0 else (cells.map (d.answer r c)).sum) := by
      unfold nbOpen NbCarry.open NbDayIn.givenUp
      rw [← hcells, sum_congr_nextDay base d.cin ⟨fun _ => 0, fun _ => 0, r.unit, fun _ => 0, cells⟩ (d.nbDay r c).toDemandDay cells (d.next r c).rip
        (fun x => hasLake_same (hd.same x)) rfl]
      have h2 : (cells.map fun x => if Waits d.cin (d.nbDay r c).toDemandDay cells cells x then l.rip x else 0).sum
          = onTheWay d.cin (d.nbDay r c).toDemandDay cells (d.next r c).rip := by
        unfold onTheWay
        rw [← sum_ite_filter]
        congr 1
        apply List.map_congr_left
        intro x hx
        simp only [waits_all _ _ cells x hx]
        rfl
      have h5 : (cells.map (d.left r c)).sum = (cells.map l.acc).sum + (cells.map fun x => (l.ret x).getD 0).sum := by
        rw [← List.sum_map_add]
        congr 1
        exact List.map_congr_left hleft
      have h4 : (d.next r c).toSupply = l.toSupply := rfl
      rw [h2, h4]
      cases hdl : r.delayed with
      | false => simp only [Bool.false_eq_true, if_false]; linarith
      | true =>
      have h6 : (cells.map fun x => ((d.next r c).unsat x).acc).sum
          + (if d.month = 12 ∧ d.day = 31 then (cells.map (d.left r c)).sum else 0) = (cells.map (d.left r c)).sum := by
        by_cases hdate : d.month = 12 ∧ d.day = 31
        · rw [if_pos hdate]
          have : ∀ x ∈ cells, ((d.next r c).unsat x).acc = 0 := fun x _ => by rw [(hnu hdl x).1, if_pos hdate]
          rw [List.map_congr_left this]; simp
        · rw [if_neg hdate, add_zero]
          congr 1
          apply List.map_congr_left
          intro x _
          rw [(hnu hdl x).1, if_neg hdate]
      simp only [if_true]
      linarith
    rw [e1, ← j4]
    linarith

theorem nb_year_end (hr : r.Good base) (hd : d.Good base r) (hc : c.Good base r) (hdate : d.month = 12 ∧ d.day = 31) :
    ∀ x ∈ r.order.map Prod.fst,
      (r.delayed = true → (d.next r c).unsat x = ⟨0, 0, 0⟩) ∧ (d.next r c).toSupply x = 0 := by
  classical
  have hok := nbDayIn_ok hr hd hc
  have hcc : ∀ x ∈ r.order.map Prod.fst, (d.cin x).Physical ∧ (c.state x).Ok (d.cin x) ∧ 0 ≤ (d.cin x).corr :=
    fun x hx => ⟨(hd.cell x hx).1, Ok_same (hd.same x) (hc.state x hx), (hd.cell x hx).2.1⟩
  obtain ⟨j1, -, -, -, -⟩ := nb_inv hr.sound hok c.state hcc r.order [] (by simp)
  change NbInv _ _ _ _ _ (d.routed r c).ledger.demand at j1
  intro x hx
  have hsome : ∀ y ∈ r.order.map Prod.fst, ((d.routed r c).ledger.demand.daily y).isSome := by
    intro y hy
    rw [Option.isSome_iff_ne_none]
    exact j1.yearEnd hdate y hy
  constructor
  · intro hdl
    obtain ⟨u1, u2, u3⟩ := nb_next_unsat (c := c) hdl hd x
    rw [if_pos hdate] at u1 u3
    rw [if_pos (hsome x hx), u1] at u2
    cases hu : (d.next r c).unsat x with
    | mk a b e => rw [hu] at u1 u2 u3; simp only at u1 u2 u3; rw [u1, u2, u3]
  · have := (nb_day hr hd hc).1.pend x hx
    rw [this]
    apply List.sum_eq_zero
    intro y hy
    obtain ⟨z, hz, rfl⟩ := List.mem_map.mp hy
    rw [List.mem_filter, decide_eq_true_eq] at hz
    by_contra hne
    obtain ⟨r1, r2⟩ := (nb_day hr hd hc).1.real z hz.1 hne
    have hn : (d.routed r c).ledger.demand.daily z = none := by
      apply (j1.dailyOld z hz.1).2
      refine ⟨r1, r2, ?_⟩
      have h1 : (d.routed r c).ledger.demand.nbMap z = x := hz.2.1
      rw [h1]; exact hz.2.2
    exact j1.yearEnd hdate z hz.1 hn

end

/-- The basin after some days, what was taken and what was given up. -/
noncomputable def nbHistory (r : NbRun) : NbCarry → List NbDayIn → NbCarry × ℝ × ℝ
  | c, [] => (c, 0, 0)
  | c, d :: ds =>
    let h := nbHistory r (d.next r c) ds;
    (h.1, d.used r c + h.2.1, d.givenUp r c + h.2.2)

/-- **C58 (neighbours, any number of days and years).**  With water supply from neighbouring cells, with or without delayed use, over
any sequence of days in a basin with any number of cells, lakes and reservoirs, in which cells pass demand on
to neighbours before or after them in the routing order, several cells to the same neighbour and cells that were
asked ask in turn: the demand of all days plus what was open at the start is what the cells took, what was given
up (at the ends of years, or without delayed use at the end of every day), and what is open at the end. Nothing is lost or counted twice. -/
theorem C58_history (base : Cell → CellIn) (r : NbRun) (hr : r.Good base) (days : List NbDayIn)
    (hd : ∀ d ∈ days, d.Good base r) (c : NbCarry) (hc : c.Good base r) :
    let h := nbHistory r c days
    h.1.Good base r ∧
    c.open base r + (days.map fun d => ((r.order.map Prod.fst).map d.pot).sum).sum = h.2.1 + h.2.2 + h.1.open base r := by
  induction days generalizing c with
  | nil => exact ⟨hc, by simp [nbHistory]⟩
  | cons d ds ih =>
    obtain ⟨h1, h2⟩ := nb_day hr (hd d (by simp)) hc
    obtain ⟨h3, h4⟩ := ih (fun x hx => hd x (by simp [hx])) _ h1
    refine ⟨h3, ?_⟩
    simp only [nbHistory, List.map_cons, List.sum_cons]
    linarith

/-- C58: on 31 December no demand is left waiting at a neighbour over New Year. With delayed use every cell gives up what is
left of its demand on that day, and on other days nothing is given up. -/
theorem C58_year_end (base : Cell → CellIn) (r : NbRun) (hr : r.Good base) (d : NbDayIn) (hd : d.Good base r) (c : NbCarry)
    (hc : c.Good base r) :
    (d.month = 12 ∧ d.day = 31 → ∀ x ∈ r.order.map Prod.fst,
      (r.delayed = true → (d.next r c).unsat x = ⟨0, 0, 0⟩) ∧ (d.next r c).toSupply x = 0) ∧
    (r.delayed = true → ¬ (d.month = 12 ∧ d.day = 31) → d.givenUp r c = 0) :=
  ⟨nb_year_end hr hd hc, fun hdl h => by unfold NbDayIn.givenUp; rw [if_pos hdl, if_neg h]⟩

/-- **C58 (water).**  However cells ask their neighbours, the water balance of the basin closes on every day: runoff and
recharge from land and precipitation on open water equal what all storages gain, evaporation and use in all
cells, and the streamflow leaving the basin, up to the volume a reservoir may flush. -/
theorem C58_water_balance (base : Cell → CellIn) (r : NbRun) (hr : r.Good base) (d : NbDayIn) (hd : d.Good base r)
    (c : NbCarry) (hc : c.Good base r) (hsink : ∀ e ∈ r.order, (d.cin e.1).sink = true → ¬ drains e.2)
    (hcorr : ∀ x ∈ r.order.map Prod.fst, (d.cin x).corr = 1) :
    let s := d.routed r c
    let cells := r.order.map Prod.fst
    |(cells.map fun x => (d.cin x).runoff + (d.cin x).recharge + did s (·.precipSwb) x).sum
      - ((cells.map fun x => ((d.next r c).state x).total - (c.state x).total + did s (·.evapTotal) x).sum
        + ((r.order.filter fun e => ¬ (drains e.2 ∧ e.2 ∈ cells)).map fun e =>
            if (d.cin e.1).sink then 0 else s.flow e.1).sum)|
      ≤ (cells.map fun x => if 0 < (d.cin x).resArea then (d.cin x).minV else 0).sum := by
  intro s cells
  have hok := nbDayIn_ok hr hd hc
  have hcc : ∀ x ∈ r.order.map Prod.fst, (d.cin x).Physical ∧ (c.state x).Ok (d.cin x) ∧ 0 ≤ (d.cin x).corr :=
    fun x hx => ⟨(hd.cell x hx).1, Ok_same (hd.same x) (hc.state x hx), (hd.cell x hx).2.1⟩
  obtain ⟨-, -, -, -, j5⟩ := nb_inv hr.sound hok c.state hcc r.order [] (by simp)
  exact balance_of_cells (fun x => { d.cin x with unsatNas := nbSeen (d.nbDay r c) (d.ledger r c) s.ledger.demand x }) s
    r.order hsink c.state
    (fun x hx => ⟨physical_unsatNas (hcc x hx).1 _, ok_unsatNas (hcc x hx).2.1 _, hcorr x hx⟩)
    (fun x hx => (j5 x hx).1) (C26_no_loss (nbNode d.cin (d.nbDay r c)) r.order hr.sound _)

/-! ### What groundwater balances are told -/

/-- What the groundwater balance of cell `x` is told on the day about unsatisfied demand for surface water. -/
noncomputable def NbDayIn.told (r : NbRun) (c : NbCarry) (d : NbDayIn) (x : Cell) : ℝ :=
  nbSeen (d.nbDay r c) (d.ledger r c) (d.routed r c).ledger.demand x

/-- C59: what a cell does on the day is the day of a cell whose groundwater balance is told `told`. -/
theorem C59_told (base : Cell → CellIn) (r : NbRun) (hr : r.Good base) (d : NbDayIn) (hd : d.Good base r)
    (c : NbCarry) (hc : c.Good base r) (x : Cell) (hx : x ∈ r.order.map Prod.fst) :
    ∃ demand keep, (d.routed r c).ledger.out x =
      some (cellDay { d.cin x with unsatNas := d.told r c x } (c.state x) ((d.routed r c).up x) demand keep) := by
  have hok := nbDayIn_ok hr hd hc
  have hcc : ∀ x ∈ r.order.map Prod.fst, (d.cin x).Physical ∧ (c.state x).Ok (d.cin x) ∧ 0 ≤ (d.cin x).corr :=
    fun x hx => ⟨(hd.cell x hx).1, Ok_same (hd.same x) (hc.state x hx), (hd.cell x hx).2.1⟩
  obtain ⟨-, -, -, -, j5⟩ := nb_inv hr.sound hok c.state hcc r.order [] (by simp)
  obtain ⟨⟨dem, keep, -, -, k, -, -⟩, -⟩ := j5 x hx
  exact ⟨dem, keep, k⟩

/-- The basin after some days and what the groundwater balance of cell `x` has been told. -/
noncomputable def toldRun (r : NbRun) (x : Cell) : NbCarry → List NbDayIn → NbCarry × ℝ
  | c, [] => (c, 0)
  | c, d :: ds =>
    let h := toldRun r x (d.next r c) ds;
    (h.1, d.told r c x + h.2)

theorem told_day {base : Cell → CellIn} {r : NbRun} (hr : r.Good base) {d : NbDayIn} (hd : d.Good base r) {c : NbCarry}
    (hc : c.Good base r) (hdl : r.delayed = true) (hdate : ¬ (d.month = 12 ∧ d.day = 31)) (x : Cell)
    (hx : x ∈ r.order.map Prod.fst) :
    d.told r c x + ((d.next r c).unsat x).daily =
      ((d.next r c).unsat x).prev - (c.unsat x).prev + (c.unsat x).daily := by
  have hok := nbDayIn_ok hr hd hc
  have hcc : ∀ x ∈ r.order.map Prod.fst, (d.cin x).Physical ∧ (c.state x).Ok (d.cin x) ∧ 0 ≤ (d.cin x).corr :=
    fun x hx => ⟨(hd.cell x hx).1, Ok_same (hd.same x) (hc.state x hx), (hd.cell x hx).2.1⟩
  obtain ⟨-, -, -, -, j5⟩ := nb_inv hr.sound hok c.state hcc r.order [] (by simp)
  obtain ⟨-, k⟩ := j5 x hx
  change ∀ v, (d.routed r c).ledger.demand.retNext x = some v → _ at k
  obtain ⟨u1, u2, u3⟩ := nb_next_unsat (c := c) hdl hd x
  rw [if_neg hdate] at u3
  have htold : d.told r c x = match (d.routed r c).ledger.demand.retNext x with
      | some v => v - (c.unsat x).prev
      | none => (c.unsat x).daily := rfl
  rw [htold]
  cases hv : (d.routed r c).ledger.demand.retNext x with
  | none =>
    rw [hv] at u2 u3
    simp only [Option.getD_none] at u2 u3 ⊢
    by_cases hs : ((d.routed r c).ledger.demand.daily x).isSome
    · rw [if_pos hs] at u2 u3; rw [u2, u3]; ring
    · rw [if_neg hs] at u2 u3; rw [u2, u3]; ring
  | some v =>
    obtain ⟨-, w1, -, w2⟩ := k v hv
    have hz := (hc.waits x hx ⟨w1, w2⟩).2
    rw [hv] at u2 u3
    simp only [Option.getD_some] at u2 u3 ⊢
    by_cases hs : ((d.routed r c).ledger.demand.daily x).isSome
    · rw [if_pos hs] at u2 u3; rw [u2, u3, hz]; ring
    · rw [if_neg hs] at u2 u3; rw [u2, u3, hz]

/-- **C59.**  Within a year, whatever a cell passes on to neighbours and gets back, on the same day or the next: the
unsatisfied demand its groundwater balance has been told, with what it will be told tomorrow, adds up to the
change of the cell's unsatisfied demand as known (`prev`), with what it was still to be told at the start. At the
end of every day on which the cell does not wait for an answer, what is known is its unsatisfied demand
(`C59_known`). -/
theorem C59_told_once (base : Cell → CellIn) (r : NbRun) (hr : r.Good base) (hdl : r.delayed = true) (x : Cell) (hx : x ∈ r.order.map Prod.fst)
    (days : List NbDayIn) (hd : ∀ d ∈ days, d.Good base r ∧ ¬ (d.month = 12 ∧ d.day = 31)) (c : NbCarry)
    (hc : c.Good base r) :
    let h := toldRun r x c days
    h.2 + (h.1.unsat x).daily = (c.unsat x).daily + ((h.1.unsat x).prev - (c.unsat x).prev) := by
  have key : ∀ (days : List NbDayIn) (c : NbCarry), c.Good base r →
      (∀ d ∈ days, d.Good base r ∧ ¬ (d.month = 12 ∧ d.day = 31)) →
      (toldRun r x c days).2 + ((toldRun r x c days).1.unsat x).daily
        = ((toldRun r x c days).1.unsat x).prev - (c.unsat x).prev + (c.unsat x).daily := by
    intro days
    induction days with
    | nil => intro c _ _; simp [toldRun]
    | cons d ds ih =>
      intro c hc hd
      have h1 := told_day hr (hd d (by simp)).1 hc hdl (hd d (by simp)).2 x hx
      have h2 := ih (d.next r c) (nb_day hr (hd d (by simp)).1 hc).1 (fun y hy => hd y (by simp [hy]))
      simp only [toldRun]
      linarith
  have := key days c hc hd
  intro h
  change h.2 + _ = _ at this
  linarith

/-- C59: what is known at the end of a day is the cell's unsatisfied demand, unless the cell waits for an answer from
a neighbour that comes before it in the routing order; then its own account is empty. -/
theorem C59_known (base : Cell → CellIn) (r : NbRun) (hr : r.Good base) (hdl : r.delayed = true) (d : NbDayIn)
    (hd : d.Good base r) (c : NbCarry) (hc : c.Good base r) (x : Cell) (hx : x ∈ r.order.map Prod.fst) :
    (¬ r.waits (d.next r c) x → ((d.next r c).unsat x).prev = ((d.next r c).unsat x).acc) ∧
    (r.waits (d.next r c) x → ((d.next r c).unsat x).acc = 0 ∧ ((d.next r c).unsat x).daily = 0) := by
  have hok := nbDayIn_ok hr hd hc
  have hcc : ∀ x ∈ r.order.map Prod.fst, (d.cin x).Physical ∧ (c.state x).Ok (d.cin x) ∧ 0 ≤ (d.cin x).corr :=
    fun x hx => ⟨(hd.cell x hx).1, Ok_same (hd.same x) (hc.state x hx), (hd.cell x hx).2.1⟩
  obtain ⟨j1, -, -, -, -⟩ := nb_inv hr.sound hok c.state hcc r.order [] (by simp)
  refine ⟨fun hw => ?_, (nb_day hr hd hc).1.waits x hx⟩
  obtain ⟨u1, u2, -⟩ := nb_next_unsat (c := c) hdl hd x
  rw [u2, if_pos]
  rw [Option.isSome_iff_ne_none]
  intro hn
  obtain ⟨w1, w2, w3⟩ := (j1.dailyOld x hx).1 hn
  exact hw ⟨w1, w3⟩

/-- What cell `x` has given up over some days without delayed use: what was left at the end of each day, and what it
got back of the demand of the day before. -/
noncomputable def gaveUpRun (r : NbRun) (x : Cell) : NbCarry → List NbDayIn → ℝ
  | _, [] => 0
  | c, d :: ds => d.left r c x + d.answer r c x + gaveUpRun r x (d.next r c) ds

/-- **C59 without delayed use.**  Whatever a cell passes on to neighbours and gets back, on the same day or the next: the
unsatisfied demand its groundwater balance has been told, with what it will be told tomorrow, adds up to the demand
the cell gave up, with what it was still to be told at the start. (`prev` is not used and stays zero.) -/
theorem C59_no_delay (base : Cell → CellIn) (r : NbRun) (hr : r.Good base) (hdl : r.delayed = false) (x : Cell)
    (hx : x ∈ r.order.map Prod.fst) (days : List NbDayIn) (hd : ∀ d ∈ days, d.Good base r) (c : NbCarry)
    (hc : c.Good base r) (hp : (c.unsat x).prev = 0) :
    let h := toldRun r x c days
    h.2 + (h.1.unsat x).daily = (c.unsat x).daily + gaveUpRun r x c days ∧ (h.1.unsat x).prev = 0 := by
  induction days generalizing c with
  | nil => simp [toldRun, gaveUpRun, hp]
  | cons d ds ih =>
    have hdg := hd d (by simp)
    have hn := nb_next_unsat' (c := c) hdl hdg x
    obtain ⟨h1, h2⟩ := ih (fun y hy => hd y (by simp [hy])) (d.next r c) (nb_day hr hdg hc).1 (by rw [hn]; exact hp)
    have ht : d.told r c x = (c.unsat x).daily + d.answer r c x := by
      have hok := nbDayIn_ok hr hdg hc
      have hcc : ∀ x ∈ r.order.map Prod.fst, (d.cin x).Physical ∧ (c.state x).Ok (d.cin x) ∧ 0 ≤ (d.cin x).corr :=
        fun x hx => ⟨(hdg.cell x hx).1, Ok_same (hdg.same x) (hc.state x hx), (hdg.cell x hx).2.1⟩
      obtain ⟨-, -, -, -, j5⟩ := nb_inv hr.sound hok c.state hcc r.order [] (by simp)
      obtain ⟨-, k⟩ := j5 x hx
      change ∀ v, (d.routed r c).ledger.demand.retNext x = some v → _ at k
      have htold : d.told r c x = match (d.routed r c).ledger.demand.retNext x with
          | some v => v - (c.unsat x).prev
          | none => (c.unsat x).daily := rfl
      rw [htold]
      unfold NbDayIn.answer
      cases hv : (d.routed r c).ledger.demand.retNext x with
      | none => simp
      | some v =>
        obtain ⟨-, w1, -, w2⟩ := k v hv
        rw [(hc.waits x hx ⟨w1, w2⟩).2, hp]; simp
    simp only [toldRun, gaveUpRun]
    refine ⟨?_, h2⟩
    have hdn : ((d.next r c).unsat x).daily = d.left r c x := by rw [hn]
    rw [hdn] at h1
    linarith

/-- C58, finding: without delayed use, what an outflow cell got back of yesterday's demand is not part of its demand of the
day, but is subtracted from what the day left unsatisfied before the riparian cells get their shares. So, if at
least as much came back as the lake leaves unsatisfied, the riparian cells get nothing, although all of it
may be their demand; had nothing come back, each would get its share. -/
theorem C58_violated_no_delay_shore (cin : Cell → CellIn) (q : NbDay) (l : NbLedger) (x : Cell) (R u : ℝ)
    (hdl : q.delayed = false) (hr : l.ret x = some R) (hR : 0 < R) (hu : u ≤ l.toSupply x + R) (hprev : q.prev x = 0)
    (hn : l.retNext x = none) (hcons : (nbRedist q l x u).Consistent) (hpos : 0 < (nbRedist q l x u).positive)
    (hne : (nbRedist q l x u).riparian ≠ []) (hd : l.toSupply x < u) :
    let l' : NbLedger := { l with ret := Function.update l.ret x none }
    nbDemand cin q l x = nbDemand cin q l' x ∧
    (nbKeep q l x u = u ∧ ∀ y ∈ (nbRedist q l x u).riparian, (redistribute (nbRedist q l x u) l.rip).2 y = 0) ∧
    (∀ y ∈ (nbRedist q l x u).riparian, (redistribute (nbRedist q l' x u) l.rip).2 y =
      max (q.unagg y) 0 / (nbRedist q l x u).positive * (u - l.toSupply x)) := by
  intro l'
  refine ⟨?_, ?_, ?_⟩
  · unfold nbDemand nbOwn; simp [hdl, l']
  · have hcar : (nbRedist q l x u).carried = l.toSupply x + R := by
      unfold RedistIn.carried nbRedist nbRetNext NbLedger.takenUp
      simp [hr, hR.le, hR.ne']
    obtain ⟨a, b, -⟩ := (C21_nothing_to_share (nbRedist q l x u) l.rip).1 (by rw [hcar]; exact hu)
    exact ⟨a, b⟩
  · have hcar : (nbRedist q l' x u).carried = l.toSupply x := by
      unfold RedistIn.carried nbRedist nbRetNext NbLedger.takenUp
      simp [l', hn, hprev]
    intro y hy
    have := (C21_redistribute (nbRedist q l' x u) hcons hpos hne (by rw [hcar]; exact hd) l.rip).1 y hy
    rw [this, hcar]; rfl

/-! ### The turn of a cell -/

/-- The day after the cells `P` have had their turn. -/
noncomputable def NbDayIn.after (r : NbRun) (c : NbCarry) (d : NbDayIn) (P : List (Cell × Cell)) : NetState (Basin NbLedger) :=
  nbDayRun d.cin (d.nbDay r c) P (d.ledger r c) c.state

/-- The water a cell offers: what is in its river, its lakes (above their lowest levels) and, if simulated, its
reservoir. Cells outside the basin offer nothing, and less than 1e-12 km³ counts as nothing. -/
noncomputable def waterIn (r : NbRun) (d : NbDayIn) (state : Cell → CellState) (z : Cell) : ℝ :=
  let total := (state z).river + ((state z).locLake + (d.cin z).locLake.maxStorage)
    + ((state z).gloLake + (d.cin z).maxGlolake) + (if r.resOpt then (state z).res else 0);
  if z ∈ r.order.map Prod.fst ∧ 1e-12 ≤ total then total else 0

theorem nbAvail_eq (r : NbRun) (c : NbCarry) (d : NbDayIn) (state : Cell → CellState) (z : Cell) :
    nbAvail d.cin (d.nbDay r c) state z = waterIn r d state z := by
  have h := C23_available (fun c => (state c).river) (fun c => (state c).locLake) (fun c => (state c).gloLake)
    (fun z => (d.cin z).locLake.maxStorage) (fun z => (d.cin z).maxGlolake) (fun c => (state c).res) r.resOpt z
  simp only at h
  have hq : (d.nbDay r c).order = r.order.map Prod.fst := rfl
  have hq' : (d.nbDay r c).resOpt = r.resOpt := rfl
  unfold nbAvail waterIn
  rw [hq']
  by_cases hz : z ∈ r.order.map Prod.fst
  · rw [if_pos (show z ∈ (d.nbDay r c).order from hz)]
    by_cases ht : 1e-12 ≤ (state z).river + ((state z).locLake + (d.cin z).locLake.maxStorage)
        + ((state z).gloLake + (d.cin z).maxGlolake) + (if r.resOpt then (state z).res else 0)
    · rw [if_pos ⟨hz, ht⟩, h.1 ht]
    · rw [if_neg (fun hh => ht hh.2), h.2 (not_le.mp ht)]
  · rw [if_neg (show z ∉ (d.nbDay r c).order from hz), if_neg (fun hh => hz hh.1)]

/-- **C58 (the turn of a cell).**  When a cell has its turn, it tries to satisfy its own demand (of the day, handed to
it as a cell on the shore of a lake, and with delayed use what is open from before and what a neighbour gave back) and what neighbours asked it
for. What it could not supply to neighbours goes back to exactly those who asked, in proportion, own demand coming
first. If demand of its own is left, it asks the listed neighbour with the most water of those that
do not drain into it, and keeps nothing of it; without such a neighbour it keeps what is left. -/
theorem C58_turn (base : Cell → CellIn) (r : NbRun) (hr : r.Good base) (d : NbDayIn) (hd : d.Good base r)
    (c : NbCarry) (hc : c.Good base r) (P S : List (Cell × Cell)) (e : Cell × Cell) (hos : r.order = P ++ e :: S) :
    let x := e.1
    let l := (d.after r c P).ledger.demand
    let s' := d.after r c (P ++ [e])
    let l' := s'.ledger.demand
    let before := if r.delayed then (c.unsat x).acc + (l.ret x).getD 0 else 0
    let own := d.pot x + (if 0 < r.unit x then l.rip x else 0) + before
    ∃ o keep told,
      s'.ledger.out x = some o ∧
      o = cellDay { d.cin x with unsatNas := told } (c.state x) ((d.after r c P).inflow x) (own + l.toSupply x) keep ∧
      let back := if 0 < l.toSupply x then (if 0 < own then min o.unsat (l.toSupply x) else o.unsat) else 0
      let rest := o.unsat - back
      let nb := l'.nbMap x
      let water := waterIn r d s'.ledger.state
      (∀ z ∈ r.order.map Prod.fst, l.nbMap z = x → 0 < l.toSupply x →
        l'.ret z = some (l.sent z / l.toSupply x * back)) ∧
      (∀ z, z ≠ x → l.nbMap z ≠ x → l'.ret z = l.ret z) ∧
      0 ≤ rest ∧ l'.toSupply x = 0 ∧
      (realCell nb → l'.acc x = 0 ∧ l'.sent x = rest ∧ 0 < rest ∧
        ∀ z, z ≠ x → l'.toSupply z = l.toSupply z + if z = nb then rest else 0) ∧
      (¬ realCell nb → l'.acc x = rest ∧ l'.sent x = 0 ∧ ∀ z, z ≠ x → l'.toSupply z = l.toSupply z) ∧
      (rest ≤ 0 → nb = (0, 0)) ∧
      (¬ (d.month = 12 ∧ d.day = 31) → 0 < rest →
        ((∃ p ∈ r.nbs x, Eligible water x p) → ∃ p ∈ r.nbs x, Eligible water x p ∧ nb = p.1 ∧
          ∀ p' ∈ r.nbs x, Eligible water x p' → water p'.1 ≤ water nb) ∧
        ((∀ p ∈ r.nbs x, ¬ Eligible water x p) → nb = (0, 0))) := by
  intro x l s' l' before own
  have h := nbDayIn_ok hr hd hc
  have hcc : ∀ x ∈ r.order.map Prod.fst, (d.cin x).Physical ∧ (c.state x).Ok (d.cin x) ∧ 0 ≤ (d.cin x).corr :=
    fun x hx => ⟨(hd.cell x hx).1, Ok_same (hd.same x) (hc.state x hx), (hd.cell x hx).2.1⟩
  obtain ⟨j1, j2, j3, j4, j5⟩ := nb_inv hr.sound h c.state hcc P (e :: S) hos
  have hcells : r.order.map Prod.fst = P.map Prod.fst ++ x :: S.map Prod.fst := by rw [hos]; simp [x]
  have hnd := hr.sound.nodup
  have hnd' := hnd
  rw [hcells] at hnd'
  obtain ⟨i1, i2, i3⟩ := idx_split hnd'
  rw [← hcells] at i1 i2 i3
  have heP : x ∉ P.map Prod.fst := fun hm => by have := i2 x hm; omega
  have he : x ∈ r.order.map Prod.fst := by rw [hcells]; simp
  obtain ⟨c1, c2, c3⟩ := hcc x he
  have hstep : s' = routeStep (nbNode d.cin (d.nbDay r c)) (d.after r c P) e := by
    simp only [s', NbDayIn.after, nbDayRun]; rw [route_append]
  change NbInv d.cin (d.nbDay r c) _ _ _ l at j1
  change ∀ x, 0 ≤ (d.after r c P).inflow x at j2
  change ∀ x ∉ P.map Prod.fst, (d.after r c P).ledger.state x = c.state x at j3
  have hst := j3 x heP
  have hto : 0 ≤ l.toSupply x := by
    rw [← asked_sum hcells hnd j1]
    apply List.sum_nonneg
    intro y hy
    obtain ⟨c, -, rfl⟩ := List.mem_map.mp hy
    exact j1.sent c
  have hown : nbOwn d.cin (d.nbDay r c) l x = own := by
    unfold nbOwn
    rw [takenUp_eq j1 he, j1.accNew x heP]
    cases hdl : r.delayed <;>
      simp only [own, before, hd.use, and_true, NbDayIn.ledger, dayDemand, hdl, if_true, gt_iff_lt, NbDayIn.nbDay,
        Bool.false_eq_true, if_false] <;> ring
  have hsg : 0 < (d.cin x).glolakeArea → 0 ≤ nbDemand d.cin (d.nbDay r c) l x := by
    intro hg
    have hlk : (d.cin x).hasLake := Or.inr hg
    have hrz : l.rip x = 0 := j1.ripLake x fun L' _ ho => ho.2.2 (h.unique L' x ho.1 hlk ho.2.1)
    have ha := h.sign x hg
    have hr : 0 ≤ (l.ret x).getD 0 := by
      cases hr : l.ret x with
      | none => simp
      | some r => exact (j1.ret x he r hr).1
    unfold nbDemand nbOwn
    rw [takenUp_eq j1 he, hrz, j1.accNew x heP]
    simp only [ite_self, add_zero]
    split_ifs <;> linarith
  have p1 : (nbIn d.cin (d.nbDay r c) l x).Physical := physical_unsatNas c1 _
  have p2 : (c.state x).Ok (nbIn d.cin (d.nbDay r c) l x) := ok_unsatNas c2 _
  set o := nbTurn d.cin (d.nbDay r c) l x (c.state x) ((d.after r c P).inflow x) with ho
  have hbal := C25_demand _ (c.state x) _ (nbDemand d.cin (d.nbDay r c) l x) (nbKeep (d.nbDay r c) l x) p1 p2 (j2 x) hsg
  have hun := (C25_unsat_nonneg _ (c.state x) _ (nbDemand d.cin (d.nbDay r c) l x) (nbKeep (d.nbDay r c) l x) p1 p2 (j2 x) hsg).1
  change o.nas + o.unsat + o.handed = nbDemand d.cin (d.nbDay r c) l x at hbal
  change 0 ≤ o.unsat at hun
  have hL : s'.ledger =
      { demand := nbUpd d.cin (d.nbDay r c) l x o (Function.update (d.after r c P).ledger.state x o.state)
        state := Function.update (d.after r c P).ledger.state x o.state
        out := Function.update (d.after r c P).ledger.out x (some o) } := by
    rw [hstep]
    have hst' : (d.after r c P).ledger.state e.1 = c.state e.1 := hst
    simp only [routeStep, nbNode, hst']
    rfl
  have hl' : l' = nbUpd d.cin (d.nbDay r c) l x o s'.ledger.state := by
    simp only [l']; rw [hL]
  set ret0 := if (l.takenUp x).isSome then Function.update l.ret x none else l.ret with hret0
  have hret0o : ∀ z, z ≠ x → ret0 z = l.ret z := by
    intro z hz
    rw [hret0]
    by_cases hs : (l.takenUp x).isSome
    · rw [if_pos hs, Function.update_of_ne hz]
    · rw [if_neg hs]
  set a := allocate (nbAlloc d.cin (d.nbDay r c) l x o) ret0 with ha
  set back := (if 0 < l.toSupply x then (if 0 < own then min o.unsat (l.toSupply x) else o.unsat) else 0) with hback
  have hsum := asked_sum hcells hnd j1
  have hab : a.2.2 = back ∧ a.1 = o.unsat - back ∧
      (∀ z ∈ r.order.map Prod.fst, l.nbMap z = x → 0 < l.toSupply x → a.2.1 z = some (l.sent z / l.toSupply x * back)) ∧
      (∀ z, l.nbMap z ≠ x → a.2.1 z = ret0 z) := by
    by_cases ht : 0 < l.toSupply x
    · obtain ⟨r1, r2, -, r4⟩ := C24_returned (nbAlloc d.cin (d.nbDay r c) l x o) ret0 ht hun
        (by simp only [nbAlloc, NbDayIn.nbDay]; exact hsum)
      obtain ⟨f1, f2⟩ := C24_own_demand_first (nbAlloc d.cin (d.nbDay r c) l x o) ret0 (by
        simp only [nbAlloc]; unfold nbDemand at hbal; linarith) ht hun
      have hb : a.2.2 = back := by
        rw [hback, if_pos ht]
        by_cases hown0 : 0 < own
        · rw [if_pos hown0]
          exact (f1 (by change 0 < nbOwn _ _ _ _; rw [hown]; exact hown0)).1
        · rw [if_neg hown0]
          exact (f2 (by change nbOwn _ _ _ _ ≤ 0; rw [hown]; exact not_lt.mp hown0)).1
      refine ⟨hb, ?_, fun z hz hm _ => ?_, r2⟩
      · change a.1 + a.2.2 = o.unsat at r4
        rw [hb] at r4; linarith
      · rw [← hb]; exact r1 z hz hm
    · have hn := C24_not_asked (nbAlloc d.cin (d.nbDay r c) l x o) ret0 (not_lt.mp ht)
      rw [ha, hn, hback, if_neg ht]
      exact ⟨rfl, (sub_zero _).symm, fun z _ _ hh => absurd hh ht, fun _ _ => rfl⟩
  obtain ⟨b1, b2, b3, b4⟩ := hab
  have hrest : 0 ≤ o.unsat - back := by
    rw [hback]
    by_cases ht : 0 < l.toSupply x
    · rw [if_pos ht]
      by_cases hown0 : 0 < own
      · rw [if_pos hown0]; have := min_le_left o.unsat (l.toSupply x); linarith
      · rw [if_neg hown0]; linarith
    · rw [if_neg ht]; linarith
  have hnbdef : l'.nbMap x = getNeighbour (nbAvail d.cin (d.nbDay r c) s'.ledger.state) (r.nbs x) (o.unsat - back) x d.month d.day l.turned := by
    rw [hl', ← b2]; simp only [nbUpd, Function.update_self]; rfl
  have hav : nbAvail d.cin (d.nbDay r c) s'.ledger.state = waterIn r d s'.ledger.state := by
    funext z; exact nbAvail_eq r c d _ z
  rw [hav] at hnbdef
  have hneq : realCell (l'.nbMap x) → l'.nbMap x ≠ x ∧ 0 < o.unsat - back := by
    intro hre
    rw [hnbdef] at hre ⊢
    rcases neighbour_cases (waterIn r d s'.ledger.state) (r.nbs x) (o.unsat - back) x d.month d.day l.turned with hz | ⟨hd0, p, hp, hpe, -, -⟩
    · rw [hz] at hre; exact absurd hre.1 (by simp)
    · rw [hpe]; exact ⟨hr.nbs x p hp, hd0⟩
  have hto0 : ∀ z, z ≠ x → (if l.toSupply x > 0 then Function.update l.toSupply x 0 else l.toSupply) z = l.toSupply z := by
    intro z hz
    by_cases ht : l.toSupply x > 0
    · rw [if_pos ht, Function.update_of_ne hz]
    · rw [if_neg ht]
  have hto0x : (if l.toSupply x > 0 then Function.update l.toSupply x 0 else l.toSupply) x = 0 := by
    by_cases ht : l.toSupply x > 0
    · rw [if_pos ht, Function.update_self]
    · rw [if_neg ht]; linarith [not_lt.mp ht]
  set to0 := (if l.toSupply x > 0 then Function.update l.toSupply x 0 else l.toSupply) with hto0def
  have hlt : l'.toSupply = if realCell (l'.nbMap x) then
      Function.update to0 (l'.nbMap x) (to0 (l'.nbMap x) + (o.unsat - back)) else to0 := by
    rw [hl', ← b2]; simp only [nbUpd, Function.update_self]; rfl
  have hla : l'.acc x = if realCell (l'.nbMap x) then 0 else o.unsat - back := by
    rw [hl', ← b2]; simp only [nbUpd, Function.update_self]; rfl
  have hls : l'.sent x = if realCell (l'.nbMap x) then o.unsat - back else 0 := by
    rw [hl', ← b2]; simp only [nbUpd, Function.update_self]; rfl
  have hlr : l'.ret = a.2.1 := by rw [hl']; rfl
  refine ⟨o, nbKeep (d.nbDay r c) l x, (nbDaily (d.nbDay r c) l x).getD 0, ?_, ?_, ?_, ?_, hrest, ?_, ?_, ?_, ?_, ?_⟩
  · rw [hL]; exact Function.update_self ..
  · rw [ho]; unfold nbTurn nbDemand nbIn; rw [hown]
  · intro z hz hm ht
    rw [hlr]; exact b3 z hz hm ht
  · intro z hz hm
    rw [hlr, b4 z hm, hret0o z hz]
  · rw [hlt]
    by_cases hre : realCell (l'.nbMap x)
    · rw [if_pos hre, Function.update_of_ne (Ne.symm (hneq hre).1)]; exact hto0x
    · rw [if_neg hre]; exact hto0x
  · intro hre
    rw [hla, hls, if_pos hre, if_pos hre]
    refine ⟨rfl, rfl, (hneq hre).2, fun z hz => ?_⟩
    rw [hlt, if_pos hre]
    by_cases hzn : z = l'.nbMap x
    · rw [if_pos hzn, hzn, Function.update_self, ← hzn, hto0 z hz]
    · rw [if_neg hzn, Function.update_of_ne hzn, hto0 z hz, add_zero]
  · intro hre
    rw [hla, hls, if_neg hre, if_neg hre]
    refine ⟨rfl, rfl, fun z hz => ?_⟩
    rw [hlt, if_neg hre, hto0 z hz]
  · intro hle
    change o.unsat - back ≤ 0 at hle
    rw [hnbdef]; unfold getNeighbour; rw [if_neg (not_lt.mpr hle)]
  · intro hdate hpos
    change 0 < o.unsat - back at hpos
    obtain ⟨-, g2, g3⟩ := C23_best_neighbour (waterIn r d s'.ledger.state) (r.nbs x) (o.unsat - back) x d.month d.day l.turned hdate
    rw [hnbdef]
    exact ⟨g2 hpos, g3 hpos⟩

/-! ### Two dry cells that ask each other -/

/-- The basin of `dryBase`, in which the two cells are each other's neighbour. -/
def askRun : NbRun :=
  { delayed := true, resOpt := true, unit := dryUnit, order := dryOrder
    nbs := fun x => if x = (1, 1) then [((1, 2), (0, 0))] else if x = (1, 2) then [((1, 1), (0, 0))] else [] }

/-- A dry day with a demand of 1. -/
noncomputable def askDay (month day : ℕ) : NbDayIn :=
  { cin := dryBase, pot := fun x => if x = (1, 2) then 1 else 0, unagg := fun x => if x = (1, 1) then 1 else 0,
    month := month, day := day }

/-- Nothing is left from before, all storages are empty. -/
noncomputable def askCarry : NbCarry :=
  ⟨fun _ => ⟨0, 0, 0⟩, fun _ => 0, fun _ => 0, fun _ => 0, fun _ => (0, 0), fun _ => ⟨0, 0, 0, 0, 0, 0.8, 0, 0⟩⟩

theorem askRun_good : askRun.Good dryBase where
  sound := dryOrder_sound
  units := dryUnits_ok
  nbs := by
    intro x p hp
    simp only [askRun] at hp
    split_ifs at hp with h1 h2
    · simp only [List.mem_singleton] at hp; subst hp; rw [h1]; decide
    · simp only [List.mem_singleton] at hp; subst hp; rw [h2]; decide
    · simp at hp

theorem askDay_good (m n : ℕ) : (askDay m n).Good dryBase askRun where
  same := (dryDay_good false).same
  cell := (dryDay_good false).cell
  use := (dryDay_good false).use
  sign := (dryDay_good false).sign
  cons := (dryDay_good false).cons

theorem askCarry_good : askCarry.Good dryBase askRun :=
  nbCarry_start dryBase askRun _ dryCarry_good.state

/-- The reservoir cell `(1, 2)` asked the shore cell, which comes before it, for 3 and waits for the answer; 5 were
known to be open before it asked; 1/2 was handed to the shore cell. -/
noncomputable def waitCarry : NbCarry :=
  { unsat := fun x => if x = (1, 2) then ⟨0, 5, 0⟩ else ⟨0, 0, 0⟩
    rip := fun x => if x = (1, 1) then 1 / 2 else 0
    sent := fun x => if x = (1, 2) then 3 else 0
    toSupply := fun x => if x = (1, 1) then 3 else 0
    nbMap := fun x => if x = (1, 2) then (1, 1) else (0, 0)
    state := fun _ => ⟨0, 0, 0, 0, 0, 0.8, 0, 0⟩ }

theorem waitCarry_waits : askRun.waits waitCarry (1, 2) := by
  refine ⟨by simp [waitCarry, realCell], ?_⟩
  simp only [waitCarry, askRun, dryOrder, if_true]; decide

theorem waitCarry_good : waitCarry.Good dryBase askRun where
  state := dryCarry_good.state
  lake := by intro x hx; rw [dryBase_lake] at hx; subst hx; simp [waitCarry]
  waits := by intro x _ _; simp only [waitCarry]; split_ifs <;> simp
  rip := by
    intro x hx
    by_cases h : x = (1, 1)
    · refine absurd ?_ (hx (1, 2) (by simp [askRun, dryOrder]))
      subst h
      exact ⟨by rw [dryBase_lake], by simp [askRun, dryUnit], by decide⟩
    · simp [waitCarry, h]
  sent := by intro x; simp only [waitCarry]; split_ifs <;> norm_num
  real := by
    intro x _ h
    by_cases hx : x = (1, 2)
    · subst hx; simp [waitCarry, realCell, askRun, dryOrder]
    · simp [waitCarry, hx] at h
  self := by
    intro x _ h
    by_cases hx : x = (1, 2)
    · subst hx; simp [waitCarry]
    · simp [waitCarry, hx, realCell] at h
  pend := by
    intro s hs
    simp only [askRun, dryOrder, List.map_cons, List.map_nil, List.mem_cons, List.not_mem_nil, or_false] at hs
    rcases hs with rfl | rfl
    · have : ((askRun.order.map Prod.fst).filter fun x => waitCarry.nbMap x = (1, 1) ∧
          (askRun.order.map Prod.fst).idxOf (1, 1) < (askRun.order.map Prod.fst).idxOf x) = [(1, 2)] := by
        simp only [waitCarry, askRun, dryOrder]; decide
      rw [this]; simp [waitCarry]
    · simp [waitCarry, askRun, dryOrder, List.filter, List.idxOf_cons]

example := C58_history dryBase askRun askRun_good [askDay 12 29, askDay 12 30, askDay 12 31, askDay 1 1]
  (by intro d hd; simp only [List.mem_cons, List.not_mem_nil, or_false] at hd
      rcases hd with rfl | rfl | rfl | rfl <;> exact askDay_good _ _)
  waitCarry waitCarry_good

example := (C58_year_end dryBase askRun askRun_good (askDay 12 31) (askDay_good _ _) waitCarry waitCarry_good).1 ⟨rfl, rfl⟩

example := C58_water_balance dryBase askRun askRun_good (askDay 3 1) (askDay_good _ _) waitCarry waitCarry_good
  (by intro e he _; simp only [askRun, dryOrder, List.mem_cons, List.not_mem_nil, or_false] at he
      rcases he with rfl | rfl <;> simp [drains])
  (by intro x _; simp only [askDay, dryBase]; split_ifs <;> simp [dryRes, exCell])

example := C59_told dryBase askRun askRun_good (askDay 3 1) (askDay_good _ _) waitCarry waitCarry_good (1, 2)
  (by simp [askRun, dryOrder])

example := C59_told_once dryBase askRun askRun_good rfl (1, 2) (by simp [askRun, dryOrder]) [askDay 3 1, askDay 3 2, askDay 3 3]
  (by intro d hd; simp only [List.mem_cons, List.not_mem_nil, or_false] at hd
      rcases hd with rfl | rfl | rfl <;> exact ⟨askDay_good _ _, by simp [askDay]⟩)
  waitCarry waitCarry_good

example := C59_known dryBase askRun askRun_good rfl (askDay 3 1) (askDay_good _ _) waitCarry waitCarry_good (1, 2)
  (by simp [askRun, dryOrder])

example := C58_turn dryBase askRun askRun_good (askDay 3 1) (askDay_good _ _) waitCarry waitCarry_good [((1, 1), (0, 0))] [] ((1, 2), (0, 0)) rfl

/-- The same basin without delayed use. -/
def askRunNow : NbRun := { askRun with delayed := false }

theorem askRunNow_good : askRunNow.Good dryBase := ⟨askRun_good.sound, askRun_good.units, askRun_good.nbs⟩

theorem askDayNow_good (m n : ℕ) : (askDay m n).Good dryBase askRunNow :=
  ⟨(askDay_good m n).same, (askDay_good m n).cell, (askDay_good m n).use, (askDay_good m n).sign, (askDay_good m n).cons⟩

theorem waitCarryNow_good : ({ waitCarry with unsat := fun _ => ⟨0, 0, 0⟩ } : NbCarry).Good dryBase askRunNow :=
  ⟨waitCarry_good.state, fun _ _ => ⟨le_rfl, fun _ => ⟨le_rfl, le_rfl⟩⟩, fun _ _ _ => ⟨rfl, rfl⟩, waitCarry_good.rip,
    waitCarry_good.sent, waitCarry_good.real, waitCarry_good.self, waitCarry_good.pend⟩

example := C58_history dryBase askRunNow askRunNow_good [askDay 12 30, askDay 12 31, askDay 1 1]
  (by intro d hd; simp only [List.mem_cons, List.not_mem_nil, or_false] at hd
      rcases hd with rfl | rfl | rfl <;> exact askDayNow_good _ _)
  _ waitCarryNow_good

example := C59_no_delay dryBase askRunNow askRunNow_good rfl (1, 2) (by simp [askRunNow, askRun, dryOrder]) [askDay 12 31, askDay 1 1]
  (by intro d hd; simp only [List.mem_cons, List.not_mem_nil, or_false] at hd
      rcases hd with rfl | rfl <;> exact askDayNow_good _ _)
  _ waitCarryNow_good rfl

example := C58_turn dryBase askRunNow askRunNow_good (askDay 3 1) (askDayNow_good _ _) _ waitCarryNow_good [((1, 1), (0, 0))] [] ((1, 2), (0, 0)) rfl

/-- The lake of the finding: its outflow cell got 3 back and leaves 1 unsatisfied, which is all demand of the shore cell. -/
noncomputable example := C58_violated_no_delay_shore dryBase
  { pot := fun x => if x = (1, 2) then 1 else 0, unagg := fun x => if x = (1, 1) then 1 else 0, unit := dryUnit,
    prev := fun _ => 0, order := [(1, 1), (1, 2)], delayed := false, resOpt := true, month := 3, day := 1, nbs := fun _ => [] }
  { acc := fun _ => 0, rip := fun _ => 0, sent := fun _ => 0, toSupply := fun _ => 0,
    ret := fun x => if x = (1, 2) then some 3 else none, retNext := fun _ => none, daily := fun _ => some 0,
    nbMap := fun _ => (0, 0), turned := fun _ => 0 } (1, 2) 3 1 rfl (by simp) (by norm_num) (by norm_num) rfl rfl
  (by simp [RedistIn.Consistent, RedistIn.positive, RedistIn.riparian, nbRedist, dryUnit])
  (by simp [RedistIn.positive, RedistIn.riparian, nbRedist, dryUnit])
  (by simp [RedistIn.riparian, nbRedist, dryUnit]) (by norm_num)

/-- C58 is violated at the edge of the grid: index zero means "no neighbour" in either coordinate, so a neighbour in the
first column (or row) is selected for having the most water, but not asked; the cell keeps its demand although
another neighbour has water, too. -/
theorem C58_violated_first_column :
    let avail : Cell → ℝ := fun z => if z = (5, 0) then 3 else if z = (4, 1) then 1 else 0
    let nbs : List (Cell × Cell) := [((5, 0), (9, 9)), ((4, 1), (9, 9))]
    getNeighbour avail nbs 1 (5, 1) 6 1 (fun _ => 0) = (5, 0) ∧ Eligible avail (5, 1) ((4, 1), (9, 9)) ∧
    ∀ (cin : Cell → CellIn) (q : NbDay) (l : NbLedger) (x : Cell) (o : CellOut) (state : Cell → CellState) (row : ℕ),
      (nbUpd cin q l x o state).nbMap x = (row, 0) →
      (nbUpd cin q l x o state).sent x = 0 ∧ (nbUpd cin q l x o state).acc x = (allocate (nbAlloc cin q l x o)
        (if (l.takenUp x).isSome then Function.update l.ret x none else l.ret)).1 ∧
      ∀ z, z ≠ x → (nbUpd cin q l x o state).toSupply z = l.toSupply z := by
  refine ⟨?_, ⟨by decide, by decide, by norm_num⟩, fun cin q l x o state row hnb => ?_⟩
  · norm_num [getNeighbour, neighbourStep]
  · simp only [nbUpd, Function.update_self] at hnb ⊢
    rw [hnb]
    have hn : ¬ realCell (row, 0) := fun h => absurd h.2 (by simp)
    simp only [if_neg hn, true_and]
    intro z hz
    by_cases ht : l.toSupply x > 0
    · rw [if_pos ht, Function.update_of_ne hz]
    · rw [if_neg ht]

end WG
