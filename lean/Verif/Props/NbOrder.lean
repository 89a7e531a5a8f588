import Verif.Props.NbBasin
import Verif.Props.OrderFree

/-!
# C82 with water supply from neighbouring cells
-/

namespace WG

/-! ## Specification -/

/-- The cell `x` may ask the cell `y` for water. -/
def MayAsk (r : NbRun) (x y : Cell) : Prop := ∃ p ∈ r.nbs x, p.1 = y

/-- The two routing orders list the same river network, upstream cells first, and agree on the order of any two cells of
which one is on the shore of the other's lake or reservoir or may ask the other for water. (No cell has the indices
(0, 0), which stand for none.) -/
structure SameNbNetwork (r : NbRun) (days : List NbWgDay) (order' : List (Cell × Cell)) : Prop where
  perm : r.order.Perm order'
  sound : Sound r.order
  sound' : Sound order'
  real : ∀ e ∈ r.order, e.1 ≠ (0, 0)
  shores : ∀ d ∈ days, ∀ e f, OnShore d.lateral r.unit e.1 f.1 ∨ OnShore d.lateral r.unit f.1 e.1 →
    Before r.order e f → Before order' e f
  neighbours : ∀ e f, MayAsk r e.1 f.1 ∨ MayAsk r f.1 e.1 → Before r.order e f → Before order' e f

/-- Cells have asked nobody but their neighbours. -/
def NbAsked (nbs : Cell → List (Cell × Cell)) (m : Cell → Cell) : Prop := ∀ x, m x = (0, 0) ∨ ∃ p ∈ nbs x, p.1 = m x

/-! ## Proof -/

section
variable (cin : Cell → CellIn) (q : NbDay)

/-- The turns of two cells do not touch each other. -/
structure NbFar (x y : Cell) : Prop where
  ne : x ≠ y
  zx : x ≠ (0, 0)
  zy : y ≠ (0, 0)
  shore : ¬ OnShore cin q.unit x y
  shore' : ¬ OnShore cin q.unit y x
  ask : ∀ p ∈ q.nbs x, p.1 ≠ y
  ask' : ∀ p ∈ q.nbs y, p.1 ≠ x

variable {cin q}

theorem NbFar.symm {x y : Cell} (h : NbFar cin q x y) : NbFar cin q y x :=
  ⟨h.ne.symm, h.zy, h.zx, h.shore', h.shore, h.ask', h.ask⟩

/-- What the turn of a cell sees of the ledger. -/
def NbSees (y : Cell) (l l' : NbLedger) : Prop :=
  l.acc y = l'.acc y ∧ l.rip y = l'.rip y ∧ l.toSupply y = l'.toSupply y ∧ l.ret y = l'.ret y ∧ l.retNext y = l'.retNext y ∧
    l.daily y = l'.daily y ∧ l.turned y = l'.turned y

theorem NbSees.takenUp {y : Cell} {l l' : NbLedger} (h : NbSees y l l') : l.takenUp y = l'.takenUp y := by
  unfold NbLedger.takenUp; rw [h.2.2.2.1]

theorem NbSees.own {y : Cell} {l l' : NbLedger} (h : NbSees y l l') : nbOwn cin q l y = nbOwn cin q l' y := by
  unfold nbOwn; rw [h.1, h.2.1, h.takenUp]

theorem NbSees.dailyEq {y : Cell} {l l' : NbLedger} (h : NbSees y l l') : nbDaily q l y = nbDaily q l' y := by
  unfold nbDaily; rw [h.takenUp, h.2.2.2.2.2.1]

theorem NbSees.retNextEq {y : Cell} {l l' : NbLedger} (h : NbSees y l l') : nbRetNext l y = nbRetNext l' y := by
  unfold nbRetNext; rw [h.takenUp, h.2.2.2.2.1]

theorem NbSees.input {y : Cell} {l l' : NbLedger} (h : NbSees y l l') : nbIn cin q l y = nbIn cin q l' y := by
  unfold nbIn; rw [h.dailyEq]

theorem NbSees.demand {y : Cell} {l l' : NbLedger} (h : NbSees y l l') : nbDemand cin q l y = nbDemand cin q l' y := by
  unfold nbDemand; rw [h.own, h.2.2.1]

theorem NbSees.redist {y : Cell} {l l' : NbLedger} (h : NbSees y l l') (u : ℝ) : nbRedist q l y u = nbRedist q l' y u := by
  unfold nbRedist; rw [h.2.2.1, h.retNextEq]

theorem NbSees.turn {y : Cell} {l l' : NbLedger} (h : NbSees y l l') (st : CellState) (up : ℝ) :
    nbTurn cin q l y st up = nbTurn cin q l' y st up := by
  unfold nbTurn
  have hk : nbKeep q l y = nbKeep q l' y := by
    funext u
    unfold nbKeep
    rw [h.redist]
    exact redistribute_fst _ _ _
  rw [h.input, h.demand, hk]

theorem NbSees.split {y : Cell} {l l' : NbLedger} (h : NbSees y l l') (o : CellOut) :
    allocSplit (nbAlloc cin q l y o) = allocSplit (nbAlloc cin q l' y o) := by
  unfold allocSplit nbAlloc
  simp only
  rw [h.2.2.1, h.own]

/-- Where a neighbour is asked: one of the listed cells or none. -/
theorem asked_mem (avail : Cell → ℝ) (nbs : List (Cell × Cell)) (d : ℝ) (x : Cell) (month day : ℕ) (turned : Cell → ℕ) :
    getNeighbour avail nbs d x month day turned = (0, 0) ∨
      ∃ p ∈ nbs, p.1 = getNeighbour avail nbs d x month day turned := by
  rcases neighbour_cases avail nbs d x month day turned with h | ⟨-, p, hp, h, -⟩
  · exact .inl h
  · exact .inr ⟨p, hp, h.symm⟩

/-- The choice of the neighbour looks at the neighbours and at the cell only. -/
theorem asked_congr (av av' : Cell → ℝ) (nbs : List (Cell × Cell)) (d : ℝ) (x : Cell) (month day : ℕ) (t t' : Cell → ℕ)
    (hav : ∀ p ∈ nbs, p.1 ≠ (0, 0) → av p.1 = av' p.1) (ht : ∀ p ∈ nbs, p.1 ≠ (0, 0) → t p.1 = t' p.1) (hx : t x = t' x) :
    getNeighbour av nbs d x month day t = getNeighbour av' nbs d x month day t' := by
  unfold getNeighbour
  rw [neighbour_congr (fun _ => true) _ _ x _ hav]
  by_cases hd : d > 0
  · simp only [if_pos hd]
    by_cases hdate : month = 12 ∧ day = 31
    · simp only [if_pos hdate]
      obtain ⟨-, -, hf⟩ := neighbour_fold av' x nbs ((0, 0), 0) le_rfl
      by_cases h0 : (nbs.foldl (neighbourStep av' x) ((0, 0), 0)).1 = (0, 0)
      · rw [h0]; simp only [ite_self]
      · rcases hf with hf | ⟨p, hp, -, hf⟩
        · rw [hf] at h0; exact absurd rfl h0
        · rw [hf] at h0 ⊢
          rw [ht p hp h0, hx]
    · simp only [if_neg hdate]
  · simp only [if_neg hd]

/-- The neighbour the cell asks at its turn. -/
noncomputable def nbChoice (cin : Cell → CellIn) (q : NbDay) (l : NbLedger) (x : Cell) (o : CellOut) (state : Cell → CellState) :
    Cell :=
  getNeighbour (nbAvail cin q state) (q.nbs x) (allocSplit (nbAlloc cin q l x o)).1 x q.month q.day l.turned

/-- Demand waiting at supply cells after the turn, cell by cell. -/
theorem toSupply_apply (cin : Cell → CellIn) (q : NbDay) (l : NbLedger) (x : Cell) (o : CellOut) (st : Cell → CellState) (c : Cell) :
    (nbUpd cin q l x o st).toSupply c = (if c = x ∧ l.toSupply x > 0 then 0 else l.toSupply c)
      + (if realCell (nbChoice cin q l x o st) ∧ c = nbChoice cin q l x o st then (allocSplit (nbAlloc cin q l x o)).1 else 0) := by
  have h0 : ∀ c, (if l.toSupply x > 0 then Function.update l.toSupply x 0 else l.toSupply) c
      = if c = x ∧ l.toSupply x > 0 then 0 else l.toSupply c := by
    intro c
    by_cases ht : l.toSupply x > 0
    · rw [if_pos ht]
      by_cases hc : c = x
      · subst hc; rw [Function.update_self, if_pos ⟨rfl, ht⟩]
      · rw [Function.update_of_ne hc, if_neg fun k => hc k.1]
    · rw [if_neg ht, if_neg fun k => ht k.2]
  have key : ∀ (f : Cell → ℝ) (n : Cell) (a : ℝ), (if realCell n then Function.update f n (f n + a) else f) c
      = f c + if realCell n ∧ c = n then a else 0 := by
    intro f n a
    by_cases hr : realCell n
    · rw [if_pos hr]
      by_cases hc : c = n
      · subst hc; rw [Function.update_self, if_pos ⟨hr, rfl⟩]
      · rw [Function.update_of_ne hc, if_neg fun k => hc k.2, add_zero]
    · rw [if_neg hr, if_neg fun k => hr k.1, add_zero]
  rw [← h0]
  exact key _ _ _

open Classical in
/-- Demand given back after the turn, cell by cell. -/
theorem ret_apply (cin : Cell → CellIn) (q : NbDay) (l : NbLedger) (x : Cell) (o : CellOut) (st : Cell → CellState) (c : Cell) :
    (nbUpd cin q l x o st).ret c = if l.toSupply x > 0 ∧ c ∈ q.order ∧ l.nbMap c = x then
        some ((allocSplit (nbAlloc cin q l x o)).2 * l.sent c * (1 / l.toSupply x))
      else if c = x ∧ (l.takenUp x).isSome then none else l.ret c := by
  change (allocate (nbAlloc cin q l x o) (if (l.takenUp x).isSome then Function.update l.ret x none else l.ret)).2.1 c = _
  have h0 : (if (l.takenUp x).isSome then Function.update l.ret x none else l.ret) c
      = if c = x ∧ (l.takenUp x).isSome then none else l.ret c := by
    by_cases ht : (l.takenUp x).isSome
    · rw [if_pos ht]
      by_cases hc : c = x
      · subst hc; rw [Function.update_self, if_pos ⟨rfl, ht⟩]
      · rw [Function.update_of_ne hc, if_neg fun k => hc k.1]
    · rw [if_neg ht, if_neg fun k => ht k.2]
  simp only [allocate]
  by_cases hp : (nbAlloc cin q l x o).toSupply > 0
  · rw [if_pos hp, alloc_fold, h0]
    refine if_congr ?_ rfl rfl
    change (c ∈ q.order ∧ l.nbMap c = x) ↔ _
    exact ⟨fun k => ⟨hp, k⟩, fun k => k.2⟩
  · rw [if_neg hp, if_neg fun k : l.toSupply x > 0 ∧ _ => hp k.1, h0]

theorem asked_upd {l : NbLedger} (hl : NbAsked q.nbs l.nbMap) (x : Cell) (o : CellOut) (st : Cell → CellState) :
    NbAsked q.nbs (nbUpd cin q l x o st).nbMap := by
  intro c
  change Function.update l.nbMap x (nbChoice cin q l x o st) c = _ ∨ ∃ p ∈ q.nbs c, p.1 = Function.update l.nbMap x (nbChoice cin q l x o st) c
  by_cases hc : c = x
  · subst hc
    rw [Function.update_self]
    exact asked_mem _ _ _ _ _ _ _
  · rw [Function.update_of_ne hc]
    exact hl c

section far
variable {x y : Cell} (h : NbFar cin q x y) {l : NbLedger} (hl : NbAsked q.nbs l.nbMap)
include h

theorem choice_ne (o : CellOut) (st : Cell → CellState) : nbChoice cin q l x o st ≠ y := by
  intro k
  rcases asked_mem (nbAvail cin q st) (q.nbs x) (allocSplit (nbAlloc cin q l x o)).1 x q.month q.day l.turned with h0 | ⟨p, hp, h0⟩
  · exact h.zy (k ▸ h0)
  · exact h.ask p hp (h0.trans k)

include hl in
theorem map_ne : l.nbMap x ≠ y := by
  intro k
  rcases hl x with h0 | ⟨p, hp, h0⟩
  · exact h.zy (k ▸ h0)
  · exact h.ask p hp (h0.trans k)

include hl in
open Classical in
/-- After the turn of `x` the cell `y` sees the ledger as before. -/
theorem sees_far (o : CellOut) (st : Cell → CellState) : NbSees y (nbUpd cin q l x o st) l := by
  refine ⟨Function.update_of_ne h.ne.symm _ _, ?_, ?_, ?_, Function.update_of_ne h.ne.symm _ _, ?_, Function.update_of_ne h.ne.symm _ _⟩
  · change (if (cin x).useOpt = true ∧ (cin x).hasLake then (redistribute (nbRedist q l x o.lakeUnsat) l.rip).2 else l.rip) y = l.rip y
    by_cases hk : (cin x).useOpt = true ∧ (cin x).hasLake
    · rw [if_pos hk]
      exact redistribute_far _ _ _ fun k => h.shore ⟨hk.1, hk.2, k.symm⟩
    · rw [if_neg hk]
  · rw [toSupply_apply, if_neg fun k => h.ne k.1.symm, if_neg fun k => choice_ne h o st k.2.symm, add_zero]
  · rw [ret_apply, if_neg fun k => map_ne h.symm hl k.2.2, if_neg fun k => h.ne k.1.symm]
  · change (if _ then Function.update (Function.update l.daily x (nbDaily q l x)) x none
      else Function.update l.daily x (nbDaily q l x)) y = l.daily y
    split_ifs <;> simp [Function.update_of_ne h.ne.symm]

include hl in
theorem choice_far (o o' : CellOut) (s : Cell → CellState) (z : CellState) (st : Cell → CellState) :
    nbChoice cin q (nbUpd cin q l x o st) y o' (Function.update s x z) = nbChoice cin q l y o' s := by
  unfold nbChoice
  rw [(sees_far h hl o st).split]
  refine asked_congr _ _ _ _ _ _ _ _ _ ?_ ?_ ?_
  · intro p hp _
    simp only [nbAvail, cellStorage, Function.update_of_ne (h.ask' p hp)]
  · intro p hp _
    exact Function.update_of_ne (h.ask' p hp) _ _
  · exact Function.update_of_ne h.ne.symm _ _

include hl in
open Classical in
/-- The turns of two such cells in either order leave the same ledger. -/
theorem nbUpd_comm (o o' : CellOut) (s : Cell → CellState) (z z' : CellState) :
    nbUpd cin q (nbUpd cin q l x o (Function.update s x z)) y o' (Function.update (Function.update s x z) y z')
      = nbUpd cin q (nbUpd cin q l y o' (Function.update s y z')) x o (Function.update (Function.update s y z') x z) := by
  have hs := sees_far h hl o (Function.update s x z)
  have hs' := sees_far h.symm hl o' (Function.update s y z')
  have hc : nbChoice cin q (nbUpd cin q l x o (Function.update s x z)) y o' (Function.update (Function.update s x z) y z')
      = nbChoice cin q l y o' (Function.update s y z') := by
    rw [Function.update_comm h.ne]
    exact choice_far h hl o o' _ z _
  have hc' : nbChoice cin q (nbUpd cin q l y o' (Function.update s y z')) x o (Function.update (Function.update s y z') x z)
      = nbChoice cin q l x o (Function.update s x z) := by
    rw [Function.update_comm h.ne.symm]
    exact choice_far h.symm hl o' o _ z' _
  have ext : ∀ a b : NbLedger, a.acc = b.acc → a.rip = b.rip → a.sent = b.sent → a.toSupply = b.toSupply → a.ret = b.ret →
      a.retNext = b.retNext → a.daily = b.daily → a.nbMap = b.nbMap → a.turned = b.turned → a = b := by
    rintro ⟨⟩ ⟨⟩ h1 h2 h3 h4 h5 h6 h7 h8 h9
    simp only at h1 h2 h3 h4 h5 h6 h7 h8 h9
    subst h1 h2 h3 h4 h5 h6 h7 h8 h9
    rfl
  have two : ∀ {β : Type} (f : Cell → β) (a b a' b' : β), a = a' → b = b' →
      Function.update (Function.update f x a) y b = Function.update (Function.update f y b') x a' := by
    intro β f a b a' b' e1 e2
    rw [e1, e2, Function.update_comm h.ne]
  apply ext
  · refine two l.acc _ _ _ _ ?_ ?_
    · change (if realCell (nbChoice cin q l x o (Function.update s x z)) then 0 else (allocSplit (nbAlloc cin q l x o)).1) =
        if realCell (nbChoice cin q (nbUpd cin q l y o' (Function.update s y z')) x o (Function.update (Function.update s y z') x z)) then 0
        else (allocSplit (nbAlloc cin q (nbUpd cin q l y o' (Function.update s y z')) x o)).1
      rw [hc', hs'.split]
    · change (if realCell (nbChoice cin q (nbUpd cin q l x o (Function.update s x z)) y o' (Function.update (Function.update s x z) y z')) then 0
        else (allocSplit (nbAlloc cin q (nbUpd cin q l x o (Function.update s x z)) y o')).1) =
        if realCell (nbChoice cin q l y o' (Function.update s y z')) then 0 else (allocSplit (nbAlloc cin q l y o')).1
      rw [hc, hs.split]
  · change (if (cin y).useOpt = true ∧ (cin y).hasLake then
        (redistribute (nbRedist q (nbUpd cin q l x o (Function.update s x z)) y o'.lakeUnsat)
          (if (cin x).useOpt = true ∧ (cin x).hasLake then (redistribute (nbRedist q l x o.lakeUnsat) l.rip).2 else l.rip)).2
        else (if (cin x).useOpt = true ∧ (cin x).hasLake then (redistribute (nbRedist q l x o.lakeUnsat) l.rip).2 else l.rip))
      = (if (cin x).useOpt = true ∧ (cin x).hasLake then
        (redistribute (nbRedist q (nbUpd cin q l y o' (Function.update s y z')) x o.lakeUnsat)
          (if (cin y).useOpt = true ∧ (cin y).hasLake then (redistribute (nbRedist q l y o'.lakeUnsat) l.rip).2 else l.rip)).2
        else (if (cin y).useOpt = true ∧ (cin y).hasLake then (redistribute (nbRedist q l y o'.lakeUnsat) l.rip).2 else l.rip))
    rw [hs.redist, hs'.redist]
    by_cases hx : (cin x).useOpt = true ∧ (cin x).hasLake
    · by_cases hy : (cin y).useOpt = true ∧ (cin y).hasLake
      · rw [if_pos hx, if_pos hy, if_pos hx, if_pos hy]
        have hu : q.unit x ≠ q.unit y := fun k => h.shore ⟨hx.1, hx.2, k⟩
        funext c
        by_cases hcu : q.unit c = q.unit x
        · have hcy : q.unit c ≠ q.unit y := by rw [hcu]; exact hu
          rw [redistribute_far (nbRedist q l y o'.lakeUnsat) _ c hcy]
          refine redistribute_snd _ _ _ c ?_
          exact (redistribute_far (nbRedist q l y o'.lakeUnsat) _ c hcy).symm
        · rw [redistribute_far (nbRedist q l x o.lakeUnsat) _ c hcu]
          refine redistribute_snd _ _ _ c ?_
          exact redistribute_far (nbRedist q l x o.lakeUnsat) _ c hcu
      · rw [if_pos hx, if_neg hy, if_pos hx, if_neg hy]
    · by_cases hy : (cin y).useOpt = true ∧ (cin y).hasLake
      · rw [if_neg hx, if_pos hy, if_neg hx]
      · rw [if_neg hx, if_neg hy, if_neg hx]
  · refine two l.sent _ _ _ _ ?_ ?_
    · change (if realCell (nbChoice cin q l x o (Function.update s x z)) then (allocSplit (nbAlloc cin q l x o)).1 else 0) =
        if realCell (nbChoice cin q (nbUpd cin q l y o' (Function.update s y z')) x o (Function.update (Function.update s y z') x z)) then
          (allocSplit (nbAlloc cin q (nbUpd cin q l y o' (Function.update s y z')) x o)).1 else 0
      rw [hc', hs'.split]
    · change (if realCell (nbChoice cin q (nbUpd cin q l x o (Function.update s x z)) y o' (Function.update (Function.update s x z) y z')) then
          (allocSplit (nbAlloc cin q (nbUpd cin q l x o (Function.update s x z)) y o')).1 else 0) =
        if realCell (nbChoice cin q l y o' (Function.update s y z')) then (allocSplit (nbAlloc cin q l y o')).1 else 0
      rw [hc, hs.split]
  · funext c
    rw [toSupply_apply, toSupply_apply cin q (nbUpd cin q l y o' (Function.update s y z')), hc, hc', hs.split, hs'.split,
      hs.2.2.1, hs'.2.2.1, toSupply_apply, toSupply_apply]
    have hne := h.ne
    have c1 := choice_ne (l := l) h o (Function.update s x z)
    have c2 := choice_ne (l := l) h.symm o' (Function.update s y z')
    by_cases hcx : c = x
    · have n1 : ¬ (c = y ∧ l.toSupply y > 0) := fun k => hne (hcx.symm.trans k.1)
      have n2 : ¬ (realCell (nbChoice cin q l y o' (Function.update s y z')) ∧ c = nbChoice cin q l y o' (Function.update s y z')) :=
        fun k => c2 (k.2.symm.trans hcx)
      simp only [if_neg n1, if_neg n2, add_zero]
    · have n1 : ¬ (c = x ∧ l.toSupply x > 0) := fun k => hcx k.1
      by_cases hcy : c = y
      · have n2 : ¬ (realCell (nbChoice cin q l x o (Function.update s x z)) ∧ c = nbChoice cin q l x o (Function.update s x z)) :=
          fun k => c1 (k.2.symm.trans hcy)
        simp only [if_neg n1, if_neg n2, add_zero]
      · have n2 : ¬ (c = y ∧ l.toSupply y > 0) := fun k => hcy k.1
        simp only [if_neg n1, if_neg n2]
        ring
  · funext c
    rw [ret_apply, ret_apply cin q (nbUpd cin q l y o' (Function.update s y z')), hs.split, hs'.split, hs.takenUp, hs'.takenUp,
      hs.2.2.1, hs'.2.2.1, ret_apply, ret_apply]
    have e1 : (nbUpd cin q l x o (Function.update s x z)).nbMap c = y ↔ l.nbMap c = y := by
      change Function.update l.nbMap x (nbChoice cin q l x o (Function.update s x z)) c = y ↔ _
      by_cases hcx : c = x
      · subst hcx
        rw [Function.update_self]
        exact ⟨fun k => absurd k (choice_ne h _ _), fun k => absurd k (map_ne h hl)⟩
      · rw [Function.update_of_ne hcx]
    have e2 : (nbUpd cin q l y o' (Function.update s y z')).nbMap c = x ↔ l.nbMap c = x := by
      change Function.update l.nbMap y (nbChoice cin q l y o' (Function.update s y z')) c = x ↔ _
      by_cases hcy : c = y
      · subst hcy
        rw [Function.update_self]
        exact ⟨fun k => absurd k (choice_ne h.symm _ _), fun k => absurd k (map_ne h.symm hl)⟩
      · rw [Function.update_of_ne hcy]
    have s1 : l.nbMap c = y → (nbUpd cin q l x o (Function.update s x z)).sent c = l.sent c := by
      intro k
      refine Function.update_of_ne ?_ _ _
      rintro rfl
      exact map_ne h hl k
    have s2 : l.nbMap c = x → (nbUpd cin q l y o' (Function.update s y z')).sent c = l.sent c := by
      intro k
      refine Function.update_of_ne ?_ _ _
      rintro rfl
      exact map_ne h.symm hl k
    simp only [e1, e2]
    have m1 := map_ne h hl
    have m2 := map_ne h.symm hl
    by_cases ky : l.nbMap c = y
    · have kx : l.nbMap c ≠ x := fun k => h.ne (k.symm.trans ky)
      have hcx : c ≠ x := fun k => m1 (k ▸ ky)
      rw [s1 ky]
      simp only [ky, hcx, h.ne.symm, and_false, if_false, false_and]
    · by_cases kx : l.nbMap c = x
      · have hcy : c ≠ y := fun k => m2 (k ▸ kx)
        rw [s2 kx]
        simp only [kx, hcy, h.ne, and_false, if_false, false_and]
      · simp only [ky, kx, and_false, if_false]
        by_cases hcx : c = x
        · have hcy : c ≠ y := fun k => h.ne (hcx.symm.trans k)
          simp only [hcy, false_and, if_false]
        · simp only [hcx, false_and, if_false]
  · refine two l.retNext _ _ _ _ ?_ ?_
    · exact hs'.retNextEq.symm
    · exact hs.retNextEq
  · have dd : ∀ (l : NbLedger) (x : Cell) (o : CellOut) (st : Cell → CellState), (nbUpd cin q l x o st).daily
        = Function.update l.daily x (if realCell (nbChoice cin q l x o st) ∧ l.turned (nbChoice cin q l x o st) > l.turned x then none
          else nbDaily q l x) := by
      intro l x o st
      change (if realCell (nbChoice cin q l x o st) ∧ l.turned (nbChoice cin q l x o st) > l.turned x then
        Function.update (Function.update l.daily x (nbDaily q l x)) x none else Function.update l.daily x (nbDaily q l x)) = _
      split_ifs
      · rw [Function.update_idem]
      · rfl
    rw [dd, dd, dd, dd, hc, hc', hs.dailyEq, hs'.dailyEq, hs.2.2.2.2.2.2, hs'.2.2.2.2.2.2]
    have t1 : (nbUpd cin q l x o (Function.update s x z)).turned (nbChoice cin q l y o' (Function.update s y z'))
        = l.turned (nbChoice cin q l y o' (Function.update s y z')) := Function.update_of_ne (choice_ne h.symm _ _) _ _
    have t2 : (nbUpd cin q l y o' (Function.update s y z')).turned (nbChoice cin q l x o (Function.update s x z))
        = l.turned (nbChoice cin q l x o (Function.update s x z)) := Function.update_of_ne (choice_ne h _ _) _ _
    rw [t1, t2]
    exact two _ _ _ _ _ rfl rfl
  · exact two l.nbMap _ _ _ _ hc'.symm hc
  · exact two l.turned _ _ _ _ rfl rfl

include hl in
theorem nbNode_comm (b : Basin NbLedger) (hb : b.demand = l) (u v : ℝ) :
    (nbNode cin q (nbNode cin q b x u).1 y v).1 = (nbNode cin q (nbNode cin q b y v).1 x u).1 ∧
      (nbNode cin q (nbNode cin q b x u).1 y v).2 = (nbNode cin q b y v).2 ∧
      (nbNode cin q (nbNode cin q b y v).1 x u).2 = (nbNode cin q b x u).2 := by
  subst hb
  have one : ∀ {x y : Cell} (_ : NbFar cin q x y) (u : ℝ), (∀ st up, nbTurn cin q (nbNode cin q b x u).1.demand y st up
        = nbTurn cin q b.demand y st up) ∧ nbIn cin q (nbNode cin q b x u).1.demand y = nbIn cin q b.demand y ∧
      nbDemand cin q (nbNode cin q b x u).1.demand y = nbDemand cin q b.demand y ∧
      (nbNode cin q b x u).1.state y = b.state y := by
    intro x y h u
    have hs := sees_far h hl (nbTurn cin q b.demand x (b.state x) u) (Function.update b.state x (nbTurn cin q b.demand x (b.state x) u).state)
    exact ⟨fun st up => hs.turn st up, hs.input, hs.demand, Function.update_of_ne h.ne.symm _ _⟩
  obtain ⟨a1, a2, a3, a4⟩ := one h u
  obtain ⟨b1, b2, b3, b4⟩ := one h.symm v
  refine ⟨?_, ?_, ?_⟩
  · have hy : nbTurn cin q (nbNode cin q b x u).1.demand y ((nbNode cin q b x u).1.state y) v = nbTurn cin q b.demand y (b.state y) v := by
      rw [a1, a4]
    have hx : nbTurn cin q (nbNode cin q b y v).1.demand x ((nbNode cin q b y v).1.state x) u = nbTurn cin q b.demand x (b.state x) u := by
      rw [b1, b4]
    change Basin.mk (nbUpd cin q _ y (nbTurn cin q (nbNode cin q b x u).1.demand y ((nbNode cin q b x u).1.state y) v)
        (Function.update (nbNode cin q b x u).1.state y (nbTurn cin q (nbNode cin q b x u).1.demand y ((nbNode cin q b x u).1.state y) v).state))
        (Function.update (nbNode cin q b x u).1.state y (nbTurn cin q (nbNode cin q b x u).1.demand y ((nbNode cin q b x u).1.state y) v).state)
        (Function.update (nbNode cin q b x u).1.out y (some (nbTurn cin q (nbNode cin q b x u).1.demand y ((nbNode cin q b x u).1.state y) v)))
      = Basin.mk (nbUpd cin q _ x (nbTurn cin q (nbNode cin q b y v).1.demand x ((nbNode cin q b y v).1.state x) u)
        (Function.update (nbNode cin q b y v).1.state x (nbTurn cin q (nbNode cin q b y v).1.demand x ((nbNode cin q b y v).1.state x) u).state))
        (Function.update (nbNode cin q b y v).1.state x (nbTurn cin q (nbNode cin q b y v).1.demand x ((nbNode cin q b y v).1.state x) u).state)
        (Function.update (nbNode cin q b y v).1.out x (some (nbTurn cin q (nbNode cin q b y v).1.demand x ((nbNode cin q b y v).1.state x) u)))
    rw [hy, hx]
    congr 1
    · exact nbUpd_comm h hl _ _ _ _ _
    · exact Function.update_comm h.ne.symm _ _ _ |>.symm ▸ rfl
    · exact Function.update_comm h.ne.symm _ _ _ |>.symm ▸ rfl
  · change (cellRiverIn (nbIn cin q _ y) _ v (nbDemand cin q _ y), (nbTurn cin q _ y _ v).streamflow) = _
    rw [a1, a2, a3, a4]
    rfl
  · change (cellRiverIn (nbIn cin q _ x) _ u (nbDemand cin q _ x), (nbTurn cin q _ x _ u).streamflow) = _
    rw [b1, b2, b3, b4]
    rfl

end far

end

/-! ## The routing loop -/

section
variable {cin : Cell → CellIn} {q : NbDay}

/-- The same cells listed in another order: the same turns. -/
theorem nbNode_perm (q : NbDay) (o' : List Cell) (h : q.order.Perm o') :
    nbNode cin { q with order := o' } = nbNode cin q := by
  have hredist : ∀ l x u rip, redistribute (nbRedist { q with order := o' } l x u) rip = redistribute (nbRedist q l x u) rip :=
    fun l x u rip => redistribute_perm (nbRedist q l x u) o' h rip
  have hturn : ∀ l x st up, nbTurn cin { q with order := o' } l x st up = nbTurn cin q l x st up := by
    intro l x st up
    have hk : nbKeep { q with order := o' } l x = nbKeep q l x := by
      funext u
      unfold nbKeep
      rw [hredist]
    unfold nbTurn
    rw [hk]
    rfl
  have hav : ∀ st, nbAvail cin { q with order := o' } st = nbAvail cin q st := by
    intro st
    funext c
    unfold nbAvail
    have : c ∈ o' ↔ c ∈ q.order := h.mem_iff.symm
    simp only [this]
  have hal : ∀ l x o ret, allocate (nbAlloc cin { q with order := o' } l x o) ret = allocate (nbAlloc cin q l x o) ret := by
    intro l x o ret
    unfold allocate
    have e1 : allocSplit (nbAlloc cin { q with order := o' } l x o) = allocSplit (nbAlloc cin q l x o) := rfl
    rw [e1]
    refine Prod.ext rfl (Prod.ext ?_ rfl)
    by_cases ht : (nbAlloc cin q l x o).toSupply > 0
    · have ht' : (nbAlloc cin { q with order := o' } l x o).toSupply > 0 := ht
      simp only [if_pos ht, if_pos ht']
      funext c
      rw [alloc_fold, alloc_fold]
      refine if_congr ?_ rfl rfl
      exact and_congr h.mem_iff.symm Iff.rfl
    · have ht' : ¬ (nbAlloc cin { q with order := o' } l x o).toSupply > 0 := ht
      simp only [if_neg ht, if_neg ht']
  have hupd : ∀ l x o st, nbUpd cin { q with order := o' } l x o st = nbUpd cin q l x o st := by
    intro l x o st
    unfold nbUpd
    simp only [hal, hav, hredist]
    rfl
  funext b x up
  unfold nbNode
  simp only [hturn, hupd]
  rfl

/-- One day of the basin in two orders. -/
theorem nbDayRun_order (order order' : List (Cell × Cell)) (hp : order.Perm order') (hs : Sound order) (hs' : Sound order')
    (hz : ∀ e ∈ order, e.1 ≠ (0, 0))
    (hsh : ∀ e f, OnShore cin q.unit e.1 f.1 ∨ OnShore cin q.unit f.1 e.1 → Before order e f → Before order' e f)
    (hnb : ∀ e f, (∃ p ∈ q.nbs e.1, p.1 = f.1) ∨ (∃ p ∈ q.nbs f.1, p.1 = e.1) → Before order e f → Before order' e f)
    (l : NbLedger) (hl : NbAsked q.nbs l.nbMap) (state : Cell → CellState) :
    nbDayRun cin q order l state = nbDayRun cin q order' l state := by
  let node' : {b : Basin NbLedger // NbAsked q.nbs b.demand.nbMap} → Cell → ℝ →
      {b : Basin NbLedger // NbAsked q.nbs b.demand.nbMap} × ℝ × ℝ :=
    fun b x up => (⟨(nbNode cin q b.1 x up).1, asked_upd b.2 x _ _⟩, (nbNode cin q b.1 x up).2)
  have val : ∀ (w : List (Cell × Cell)) (s : NetState {b : Basin NbLedger // NbAsked q.nbs b.demand.nbMap}),
      w.foldl (routeStep (nbNode cin q)) ⟨s.ledger.1, s.inflow, s.up, s.flow⟩
        = (⟨(w.foldl (routeStep node') s).ledger.1, (w.foldl (routeStep node') s).inflow, (w.foldl (routeStep node') s).up,
          (w.foldl (routeStep node') s).flow⟩ : NetState (Basin NbLedger)) := by
    intro w
    induction w with
    | nil => intro s; rfl
    | cons e w ih =>
      intro s
      rw [List.foldl_cons, List.foldl_cons, ← ih]
      rfl
  have key : ∀ s : NetState {b : Basin NbLedger // NbAsked q.nbs b.demand.nbMap},
      order.foldl (routeStep node') s = order'.foldl (routeStep node') s := by
    intro s
    refine foldl_trace _ (fun e f => ((drains e.2 ∧ e.2 = f.1) ∨ (drains f.2 ∧ f.2 = e.1)) ∨
      (OnShore cin q.unit e.1 f.1 ∨ OnShore cin q.unit f.1 e.1) ∨
      ((∃ p ∈ q.nbs e.1, p.1 = f.1) ∨ (∃ p ∈ q.nbs f.1, p.1 = e.1))) order order' (List.Nodup.of_map _ hs.nodup) hp ?_ ?_ _
    · intro e he f hf hne hD t
      have hne1 : e.1 ≠ f.1 := fun k => hne (List.inj_on_of_nodup_map hs.nodup he hf k)
      have far : NbFar cin q e.1 f.1 :=
        ⟨hne1, hz e he, hz f hf, fun k => hD (.inr (.inl (.inl k))), fun k => hD (.inr (.inl (.inr k))),
          fun p hp k => hD (.inr (.inr (.inl ⟨p, hp, k⟩))), fun p hp k => hD (.inr (.inr (.inr ⟨p, hp, k⟩)))⟩
      refine routeStep_comm node' e f hne1 (fun k1 k2 => hD (.inl (.inl ⟨k1, k2⟩))) (fun k1 k2 => hD (.inl (.inr ⟨k1, k2⟩)))
        (fun b u v => ?_) t
      obtain ⟨c1, c2, c3⟩ := nbNode_comm far b.2 b.1 rfl u v
      exact ⟨Subtype.ext c1, c2, c3⟩
    · intro e f hD h
      rcases hD with hD | hD | hD
      · exact before_of_drains hp hs hs' hD h
      · exact hsh e f hD h
      · exact hnb e f hD h
  unfold nbDayRun route
  have h1 := val order ⟨⟨⟨l, state, fun _ => none⟩, hl⟩, fun _ => 0, fun _ => 0, fun _ => 0⟩
  have h2 := val order' ⟨⟨⟨l, state, fun _ => none⟩, hl⟩, fun _ => 0, fun _ => 0, fun _ => 0⟩
  rw [← key] at h2
  exact h1.trans h2.symm

/-- After the loop the cells have asked nobody but their neighbours. -/
theorem nbDayRun_asked (order : List (Cell × Cell)) (l : NbLedger) (hl : NbAsked q.nbs l.nbMap) (state : Cell → CellState) :
    NbAsked q.nbs (nbDayRun cin q order l state).ledger.demand.nbMap := by
  have : ∀ (w : List (Cell × Cell)) (s : NetState (Basin NbLedger)), NbAsked q.nbs s.ledger.demand.nbMap →
      NbAsked q.nbs (w.foldl (routeStep (nbNode cin q)) s).ledger.demand.nbMap := by
    intro w
    induction w with
    | nil => intro s h; exact h
    | cons e w ih => intro s h; exact ih _ (asked_upd h e.1 _ _)
  exact this order _ hl

end

section
variable (par : Cell → FullPar) (r : NbRun)

/-- C82: with water supply from neighbouring cells, two routing tables of the same network that agree on the order of
neighbours give the same simulation: the same states and the same records, on all days. -/
theorem C82_with_neighbours (order' : List (Cell × Cell)) (days : List NbWgDay) (h : SameNbNetwork r days order') (s : NbSim)
    (hs : NbAsked r.nbs s.carry.nbMap) :
    nbSimRun par { r with order := order' } s days = nbSimRun par r s days := by
  have routed : ∀ d ∈ days, ∀ s : NbSim, NbAsked r.nbs s.carry.nbMap →
      (d.lat par s).routed { r with order := order' } s.carry = (d.lat par s).routed r s.carry := by
    intro d hd s hs
    have hq : (d.lat par s).nbDay { r with order := order' } s.carry
        = { (d.lat par s).nbDay r s.carry with order := order'.map Prod.fst } := rfl
    have hshore : ∀ x y, OnShore (d.lat par s).cin r.unit x y ↔ OnShore d.lateral r.unit x y := fun x y => Iff.rfl
    unfold NbDayIn.routed
    rw [hq]
    have e1 : nbDayRun (d.lat par s).cin { (d.lat par s).nbDay r s.carry with order := order'.map Prod.fst } order'
        ((d.lat par s).ledger { r with order := order' } s.carry) s.carry.state
        = nbDayRun (d.lat par s).cin ((d.lat par s).nbDay r s.carry) order' ((d.lat par s).ledger r s.carry) s.carry.state := by
      unfold nbDayRun
      rw [nbNode_perm _ _ (h.perm.map Prod.fst)]
      rfl
    rw [e1]
    exact (nbDayRun_order (q := (d.lat par s).nbDay r s.carry) r.order order' h.perm h.sound h.sound' h.real
      (fun e f k => h.shores d hd e f (k.imp (hshore _ _).1 (hshore _ _).1)) (fun e f k => h.neighbours e f k)
      ((d.lat par s).ledger r s.carry) hs s.carry.state).symm
  have hsub : ∀ d ∈ days, d ∈ days := fun _ k => k
  generalize hds : days = ds at hsub ⊢
  have hsub' : ∀ d ∈ ds, d ∈ days := by rw [hds]; exact hsub
  clear hsub hds
  induction ds generalizing s with
  | nil => rfl
  | cons d ds ih =>
    have hr := routed d (hsub' d List.mem_cons_self) s hs
    have hn : d.next par { r with order := order' } s = d.next par r s := by
      unfold NbWgDay.next NbDayIn.next
      simp only [hr]
    have hrec : d.recs par { r with order := order' } s = d.recs par r s := by
      funext x
      unfold NbWgDay.recs
      simp only [hr]
    have hnext : NbAsked r.nbs (d.next par r s).carry.nbMap :=
      nbDayRun_asked (cin := (d.lat par s).cin) (q := (d.lat par s).nbDay r s.carry) r.order
        ((d.lat par s).ledger r s.carry) hs s.carry.state
    simp only [nbSimRun, hn, hrec]
    rw [ih _ hnext fun e he => hsub' e (List.mem_cons_of_mem _ he)]

/-- C82: with water supply from neighbouring cells, what happens outside a region that contains everything upstream of it,
whose cells have their neighbours and the shores of their lakes inside it, does not matter inside: simulations whose weather,
data and initial states agree in the region give the same states, demands and records there. -/
theorem C82_neighbours_upstream_only (B : Cell → Bool) (hr : r.Cut B) (days days' : List NbWgDay)
    (hdays : List.Forall₂ (fun d d' => d.Agree B d' ∧ d.ShoresWhole B r ∧ d'.ShoresWhole B r) days days') (s s' : NbSim)
    (h : s.Agree B s') (hm : NbClosed B s.carry.nbMap) (hm' : NbClosed B s'.carry.nbMap) :
    let g := nbSimRun par r s days
    let g' := nbSimRun par r s' days'
    g.1.Agree B g'.1 ∧ List.Forall₂ (fun t t' => ∀ x, B x → t x = t' x) g.2 g'.2 := by
  intro g g'
  have h1 := C64_neighbours par r B hr days days' (hdays.imp fun _ _ k => ⟨k.1, k.2.1⟩) s s' h hm
  have h2 := C64_neighbours par r B hr days' days'
    (by
      clear h1
      induction hdays with
      | nil => exact .nil
      | cons k _ ih => exact .cons ⟨⟨rfl, rfl, fun _ _ => ⟨rfl, rfl, rfl, rfl⟩⟩, k.2.2⟩ ih)
    s' s' (fun _ _ => ⟨rfl, rfl, rfl, rfl, rfl, rfl⟩) hm'
  refine ⟨fun x hx => ?_, ?_⟩
  · obtain ⟨a1, a2, a3, a4, a5, a6⟩ := h1.1 x hx
    obtain ⟨b1, b2, b3, b4, b5, b6⟩ := h2.1 x hx
    exact ⟨a1.trans b1.symm, a2.trans b2.symm, a3.trans b3.symm, a4.trans b4.symm, a5.trans b5.symm, a6.trans b6.symm⟩
  have a := h1.2
  have b := h2.2
  change List.Forall₂ _ g.2 _ at a
  change List.Forall₂ _ g'.2 _ at b
  revert a b
  generalize (nbSimRun par { r with order := masked r.order B } s' days').2 = m
  generalize g.2 = u
  generalize g'.2 = v
  intro a
  induction a generalizing v with
  | nil => intro b; cases b; exact .nil
  | cons k _ ih =>
    intro b
    cases b with
    | cons k' b => exact .cons (fun x hx => (k x hx).trans (k' x hx).symm) (ih _ b)

end

/-- The far cell is listed between the two cells of the island. -/
def islandOrder' : List (Cell × Cell) := [((1, 1), (0, 0)), ((5, 5), (0, 0)), ((1, 2), (0, 0))]

theorem before_three {a b c e f : Cell × Cell} (h : Before [a, b, c] e f) :
    (e = a ∧ f = b) ∨ (e = a ∧ f = c) ∨ (e = b ∧ f = c) := by
  unfold Before at h
  have h1 := List.sublist_cons_iff.1 h
  rcases h1 with h1 | ⟨r, hr, h1⟩
  · rcases List.sublist_cons_iff.1 h1 with h2 | ⟨r, hr, h2⟩
    · exact absurd h2.length_le (by simp)
    · simp only [List.cons.injEq] at hr
      obtain ⟨rfl, rfl⟩ := hr
      have := List.singleton_sublist.1 h2
      simp only [List.mem_singleton] at this
      exact .inr (.inr ⟨rfl, this⟩)
  · simp only [List.cons.injEq] at hr
    obtain ⟨rfl, rfl⟩ := hr
    have := List.singleton_sublist.1 h1
    simp only [List.mem_cons, List.not_mem_nil, or_false] at this
    rcases this with rfl | rfl
    · exact .inl ⟨rfl, rfl⟩
    · exact .inr (.inl ⟨rfl, rfl⟩)

theorem island_network : SameNbNetwork islandRun [waitDay, waitDay] islandOrder' := by
  have hord : islandRun.order = [((1, 1), (0, 0)), ((1, 2), (0, 0)), ((5, 5), (0, 0))] := rfl
  refine ⟨?_, ?_, ?_, ?_, ?_, ?_⟩
  · rw [hord]
    exact (List.Perm.swap _ _ _).cons _
  · rw [hord]
    constructor <;> simp [drains]
  · constructor <;> simp [islandOrder', drains]
  · rw [hord]; simp
  · intro d hd e f hk hb
    simp only [List.mem_cons, List.not_mem_nil, or_false, or_self] at hd
    subst hd
    rw [hord] at hb
    rcases before_three hb with ⟨rfl, rfl⟩ | ⟨rfl, rfl⟩ | ⟨rfl, rfl⟩
    · exact (List.Sublist.refl _).cons _ |>.cons_cons _
    · exfalso
      rcases hk with ⟨-, k, -⟩ | ⟨-, k, -⟩ <;> simp [waitDay, dryBase_lake] at k
    · exfalso
      rcases hk with ⟨-, -, k⟩ | ⟨-, -, k⟩ <;> simp [islandRun, askRun, dryUnit] at k
  · intro e f hk hb
    rw [hord] at hb
    rcases before_three hb with ⟨rfl, rfl⟩ | ⟨rfl, rfl⟩ | ⟨rfl, rfl⟩
    · exact (List.Sublist.refl _).cons _ |>.cons_cons _
    · exfalso
      rcases hk with ⟨p, hp, k⟩ | ⟨p, hp, k⟩ <;> simp [islandRun, askRun] at hp
      subst hp; simp at k
    · exfalso
      rcases hk with ⟨p, hp, k⟩ | ⟨p, hp, k⟩ <;> simp [islandRun, askRun] at hp
      subst hp; simp at k

/-- Two days on which the two cells of the island ask each other, in two orders. -/
example : nbSimRun (fun _ => exFull) { islandRun with order := islandOrder' } waitSim [waitDay, waitDay]
    = nbSimRun (fun _ => exFull) islandRun waitSim [waitDay, waitDay] :=
  C82_with_neighbours (fun _ => exFull) islandRun islandOrder' [waitDay, waitDay] island_network waitSim (by
    intro x
    by_cases h2 : x = (1, 2)
    · subst h2; right; exact ⟨((1, 1), (0, 0)), by simp [islandRun, askRun], rfl⟩
    · left; simp [waitSim, waitCarry, h2])

theorem island_asked : NbClosed island waitSim.carry.nbMap := by
  intro x
  by_cases h1 : x = (1, 1)
  · subst h1; simp [waitSim, waitCarry, island]
  · by_cases h2 : x = (1, 2)
    · subst h2; simp [waitSim, waitCarry, island]
    · left; simp [waitSim, waitCarry, h2]

/-- The far cell has another demand: nothing changes on the island. -/
example := C82_neighbours_upstream_only (fun _ => exFull) islandRun island islandRun_cut [waitDay]
  [{ waitDay with pot := fun x => if x = (1, 2) then 1 else if x = (5, 5) then 77 else 0 }]
  (by
    have key : ∀ x : Cell, island x → x ≠ (5, 5) := by rintro x hx rfl; revert hx; decide
    refine .cons ⟨⟨rfl, rfl, fun x hx => ⟨rfl, rfl, ?_, rfl⟩⟩, waitDay_shores, waitDay_shores⟩ .nil
    simp [waitDay, key x hx])
  waitSim waitSim (fun _ _ => ⟨rfl, rfl, rfl, rfl, rfl, rfl⟩) island_asked island_asked

/-! ## The order of neighbours -/

theorem nbMap_upd (cin : Cell → CellIn) (q : NbDay) (l : NbLedger) (x : Cell) (o : CellOut) (st : Cell → CellState) :
    (nbUpd cin q l x o st).nbMap = Function.update l.nbMap x (nbChoice cin q l x o st) := rfl

/-- A cell without neighbours asks nobody. -/
theorem choice_none (cin : Cell → CellIn) (q : NbDay) (l : NbLedger) (x : Cell) (o : CellOut) (st : Cell → CellState)
    (h : q.nbs x = []) : nbChoice cin q l x o st = (0, 0) := by
  rcases asked_mem (nbAvail cin q st) (q.nbs x) (allocSplit (nbAlloc cin q l x o)).1 x q.month q.day l.turned with h0 | ⟨p, hp, -⟩
  · exact h0
  · rw [h] at hp; simp at hp

/-- Who is asked is asked for something. -/
theorem choice_pos (cin : Cell → CellIn) (q : NbDay) (l : NbLedger) (x : Cell) (o : CellOut) (st : Cell → CellState)
    (h : nbChoice cin q l x o st ≠ (0, 0)) : 0 < (allocSplit (nbAlloc cin q l x o)).1 := by
  rcases neighbour_cases (nbAvail cin q st) (q.nbs x) (allocSplit (nbAlloc cin q l x o)).1 x q.month q.day l.turned with h0 | ⟨h1, -⟩
  · exact absurd h0 h
  · exact h1

/-- **C82 violated (neighbours).**  If two tables of the same network list two neighbours in different orders, the results
differ: a neighbour that has its turn later serves the demand on the same day, one that had its turn before is either not
asked, or the demand is still waiting in the evening. -/
theorem C82_violated_neighbour_order :
    let first := lonelyDay.next lonelyRun lonelyCarry
    let second := lonelyDay.next { lonelyRun with order := dryOrder.reverse } lonelyCarry
    Sound lonelyRun.order ∧ Sound dryOrder.reverse ∧ (first.nbMap (1, 1) = (1, 2) ∧ first.toSupply (1, 2) = 0) ∧
      ¬ (second.nbMap (1, 1) = (1, 2) ∧ second.toSupply (1, 2) = 0) := by
  intro first second
  refine ⟨dryOrder_sound, by constructor <;> simp [dryOrder, drains], ?_, ?_⟩
  · have ht := (lonely_turn dryOrder).1
    simp only at ht
    rw [if_pos (by simp [dryOrder])] at ht
    set q := lonelyDay.nbDay lonelyRun lonelyCarry with hq
    set b := (lonelyDay.after lonelyRun lonelyCarry [((1, 1), (0, 0))]).ledger with hb
    have ht' : b.demand.nbMap (1, 1) = (1, 2) := ht
    obtain ⟨o, st, hf⟩ : ∃ o st, lonelyDay.next lonelyRun lonelyCarry = { lonelyDay.next lonelyRun lonelyCarry with
        nbMap := (nbUpd lonelyBase q b.demand (1, 2) o st).nbMap
        toSupply := (nbUpd lonelyBase q b.demand (1, 2) o st).toSupply } := ⟨_, _, rfl⟩
    have hn : first.nbMap = (nbUpd lonelyBase q b.demand (1, 2) o st).nbMap := congrArg NbCarry.nbMap hf
    have hs : first.toSupply = (nbUpd lonelyBase q b.demand (1, 2) o st).toSupply := congrArg NbCarry.toSupply hf
    have hc : nbChoice lonelyBase q b.demand (1, 2) o st = (0, 0) := choice_none _ _ _ _ _ _ (by simp [hq, NbDayIn.nbDay, lonelyRun])
    have hpos : b.demand.toSupply (1, 2) > 0 := by
      obtain ⟨o1, st1, h1⟩ : ∃ o1 st1, b.demand = nbUpd lonelyBase q (lonelyDay.ledger lonelyRun lonelyCarry) (1, 1) o1 st1 := ⟨_, _, rfl⟩
      have hch : nbChoice lonelyBase q (lonelyDay.ledger lonelyRun lonelyCarry) (1, 1) o1 st1 = (1, 2) := by
        have k := ht'
        rw [h1, nbMap_upd, Function.update_self] at k
        exact k
      have := choice_pos lonelyBase q (lonelyDay.ledger lonelyRun lonelyCarry) (1, 1) o1 st1 (by rw [hch]; decide)
      rw [h1, toSupply_apply, hch, if_neg (by simp), if_pos ⟨by decide, rfl⟩]
      have h0 : (lonelyDay.ledger lonelyRun lonelyCarry).toSupply (1, 2) = 0 := rfl
      rw [h0, zero_add]
      exact this
    constructor
    · rw [hn, nbMap_upd, Function.update_of_ne (by decide : ((1, 1) : Cell) ≠ (1, 2))]
      exact ht'
    · rw [hs, toSupply_apply, hc, if_pos ⟨rfl, hpos⟩, if_neg (by simp), add_zero]
  · rintro ⟨h1, h2⟩
    set r : NbRun := { lonelyRun with order := dryOrder.reverse } with hr
    set q := lonelyDay.nbDay r lonelyCarry with hq
    set l0 := lonelyDay.ledger r lonelyCarry with hl0
    obtain ⟨o1, st1, o, st, hf⟩ : ∃ o1 st1 o st, lonelyDay.next r lonelyCarry = { lonelyDay.next r lonelyCarry with
        nbMap := (nbUpd lonelyBase q (nbUpd lonelyBase q l0 (1, 2) o1 st1) (1, 1) o st).nbMap
        toSupply := (nbUpd lonelyBase q (nbUpd lonelyBase q l0 (1, 2) o1 st1) (1, 1) o st).toSupply } := ⟨_, _, _, _, rfl⟩
    have hn : second.nbMap = (nbUpd lonelyBase q (nbUpd lonelyBase q l0 (1, 2) o1 st1) (1, 1) o st).nbMap := congrArg NbCarry.nbMap hf
    have hs : second.toSupply = (nbUpd lonelyBase q (nbUpd lonelyBase q l0 (1, 2) o1 st1) (1, 1) o st).toSupply :=
      congrArg NbCarry.toSupply hf
    have hch : nbChoice lonelyBase q (nbUpd lonelyBase q l0 (1, 2) o1 st1) (1, 1) o st = (1, 2) := by
      have k := h1
      rw [hn, nbMap_upd, Function.update_self] at k
      exact k
    have hpos := choice_pos lonelyBase q (nbUpd lonelyBase q l0 (1, 2) o1 st1) (1, 1) o st (by rw [hch]; decide)
    have hc : nbChoice lonelyBase q l0 (1, 2) o1 st1 = (0, 0) := choice_none _ _ _ _ _ _ (by simp [hq, NbDayIn.nbDay, hr, lonelyRun])
    have hl1 : (nbUpd lonelyBase q l0 (1, 2) o1 st1).toSupply (1, 2) = 0 := by
      have h0 : l0.toSupply (1, 2) = 0 := rfl
      rw [toSupply_apply, hc, h0]
      simp
    rw [hs, toSupply_apply, hch, if_neg (by simp), if_pos ⟨by decide, rfl⟩, hl1, zero_add] at h2
    exact absurd h2 hpos.ne'

end WG
