import Verif.Props.MonthlyDemand
import Verif.Props.Abstraction
import Verif.Props.Network

/-! # C33: what happens to unsatisfied demand -/

namespace WG

set_option linter.unusedSectionVars false
set_option linter.unusedSimpArgs false

/-! ### Sharing among riparian cells -/

section
variable (cin : Cell → CellIn) (q : DemandDay)

theorem redist_carried (x : Cell) (u : ℝ) : (q.redist x u).carried = q.prev x := by
  simp [RedistIn.carried, DemandDay.redist]

/-- The riparian cells of `x`. -/
def DemandDay.riparian (x : Cell) : List Cell := q.order.filter fun r => q.unit x = q.unit r ∧ x ≠ r

/-- The positive demands of the unit of `x`. -/
noncomputable def DemandDay.positive (x : Cell) : ℝ :=
  max (q.unagg x) 0 + ((q.riparian x).map fun r => max (q.unagg r) 0).sum

theorem redist_self_zero (i : RedistIn Cell) (rip : Cell → ℝ) (h : rip i.x = 0) : (redistribute i rip).2 i.x = 0 := by
  unfold redistribute
  have : ∀ (l : List Cell) (st : ℝ × (Cell → ℝ)), st.2 i.x = 0 → (l.foldl (redistStep i) st).2 i.x = 0 := by
    intro l
    induction l with
    | nil => intro st h; exact h
    | cons r l ih =>
      intro st h
      rw [List.foldl_cons]
      apply ih
      unfold redistStep
      by_cases hr : i.unit i.x = i.unit r ∧ i.x ≠ r
      · simp only [if_pos hr]
        by_cases hd : i.acc - i.carried > 0
        · simp only [if_pos hd]
          by_cases hu : i.unagg i.x ≤ 0
          · simp only [if_pos hu, Function.update_of_ne hr.2, h]
          · simp only [if_neg hu, Function.update_of_ne hr.2, h]
        · simp only [if_neg hd, Function.update_self]
      · simp only [if_neg hr, h]
  exact this _ _ h

theorem redist_other (x : Cell) (u : ℝ) (rip : Cell → ℝ) (c : Cell) (hc : c ∉ q.riparian x) (hcx : c ≠ x) :
    (redistribute (q.redist x u) rip).2 c = rip c := by
  unfold redistribute
  have hc' : ∀ l : List Cell, (∀ r ∈ l, r ∈ q.order) → ∀ st : ℝ × (Cell → ℝ),
      (l.foldl (redistStep (q.redist x u)) st).2 c = st.2 c := by
    intro l
    induction l with
    | nil => intros; rfl
    | cons r l ih =>
      intro hl st
      rw [List.foldl_cons, ih (fun a ha => hl a (by simp [ha]))]
      by_cases hr : q.unit x = q.unit r ∧ x ≠ r
      · have hrc : c ≠ r := by
          rintro rfl
          exact hc (List.mem_filter.mpr ⟨hl c (by simp), by simpa using hr⟩)
        unfold redistStep
        have hr' : (q.redist x u).unit (q.redist x u).x = (q.redist x u).unit r ∧ (q.redist x u).x ≠ r := hr
        have hcx' : c ≠ (q.redist x u).x := hcx
        simp only [if_pos hr']
        by_cases hd : (q.redist x u).acc - (q.redist x u).carried > 0
        · simp only [if_pos hd]
          by_cases hu : (q.redist x u).unagg (q.redist x u).x ≤ 0
          · simp only [if_pos hu, Function.update_of_ne hrc]
          · simp only [if_neg hu, Function.update_of_ne hrc]
        · simp only [if_neg hd, Function.update_of_ne hrc, Function.update_of_ne hcx']
      · unfold redistStep
        have hr' : ¬ ((q.redist x u).unit (q.redist x u).x = (q.redist x u).unit r ∧ (q.redist x u).x ≠ r) := hr
        rw [if_neg hr']
  exact hc' q.order (fun _ h => h) _

/-- What an outflow cell hands over arrives at its riparian cells. -/
theorem redist_sum (x : Cell) (u : ℝ) (rip : Cell → ℝ) (hcons : q.pot x = min (q.unagg x) 0 + q.positive x)
    (hu : 0 < q.positive x ∨ u ≤ q.prev x) :
    u - (redistribute (q.redist x u) rip).1 = ((q.riparian x).map (redistribute (q.redist x u) rip).2).sum := by
  have hrip : (q.redist x u).riparian = q.riparian x := rfl
  have hpos : (q.redist x u).positive = q.positive x := rfl
  have hacc : (q.redist x u).acc = u := rfl
  have hcar := redist_carried q x u
  by_cases hne : q.riparian x = []
  · rw [(C21_nothing_to_share (q.redist x u) rip).2 hne, hne, hacc]; simp
  by_cases hle : u ≤ q.prev x
  · obtain ⟨h1, h2, -⟩ := (C21_nothing_to_share (q.redist x u) rip).1 (by rw [hacc, hcar]; exact hle)
    rw [h1, hacc, sub_self]
    symm
    apply List.sum_eq_zero
    intro y hy
    obtain ⟨r, hr, rfl⟩ := List.mem_map.mp hy
    exact h2 r hr
  · have hp := hu.resolve_right hle
    have := (C21_redistribute (q.redist x u) hcons hp hne (by rw [hacc, hcar]; exact not_le.mp hle) rip).2.2.2
    rw [hrip, hacc] at this
    linarith

end

/-! ### The demand a lake or reservoir leaves unsatisfied -/

theorem cellUnsat1_le (c : CellIn) (st : CellState) (up demand : ℝ) (h : c.Physical) (hs : st.Ok c) (hup : 0 ≤ up)
    (hd : 0 < c.glolakeArea → 0 ≤ demand) (hl : c.hasLake) : cellUnsat1 c st up demand ≤ max demand 0 := by
  have hglo : 0 < c.glolakeArea →
      0 ≤ (cellGloLake c st up demand).use ∧ 0 ≤ (cellGloLake c st up demand).unsat := by
    intro hf
    have hin := (locWet_facts c st h hs).1.out
    have hin' : 0 ≤ (cellLocWet c st).outflow + up := by linarith
    have hb := hs.gloLake hf
    unfold cellGloLake bodyDay
    rw [if_pos hf]
    have hp : (c.lakeIn ⟨0, c.glolakeArea, c.maxGlolake⟩ ((cellLocWet c st).outflow + up) c.resArea demand).Physical :=
      { precip := h.precip, openPet := h.openPet, inflow := hin', k := h.swbK, gw := h.gwConst,
        redExp := h.redExp, maxStorage := h.maxGlolake hf, maxArea := hf.le, frac := le_rfl, demand := hd hf }
    have := C13_lake_fluxes .globalLake _ st.gloLake hp (by simpa [lowest, CellIn.lakeIn] using hb.1)
    exact ⟨this.2.2.1, this.2.2.2.1⟩
  have hg2 := (gloLake_facts c st up demand h hs hup hd).2.1
  unfold cellUnsat1
  by_cases hr : c.resArea > 0
  · rw [if_pos hr]
    unfold cellRes
    rw [if_pos hr]
    have hp := resIn_physical c st up demand h hs hup hd hr
    obtain ⟨a1, a2, a3⟩ := C17_abstraction (cellResIn c st up demand) st.res hp (hs.res hr).1
    set o := resBalance (cellResIn c st up demand) st.res
    have e1 : (cellResIn c st up demand).glolakeArea = c.glolakeArea := rfl
    have e2 : (cellResIn c st up demand).demandSw = demand := rfl
    have e3 : (cellResIn c st up demand).unsatGlolake = (cellGloLake c st up demand).unsat := rfl
    rw [e1, e2, e3] at a1 a2 a3
    have use_nonneg : ∀ d : ℝ, 0 ≤ d → ∀ w : ℝ, 0 ≤ min d (max 0 w) := fun d hd w =>
      le_min hd (le_max_left _ _)
    by_cases hg : c.glolakeArea > 0
    · simp only [if_pos hg] at a1 a2 a3
      obtain ⟨g1, g2⟩ := hglo hg
      have g3 := hg2 hg
      rw [if_pos hr] at g3
      have hd0 := hd hg
      have := (a2 (by linarith)).2
      have hu := use_nonneg (demand / 2 + (cellGloLake c st up demand).unsat) (by linarith)
        (st.res + (cellResIn c st up demand).han.inflow + (cellResIn c st up demand).precip * (cellResIn c st up demand).area
          - o.evapKm3 - o.gwr - (cellResIn c st up demand).han.cap / 10)
      rw [← this] at hu
      have : demand ≤ max demand 0 := le_max_left _ _
      linarith
    · simp only [if_neg hg] at a1 a2 a3
      by_cases hd0 : 0 ≤ demand
      · have := (a2 hd0).2
        have hu := use_nonneg demand hd0
          (st.res + (cellResIn c st up demand).han.inflow + (cellResIn c st up demand).precip * (cellResIn c st up demand).area
            - o.evapKm3 - o.gwr - (cellResIn c st up demand).han.cap / 10)
        rw [← this] at hu
        have : demand ≤ max demand 0 := le_max_left _ _
        linarith
      · have := a3 (not_le.mp hd0)
        have h0 : (0 : ℝ) ≤ max demand 0 := le_max_right _ _
        linarith
  · rw [if_neg hr]
    have hg : c.glolakeArea > 0 := hl.resolve_left hr
    rw [if_pos hg]
    obtain ⟨g1, -⟩ := hglo hg
    have g3 := hg2 hg
    rw [if_neg hr] at g3
    have : demand ≤ max demand 0 := le_max_left _ _
    linarith


/-! ### The ledger of a day -/

section
variable (cin : Cell → CellIn) (q : DemandDay)

/-- Cell `L` holds the outflow of the lake or reservoir whose shore cell `r` is. -/
def Outlet (L r : Cell) : Prop := (cin L).hasLake ∧ q.unit L = q.unit r ∧ L ≠ r

/-- Shore cells that come before the outflow cell in the routing order: what the outflow cell hands them they
use on the next day. -/
def NextDay (cells : List Cell) (r : Cell) : Prop := ∃ L ∈ cells, Outlet cin q L r ∧ cells.idxOf r < cells.idxOf L

/-- The day's demands fit together: water use is on; every lake or reservoir has one outflow cell and belongs
to a unit; the outflow cells carry the demand of their unit, as aggregated; an outflow cell starts with no
more than the day's demand and what it carried over; nobody has handed anything to an outflow cell or to
a cell that is not on the shore of a lake; and cells with a global lake are not asked for a negative
amount. -/
structure DemandOk (cells : List Cell) (l : Ledger) : Prop where
  order : q.order = cells
  use : ∀ x, (cin x).useOpt = true
  unit : ∀ x, (cin x).hasLake → 0 < q.unit x
  unique : ∀ x y, (cin x).hasLake → (cin y).hasLake → q.unit x = q.unit y → x = y
  cons : ∀ x, (cin x).hasLake → q.pot x = min (q.unagg x) 0 + q.positive x
  prev : ∀ x, (cin x).hasLake → 0 ≤ q.prev x ∧ l.acc x ≤ max (q.pot x) 0 + q.prev x
  rip : ∀ x, (∀ L ∈ cells, ¬ Outlet cin q L x) → l.rip x = 0
  sign : ∀ x, 0 < (cin x).glolakeArea → 0 ≤ l.acc x

theorem DemandOk.lakeRip {cells : List Cell} {l : Ledger} (h : DemandOk cin q cells l) (x : Cell) (hx : (cin x).hasLake) :
    l.rip x = 0 :=
  h.rip x fun L _ ho => ho.2.2 (h.unique L x ho.1 hx ho.2.1)

/-- What holds of the ledger all day. -/
def LedgerInv (l : Ledger) : Prop :=
  (∀ x, (cin x).hasLake → l.rip x = 0) ∧ ∀ x, 0 < (cin x).glolakeArea → 0 ≤ l.acc x

theorem ledger_ok_of_unique (h : ∀ x y, (cin x).hasLake → (cin y).hasLake → q.unit x = q.unit y → x = y) :
    LedgerOk cin (ledgerGet cin q) (ledgerUpd cin q) (LedgerInv cin) := by
  have sign : ∀ d x, LedgerInv cin d → 0 < (cin x).glolakeArea → 0 ≤ (ledgerGet cin q d x).1 := by
    intro d x hd hx
    have h1 := hd.2 x hx
    have h2 := hd.1 x (Or.inr hx)
    simp only [ledgerGet, h2]
    split_ifs <;> linarith
  refine ⟨?_, sign⟩
  intro d x st up hd hp hs hup
  have hu := (C25_unsat_nonneg (cin x) st up (ledgerGet cin q d x).1 (ledgerGet cin q d x).2 hp hs hup
    (sign d x hd)).1
  refine ⟨?_, ?_⟩
  · intro y hy
    simp only [ledgerUpd]
    by_cases hl : (cin x).useOpt = true ∧ (cin x).hasLake
    · rw [if_pos hl]
      by_cases hyx : y = x
      · subst hyx
        exact redist_self_zero (q.redist y _) d.rip (hd.1 y hy)
      · rw [redist_other q x _ d.rip y _ hyx]
        · exact hd.1 y hy
        · intro hm
          have := (List.mem_filter.mp hm).2
          simp only [decide_eq_true_eq] at this
          exact this.2 (h x y hl.2 hy this.1)
    · rw [if_neg hl]; exact hd.1 y hy
  · intro y hy
    simp only [ledgerUpd]
    by_cases hyx : y = x
    · subst hyx; rw [Function.update_self]; exact hu
    · rw [Function.update_of_ne hyx]; exact hd.2 y hy

theorem ledger_ok {cells : List Cell} {l0 : Ledger} (h : DemandOk cin q cells l0) :
    LedgerOk cin (ledgerGet cin q) (ledgerUpd cin q) (LedgerInv cin) :=
  ledger_ok_of_unique cin q h.unique

/-- Shore cells whose share waits to be used after the cells `p` have had their turn. -/
def Waits (cells p : List Cell) (r : Cell) : Prop :=
  ∃ L ∈ cells, Outlet cin q L r ∧ (if cells.idxOf r < cells.idxOf L then (r ∉ p ∨ L ∈ p) else (L ∈ p ∧ r ∉ p))

open Classical in
/-- What the ledger says about a cell. -/
noncomputable def entry (cells p : List Cell) (s : NetState (Basin Ledger)) (x : Cell) : ℝ :=
  s.ledger.demand.acc x + (if Waits cin q cells p x then s.ledger.demand.rip x else 0)
    + (if x ∈ p then did s (·.nas) x else 0)

theorem idx_split {P S : List Cell} {e : Cell} (h : (P ++ e :: S).Nodup) :
    (P ++ e :: S).idxOf e = P.length ∧ (∀ r ∈ P, (P ++ e :: S).idxOf r < P.length) ∧
    (∀ r, r ∉ P → r ≠ e → P.length < (P ++ e :: S).idxOf r) := by
  have he : e ∉ P := by
    intro hm
    rw [List.nodup_append] at h
    exact h.2.2 e hm e (by simp) rfl
  refine ⟨?_, ?_, ?_⟩
  · rw [List.idxOf_append_of_notMem he]; simp
  · intro r hr
    rw [List.idxOf_append_of_mem hr]; exact List.idxOf_lt_length_of_mem hr
  · intro r hr hre
    rw [List.idxOf_append_of_notMem hr, List.idxOf_cons_ne _ (Ne.symm hre)]; omega


theorem sum_ite_filter (l : List Cell) (p : Cell → Prop) [DecidablePred p] (f : Cell → ℝ) :
    (l.map fun x => if p x then f x else 0).sum = ((l.filter fun x => decide (p x)).map f).sum := by
  induction l with
  | nil => rfl
  | cons a l ih =>
    rw [List.map_cons, List.sum_cons, ih, List.filter_cons]
    by_cases h : p a
    · simp [h]
    · simp [h]

theorem waits_self {P S : List Cell} {e : Cell} (h : (P ++ e :: S).Nodup) :
    (¬ Waits cin q (P ++ e :: S) (P ++ [e]) e) ∧
    (Waits cin q (P ++ e :: S) P e ↔ ∃ L ∈ P ++ e :: S, Outlet cin q L e) := by
  obtain ⟨i1, i2, i3⟩ := idx_split h
  have he : e ∉ P := fun hm => by have := i2 e hm; omega
  constructor
  · rintro ⟨L, -, ho, hw⟩
    by_cases hi : (P ++ e :: S).idxOf e < (P ++ e :: S).idxOf L
    · rw [if_pos hi] at hw
      rcases hw with hw | hw
      · exact hw (by simp)
      · rw [List.mem_append, List.mem_singleton] at hw
        rcases hw with hw | hw
        · have := i2 L hw; omega
        · exact ho.2.2 hw
    · rw [if_neg hi] at hw; exact hw.2 (by simp)
  · constructor
    · rintro ⟨L, hL, ho, -⟩; exact ⟨L, hL, ho⟩
    · rintro ⟨L, hL, ho⟩
      refine ⟨L, hL, ho, ?_⟩
      by_cases hi : (P ++ e :: S).idxOf e < (P ++ e :: S).idxOf L
      · rw [if_pos hi]; exact Or.inl he
      · rw [if_neg hi]
        refine ⟨?_, he⟩
        by_contra hLP
        have := i3 L hLP ho.2.2; omega

theorem waits_other {P : List Cell} (cells : List Cell) {e x : Cell} (hx : x ≠ e)
    (h : ¬ ((cin e).hasLake ∧ q.unit e = q.unit x)) :
    Waits cin q cells (P ++ [e]) x ↔ Waits cin q cells P x := by
  have key : ∀ L, Outlet cin q L x → ((L ∈ P ++ [e]) ↔ L ∈ P) := by
    intro L ho
    have : L ≠ e := by rintro rfl; exact h ⟨ho.1, ho.2.1⟩
    simp [this]
  have hx' : x ∉ P ++ [e] ↔ x ∉ P := by simp [hx]
  constructor
  · rintro ⟨L, hL, ho, hw⟩; exact ⟨L, hL, ho, by rw [key L ho, hx'] at hw; exact hw⟩
  · rintro ⟨L, hL, ho, hw⟩; exact ⟨L, hL, ho, by rw [key L ho, hx']; exact hw⟩

theorem waits_shore (hu : ∀ x y, (cin x).hasLake → (cin y).hasLake → q.unit x = q.unit y → x = y)
    {P S : List Cell} {e x : Cell} (h : (P ++ e :: S).Nodup) (hx : x ≠ e) (hl : (cin e).hasLake)
    (hs : q.unit e = q.unit x) :
    (¬ Waits cin q (P ++ e :: S) P x) ∧ Waits cin q (P ++ e :: S) (P ++ [e]) x := by
  obtain ⟨i1, i2, i3⟩ := idx_split h
  have he : e ∉ P := fun hm => by have := i2 e hm; omega
  constructor
  · rintro ⟨L, -, ho, hw⟩
    have : L = e := hu L e ho.1 hl (ho.2.1.trans hs.symm)
    subst this
    by_cases hi : (P ++ L :: S).idxOf x < (P ++ L :: S).idxOf L
    · rw [if_pos hi] at hw
      rcases hw with hw | hw
      · have := i3 x hw hx; omega
      · exact he hw
    · rw [if_neg hi] at hw; exact he hw.1
  · refine ⟨e, by simp, ⟨hl, hs, Ne.symm hx⟩, ?_⟩
    by_cases hi : (P ++ e :: S).idxOf x < (P ++ e :: S).idxOf e
    · rw [if_pos hi]; exact Or.inr (by simp)
    · rw [if_neg hi]
      refine ⟨by simp, ?_⟩
      intro hm
      rw [List.mem_append, List.mem_singleton] at hm
      rcases hm with hm | hm
      · have := i2 x hm; omega
      · exact hx hm

open Classical in
/-- Loop invariant of the ledger. -/
theorem ledger_inv {order : List (Cell × Cell)} (hS : Sound order) {l0 : Ledger}
    (h : DemandOk cin q (order.map Prod.fst) l0) (state : Cell → CellState)
    (hc : ∀ x ∈ order.map Prod.fst, (cin x).Physical ∧ (state x).Ok (cin x) ∧ 0 ≤ (cin x).corr)
    (P : List (Cell × Cell)) :
    ∀ S, order = P ++ S →
    let s := demandDayRun cin q P l0 state
    (∀ x ∉ P.map Prod.fst, s.ledger.demand.acc x = l0.acc x) ∧
    (∀ x ∈ P.map Prod.fst, 0 ≤ s.ledger.demand.acc x) ∧
    (∀ x, (∀ L ∈ order.map Prod.fst, ¬ Outlet cin q L x) → s.ledger.demand.rip x = 0) ∧
    ((order.map Prod.fst).map (entry cin q (order.map Prod.fst) (P.map Prod.fst) s)).sum =
      ((order.map Prod.fst).map (entry cin q (order.map Prod.fst) [] (demandDayRun cin q [] l0 state))).sum := by
  induction P using List.reverseRecOn with
  | nil =>
    intro S _
    exact ⟨fun x _ => rfl, by simp, h.rip, rfl⟩
  | append_singleton P e ih =>
    intro S hos
    have hos' : order = P ++ (e :: S) := by rw [hos]; simp
    obtain ⟨i1, i0, i2, i3⟩ := ih (e :: S) hos'
    have hcells : order.map Prod.fst = P.map Prod.fst ++ e.1 :: S.map Prod.fst := by rw [hos']; simp
    have hnd : (P.map Prod.fst ++ e.1 :: S.map Prod.fst).Nodup := by rw [← hcells]; exact hS.nodup
    have heP : e.1 ∉ P.map Prod.fst := by
      intro hm
      rw [List.nodup_append] at hnd
      exact hnd.2.2 _ hm _ (by simp) rfl
    have hSP : Sound P := by
      have : ∀ S', Sound (P ++ S') → Sound P := by
        intro S'
        induction S' using List.reverseRecOn with
        | nil => intro h'; simpa using h'
        | append_singleton S' a ihS =>
          intro h'
          rw [← List.append_assoc] at h'
          exact ihS h'.prefix.1
      exact this (e :: S) (hos' ▸ hS)
    have hI0 : LedgerInv cin l0 := ⟨fun x hx => h.lakeRip cin q x hx, h.sign⟩
    obtain ⟨b1, b2, b3, -⟩ := basin_inv cin (ledgerGet cin q) (ledgerUpd cin q) (LedgerInv cin) (ledger_ok cin q h) P hSP l0
      hI0 state (fun x hx => hc x (by rw [hcells]; exact List.mem_append_left _ hx))
    have hec := hc e.1 (by rw [hcells]; simp)
    obtain ⟨c1, c2, -⟩ := hec
    have hstep : demandDayRun cin q (P ++ [e]) l0 state =
        routeStep (basinNode cin (ledgerGet cin q) (ledgerUpd cin q)) (demandDayRun cin q P l0 state) e := by
      unfold demandDayRun basinDay; rw [route_append]
    simp only at i0 i1 i2 i3 ⊢
    rw [← i3, hstep, hcells]
    change LedgerInv cin (demandDayRun cin q P l0 state).ledger.demand at b1
    change ∀ x, 0 ≤ (demandDayRun cin q P l0 state).inflow x at b2
    change ∀ x ∉ P.map Prod.fst, (demandDayRun cin q P l0 state).ledger.state x = state x at b3
    rw [hcells] at i2
    generalize demandDayRun cin q P l0 state = s at *
    have hst := b3 e.1 heP
    have hsg := (ledger_ok cin q h).sign s.ledger.demand e.1 b1
    set D := (ledgerGet cin q s.ledger.demand e.1).1 with hD
    set kp := (ledgerGet cin q s.ledger.demand e.1).2 with hkp
    set o := cellDay (cin e.1) (state e.1) (s.inflow e.1) D kp with ho
    have hL : (routeStep (basinNode cin (ledgerGet cin q) (ledgerUpd cin q)) s e).ledger =
        { demand := ledgerUpd cin q s.ledger.demand e.1 o
          state := Function.update s.ledger.state e.1 o.state
          out := Function.update s.ledger.out e.1 (some o) } := by
      simp only [routeStep, basinNode, hst]
      rfl
    have huse := h.use e.1
    have hacc : (routeStep (basinNode cin (ledgerGet cin q) (ledgerUpd cin q)) s e).ledger.demand.acc =
        Function.update s.ledger.demand.acc e.1 o.unsat := by rw [hL]; rfl
    have hrip : (routeStep (basinNode cin (ledgerGet cin q) (ledgerUpd cin q)) s e).ledger.demand.rip =
        if (cin e.1).hasLake then (redistribute (q.redist e.1 o.lakeUnsat) s.ledger.demand.rip).2
          else s.ledger.demand.rip := by
      rw [hL]; simp only [ledgerUpd, huse, true_and]
    have hrip_other : ∀ x, x ≠ e.1 → ¬ ((cin e.1).hasLake ∧ q.unit e.1 = q.unit x) →
        (routeStep (basinNode cin (ledgerGet cin q) (ledgerUpd cin q)) s e).ledger.demand.rip x = s.ledger.demand.rip x := by
      intro x hx hn
      rw [hrip]
      by_cases hl : (cin e.1).hasLake
      · rw [if_pos hl]
        refine redist_other q e.1 _ _ x (fun hm => ?_) hx
        have := (List.mem_filter.mp hm).2
        simp only [decide_eq_true_eq] at this
        exact hn ⟨hl, this.1⟩
      · rw [if_neg hl]
    refine ⟨?_, ?_, ?_, ?_⟩
    · intro x hx
      rw [List.map_append, List.mem_append, not_or] at hx
      have hxe : x ≠ e.1 := fun h' => hx.2 (by simp [h'])
      rw [hacc, Function.update_of_ne hxe]
      exact i1 x hx.1
    · intro x hx
      rw [hacc]
      by_cases hxe : x = e.1
      · subst hxe
        rw [Function.update_self]
        exact (C25_unsat_nonneg (cin e.1) (state e.1) (s.inflow e.1) D kp c1 c2 (b2 e.1) hsg).1
      · rw [Function.update_of_ne hxe]
        refine i0 x ?_
        simpa [hxe] using hx
    · intro x hx
      by_cases hxe : x = e.1
      · subst hxe
        rw [hrip]
        by_cases hl : (cin e.1).hasLake
        · rw [if_pos hl]; exact redist_self_zero (q.redist e.1 _) _ (i2 _ hx)
        · rw [if_neg hl]; exact i2 _ hx
      · rw [hrip_other x hxe, i2 x hx]
        intro hn
        exact hx e.1 (by simp) ⟨hn.1, hn.2, Ne.symm hxe⟩
    · -- the sum
      have hDval : D = s.ledger.demand.acc e.1 +
          (if Waits cin q (P.map Prod.fst ++ e.1 :: S.map Prod.fst) (P.map Prod.fst) e.1 then s.ledger.demand.rip e.1
            else 0) := by
        rw [hD]
        simp only [ledgerGet, huse, and_true]
        by_cases hw : ∃ L ∈ P.map Prod.fst ++ e.1 :: S.map Prod.fst, Outlet cin q L e.1
        · rw [if_pos ((waits_self cin q hnd).2.2 hw)]
          obtain ⟨L, -, ho⟩ := hw
          have : q.unit e.1 > 0 := by rw [← ho.2.1]; exact h.unit L ho.1
          rw [if_pos this]
        · have hz := i2 e.1 (fun L hL hO => hw ⟨L, hL, hO⟩)
          rw [if_neg (fun hh => hw ((waits_self cin q hnd).2.1 hh)), hz]
          split_ifs <;> rfl
      have hbal := C25_demand (cin e.1) (state e.1) (s.inflow e.1) D kp c1 c2 (b2 e.1) hsg
      simp only at hbal
      rw [← ho] at hbal
      have hentry : ∀ x ∈ P.map Prod.fst ++ e.1 :: S.map Prod.fst,
          entry cin q (P.map Prod.fst ++ e.1 :: S.map Prod.fst) ((P ++ [e]).map Prod.fst)
            (routeStep (basinNode cin (ledgerGet cin q) (ledgerUpd cin q)) s e) x =
          entry cin q (P.map Prod.fst ++ e.1 :: S.map Prod.fst) (P.map Prod.fst) s x
            + (if e.1 = x then -o.handed else 0)
            + (if q.unit e.1 = q.unit x ∧ e.1 ≠ x then
                (if (cin e.1).hasLake then (redistribute (q.redist e.1 o.lakeUnsat) s.ledger.demand.rip).2 x else 0)
               else 0) := by
        intro x _
        have hp' : (P ++ [e]).map Prod.fst = P.map Prod.fst ++ [e.1] := by simp
        rw [hp']
        unfold entry
        by_cases hxe : x = e.1
        · subst hxe
          have hw1 := (waits_self cin q hnd).1
          have hm1 : e.1 ∈ P.map Prod.fst ++ [e.1] := by simp
          simp only [if_neg hw1, if_pos hm1, if_neg heP, ne_eq, not_true_eq_false, and_false, if_false, if_true, hacc, Function.update_self]
          have hdid : did (routeStep (basinNode cin (ledgerGet cin q) (ledgerUpd cin q)) s e) (·.nas) e.1 = o.nas := by
            unfold did; rw [hL]; simp
          rw [hdid]
          linarith [hDval, hbal]
        · have hdid : did (routeStep (basinNode cin (ledgerGet cin q) (ledgerUpd cin q)) s e) (·.nas) x = did s (·.nas) x := by
            unfold did; rw [hL]; simp [Function.update_of_ne hxe]
          have hmem : x ∈ P.map Prod.fst ++ [e.1] ↔ x ∈ P.map Prod.fst := by simp [hxe]
          rw [hacc, Function.update_of_ne hxe, hdid, if_neg (Ne.symm hxe)]
          simp only [hmem]
          by_cases hn : (cin e.1).hasLake ∧ q.unit e.1 = q.unit x
          · obtain ⟨w1, w2⟩ := waits_shore cin q h.unique hnd hxe hn.1 hn.2
            have hn1 : q.unit e.1 = q.unit x ∧ e.1 ≠ x := ⟨hn.2, Ne.symm hxe⟩
            simp only [if_pos w2, if_neg w1, if_pos hn1, if_pos hn.1, hrip]
            ring
          · rw [hrip_other x hxe hn]
            have hz : (if q.unit e.1 = q.unit x ∧ e.1 ≠ x then
                (if (cin e.1).hasLake then (redistribute (q.redist e.1 o.lakeUnsat) s.ledger.demand.rip).2 x else 0)
               else 0) = (0 : ℝ) := by
              by_cases h1 : q.unit e.1 = q.unit x ∧ e.1 ≠ x
              · rw [if_pos h1, if_neg (fun hl => hn ⟨hl, h1.1⟩)]
              · rw [if_neg h1]
            rw [hz]
            simp only [waits_other cin q (P.map Prod.fst ++ e.1 :: S.map Prod.fst) hxe hn]
            ring
      rw [List.map_congr_left hentry, List.sum_map_add, List.sum_map_add]
      have hind' := sum_indicator (P.map Prod.fst ++ e.1 :: S.map Prod.fst) hnd e.1 (-o.handed)
      rw [if_pos (by simp)] at hind'
      rw [hind', sum_ite_filter]
      have hripar : ((P.map Prod.fst ++ e.1 :: S.map Prod.fst).filter fun x => decide (q.unit e.1 = q.unit x ∧ e.1 ≠ x))
          = q.riparian e.1 := by
        unfold DemandDay.riparian; rw [h.order, hcells]
      rw [hripar]
      have hhand : o.handed = ((q.riparian e.1).map fun x =>
          if (cin e.1).hasLake then (redistribute (q.redist e.1 o.lakeUnsat) s.ledger.demand.rip).2 x else 0).sum := by
        have hu1 : o.lakeUnsat = cellUnsat1 (cin e.1) (state e.1) (s.inflow e.1) D := rfl
        have hh : o.handed = cellUnsat1 (cin e.1) (state e.1) (s.inflow e.1) D
          - cellUnsat2 (cin e.1) (state e.1) (s.inflow e.1) D kp := rfl
        by_cases hl : (cin e.1).hasLake
        · simp only [if_pos hl]
          have h2 : cellUnsat2 (cin e.1) (state e.1) (s.inflow e.1) D kp = kp o.lakeUnsat := by
            unfold cellUnsat2
            have hl' : (cin e.1).useOpt = true ∧ ((cin e.1).resArea > 0 ∨ (cin e.1).glolakeArea > 0) := ⟨huse, hl⟩
            rw [if_pos hl', hu1]
          rw [hh, h2, ← hu1]
          have hle := cellUnsat1_le (cin e.1) (state e.1) (s.inflow e.1) D c1 c2 (b2 e.1) hsg hl
          rw [← hu1] at hle
          have hcons := h.cons e.1 hl
          refine redist_sum q e.1 o.lakeUnsat s.ledger.demand.rip hcons ?_
          by_cases hp : 0 < q.positive e.1
          · exact Or.inl hp
          · right
            obtain ⟨p1, p2⟩ := h.prev e.1 hl
            have hrz := b1.1 e.1 hl
            rw [hrz] at hDval
            have hDa : D = l0.acc e.1 := by
              rw [hDval, i1 e.1 heP]; split_ifs <;> ring
            have hpot : q.pot e.1 ≤ 0 := by
              rw [hcons]; have := min_le_right (q.unagg e.1) 0; linarith
            rw [max_eq_right hpot] at p2
            have : D ≤ q.prev e.1 := by rw [hDa]; linarith
            exact hle.trans (max_le this p1)
        · simp only [if_neg hl]
          have h2 : cellUnsat2 (cin e.1) (state e.1) (s.inflow e.1) D kp
              = cellUnsat1 (cin e.1) (state e.1) (s.inflow e.1) D := by
            unfold cellUnsat2
            exact if_neg (fun hh' => hl hh'.2)
          rw [hh, h2]; simp
      rw [← hhand]
      ring


open Classical in
/-- What cells have been handed and will use on the next day. -/
noncomputable def onTheWay (cells : List Cell) (rip : Cell → ℝ) : ℝ :=
  ((cells.filter fun x => decide (NextDay cin q cells x)).map rip).sum

open Classical in
theorem waits_nil (cells : List Cell) (x : Cell) : Waits cin q cells [] x ↔ NextDay cin q cells x := by
  constructor
  · rintro ⟨L, hL, ho, hw⟩
    by_cases hi : cells.idxOf x < cells.idxOf L
    · exact ⟨L, hL, ho, hi⟩
    · rw [if_neg hi] at hw; exact absurd hw.1 (by simp)
  · rintro ⟨L, hL, ho, hi⟩; exact ⟨L, hL, ho, by rw [if_pos hi]; left; simp⟩

theorem waits_all (cells : List Cell) (x : Cell) (hx : x ∈ cells) : Waits cin q cells cells x ↔ NextDay cin q cells x := by
  constructor
  · rintro ⟨L, hL, ho, hw⟩
    by_cases hi : cells.idxOf x < cells.idxOf L
    · exact ⟨L, hL, ho, hi⟩
    · rw [if_neg hi] at hw; exact absurd hx hw.2
  · rintro ⟨L, hL, ho, hi⟩; exact ⟨L, hL, ho, by rw [if_pos hi]; right; exact hL⟩

/-- **C33 (a day in a basin).**  No demand is lost or made up while the cells of a basin have their turn: what the cells
ask for at the start of the day, with what lakes handed to cells on their shore the day before, is what the
cells took, what they still want, and what lakes handed over for the next day. -/
theorem C33_basin_day {order : List (Cell × Cell)} (hS : Sound order) {l : Ledger}
    (h : DemandOk cin q (order.map Prod.fst) l) (state : Cell → CellState)
    (hc : ∀ x ∈ order.map Prod.fst, (cin x).Physical ∧ (state x).Ok (cin x) ∧ 0 ≤ (cin x).corr) :
    let cells := order.map Prod.fst
    let s := demandDayRun cin q order l state
    (cells.map l.acc).sum + onTheWay cin q cells l.rip =
      (cells.map (did s (·.nas))).sum + (cells.map s.ledger.demand.acc).sum
        + onTheWay cin q cells s.ledger.demand.rip := by
  classical
  intro cells s
  obtain ⟨-, -, -, k⟩ := ledger_inv cin q hS h state hc order [] (by simp)
  have e1 : ∀ x ∈ cells, entry cin q cells cells s x =
      s.ledger.demand.acc x + (if NextDay cin q cells x then s.ledger.demand.rip x else 0) + did s (·.nas) x := by
    intro x hx
    unfold entry
    rw [if_pos hx]
    by_cases hw : NextDay cin q cells x
    · rw [if_pos hw, if_pos ((waits_all cin q cells x hx).2 hw)]
    · rw [if_neg hw, if_neg (fun h' => hw ((waits_all cin q cells x hx).1 h'))]
  have e2 : ∀ x ∈ cells, entry cin q cells [] (demandDayRun cin q [] l state) x =
      l.acc x + (if NextDay cin q cells x then l.rip x else 0) := by
    intro x hx
    unfold entry
    have hz : ¬ x ∈ ([] : List Cell) := by simp
    by_cases hw : NextDay cin q cells x
    · rw [if_pos hw, if_pos ((waits_nil cin q cells x).2 hw), if_neg hz, add_zero]; rfl
    · rw [if_neg hw, if_neg (fun h' => hw ((waits_nil cin q cells x).1 h')), if_neg hz]
      rw [add_zero]; rfl
  change (cells.map (entry cin q cells cells s)).sum = (cells.map (entry cin q cells [] _)).sum at k
  rw [List.map_congr_left e1, List.map_congr_left e2, List.sum_map_add, List.sum_map_add, List.sum_map_add,
    sum_ite_filter, sum_ite_filter] at k
  unfold onTheWay
  linarith

end

/-! ### Day after day -/

theorem sum_congr_nextDay (cin cin' : Cell → CellIn) (q q' : DemandDay) (cells : List Cell) (rip : Cell → ℝ)
    (h1 : ∀ x, (cin x).hasLake ↔ (cin' x).hasLake) (h2 : q.unit = q'.unit) :
    onTheWay cin q cells rip = onTheWay cin' q' cells rip := by
  have : ∀ x, NextDay cin q cells x ↔ NextDay cin' q' cells x := by
    intro x; simp only [NextDay, Outlet, h1, h2]
  have h3 : NextDay cin q cells = NextDay cin' q' cells := funext fun x => propext (this x)
  unfold onTheWay
  rw [h3]

/-- A sensible day for the basin whose water bodies are `base`. -/
structure DayIn.Good (base : Cell → CellIn) (unit : Cell → ℕ) (cells : List Cell) (d : DayIn) : Prop where
  same : ∀ x, SameBodies (base x) (d.cin x)
  cell : ∀ x ∈ cells, (d.cin x).Physical ∧ 0 ≤ (d.cin x).corr ∧ (d.cin x).WetDeep
  use : ∀ x, (d.cin x).useOpt = true
  sign : ∀ x, 0 < (d.cin x).glolakeArea → 0 ≤ d.pot x
  cons : ∀ x, (base x).hasLake → d.pot x = min (d.unagg x) 0 + (max (d.unagg x) 0 +
    ((cells.filter fun r => unit x = unit r ∧ x ≠ r).map fun r => max (d.unagg r) 0).sum)

/-- The lakes and their units: every lake or reservoir is in the basin, has one outflow cell and belongs
to a unit. -/
structure UnitsOk (base : Cell → CellIn) (unit : Cell → ℕ) (cells : List Cell) : Prop where
  here : ∀ x, (base x).hasLake → x ∈ cells
  pos : ∀ x, (base x).hasLake → 0 < unit x
  unique : ∀ x y, (base x).hasLake → (base y).hasLake → unit x = unit y → x = y

/-- What is carried over makes sense: storages within their limits; no negative unsatisfied demand; what was carried
the day before is known; only cells on the shore of a lake have been handed demand. -/
structure Carry.Good (base : Cell → CellIn) (unit : Cell → ℕ) (cells : List Cell) (c : Carry) : Prop where
  state : ∀ x ∈ cells, (c.state x).Ok (base x)
  acc : ∀ x, (base x).hasLake → 0 ≤ c.acc x ∧ c.prev x = c.acc x
  rip : ∀ x, (∀ L ∈ cells, ¬ ((base L).hasLake ∧ unit L = unit x ∧ L ≠ x)) → c.rip x = 0

theorem hasLake_same {c c' : CellIn} (h : SameBodies c c') : c.hasLake ↔ c'.hasLake := by
  unfold CellIn.hasLake; rw [h.resArea, h.area]

theorem dayIn_demandOk {base : Cell → CellIn} {unit : Cell → ℕ} {order : List (Cell × Cell)} (hu : UnitsOk base unit (order.map Prod.fst))
    {d : DayIn} (hd : d.Good base unit (order.map Prod.fst)) {c : Carry} (hc : c.Good base unit (order.map Prod.fst)) :
    DemandOk d.cin (d.demandDay unit order c) (order.map Prod.fst) (d.ledger true c) := by
  have hl : ∀ x, (d.cin x).hasLake → (base x).hasLake := fun x h => (hasLake_same (hd.same x)).2 h
  refine ⟨rfl, hd.use, fun x hx => hu.pos x (hl x hx), fun x y hx hy => hu.unique x y (hl x hx) (hl y hy),
    fun x hx => hd.cons x (hl x hx), fun x hx => ?_, fun x hx => ?_, fun x hx => ?_⟩
  · obtain ⟨a1, a2⟩ := hc.acc x (hl x hx)
    refine ⟨by simp only [DayIn.demandDay]; rw [a2]; exact a1, ?_⟩
    simp only [DayIn.ledger, DayIn.demandDay, dayDemand, hd.use, if_true, a2]
    have := le_max_left (d.pot x) 0
    linarith
  · apply hc.rip
    rintro L hL ⟨b1, b2, b3⟩
    exact hx L hL ⟨(hasLake_same (hd.same L)).1 b1, b2, b3⟩
  · have a := (hc.acc x (hl x (Or.inr hx))).1
    have := hd.sign x hx
    simp only [DayIn.ledger, dayDemand, hd.use, if_true]
    linarith

/-- What the cells took on the day. -/
noncomputable def DayIn.used (unit : Cell → ℕ) (order : List (Cell × Cell)) (c : Carry) (d : DayIn) : ℝ :=
  ((order.map Prod.fst).map (did (d.routed true unit order c) (·.nas))).sum

/-- What is given up at the end of a year: the demand left unsatisfied on 31 December. -/
noncomputable def DayIn.givenUp (unit : Cell → ℕ) (order : List (Cell × Cell)) (c : Carry) (d : DayIn) : ℝ :=
  if d.dec31 then ((order.map Prod.fst).map (d.routed true unit order c).ledger.demand.acc).sum else 0

/-- All unsatisfied demand the basin carries over to the next day. -/
noncomputable def Carry.open (base : Cell → CellIn) (unit : Cell → ℕ) (order : List (Cell × Cell)) (c : Carry) : ℝ :=
  ((order.map Prod.fst).map c.acc).sum
    + onTheWay base ⟨c.acc, c.acc, unit, c.prev, order.map Prod.fst⟩ (order.map Prod.fst) c.rip

theorem delayed_day {base : Cell → CellIn} {unit : Cell → ℕ} {order : List (Cell × Cell)} (hS : Sound order)
    (hu : UnitsOk base unit (order.map Prod.fst)) {d : DayIn} (hd : d.Good base unit (order.map Prod.fst)) {c : Carry}
    (hc : c.Good base unit (order.map Prod.fst)) :
    (d.next true unit order c).Good base unit (order.map Prod.fst) ∧
    c.open base unit order + ((order.map Prod.fst).map d.pot).sum =
      d.used unit order c + d.givenUp unit order c + (d.next true unit order c).open base unit order := by
  have hok := dayIn_demandOk hu hd hc
  have hstate : ∀ x ∈ order.map Prod.fst, (c.state x).Ok (d.cin x) := fun x hx => Ok_same (hd.same x) (hc.state x hx)
  have hcc : ∀ x ∈ order.map Prod.fst, (d.cin x).Physical ∧ (c.state x).Ok (d.cin x) ∧ 0 ≤ (d.cin x).corr :=
    fun x hx => ⟨(hd.cell x hx).1, hstate x hx, (hd.cell x hx).2.1⟩
  have hI0 : LedgerInv d.cin (d.ledger true c) := ⟨fun x hx => hok.lakeRip d.cin _ x hx, hok.sign⟩
  have hLO := ledger_ok d.cin _ hok
  have hday := C33_basin_day d.cin (d.demandDay unit order c) hS hok c.state hcc
  obtain ⟨j1, j0, j2, -⟩ := ledger_inv d.cin (d.demandDay unit order c) hS hok c.state hcc order [] (by simp)
  have hbs := C26_basin_state d.cin (ledgerGet d.cin (d.demandDay unit order c))
    (ledgerUpd d.cin (d.demandDay unit order c)) (LedgerInv d.cin) hLO order hS (d.ledger true c) hI0 c.state
    (fun x hx => ⟨(hcc x hx).1, (hcc x hx).2.1, (hcc x hx).2.2, (hd.cell x hx).2.2⟩)
  have hne : ∀ x, (d.next true unit order c).acc x =
      (if d.dec31 then 0 else (d.routed true unit order c).ledger.demand.acc x) := by
    intro x; simp only [DayIn.next, endOfDay, hd.use, if_true, Option.getD_none]
  have hnp : ∀ x, (d.next true unit order c).prev x = (d.next true unit order c).acc x := by
    intro x; simp only [DayIn.next, endOfDay, hd.use, if_true, Option.getD_none, Option.isSome_some]
  have hnr : (d.next true unit order c).rip = (d.routed true unit order c).ledger.demand.rip := rfl
  refine ⟨⟨?_, ?_, ?_⟩, ?_⟩
  · intro x hx
    exact Ok_same (hd.same x).symm (hbs x hx).1
  · intro x hx
    refine ⟨?_, hnp x⟩
    rw [hne x]
    by_cases hdec : d.dec31 = true
    · rw [if_pos hdec]
    · rw [if_neg hdec]
      exact j0 x (hu.here x hx)
  · intro x hx
    rw [hnr]
    apply j2
    intro L hL ho
    exact hx L hL ⟨(hasLake_same (hd.same L)).2 ho.1, ho.2.1, ho.2.2⟩
  · have e1 : c.open base unit order + ((order.map Prod.fst).map d.pot).sum
        = ((order.map Prod.fst).map (d.ledger true c).acc).sum
          + onTheWay d.cin (d.demandDay unit order c) (order.map Prod.fst) (d.ledger true c).rip := by
      have h1 : (d.ledger true c).acc = fun x => d.pot x + c.acc x := by
        funext x; simp only [DayIn.ledger, dayDemand, hd.use, if_true]
      rw [h1, List.sum_map_add]
      unfold Carry.open
      rw [sum_congr_nextDay base d.cin ⟨c.acc, c.acc, unit, c.prev, order.map Prod.fst⟩ (d.demandDay unit order c) _ c.rip (fun x => hasLake_same (hd.same x)) rfl]
      have h2 : (d.ledger true c).rip = c.rip := rfl
      rw [h2]; ring
    have e2 : (d.next true unit order c).open base unit order + d.givenUp unit order c
        = ((order.map Prod.fst).map (d.routed true unit order c).ledger.demand.acc).sum
          + onTheWay d.cin (d.demandDay unit order c) (order.map Prod.fst) (d.routed true unit order c).ledger.demand.rip := by
      unfold Carry.open DayIn.givenUp
      rw [sum_congr_nextDay base d.cin ⟨(d.next true unit order c).acc, (d.next true unit order c).acc, unit,
        (d.next true unit order c).prev, order.map Prod.fst⟩ (d.demandDay unit order c) _ _
        (fun x => hasLake_same (hd.same x)) rfl, hnr]
      have h1 := funext hne
      rw [h1]
      by_cases hdec : d.dec31 = true
      · simp only [if_pos hdec, List.map_const', List.sum_replicate, smul_zero]; ring
      · simp only [if_neg hdec]; ring
    have hday' : ((order.map Prod.fst).map (d.ledger true c).acc).sum
          + onTheWay d.cin (d.demandDay unit order c) (order.map Prod.fst) (d.ledger true c).rip
        = d.used unit order c + ((order.map Prod.fst).map (d.routed true unit order c).ledger.demand.acc).sum
          + onTheWay d.cin (d.demandDay unit order c) (order.map Prod.fst) (d.routed true unit order c).ledger.demand.rip :=
      hday
    rw [e1, hday']
    linarith

/-- The basin after some days, what was taken and what was given up. -/
noncomputable def delayedRun (unit : Cell → ℕ) (order : List (Cell × Cell)) : Carry → List DayIn → Carry × ℝ × ℝ
  | c, [] => (c, 0, 0)
  | c, d :: ds =>
    let r := delayedRun unit order (d.next true unit order c) ds;
    (r.1, d.used unit order c + r.2.1, d.givenUp unit order c + r.2.2)

/-- **C33 (delayed use, any number of days and years).**  With delayed use, over any sequence of days in a basin with any
number of cells, lakes and reservoirs: the demand of all days plus what was open at the start is what the cells
took, what was given up at the ends of years, and what is open at the end. Nothing is lost or counted
twice. -/
theorem C33_history (base : Cell → CellIn) (unit : Cell → ℕ) (order : List (Cell × Cell)) (hS : Sound order)
    (hu : UnitsOk base unit (order.map Prod.fst)) (days : List DayIn)
    (hd : ∀ d ∈ days, d.Good base unit (order.map Prod.fst)) (c : Carry) (hc : c.Good base unit (order.map Prod.fst)) :
    let r := delayedRun unit order c days
    r.1.Good base unit (order.map Prod.fst) ∧
    c.open base unit order + (days.map fun d => ((order.map Prod.fst).map d.pot).sum).sum =
      r.2.1 + r.2.2 + r.1.open base unit order := by
  induction days generalizing c with
  | nil => exact ⟨hc, by simp [delayedRun]⟩
  | cons d ds ih =>
    obtain ⟨h1, h2⟩ := delayed_day hS hu (hd d (by simp)) hc
    obtain ⟨h3, h4⟩ := ih (fun x hx => hd x (by simp [hx])) _ h1
    refine ⟨h3, ?_⟩
    simp only [delayedRun, List.map_cons, List.sum_cons]
    linarith

/-- **C33 (within a year).**  As long as no 31 December passes nothing is given up; after a 31 December no cell has an
accumulated demand. -/
theorem C33_year_end (unit : Cell → ℕ) (order : List (Cell × Cell)) (days : List DayIn) (c : Carry) :
    ((∀ d ∈ days, d.dec31 = false) → (delayedRun unit order c days).2.2 = 0) ∧
    (∀ d : DayIn, d.dec31 = true → (∀ x, (d.cin x).useOpt = true) → ∀ x, (d.next true unit order c).acc x = 0 ∧
      (d.next true unit order c).prev x = 0) := by
  constructor
  · intro h
    induction days generalizing c with
    | nil => rfl
    | cons d ds ih =>
      simp only [delayedRun, ih _ (fun x hx => h x (by simp [hx])), DayIn.givenUp, h d (by simp), Bool.false_eq_true,
        if_false, add_zero]
  · intro d hd hu x
    simp only [DayIn.next, endOfDay, hd, hu, if_true, Option.isSome_some, Option.getD_none, and_self]

/-- **C33 (daily figure).**  With delayed use the unsatisfied demand reported for a day is the change of the accumulated
demand, so that over the days since a 31 December the reported figures add up to the accumulated demand. -/
theorem C33_daily_telescopes (accs : List ℝ) (u : Unsat) (hu : u.prev = u.acc) :
    let us := accs.foldl (fun (s : Unsat × ℝ) a =>
      let v := endOfDay true true false a none none (some 0) s.1;
      (v, s.2 + v.daily)) (u, 0)
    us.1.prev = us.1.acc ∧ us.2 = us.1.acc - u.acc := by
  suffices h : ∀ (accs : List ℝ) (v : Unsat) (t : ℝ), v.prev = v.acc → t = v.acc - u.acc →
      let us := accs.foldl (fun (s : Unsat × ℝ) a =>
        let v := endOfDay true true false a none none (some 0) s.1;
        (v, s.2 + v.daily)) (v, t)
      us.1.prev = us.1.acc ∧ us.2 = us.1.acc - u.acc from h accs u 0 hu (by ring)
  intro accs
  induction accs with
  | nil => intro v t h1 h2; exact ⟨h1, h2⟩
  | cons a accs ih =>
    intro v t h1 h2
    simp only [List.foldl_cons]
    apply ih
    · simp [endOfDay]
    · simp only [endOfDay, if_true, Bool.false_eq_true, if_false, Option.getD_none, Option.isSome_some]
      linarith

/-- **C33 (without delayed use).**  The demand of a day is the demand in the data, whatever was left unsatisfied on the
days before, and the reported unsatisfied demand is that of the day alone; without water use nobody asks for
anything. -/
theorem C33_not_delayed (pot acc : ℝ) (dec31 : Bool) (a : ℝ) (u : Unsat) :
    dayDemand true false pot acc = pot ∧ (endOfDay true false dec31 a none none (some 0) u).daily = a ∧
    (endOfDay true false dec31 a none none (some 0) u).prev = u.prev ∧ dayDemand false true pot acc = 0 ∧
    dayDemand false false pot acc = 0 := by
  simp [dayDemand, endOfDay]

/-! ### A basin with an empty reservoir and a cell on its shore -/

/-- A cell with an empty reservoir on a dry day. -/
noncomputable def dryRes : CellIn :=
  { exCell with runoff := 0, recharge := 0, precip := 0, locLake := ⟨0, 0, 0⟩, gloWet := ⟨0, 0, 0⟩, glolakeArea := 0, maxGlolake := 0 }

/-- The two cells: `(1, 2)` holds the reservoir, `(1, 1)` is on its shore. -/
noncomputable def dryBase (x : Cell) : CellIn := if x = (1, 2) then dryRes else { dryRes with resArea := 0 }

/-- Both belong to unit 7. -/
def dryUnit (x : Cell) : ℕ := if x = (1, 1) ∨ x = (1, 2) then 7 else 0

/-- The shore cell has its turn first. -/
def dryOrder : List (Cell × Cell) := [((1, 1), (0, 0)), ((1, 2), (0, 0))]

/-- The shore cell has a demand of 1, aggregated to the outflow cell; it is the last day of the year. -/
noncomputable def dryDay (dec31 : Bool) : DayIn :=
  { cin := dryBase, pot := fun x => if x = (1, 2) then 1 else 0, unagg := fun x => if x = (1, 1) then 1 else 0,
    dec31 := dec31 }

/-- Nothing is left from before, all storages are empty. -/
noncomputable def dryCarry : Carry :=
  { acc := fun _ => 0, prev := fun _ => 0, rip := fun _ => 0, state := fun _ => ⟨0, 0, 0, 0, 0, 0.8, 0, 0⟩ }

theorem dryRes_physical : dryRes.Physical := by
  constructor <;> (try unfold dryRes exCell) <;> (try constructor) <;> norm_num

theorem dryShore_physical : CellIn.Physical { dryRes with resArea := 0 } := by
  constructor <;> (try unfold dryRes exCell) <;> (try constructor) <;> norm_num

theorem dryBase_physical (x : Cell) : (dryBase x).Physical := by
  unfold dryBase; split_ifs
  · exact dryRes_physical
  · exact dryShore_physical

theorem dryBase_lake (x : Cell) : (dryBase x).hasLake ↔ x = (1, 2) := by
  unfold dryBase CellIn.hasLake
  by_cases h : x = (1, 2)
  · simp [h, dryRes, exCell]
  · simp [h, dryRes, exCell]

theorem dryOrder_sound : Sound dryOrder := by
  constructor
  · simp [dryOrder]
  · simp [dryOrder, drains]
  · simp [dryOrder, drains]

theorem dryUnits_ok : UnitsOk dryBase dryUnit (dryOrder.map Prod.fst) where
  here := by intro x hx; rw [dryBase_lake] at hx; subst hx; simp [dryOrder]
  pos := by intro x hx; rw [dryBase_lake] at hx; subst hx; simp [dryUnit]
  unique := by intro x y hx hy _; rw [dryBase_lake] at hx hy; rw [hx, hy]

theorem dryDay_good (b : Bool) : (dryDay b).Good dryBase dryUnit (dryOrder.map Prod.fst) where
  same := fun _ => ⟨rfl, rfl, rfl, rfl, rfl, rfl, rfl⟩
  cell := by
    intro x _
    refine ⟨dryBase_physical x, ?_, ?_⟩
    · simp only [dryDay, dryBase]; split_ifs <;> simp [dryRes, exCell]
    · intro hf; simp only [dryDay, dryBase] at hf; split_ifs at hf <;> simp [dryRes, exCell] at hf
  use := by intro x; simp only [dryDay, dryBase]; split_ifs <;> simp [dryRes, exCell]
  sign := by intro x _; simp only [dryDay]; split_ifs <;> norm_num
  cons := by
    intro x hx
    rw [dryBase_lake] at hx
    subst hx
    simp [dryDay, dryOrder, dryUnit, List.filter]

theorem dryCarry_good : dryCarry.Good dryBase dryUnit (dryOrder.map Prod.fst) where
  state := by
    intro x _
    constructor <;> (try simp only [dryCarry, dryBase]) <;> (try split_ifs) <;> simp [dryRes, exCell]
  acc := by intro x _; simp [dryCarry]
  rip := by intro x _; rfl

example := C33_history dryBase dryUnit dryOrder dryOrder_sound dryUnits_ok [dryDay false, dryDay false, dryDay true, dryDay false]
  (by intro d hd; simp only [List.mem_cons, List.not_mem_nil, or_false] at hd; rcases hd with rfl | rfl | rfl | rfl <;> exact dryDay_good _)
  dryCarry dryCarry_good

theorem dry_unsat_gen (c : CellIn) (st : CellState) (d : ℝ) (hd : 0 ≤ d) (hphys : c.Physical) (hok : st.Ok c)
    (hs0 : st.res = 0) (hr : c.resArea > 0) (hg : ¬ c.glolakeArea > 0) (hll : ¬ c.locLake.frac > 0)
    (hlw : ¬ c.locWet.frac > 0) (hprec : c.precip = 0) (hrun : c.runoff = 0) (harid : c.arid = true)
    (hsink : c.sink = false) : cellUnsat1 c st 0 d = d := by
  have hp := resIn_physical c st 0 d hphys hok le_rfl (fun h => absurd h hg) hr
  obtain ⟨a1, a2, -⟩ := C17_abstraction (cellResIn c st 0 d) st.res hp (hok.res hr).1
  have hb := (C17_bounds (cellResIn c st 0 d) st.res hp (hok.res hr).1)
  have hin : (cellResIn c st 0 d).han.inflow = 0 := by
    have e1 : (cellResIn c st 0 d).han.inflow = (cellGloLake c st 0 d).outflow := rfl
    have e2 : (cellGloLake c st 0 d).outflow = (cellLocWet c st).outflow + 0 := by
      unfold cellGloLake bodyDay; rw [if_neg hg]; rfl
    have e3 : (cellLocWet c st).outflow = (cellLocLake c st).outflow := by
      unfold cellLocWet bodyDay; rw [if_neg hlw]; rfl
    have e4 : (cellLocLake c st).outflow = (cellSplit c st).1 := by
      unfold cellLocLake bodyDay; rw [if_neg hll]; rfl
    have e5 : (cellSplit c st).1 = 0 := by
      simp [cellSplit, fracRouting, cellEarlyDischarge, CellIn.gwKind, hrun, harid, hsink]
    rw [e1, e2, e3, e4, e5, add_zero]
  have hpr : (cellResIn c st 0 d).precip = 0 := hprec
  have hcap := hp.cap
  have hgl : ¬ (cellResIn c st 0 d).glolakeArea > 0 := hg
  have hdm : (cellResIn c st 0 d).demandSw = d := rfl
  unfold cellUnsat1 cellRes
  rw [if_pos hr, if_pos hr]
  simp only [if_neg hgl, hdm] at a1 a2
  have hu := (a2 hd).2
  simp only at hb
  generalize resBalance (cellResIn c st 0 d) st.res = o at *
  have hz : max 0 (st.res + (cellResIn c st 0 d).han.inflow + (cellResIn c st 0 d).precip
      * (cellResIn c st 0 d).area - o.evapKm3 - o.gwr - (cellResIn c st 0 d).han.cap / 10) = 0 := by
    apply max_eq_left
    rw [hin, hs0, hpr]
    have := hb.2.2.2.1; have := hb.2.2.2.2.1
    have : (0 : ℝ) * (cellResIn c st 0 d).area = 0 := zero_mul _
    linarith
  rw [hz, min_eq_right hd] at hu
  linarith

theorem dry_unsat (st : CellState) (hst : st = ⟨0, 0, 0, 0, 0, 0.8, 0, 0⟩) (d : ℝ) (hd : 0 ≤ d) :
    cellUnsat1 dryRes st 0 d = d := by
  have hok : st.Ok dryRes := by
    subst hst
    constructor <;> simp [dryRes, exCell]
  exact dry_unsat_gen dryRes st d hd dryRes_physical hok (by rw [hst]) (by simp [dryRes, exCell]) (by simp [dryRes])
    (by simp [dryRes]) (by simp [dryRes, exCell]) rfl rfl rfl rfl

theorem dry_rip_gen (delayed b : Bool) (cin : Cell → CellIn) (hnl : ¬ (cin (1, 1)).hasLake)
    (hl : (cin (1, 2)).hasLake) (huse : (cin (1, 2)).useOpt = true) (hdry : ∀ st : CellState,
      st = ⟨0, 0, 0, 0, 0, 0.8, 0, 0⟩ → cellUnsat1 (cin (1, 2)) st 0 1 = 1) :
    (DayIn.next delayed dryUnit dryOrder dryCarry { dryDay b with cin := cin }).rip (1, 1) = 1 := by
  change (DayIn.routed delayed dryUnit dryOrder dryCarry { dryDay b with cin := cin }).ledger.demand.rip (1, 1) = 1
  unfold DayIn.routed demandDayRun basinDay
  set q := DayIn.demandDay dryUnit dryOrder dryCarry { dryDay b with cin := cin } with hq
  have ho : dryOrder = [((1, 1), (0, 0))] ++ [((1, 2), (0, 0))] := rfl
  rw [ho, route_append]
  set s := route (basinNode cin (ledgerGet cin q) (ledgerUpd cin q)) [((1, 1), (0, 0))]
    ⟨DayIn.ledger delayed dryCarry { dryDay b with cin := cin }, dryCarry.state, fun _ => none⟩ with hs
  have hinf : s.inflow (1, 2) = 0 := by
    rw [hs]; simp [route, routeStep, routeStart, drains]
  have hst : s.ledger.state (1, 2) = ⟨0, 0, 0, 0, 0, 0.8, 0, 0⟩ := by
    rw [hs]; simp [route, routeStep, routeStart, basinNode, dryCarry]
  have hrip : s.ledger.demand.rip = fun _ => 0 := by
    rw [hs]
    simp only [route, List.foldl_cons, List.foldl_nil, routeStep, routeStart, basinNode, ledgerUpd]
    rw [if_neg (fun h => hnl h.2)]
    rfl
  have hacc : s.ledger.demand.acc (1, 2) = 1 := by
    rw [hs]
    cases delayed <;>
      simp [route, routeStep, routeStart, basinNode, ledgerUpd, DayIn.ledger, dayDemand, dryDay, dryCarry, huse]
  have hget : (ledgerGet cin q s.ledger.demand (1, 2)).1 = 1 := by
    simp only [ledgerGet, hacc, hrip]; split_ifs <;> norm_num
  have hlu : (cellDay (cin (1, 2)) (s.ledger.state (1, 2)) (s.inflow (1, 2))
      (ledgerGet cin q s.ledger.demand (1, 2)).1 (ledgerGet cin q s.ledger.demand (1, 2)).2).lakeUnsat = 1 := by
    rw [hget, hinf]
    exact hdry _ hst
  have hcond : (cin (1, 2)).useOpt = true ∧ (cin (1, 2)).hasLake := ⟨huse, hl⟩
  simp only [routeStep, basinNode, ledgerUpd, if_pos hcond, hlu, hrip]
  have hripar : (q.redist (1, 2) 1).riparian = [(1, 1)] := by
    simp [RedistIn.riparian, DemandDay.redist, hq, DayIn.demandDay, dryOrder, dryUnit, List.filter]
  have hpos : (q.redist (1, 2) 1).positive = 1 := by
    unfold RedistIn.positive
    rw [hripar]
    simp [DemandDay.redist, hq, DayIn.demandDay, dryDay]
  have hcar : (q.redist (1, 2) 1).carried = 0 := redist_carried q _ _
  have := (C21_redistribute (q.redist (1, 2) 1)
    (by unfold RedistIn.Consistent; rw [hpos]; simp [DemandDay.redist, hq, DayIn.demandDay, dryDay])
    (by rw [hpos]; norm_num) (by rw [hripar]; simp) (by rw [hcar]; norm_num [DemandDay.redist]) (fun _ => 0)).1 (1, 1)
    (by rw [hripar]; simp)
  rw [this, hpos, hcar]
  norm_num [DemandDay.redist, hq, DayIn.demandDay, dryDay]

theorem dry_rip (delayed b : Bool) : ((dryDay b).next delayed dryUnit dryOrder dryCarry).rip (1, 1) = 1 :=
  dry_rip_gen delayed b dryBase (by rw [dryBase_lake]; decide) (by rw [dryBase_lake]) (by simp [dryBase, dryRes, exCell])
    fun st hst => by
      have hb2 : dryBase (1, 2) = dryRes := by simp [dryBase]
      rw [hb2]; exact dry_unsat _ hst 1 (by norm_num)

/-- **C33 violated (year end).**  The demand a lake or reservoir handed to a cell on its shore for the next day survives
31 December: all accumulated demands are zero, but the shore cell asks on 1 January for what was left of the
old year. -/
theorem C33_violated_year_end :
    let c := (dryDay true).next true dryUnit dryOrder dryCarry
    (∀ x, c.acc x = 0) ∧ c.rip (1, 1) = 1 ∧
    (ledgerGet dryBase ((dryDay false).demandDay dryUnit dryOrder c) ((dryDay false).ledger true c) (1, 1)).1 =
      (dryDay false).pot (1, 1) + 1 := by
  intro c
  have h1 := dry_rip true true
  have h0 : ∀ x, c.acc x = 0 := fun x =>
    ((C33_year_end dryUnit dryOrder [] dryCarry).2 (dryDay true) rfl (dryDay_good true).use x).1
  refine ⟨h0, h1, ?_⟩
  have huse : (dryBase (1, 1)).useOpt = true := (dryDay_good true).use (1, 1)
  have hrip : ((dryDay false).ledger true c).rip (1, 1) = 1 := h1
  have hacc : ((dryDay false).ledger true c).acc (1, 1) = (dryDay false).pot (1, 1) := by
    have hu : ((dryDay false).cin (1, 1)).useOpt = true := huse
    simp only [DayIn.ledger, dayDemand, hu, if_true, h0, add_zero]
  simp only [ledgerGet, hrip, hacc]
  rw [if_pos ⟨by simp [DayIn.demandDay, dryUnit], huse⟩]

/-- **C33 violated (without delayed use).**  Although nothing should be carried over without delayed use, a cell on the
shore asks on the next day for what the lake or reservoir could not supply. -/
theorem C33_violated_carry_without_delay :
    let c := (dryDay false).next false dryUnit dryOrder dryCarry
    (ledgerGet dryBase ((dryDay false).demandDay dryUnit dryOrder c) ((dryDay false).ledger false c) (1, 1)).1 =
      (dryDay false).pot (1, 1) + 1 := by
  intro c
  have h1 := dry_rip false false
  have huse : (dryBase (1, 1)).useOpt = true := (dryDay_good true).use (1, 1)
  have hrip : ((dryDay false).ledger false c).rip (1, 1) = 1 := h1
  have hacc : ((dryDay false).ledger false c).acc (1, 1) = (dryDay false).pot (1, 1) := by
    have hu : ((dryDay false).cin (1, 1)).useOpt = true := huse
    simp only [DayIn.ledger, dayDemand, hu, if_true, Bool.false_eq_true, if_false]
  simp only [ledgerGet, hrip, hacc]
  rw [if_pos ⟨by simp [DayIn.demandDay, dryUnit], huse⟩]

end WG
