import Verif.Model.Network
import Verif.Props.Routing
import Mathlib.Data.List.Perm.Basic
import Mathlib.Data.List.Nodup
import Mathlib.Algebra.BigOperators.Group.List.Basic

/-! Property C26: routing through the river network. -/

namespace WG

set_option linter.unusedSectionVars false
set_option linter.unusedSimpArgs false

/-- A routing order is sound if no cell comes twice and a cell comes before the cell it drains to. -/
structure Sound (order : List (Cell × Cell)) : Prop where
  nodup : (order.map Prod.fst).Nodup
  before : order.Pairwise fun a b => drains b.2 → b.2 ≠ a.1
  noself : ∀ e ∈ order, drains e.2 → e.2 ≠ e.1

/-- The cells that drain to `x`. -/
def upstreamOf (order : List (Cell × Cell)) (x : Cell) : List Cell :=
  (order.filter fun e => drains e.2 ∧ e.2 = x).map Prod.fst

theorem Sound.prefix {p : List (Cell × Cell)} {e : Cell × Cell} (h : Sound (p ++ [e])) :
    Sound p ∧ e.1 ∉ p.map Prod.fst ∧ (drains e.2 → e.2 ∉ p.map Prod.fst ∧ e.2 ≠ e.1) := by
  obtain ⟨h1, h2, h3⟩ := h
  rw [List.map_append, List.nodup_append] at h1
  rw [List.pairwise_append] at h2
  refine ⟨⟨h1.1, h2.1, fun x hx => h3 x (by simp [hx])⟩, ?_, fun hd => ⟨?_, h3 e (by simp) hd⟩⟩
  · intro hm
    exact h1.2.2 _ hm _ (by simp) rfl
  · intro hm
    obtain ⟨a, ha, hae⟩ := List.mem_map.mp hm
    exact h2.2.2 a ha e (by simp) hd hae.symm

theorem upstreamOf_append (p : List (Cell × Cell)) (e : Cell × Cell) (x : Cell) :
    upstreamOf (p ++ [e]) x = upstreamOf p x ++ (if drains e.2 ∧ e.2 = x then [e.1] else []) := by
  unfold upstreamOf
  rw [List.filter_append, List.map_append]
  congr 1
  by_cases h : drains e.2 ∧ e.2 = x
  · rw [if_pos h]; obtain ⟨h1, h2⟩ := h; simp [List.filter_cons, h2, h2 ▸ h1]
  · rw [if_neg h]; simp [List.filter_cons]; intro h1 h2; exact absurd ⟨h1, h2⟩ h

theorem upstreamOf_sub (p : List (Cell × Cell)) (x y : Cell) (h : y ∈ upstreamOf p x) : y ∈ p.map Prod.fst := by
  unfold upstreamOf at h
  obtain ⟨a, ha, rfl⟩ := List.mem_map.mp h
  exact List.mem_map.mpr ⟨a, (List.mem_filter.mp ha).1, rfl⟩

theorem sum_map_update (l : List Cell) (f : Cell → ℝ) (y : Cell) (v : ℝ) (h : y ∉ l) :
    (l.map (Function.update f y v)).sum = (l.map f).sum := by
  congr 1
  apply List.map_congr_left
  intro a ha
  rw [Function.update_of_ne]
  rintro rfl
  exact h ha

section
variable {σ : Type} (node : σ → Cell → ℝ → σ × ℝ × ℝ)

theorem route_append (p : List (Cell × Cell)) (e : Cell × Cell) (l : σ) :
    route node (p ++ [e]) l = routeStep node (route node p l) e := by
  simp [route, List.foldl_append]

/-- Invariant of the loop: a cell that has been processed received the streamflow of all cells that drain to it; a
cell that has not been processed holds in its inflow the streamflow of the processed ones. -/
theorem route_inv (order : List (Cell × Cell)) (h : Sound order) (l : σ) :
    let s := route node order l
    (∀ x ∈ order.map Prod.fst, s.up x = ((upstreamOf order x).map s.flow).sum) ∧
    (∀ x ∉ order.map Prod.fst, s.inflow x = ((upstreamOf order x).map s.flow).sum) := by
  induction order using List.reverseRecOn with
  | nil => simp [route, routeStart, upstreamOf]
  | append_singleton p e ih =>
    obtain ⟨hp, hn, hd⟩ := h.prefix
    obtain ⟨i1, i2⟩ := ih hp
    rw [route_append]
    simp only at i1 i2 ⊢
    generalize route node p l = s at *
    have hsum : ∀ x, ((upstreamOf p x).map (routeStep node s e).flow).sum = ((upstreamOf p x).map s.flow).sum := by
      intro x
      exact sum_map_update _ _ _ _ fun hm => hn (upstreamOf_sub p x _ hm)
    have hflow : (routeStep node s e).flow e.1 = (node s.ledger e.1 (s.inflow e.1)).2.2 := by
      simp [routeStep]
    constructor
    · intro x hx
      rw [upstreamOf_append, List.map_append, List.sum_append, hsum]
      have hno : ¬ (drains e.2 ∧ e.2 = x) := by
        rintro ⟨h1, rfl⟩
        rw [List.map_append, List.mem_append] at hx
        rcases hx with hx | hx
        · exact (hd h1).1 hx
        · exact (hd h1).2 (by simpa using hx)
      rw [if_neg hno]
      simp only [List.map_nil, List.sum_nil, add_zero]
      by_cases hxe : x = e.1
      · subst hxe
        simp only [routeStep, Function.update_self]
        exact i2 _ hn
      · have hxp : x ∈ p.map Prod.fst := by
          rw [List.map_append, List.mem_append] at hx
          rcases hx with hx | hx
          · exact hx
          · exact absurd (by simpa using hx) hxe
        simp only [routeStep]
        rw [Function.update_of_ne hxe]
        exact i1 x hxp
    · intro x hx
      rw [List.map_append, List.mem_append, not_or] at hx
      have hxe : x ≠ e.1 := fun h' => hx.2 (by simp [h'])
      rw [upstreamOf_append, List.map_append, List.sum_append, hsum, ← i2 x hx.1]
      by_cases hdr : drains e.2
      · by_cases hex : e.2 = x
        · rw [if_pos ⟨hdr, hex⟩]
          simp only [List.map_cons, List.map_nil, List.sum_cons, List.sum_nil, add_zero, hflow]
          subst hex
          simp only [routeStep]
          rw [if_pos hdr, Function.update_self, Function.update_of_ne hxe]
        · rw [if_neg (fun h' => hex h'.2)]
          simp only [routeStep, List.map_nil, List.sum_nil, add_zero]
          rw [if_pos hdr, Function.update_of_ne (fun h' => hex h'.symm), Function.update_of_ne hxe]
      · rw [if_neg (fun h' => hdr h'.1)]
        simp only [routeStep, List.map_nil, List.sum_nil, add_zero]
        rw [if_neg hdr, Function.update_of_ne hxe]

/-- C26: with a sound routing order, every cell receives from upstream exactly the streamflow of the cells that drain
to it on that day, whatever the cells do with the water. -/
theorem C26_upstream (order : List (Cell × Cell)) (h : Sound order) (l : σ) (x : Cell)
    (hx : x ∈ order.map Prod.fst) :
    (route node order l).up x = ((upstreamOf order x).map (route node order l).flow).sum :=
  (route_inv node order h l).1 x hx

/-- C26: a cell beyond the first row and column gets the streamflow of all cells routed whose outflow cell it is; a cell in
the first row or column gets nothing. -/
theorem C26_upstream_cells (order : List (Cell × Cell)) (h : Sound order) (l : σ) (m n : ℕ)
    (hx : (m, n) ∈ order.map Prod.fst) :
    (1 ≤ m → 1 ≤ n → (route node order l).up (m, n) =
      ((order.filter fun e => decide (e.2 = (m, n))).map fun e => (route node order l).flow e.1).sum) ∧
    (m = 0 ∨ n = 0 → (route node order l).up (m, n) = 0) := by
  rw [C26_upstream node order h l (m, n) hx]
  constructor
  · intro hm hn
    unfold upstreamOf
    rw [List.map_map]
    congr 2
    apply List.filter_congr
    intro e _
    by_cases he : e.2 = (m, n)
    · simp [he, drains]; omega
    · simp [he]
  · intro h0
    unfold upstreamOf
    rw [List.filter_eq_nil_iff.2]
    · simp
    · intro e _
      rw [decide_eq_true_eq]
      rintro ⟨h1, h2⟩
      unfold drains at h1
      rw [h2] at h1; simp only at h1; omega

/-! ### No water is lost on the way -/

theorem sum_indicator (L : List Cell) (hL : L.Nodup) (d : Cell) (v : ℝ) :
    (L.map fun x => if d = x then v else 0).sum = if d ∈ L then v else 0 := by
  induction L with
  | nil => simp
  | cons a L ih =>
    rw [List.nodup_cons] at hL
    rw [List.map_cons, List.sum_cons, ih hL.2]
    by_cases h : d = a
    · subst h; simp [hL.1]
    · simp [h]

theorem sum_fibres (order : List (Cell × Cell)) (L : List Cell) (hL : L.Nodup) (f : Cell → ℝ) :
    (L.map fun x => ((upstreamOf order x).map f).sum).sum
      = ((order.filter fun e => drains e.2 ∧ e.2 ∈ L).map fun e => f e.1).sum := by
  induction order with
  | nil => simp [upstreamOf]
  | cons e order ih =>
    have h1 : ∀ x, ((upstreamOf (e :: order) x).map f).sum
        = (if e.2 = x then (if drains e.2 then f e.1 else 0) else 0) + ((upstreamOf order x).map f).sum := by
      intro x
      unfold upstreamOf
      by_cases hd : drains e.2
      · by_cases hx : e.2 = x
        · subst hx; simp [List.filter_cons, hd]
        · simp [List.filter_cons, hx]
      · simp [List.filter_cons, hd]
    have h2 : (L.map fun x => ((upstreamOf (e :: order) x).map f).sum).sum
        = (L.map fun x => if e.2 = x then (if drains e.2 then f e.1 else 0) else 0).sum
          + (L.map fun x => ((upstreamOf order x).map f).sum).sum := by
      rw [← List.sum_map_add]
      congr 1
      exact List.map_congr_left fun x _ => h1 x
    rw [h2, sum_indicator L hL, ih]
    by_cases hd : drains e.2
    · by_cases hx : e.2 ∈ L
      · simp [List.filter_cons, hd, hx]
      · simp [List.filter_cons, hx]
    · simp [List.filter_cons, hd]

theorem sum_filter_split {α : Type} (l : List α) (p : α → Prop) [DecidablePred p] (f : α → ℝ) :
    (l.map f).sum = ((l.filter p).map f).sum + ((l.filter fun a => ¬ p a).map f).sum := by
  induction l with
  | nil => simp
  | cons a l ih =>
    by_cases h : p a
    · simp [h] at ih ⊢; linarith
    · simp [h] at ih ⊢; linarith

/-- C26: no water is lost or created between the cells: the streamflow of all cells is what the cells receive from
upstream, plus what leaves at the outlets (cells whose outflow cell is none or not routed). -/
theorem C26_no_loss (order : List (Cell × Cell)) (h : Sound order) (l : σ) :
    let s := route node order l
    ((order.map Prod.fst).map s.flow).sum = ((order.map Prod.fst).map s.up).sum
      + ((order.filter fun e => ¬ (drains e.2 ∧ e.2 ∈ order.map Prod.fst)).map fun e => s.flow e.1).sum := by
  intro s
  have h1 : (order.map Prod.fst).map s.up
      = (order.map Prod.fst).map fun x => ((upstreamOf order x).map s.flow).sum :=
    List.map_congr_left fun x hx => C26_upstream node order h l x hx
  rw [h1, sum_fibres order _ h.nodup, List.map_map]
  exact sum_filter_split order _ _

/-! ### The order does not matter -/

/-- The streamflow and inflow of a cell are left alone by the cells that come after it. -/
theorem route_stable (p q : List (Cell × Cell)) (h : Sound (p ++ q)) (l : σ) (x : Cell) (hx : x ∈ p.map Prod.fst) :
    (route node (p ++ q) l).up x = (route node p l).up x ∧ (route node (p ++ q) l).flow x = (route node p l).flow x := by
  induction q using List.reverseRecOn with
  | nil => simp
  | append_singleton q e ih =>
    rw [← List.append_assoc] at h ⊢
    obtain ⟨hp, hn, -⟩ := h.prefix
    obtain ⟨i1, i2⟩ := ih hp
    rw [route_append]
    have hne : x ≠ e.1 := by
      rintro rfl
      exact hn (by rw [List.map_append]; exact List.mem_append_left _ hx)
    simp only [routeStep, Function.update_of_ne hne]
    exact ⟨i1, i2⟩

end

/-- The nodes of a network whose cells share nothing but the water. -/
def plainNode (f : Cell → ℝ → ℝ × ℝ) : Unit → Cell → ℝ → Unit × ℝ × ℝ := fun _ x up => ((), f x up)

theorem route_fixpoint (f : Cell → ℝ → ℝ × ℝ) (order : List (Cell × Cell)) (h : Sound order) (x : Cell)
    (hx : x ∈ order.map Prod.fst) :
    (route (plainNode f) order ()).flow x = (f x ((route (plainNode f) order ()).up x)).2 := by
  induction order using List.reverseRecOn with
  | nil => simp at hx
  | append_singleton p e ih =>
    obtain ⟨hp, hn, -⟩ := h.prefix
    rw [route_append]
    by_cases hxe : x = e.1
    · subst hxe; simp [routeStep, plainNode]
    · have hxp : x ∈ p.map Prod.fst := by
        rw [List.map_append, List.mem_append] at hx
        rcases hx with hx | hx
        · exact hx
        · exact absurd (by simpa using hx) hxe
      simp only [routeStep, Function.update_of_ne hxe]
      exact ih hp hxp

/-- C26/C40: routing a basin that contains everything upstream of its cells gives the same inflow and streamflow in
each of its cells as routing any larger area, in any sound order (without exchange of demand between cells). -/
theorem C26_basin_equals_global (f : Cell → ℝ → ℝ × ℝ) (basin world : List (Cell × Cell)) (hb : Sound basin)
    (hw : Sound world) (hsub : ∀ e ∈ basin, e ∈ world)
    (hclosed : ∀ e ∈ world, drains e.2 → e.2 ∈ basin.map Prod.fst → e ∈ basin) :
    ∀ x ∈ basin.map Prod.fst,
      (route (plainNode f) basin ()).up x = (route (plainNode f) world ()).up x ∧
      (route (plainNode f) basin ()).flow x = (route (plainNode f) world ()).flow x := by
  have key : ∀ p q, basin = p ++ q → ∀ x ∈ p.map Prod.fst,
      (route (plainNode f) basin ()).up x = (route (plainNode f) world ()).up x ∧
      (route (plainNode f) basin ()).flow x = (route (plainNode f) world ()).flow x := by
    intro p
    induction p using List.reverseRecOn with
    | nil => intro q _ x hx; simp at hx
    | append_singleton p e ih =>
      intro q hq x hx
      have ih' := ih ([e] ++ q) (by rw [hq, List.append_assoc])
      by_cases hxp : x ∈ p.map Prod.fst
      · exact ih' x hxp
      · have hxe : x = e.1 := by
          rw [List.map_append, List.mem_append] at hx
          rcases hx with hx | hx
          · exact absurd hx hxp
          · simpa using hx
        have hxb : x ∈ basin.map Prod.fst := by
          rw [hq, List.map_append]; exact List.mem_append_left _ hx
        have hxw : x ∈ world.map Prod.fst := by
          obtain ⟨a, ha, rfl⟩ := List.mem_map.mp hxb
          exact List.mem_map.mpr ⟨a, hsub a ha, rfl⟩
        have hup : ∀ y ∈ upstreamOf basin x, (route (plainNode f) basin ()).flow y = (route (plainNode f) world ()).flow y := by
          intro y hy
          unfold upstreamOf at hy
          obtain ⟨a, ha, rfl⟩ := List.mem_map.mp hy
          rw [List.mem_filter] at ha
          have hda : drains a.2 ∧ a.2 = x := by simpa using ha.2
          -- a is before e in the basin
          have hap : a ∈ p := by
            have hab := ha.1
            rw [hq, List.append_assoc, List.mem_append] at hab
            rcases hab with hab | hab
            · exact hab
            · exfalso
              rw [List.mem_append] at hab
              rcases hab with hab | hab
              · have : a = e := by simpa using hab
                subst this
                exact hb.noself a ha.1 hda.1 (hda.2.trans hxe)
              · have := hb.before
                rw [hq, List.pairwise_append] at this
                exact this.2.2 e (by simp) a hab hda.1 (hda.2.trans hxe)
          exact (ih' a.1 (List.mem_map.mpr ⟨a, hap, rfl⟩)).2
        have hperm : (upstreamOf basin x).Perm (upstreamOf world x) := by
          unfold upstreamOf
          apply List.Perm.map
          have nb : basin.Nodup := List.Nodup.of_map _ hb.nodup
          have nw : world.Nodup := List.Nodup.of_map _ hw.nodup
          rw [List.perm_ext_iff_of_nodup (nb.filter _) (nw.filter _)]
          intro a
          rw [List.mem_filter, List.mem_filter]
          constructor
          · rintro ⟨h1, h2⟩; exact ⟨hsub a h1, h2⟩
          · rintro ⟨h1, h2⟩
            have h3 : drains a.2 ∧ a.2 = x := by simpa using h2
            exact ⟨hclosed a h1 h3.1 (h3.2 ▸ hxb), h2⟩
        have e1 : (route (plainNode f) basin ()).up x = (route (plainNode f) world ()).up x := by
          rw [C26_upstream _ basin hb () x hxb, C26_upstream _ world hw () x hxw]
          rw [← (hperm.map _).sum_eq]
          congr 1
          exact List.map_congr_left hup
        exact ⟨e1, by rw [route_fixpoint f basin hb x hxb, route_fixpoint f world hw x hxw, e1]⟩
  intro x hx
  exact key basin [] (by simp) x hx

/-- C26: two sound orders of the same cells give the same inflow and streamflow everywhere. -/
theorem C26_order_irrelevant (f : Cell → ℝ → ℝ × ℝ) (o1 o2 : List (Cell × Cell)) (h1 : Sound o1) (h2 : Sound o2)
    (hperm : o1.Perm o2) (x : Cell) (hx : x ∈ o1.map Prod.fst) :
    (route (plainNode f) o1 ()).up x = (route (plainNode f) o2 ()).up x ∧
    (route (plainNode f) o1 ()).flow x = (route (plainNode f) o2 ()).flow x :=
  C26_basin_equals_global f o1 o2 h1 h2 (fun _ he => hperm.mem_iff.mp he) (fun _ he _ _ => hperm.mem_iff.mpr he) x hx

/-- C26 depends on the routing order: when a cell comes after the cell it drains to, its water is lost. -/
theorem C26_violated_wrong_order :
    let order : List (Cell × Cell) := [((1, 1), (0, 0)), ((1, 2), (1, 1))]
    let s := route (plainNode fun _ up => (up, up + 1)) order ()
    s.flow (1, 2) = 1 ∧ s.up (1, 1) = 0 ∧ s.flow (1, 1) = 1 := by
  simp [route, routeStep, routeStart, plainNode, drains]

/-- C26 fails for a river that flows into the first row or column of the grid: the code takes a cell with a zero
index for "no outflow cell", and the water disappears although the cell is routed. -/
theorem C26_violated_first_row :
    let order : List (Cell × Cell) := [((1, 5), (0, 5)), ((0, 5), (0, 0))]
    let s := route (plainNode fun _ up => (up, up + 1)) order ()
    s.flow (1, 5) = 1 ∧ s.up (0, 5) = 0 ∧ s.flow (0, 5) = 1 := by
  simp [route, routeStep, routeStart, plainNode, drains]

/-- A sound order of three cells. -/
theorem exOrder_sound : Sound [((1, 1), (1, 2)), ((2, 2), (1, 2)), ((1, 2), (0, 0))] :=
  ⟨by decide, by decide, by decide⟩

example := (C26_upstream_cells (plainNode fun _ up => (up, up + 1)) _ exOrder_sound () 1 2 (by decide)).1 (by norm_num) (by norm_num)
example := C26_no_loss (plainNode fun _ up => (up, up + 1)) _ exOrder_sound ()
example : (route (plainNode fun _ up => (up, up + 1)) [((1, 1), (1, 2)), ((2, 2), (1, 2)), ((1, 2), (0, 0))] ()).up (1, 2) = 2 := by
  rw [C26_upstream _ _ exOrder_sound () _ (by decide)]
  simp [route, routeStep, routeStart, plainNode, drains, upstreamOf, List.filter]
  norm_num

/-! ### The water balance of a basin -/

section
variable {δ : Type} (cin : Cell → CellIn) (get : δ → Cell → ℝ × (ℝ → ℝ)) (upd : δ → Cell → CellOut → δ)

/-- The demand ledger never asks a cell with a global lake for a negative amount: `I` holds at the start, whatever a
cell does keeps it, and it implies the sign. -/
structure LedgerOk (I : δ → Prop) : Prop where
  step : ∀ d x st up, I d → (cin x).Physical → st.Ok (cin x) → 0 ≤ up →
    I (upd d x (cellDay (cin x) st up (get d x).1 (get d x).2))
  sign : ∀ d x, I d → 0 < (cin x).glolakeArea → 0 ≤ (get d x).1

/-- What a cell did during the day. -/
def CellDid (st : CellState) (c : CellIn) (up flow : ℝ) (fin : CellState) (o : Option CellOut) : Prop :=
  ∃ dem keep, (0 < c.glolakeArea → 0 ≤ dem) ∧ 0 ≤ up ∧ o = some (cellDay c st up dem keep) ∧
    fin = (cellDay c st up dem keep).state ∧ flow = (cellDay c st up dem keep).streamflow

/-- Loop invariant of the day of a basin. -/
theorem basin_inv (I : δ → Prop) (hI : LedgerOk cin get upd I) (order : List (Cell × Cell)) (h : Sound order) (d : δ)
    (hd : I d) (state : Cell → CellState)
    (hc : ∀ x ∈ order.map Prod.fst, (cin x).Physical ∧ (state x).Ok (cin x) ∧ 0 ≤ (cin x).corr) :
    let s := basinDay cin get upd order d state
    I s.ledger.demand ∧ (∀ x, 0 ≤ s.inflow x) ∧ (∀ x ∉ order.map Prod.fst, s.ledger.state x = state x) ∧
    (∀ x ∈ order.map Prod.fst, CellDid (state x) (cin x) (s.up x) (s.flow x) (s.ledger.state x) (s.ledger.out x)) := by
  induction order using List.reverseRecOn with
  | nil => exact ⟨hd, by simp [basinDay, route, routeStart], by simp [basinDay, route, routeStart], by simp⟩
  | append_singleton p e ih =>
    obtain ⟨hp, hn, -⟩ := h.prefix
    obtain ⟨i1, i2, i3, i4⟩ := ih hp (fun x hx => hc x (by rw [List.map_append]; exact List.mem_append_left _ hx))
    obtain ⟨c1, c2, c3⟩ := hc e.1 (by simp)
    unfold basinDay at i1 i2 i3 i4 ⊢
    simp only at i1 i2 i3 i4 ⊢
    rw [route_append]
    generalize route (basinNode cin get upd) p ⟨d, state, fun _ => none⟩ = s at *
    have hst : s.ledger.state e.1 = state e.1 := i3 _ hn
    have hsg := hI.sign s.ledger.demand e.1 i1
    have hup := i2 e.1
    have hin := (riverIn_facts (cin e.1) (state e.1) (s.inflow e.1) (get s.ledger.demand e.1).1 c1 c2 hup hsg).2
    have hfl := (C25_fluxes (cin e.1) (state e.1) (s.inflow e.1) (get s.ledger.demand e.1).1
      (get s.ledger.demand e.1).2 c1 c2 hup c3 hsg).1
    have n1 : (basinNode cin get upd s.ledger e.1 (s.inflow e.1)).2.1
        = cellRiverIn (cin e.1) (state e.1) (s.inflow e.1) (get s.ledger.demand e.1).1 := by
      simp only [basinNode, hst]
    have n2 : (basinNode cin get upd s.ledger e.1 (s.inflow e.1)).2.2
        = (cellDay (cin e.1) (state e.1) (s.inflow e.1) (get s.ledger.demand e.1).1
          (get s.ledger.demand e.1).2).streamflow := by
      simp only [basinNode, hst]
    refine ⟨by rw [← hst] at c2; exact hI.step _ _ _ _ i1 c1 c2 hup, ?_, ?_, ?_⟩
    · intro x
      simp only [routeStep, n1, n2]
      have base : ∀ y, 0 ≤ Function.update s.inflow e.1
          (cellRiverIn (cin e.1) (state e.1) (s.inflow e.1) (get s.ledger.demand e.1).1) y := by
        intro y
        by_cases hy : y = e.1
        · subst hy; rw [Function.update_self]; exact hin
        · rw [Function.update_of_ne hy]; exact i2 y
      split_ifs with hdr
      · by_cases hx : x = e.2
        · rw [hx, Function.update_self]; exact add_nonneg (base _) hfl
        · rw [Function.update_of_ne hx]; exact base x
      · exact base x
    · intro x hx
      rw [List.map_append, List.mem_append, not_or] at hx
      have hxe : x ≠ e.1 := fun h' => hx.2 (by simp [h'])
      simp only [routeStep, basinNode, Function.update_of_ne hxe]
      exact i3 x hx.1
    · intro x hx
      by_cases hxe : x = e.1
      · subst hxe
        refine ⟨(get s.ledger.demand e.1).1, (get s.ledger.demand e.1).2, hsg, ?_, ?_, ?_, ?_⟩
        · simpa only [routeStep, Function.update_self] using hup
        · simp only [routeStep, basinNode, Function.update_self, hst]
        · simp only [routeStep, basinNode, Function.update_self, hst]
        · simp only [routeStep, basinNode, Function.update_self, hst]
      · have hxp : x ∈ p.map Prod.fst := by
          rw [List.map_append, List.mem_append] at hx
          rcases hx with hx | hx
          · exact hx
          · exact absurd (by simpa using hx) hxe
        simp only [routeStep, basinNode, Function.update_of_ne hxe]
        exact i4 x hxp

theorem list_sum_sub {α : Type} (l : List α) (f g : α → ℝ) :
    (l.map fun a => f a - g a).sum = (l.map f).sum - (l.map g).sum := by
  induction l with
  | nil => simp
  | cons a l ih => simp only [List.map_cons, List.sum_cons, ih]; ring

theorem abs_sum_le {α : Type} (l : List α) (f g t : α → ℝ) (h : ∀ a ∈ l, |f a - g a| ≤ t a) :
    |(l.map f).sum - (l.map g).sum| ≤ (l.map t).sum := by
  induction l with
  | nil => simp
  | cons a l ih =>
    have h1 := h a (by simp)
    have h2 := ih fun x hx => h x (by simp [hx])
    simp only [List.map_cons, List.sum_cons]
    rw [abs_le] at h1 h2 ⊢
    constructor <;> linarith [h1.1, h1.2, h2.1, h2.2]

/-- The record of cell `x` on the day, with zeros when the cell was not routed. -/
noncomputable def did (s : NetState (Basin δ)) (f : CellOut → ℝ) (x : Cell) : ℝ := ((s.ledger.out x).map f).getD 0

/-- The balance of a basin from the balances of its cells. -/
theorem balance_of_cells (cin : Cell → CellIn) (s : NetState (Basin δ)) (order : List (Cell × Cell))
    (hsink : ∀ e ∈ order, (cin e.1).sink = true → ¬ drains e.2) (state : Cell → CellState)
    (hc : ∀ x ∈ order.map Prod.fst, (cin x).Physical ∧ (state x).Ok (cin x) ∧ (cin x).corr = 1)
    (hall : ∀ x ∈ order.map Prod.fst,
      CellDid (state x) (cin x) (s.up x) (s.flow x) (s.ledger.state x) (s.ledger.out x))
    (hloss : ((order.map Prod.fst).map s.flow).sum = ((order.map Prod.fst).map s.up).sum
      + ((order.filter fun e => ¬ (drains e.2 ∧ e.2 ∈ order.map Prod.fst)).map fun e => s.flow e.1).sum) :
    let cells := order.map Prod.fst
    |(cells.map fun x => (cin x).runoff + (cin x).recharge + did s (·.precipSwb) x).sum
      - ((cells.map fun x => (s.ledger.state x).total - (state x).total + did s (·.evapTotal) x).sum
        + ((order.filter fun e => ¬ (drains e.2 ∧ e.2 ∈ cells)).map fun e =>
            if (cin e.1).sink then 0 else s.flow e.1).sum)|
      ≤ (cells.map fun x => if 0 < (cin x).resArea then (cin x).minV else 0).sum := by
  intro cells
  have hpt : ∀ x ∈ cells, |((cin x).runoff + (cin x).recharge + did s (·.precipSwb) x)
      - ((s.ledger.state x).total - (state x).total + did s (·.evapTotal) x
        + ((if (cin x).sink then 0 else s.flow x) - s.up x))| ≤ if 0 < (cin x).resArea then (cin x).minV else 0 := by
    intro x hx
    obtain ⟨dem, keep, k1, k2, k3, k4, k5⟩ := hall x hx
    obtain ⟨c1, c2, c3⟩ := hc x hx
    have b := C25_cell_balance (cin x) (state x) (s.up x) dem keep c1 c2 k2 c3 k1
    simp only at b
    change s.ledger.out x = _ at k3
    change s.ledger.state x = _ at k4
    change s.flow x = _ at k5
    have hcr : (cellDay (cin x) (state x) (s.up x) dem keep).cellRunoff
        = (if (cin x).sink then 0 else s.flow x) - s.up x := by
      rw [show s.flow x = (cellRiver (cin x) (state x) (s.up x) dem keep).streamflow from k5]
      simp only [cellDay]; cases (cin x).sink <;> simp
    rw [hcr] at b
    simp only [did, k3, k4, Option.map_some, Option.getD_some]
    refine le_trans (le_of_eq ?_) b
    congr 1
    ring
  have hs := abs_sum_le cells _ _ _ hpt
  refine le_trans (le_of_eq ?_) hs
  congr 1
  have e1 : (cells.map fun x => (s.ledger.state x).total - (state x).total + did s (·.evapTotal) x
        + ((if (cin x).sink then 0 else s.flow x) - s.up x)).sum
      = (cells.map fun x => (s.ledger.state x).total - (state x).total + did s (·.evapTotal) x).sum
        + ((cells.map fun x => if (cin x).sink then 0 else s.flow x).sum - (cells.map s.up).sum) := by
    rw [List.sum_map_add, list_sum_sub]
  rw [e1]
  have e2 : (cells.map fun x => if (cin x).sink = true then 0 else s.flow x).sum
      = (cells.map s.flow).sum - (cells.map fun x => if (cin x).sink = true then s.flow x else 0).sum := by
    rw [← list_sum_sub]
    congr 1
    apply List.map_congr_left
    intro x _
    cases (cin x).sink <;> simp
  have e3 : ((order.filter fun e => ¬ (drains e.2 ∧ e.2 ∈ cells)).map fun e => s.flow e.1).sum
      = ((order.filter fun e => ¬ (drains e.2 ∧ e.2 ∈ cells)).map fun e => if (cin e.1).sink then 0 else s.flow e.1).sum
        + (cells.map fun x => if (cin x).sink = true then s.flow x else 0).sum := by
    have e4 : (cells.map fun x => if (cin x).sink = true then s.flow x else 0).sum
        = ((order.filter fun e => ¬ (drains e.2 ∧ e.2 ∈ cells)).map fun e =>
            if (cin e.1).sink = true then s.flow e.1 else 0).sum := by
      have hcells : cells.map (fun x => if (cin x).sink = true then s.flow x else 0)
          = order.map fun e => if (cin e.1).sink = true then s.flow e.1 else 0 := by
        simp only [cells, List.map_map]; rfl
      rw [hcells, sum_filter_split order (fun e => drains e.2 ∧ e.2 ∈ cells)]
      have : ((order.filter fun e => drains e.2 ∧ e.2 ∈ cells).map fun e =>
          if (cin e.1).sink = true then s.flow e.1 else 0).sum = 0 := by
        apply List.sum_eq_zero
        intro v hv
        obtain ⟨a, ha, rfl⟩ := List.mem_map.mp hv
        rw [List.mem_filter] at ha
        have ha2 : drains a.2 ∧ a.2 ∈ cells := by simpa using ha.2
        rw [if_neg (fun hk => hsink a ha.1 hk ha2.1)]
      rw [this, zero_add]
    rw [e4, ← List.sum_map_add]
    congr 1
    apply List.map_congr_left
    intro x _
    cases (cin x.1).sink <;> simp
  rw [e2]
  change (cells.map s.flow).sum = (cells.map s.up).sum
    + ((order.filter fun e => ¬ (drains e.2 ∧ e.2 ∈ cells)).map fun e => s.flow e.1).sum at hloss
  rw [e3] at hloss
  linarith

/-- C26: the water balance of a whole basin closes on every day. Runoff and recharge from land and precipitation on
open water equal what all storages gain, evaporation and use in all cells, and the streamflow that leaves the basin at
its outlets, up to the volume a reservoir may flush. Demand may move between the cells in any way. -/
theorem C26_basin_balance (I : δ → Prop) (hI : LedgerOk cin get upd I) (order : List (Cell × Cell)) (h : Sound order)
    (hsink : ∀ e ∈ order, (cin e.1).sink = true → ¬ drains e.2) (d : δ) (hd : I d) (state : Cell → CellState)
    (hc : ∀ x ∈ order.map Prod.fst, (cin x).Physical ∧ (state x).Ok (cin x) ∧ (cin x).corr = 1) :
    let s := basinDay cin get upd order d state
    let cells := order.map Prod.fst
    |(cells.map fun x => (cin x).runoff + (cin x).recharge + did s (·.precipSwb) x).sum
      - ((cells.map fun x => (s.ledger.state x).total - (state x).total + did s (·.evapTotal) x).sum
        + ((order.filter fun e => ¬ (drains e.2 ∧ e.2 ∈ cells)).map fun e =>
            if (cin e.1).sink then 0 else s.flow e.1).sum)|
      ≤ (cells.map fun x => if 0 < (cin x).resArea then (cin x).minV else 0).sum := by
  intro s cells
  obtain ⟨-, -, -, hall⟩ := basin_inv cin get upd I hI order h d hd state
    (fun x hx => ⟨(hc x hx).1, (hc x hx).2.1, by rw [(hc x hx).2.2]; norm_num⟩)
  have hloss := C26_no_loss (basinNode cin get upd) order h ⟨d, state, fun _ => none⟩
  exact balance_of_cells cin s order hsink state hc hall hloss

/-- C26: a day keeps the storages of every cell of the basin within their limits, and all streamflow is
non-negative. -/
theorem C26_basin_state (I : δ → Prop) (hI : LedgerOk cin get upd I) (order : List (Cell × Cell)) (h : Sound order)
    (d : δ) (hd : I d) (state : Cell → CellState)
    (hc : ∀ x ∈ order.map Prod.fst, (cin x).Physical ∧ (state x).Ok (cin x) ∧ 0 ≤ (cin x).corr ∧ (cin x).WetDeep) :
    let s := basinDay cin get upd order d state
    ∀ x ∈ order.map Prod.fst, (s.ledger.state x).Ok (cin x) ∧ 0 ≤ s.flow x ∧ 0 ≤ s.up x := by
  intro s x hx
  obtain ⟨-, -, -, hall⟩ := basin_inv cin get upd I hI order h d hd state
    (fun x hx => ⟨(hc x hx).1, (hc x hx).2.1, (hc x hx).2.2.1⟩)
  obtain ⟨dem, keep, k1, k2, k3, k4, k5⟩ := hall x hx
  obtain ⟨c1, c2, c3, c4⟩ := hc x hx
  refine ⟨?_, ?_, k2⟩
  · rw [show s.ledger.state x = _ from k4]
    exact C25_state (cin x) (state x) (s.up x) dem keep c1 c2 k2 k1 c4
  · rw [show s.flow x = _ from k5]
    exact (C25_fluxes (cin x) (state x) (s.up x) dem keep c1 c2 k2 c3 k1).1

end

/-- The hypotheses of the basin balance hold for a basin of three copies of the example cell with a fixed demand. -/
example := C26_basin_balance (δ := Unit) (fun _ => exCell) (fun _ _ => (0.3, id)) (fun d _ _ => d) (fun _ => True)
  ⟨fun _ _ _ _ _ _ _ _ => trivial, fun _ _ _ _ => by norm_num⟩ _ exOrder_sound
  (by intro e _ hk; simp [exCell] at hk) () trivial (fun _ => exState)
  (fun _ _ => ⟨exCell_physical, exState_ok, rfl⟩)

end WG
