import Verif.Model.FloatBasin
import Verif.Props.Float
import Verif.Props.RoundingBasin

/-!
# C65: water bodies, fractions and streamflow stay in range in rounded arithmetic, over a day and a run of a basin
-/

namespace WG

open Arith

variable {A : Arith} (hA : A.Ok) {δ : Type} (rule : HanIn → ℝ → ℝ × ℝ) (kRiver : CellIn → ℝ → ℝ)
  (get : δ → Cell → ℝ × (ℝ → ℝ)) (upd : δ → Cell → CellOut → δ)

/-- Runoff, precipitation, capacities and parameters of the cell are not negative; the fractions of lakes and wetlands and
the capacity of its local lake are machine numbers. -/
structure CellFine (A : Arith) (c : CellIn) : Prop where
  runoff : 0 ≤ c.runoff
  precip : 0 ≤ c.precip
  corr : 0 ≤ c.corr
  swbK : 0 ≤ c.swbK
  factor : 0 ≤ c.factor
  fractions : 0 ≤ c.locLake.frac ∧ 0 ≤ c.locWet.frac ∧ 0 ≤ c.gloWet.frac
  capacities : 0 ≤ c.locLake.maxStorage ∧ 0 ≤ c.locWet.maxStorage ∧ 0 ≤ c.maxGlolake ∧ 0 ≤ c.han.cap
  machine : A.F c.locLake.maxStorage ∧ A.F c.locLake.frac ∧ A.F c.locWet.frac ∧ A.F c.gloWet.frac

/-- The storages of the water bodies the cell has are in their range: lakes and wetlands hold no more than their capacity,
local wetlands and reservoirs at least nothing. -/
structure BodiesInRange (c : CellIn) (s : CellState) : Prop where
  locLake : 0 < c.locLake.frac → s.locLake ≤ c.locLake.maxStorage
  locWet : 0 < c.locWet.frac → 0 ≤ s.locWet ∧ s.locWet ≤ c.locWet.maxStorage
  gloLake : 0 < c.glolakeArea → s.gloLake ≤ c.maxGlolake
  gloWet : 0 < c.gloWet.frac → s.gloWet ≤ c.gloWet.maxStorage
  res : 0 ≤ s.res ∧ (0 < c.resArea → s.res ≤ c.han.cap)

/-- What a day of the cell leaves: storages in range, no negative streamflow, no negative demand left over, and fractions
of lakes and wetlands for the next day between zero and the whole fraction of the body. -/
structure DayInRange (c : CellIn) (o : CellOut) : Prop where
  bodies : BodiesInRange c o.state
  streamflow : 0 ≤ o.streamflow
  unsat : 0 ≤ o.unsat
  locLakeFrac : 0 ≤ o.locLakeFrac ∧ o.locLakeFrac ≤ c.locLake.frac
  locWetFrac : 0 ≤ o.locWetFrac ∧ o.locWetFrac ≤ c.locWet.frac
  gloWetFrac : 0 ≤ o.gloWetFrac ∧ o.gloWetFrac ≤ c.gloWet.frac

include hA in
theorem lakeUnsatR_fine (i : LakeIn) (s : ℝ) :
    A.F (lakeUnsatR A .globalLake i s) := by
  have z := zero_F hA
  unfold lakeUnsatR
  split_ifs
  · exact sub_F hA _ _
  · exact z
  · exact z
  · exact z

include hA in
theorem fracRoutingR_nonneg (runoff discharge a b c f : ℝ) (sink : Bool) (hr : 0 ≤ runoff) (hd : 0 ≤ discharge)
    (ha : 0 ≤ a) (hb : 0 ≤ b) (hc : 0 ≤ c) (hf : 0 ≤ f) : 0 ≤ (fracRoutingR A runoff discharge a b c f sink).1 := by
  have hs : 0 ≤ swbShareR A a b c f := by
    unfold swbShareR
    have := mul_nonneg hA (add_nonneg hA (add_nonneg hA ha hb) hc) hf
    simp only
    split_ifs
    · norm_num
    · exact this
  unfold fracRoutingR
  simp only
  split_ifs
  · exact add_nonneg hA hr hd
  · exact add_nonneg hA (mul_nonneg hA hs hr) (mul_nonneg hA hs hd)

include hA in
/-- C65: a day of a cell with all its water bodies in rounded arithmetic, whatever flows in, is demanded, is kept of the
demand and is asked for by the release rule: what it leaves is in range. -/
theorem C65_cell_day (c : CellIn) (hc : CellFine A c) (st : CellState) (up demand : ℝ) (keep : ℝ → ℝ) (hup : 0 ≤ up)
    (hd : A.F demand) (hk : ∀ x, A.F x → A.F (keep x)) (hres : 0 ≤ st.res) :
    DayInRange c (cellDayR A rule kRiver c st up demand keep) := by
  have z := zero_F hA
  have hsplit : 0 ≤ (cellSplitR A c st).1 := by
    refine fracRoutingR_nonneg hA _ _ _ _ _ _ _ hc.runoff ?_ hc.fractions.1 hc.fractions.2.1 hc.fractions.2.2 hc.factor
    unfold cellEarlyDischargeR
    split_ifs
    · exact le_rfl
    · exact C65_groundwater _ _ _
  have ll : (0 < c.locLake.frac → (cellLocLakeR A c st).storage ≤ c.locLake.maxStorage) ∧ 0 ≤ (cellLocLakeR A c st).outflow ∧
      0 ≤ (cellLocLakeR A c st).newFrac ∧ (cellLocLakeR A c st).newFrac ≤ c.locLake.frac := by
    unfold cellLocLakeR bodyDayR
    have h := C65_lake hA .localLake (by decide) (locLakeInR A c st) st.locLake hc.capacities.1 hc.swbK
    have h' := C65_new_fraction hA .localLake (locLakeInR A c st) st.locLake hc.fractions.1 hc.machine.2.1
    split_ifs with hp
    · exact ⟨fun _ => h.1, h.2.1, h'⟩
    · exact ⟨fun h0 => absurd h0 hp, hsplit, le_rfl, hc.fractions.1⟩
  have lw : (0 < c.locWet.frac → 0 ≤ (cellLocWetR A c st).storage ∧ (cellLocWetR A c st).storage ≤ c.locWet.maxStorage) ∧
      0 ≤ (cellLocWetR A c st).outflow ∧
      0 ≤ (cellLocWetR A c st).newFrac ∧ (cellLocWetR A c st).newFrac ≤ c.locWet.frac := by
    unfold cellLocWetR bodyDayR
    have h := C65_lake hA .localWetland (by decide) (locWetInR A c st) st.locWet hc.capacities.2.1 hc.swbK
    have h' := C65_new_fraction hA .localWetland (locWetInR A c st) st.locWet hc.fractions.2.1 hc.machine.2.2.1
    split_ifs with hp
    · exact ⟨fun _ => ⟨h.2.2 rfl, h.1⟩, h.2.1, h'⟩
    · exact ⟨fun h0 => absurd h0 hp, ll.2.1, le_rfl, hc.fractions.2.1⟩
  have gl : (0 < c.glolakeArea → (cellGloLakeR A c st up demand).storage ≤ c.maxGlolake) ∧
      0 ≤ (cellGloLakeR A c st up demand).outflow ∧ A.F (cellGloLakeR A c st up demand).unsat := by
    unfold cellGloLakeR bodyDayR
    have h := C65_lake hA .globalLake (by decide) (gloLakeInR A c st up demand) st.gloLake hc.capacities.2.2.1 hc.swbK
    split_ifs with hp
    · exact ⟨fun _ => h.1, h.2.1, lakeUnsatR_fine hA (gloLakeInR A c st up demand) st.gloLake⟩
    · exact ⟨fun h0 => absurd h0 hp, add_nonneg hA lw.2.1 hup, z⟩
  set r := rule (cellResInR A c st up demand).han with hr
  have hFd : A.F (resDemandR A (cellResInR A c st up demand)) := by
    unfold resDemandR
    split_ifs
    · exact add_F hA _ _
    · exact hd
  have rs : (0 ≤ (cellResR A c st up demand r).storage ∧
        (0 < c.resArea → (cellResR A c st up demand r).storage ≤ c.han.cap)) ∧
      (0 < c.resArea → A.F (cellResR A c st up demand r).unsat) := by
    unfold cellResR
    split_ifs with hp
    · have h := C65_reservoir hA (cellResInR A c st up demand) st.res (fun x => (r x).1) hres hc.capacities.2.2.2
        gl.2.1 hc.precip hp.le hFd
      refine ⟨⟨h.1, fun _ => h.2.1⟩, fun _ => ?_⟩
      simp only [resBalanceR, resAbstractR]
      split_ifs
      · exact z
      · exact z
      · exact sub_F hA _ _
      · exact hFd
    · exact ⟨⟨hres, fun h0 => absurd h0 hp⟩, fun h0 => absurd h0 hp⟩
  have gw : (0 < c.gloWet.frac → (cellGloWetR A c st up demand r).storage ≤ c.gloWet.maxStorage) ∧
      0 ≤ (cellGloWetR A c st up demand r).newFrac ∧ (cellGloWetR A c st up demand r).newFrac ≤ c.gloWet.frac := by
    unfold cellGloWetR bodyDayR
    have h := C65_global_wetland (A := A) (gloWetInR A c st up demand r) st.gloWet
    have h' := C65_new_fraction hA .globalWetland (gloWetInR A c st up demand r) st.gloWet hc.fractions.2.2
      hc.machine.2.2.2
    split_ifs with hp
    · exact ⟨fun _ => h, h'⟩
    · exact ⟨fun h0 => absurd h0 hp, le_rfl, hc.fractions.2.2⟩
  have u1 : A.F (cellUnsat1R A c st up demand r) := by
    unfold cellUnsat1R
    split_ifs with h1 h2
    · exact rs.2 h1
    · exact gl.2.2
    · exact hd
  have u2 : A.F (cellUnsat2R A c st up demand keep r) := by
    unfold cellUnsat2R
    split_ifs
    · exact hk _ u1
    · exact u1
  have rv := C65_river hA c.minV c.corr (kRiver c st.river) st.river (cellRiverInR A c st up demand r)
    (cellUnsat2R A c st up demand keep r) hc.corr u2
  change 0 ≤ (cellRiverR A c st up demand keep r (kRiver c)).2.1 ∧ 0 ≤ (cellRiverR A c st up demand keep r (kRiver c)).2.2 at rv
  have tp : (0 < c.locLake.frac → (cellTappedR A c st up demand keep r (kRiver c)).1 ≤ c.locLake.maxStorage) ∧
      0 ≤ (cellTappedR A c st up demand keep r (kRiver c)).2.1 ∧
      0 ≤ (cellTappedR A c st up demand keep r (kRiver c)).2.2.1 ∧
      (cellTappedR A c st up demand keep r (kRiver c)).2.2.1 ≤ c.locLake.frac := by
    unfold cellTappedR
    split_ifs with ht
    · obtain ⟨-, hf, hpos, -⟩ := ht
      have hsto := ll.1 hf
      simp only [localLakeAbstractR]
      generalize (cellRiverR A c st up demand keep r (kRiver c)).2.2 = d at *
      have hF' : ∀ x, 0 ≤ A.mul (redfactorR A x c.locLake.maxStorage c.redExp .localLake) c.locLake.frac ∧
          A.mul (redfactorR A x c.locLake.maxStorage c.redExp .localLake) c.locLake.frac ≤ c.locLake.frac := by
        intro x
        have h := C65_redfactor hA x c.locLake.maxStorage c.redExp .localLake
        exact ⟨mul_nonneg hA h.1 hc.fractions.1, mul_le_right hA hc.fractions.1 hc.machine.2.1 h.2.1⟩
      refine ⟨fun _ => ?_, ?_, (hF' _).1, (hF' _).2⟩
      · split_ifs
        · exact rnd_le hA hc.machine.1 (by linarith)
        · linarith [hc.capacities.1]
      · split_ifs with h
        · exact le_rfl
        · exact sub_nonneg hA (not_lt.mp h)
    · exact ⟨ll.1, rv.2, ll.2.2.1, ll.2.2.2⟩
  exact ⟨⟨tp.1, lw.1, gl.1, gw.1, rs.1⟩, rv.1, tp.2.1, tp.2.2, lw.2.2, gw.2⟩


include hA in
/-- C65: a day of a river basin in rounded arithmetic: every cell that is routed, with everything its upstream cells hand it,
leaves its storages, fractions, streamflow and unsatisfied demand in range. -/
theorem C65_basin_day (cin : Cell → CellIn) (order : List (Cell × Cell)) (hn : (order.map Prod.fst).Nodup) (d : δ)
    (state : Cell → CellState) (hc : ∀ x ∈ order.map Prod.fst, CellFine A (cin x))
    (hres : ∀ x ∈ order.map Prod.fst, 0 ≤ (state x).res)
    (hg : ∀ l x, A.F (get l x).1 ∧ ∀ v, A.F v → A.F ((get l x).2 v)) :
    ∀ x ∈ order.map Prod.fst, ∃ o, (basinDayR A rule kRiver cin get upd order d state).ledger.out x = some o ∧
      (basinDayR A rule kRiver cin get upd order d state).ledger.state x = o.state ∧ DayInRange (cin x) o := by
  have key : ∀ p q : List (Cell × Cell), order = p ++ q →
      (∀ y, y ∉ p.map Prod.fst → 0 ≤ (basinDayR A rule kRiver cin get upd p d state).inflow y ∧
        (basinDayR A rule kRiver cin get upd p d state).ledger.state y = state y) ∧
      ∀ x ∈ p.map Prod.fst, ∃ o, (basinDayR A rule kRiver cin get upd p d state).ledger.out x = some o ∧
        (basinDayR A rule kRiver cin get upd p d state).ledger.state x = o.state ∧ DayInRange (cin x) o := by
    intro p
    induction p using List.reverseRecOn with
    | nil => intro q _; simp [basinDayR, routeR, routeStart]
    | append_singleton p e ih =>
      intro q ho
      obtain ⟨i1, i2⟩ := ih (e :: q) (by rw [ho]; simp)
      have hmem : e.1 ∈ order.map Prod.fst := by rw [ho]; simp
      have hnew : e.1 ∉ p.map Prod.fst := by
        intro h
        have h1 := hn
        rw [ho, List.map_append, List.map_append, List.nodup_append] at h1
        exact (List.nodup_append.mp h1.1).2.2 _ h _ (by simp) rfl
      have hstep : basinDayR A rule kRiver cin get upd (p ++ [e]) d state
          = routeStepR A (basinNodeR A rule kRiver cin get upd) (basinDayR A rule kRiver cin get upd p d state) e := by
        simp [basinDayR, routeR]
      rw [hstep]
      generalize basinDayR A rule kRiver cin get upd p d state = s at *
      have hup := (i1 e.1 hnew).1
      have hst := (i1 e.1 hnew).2
      have hday := C65_cell_day hA rule kRiver (cin e.1) (hc e.1 hmem) (s.ledger.state e.1) (s.inflow e.1)
        (get s.ledger.demand e.1).1 (get s.ledger.demand e.1).2 hup (hg _ _).1 (hg _ _).2
        (by rw [hst]; exact hres e.1 hmem)
      refine ⟨fun y hy => ?_, fun x hx => ?_⟩
      · have hy' : y ∉ p.map Prod.fst := fun h => hy (by simp at h ⊢; exact Or.inl h)
        have hne : y ≠ e.1 := fun h => hy (by simp [h])
        refine ⟨?_, ?_⟩
        · simp only [routeStepR]
          split_ifs
          · by_cases he : y = e.2
            · subst he
              rw [Function.update_self, Function.update_of_ne hne]
              exact add_nonneg hA (i1 _ hy').1 hday.streamflow
            · rw [Function.update_of_ne he, Function.update_of_ne hne]; exact (i1 y hy').1
          · rw [Function.update_of_ne hne]; exact (i1 y hy').1
        · simp only [routeStepR, basinNodeR]
          rw [Function.update_of_ne hne]; exact (i1 y hy').2
      · by_cases he : x = e.1
        · subst he
          refine ⟨_, ?_, ?_, hday⟩ <;> simp only [routeStepR, basinNodeR, Function.update_self]
        · have hx' : x ∈ p.map Prod.fst := by
            rw [List.map_append, List.mem_append] at hx
            rcases hx with h | h
            · exact h
            · simp at h; exact absurd h he
          obtain ⟨o, h1, h2, h3⟩ := i2 x hx'
          refine ⟨o, ?_, ?_, h3⟩ <;> simp only [routeStepR, basinNodeR] <;> rw [Function.update_of_ne he]
          · exact h1
          · exact h2
  exact (key order [] (by simp)).2

include hA in
/-- C65: a run of a basin over any number of days in rounded arithmetic, with inputs, and even parameters and water
bodies, that differ from day to day: on every day every cell leaves everything in range.  Asked for are sensible inputs of
every day, and that no reservoir starts with a negative storage. -/
theorem C65_basin_run (order : List (Cell × Cell)) (hn : (order.map Prod.fst).Nodup)
    (hg : ∀ l x, A.F (get l x).1 ∧ ∀ v, A.F v → A.F ((get l x).2 v)) (days : List (BasinInput δ)) :
    ∀ state : Cell → CellState,
    (∀ i ∈ days, ∀ x ∈ order.map Prod.fst, CellFine A (i.cin x)) →
    (∀ x ∈ order.map Prod.fst, 0 ≤ (state x).res) →
    ∀ t ∈ basinRunR A rule kRiver get upd order state days, ∀ x ∈ order.map Prod.fst, ∃ o,
      t.2.2.ledger.out x = some o ∧ t.2.2.ledger.state x = o.state ∧ DayInRange (t.2.1.cin x) o := by
  induction days with
  | nil => intro _ _ _ t h; simp [basinRunR] at h
  | cons i is ih =>
    intro state hc hres t ht
    have hday := C65_basin_day hA rule kRiver get upd i.cin order hn i.demand state (hc i List.mem_cons_self)
      hres hg
    simp only [basinRunR, List.mem_cons] at ht
    rcases ht with rfl | ht
    · exact hday
    · refine ih _ (fun j hj => hc j (List.mem_cons_of_mem _ hj)) (fun x hx => ?_) t ht
      obtain ⟨o, -, h2, h3⟩ := hday x hx
      rw [h2]; exact h3.bodies.res.1

/-- A cell with a local lake, a global lake, a reservoir and a global wetland drains into one without water bodies. -/
noncomputable def rangeIn (x : Cell) : CellIn :=
  if x = (1, 1) then { exCell with locLake := ⟨1 / 2, 40, 1 / 4⟩, gloWet := ⟨1 / 4, 30, 1 / 16⟩ } else landCell

theorem rangeIn_fine (x : Cell) : CellFine binary64 (rangeIn x) := by
  have f0 : binary64.F 0 := Arith.zero_F binary64_ok
  have f2 : binary64.F (1 / 2) := by have := half64 1 1 (by norm_num) (by norm_num); norm_num at this ⊢; exact this
  have f4 : binary64.F (1 / 4) := by have := half64 1 2 (by norm_num) (by norm_num); norm_num at this ⊢; exact this
  unfold rangeIn
  split_ifs
  · constructor <;> (try unfold exCell) <;> norm_num
    norm_num at f2 f4
    exact ⟨f4, f2, f0, f4⟩
  · constructor <;> (try unfold landCell exCell) <;> norm_num
    exact f0

/-- Two days of that basin in binary64 arithmetic, with 2 km³ of demand in every cell and whatever the release rule answers. -/
example (rule : HanIn → ℝ → ℝ × ℝ) :
    let run := basinRunR binary64 rule (fun _ _ => 0.9) (fun _ _ => (2, id)) (fun (l : Unit) _ _ => l)
      [((1, 1), (1, 2)), ((1, 2), (0, 0))] pairState [⟨rangeIn, ()⟩, ⟨rangeIn, ()⟩]
    run.length = 2 ∧ ∀ t ∈ run, ∃ o, t.2.2.ledger.out (1, 1) = some o ∧ 0 ≤ o.state.res ∧ o.state.res ≤ 2 := by
  intro run
  refine ⟨rfl, fun t ht => ?_⟩
  have hF2 : binary64.F 2 := by exact_mod_cast nat64 2 (by norm_num)
  obtain ⟨o, h1, -, h3⟩ := C65_basin_run binary64_ok rule (fun _ _ => 0.9) (fun _ _ => (2, id)) (fun (l : Unit) _ _ => l)
    [((1, 1), (1, 2)), ((1, 2), (0, 0))] pair_sound.1 (fun _ _ => ⟨hF2, fun _ h => h⟩) [⟨rangeIn, ()⟩, ⟨rangeIn, ()⟩]
    pairState (by
      intro i hi x _
      simp only [List.mem_cons, List.not_mem_nil, or_false, or_self] at hi
      subst hi
      exact rangeIn_fine x)
    (by
      intro x _
      unfold pairState
      split_ifs <;> norm_num [exState, landState]) t ht (1, 1) (by simp)
  have hcin : t.2.1.cin = rangeIn := by
    simp only [run, basinRunR, List.mem_cons, List.not_mem_nil, or_false] at ht
    rcases ht with rfl | rfl <;> rfl
  have := h3.bodies.res
  rw [hcin] at this
  simp only [rangeIn, if_true, exCell] at this
  exact ⟨o, h1, this.1, this.2 (by norm_num)⟩

end WG
