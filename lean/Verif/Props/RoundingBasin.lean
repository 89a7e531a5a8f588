import Verif.Model.FloatBasin
import Verif.Props.RoundingFit
import Verif.Props.RoundingNet

/-!
# C67: a day and a run of a river basin in rounded arithmetic
-/

namespace WG

open Arith

variable {A : Arith} {u η : ℝ} {δ : Type} (rule : HanIn → ℝ → ℝ × ℝ) (kRiver : CellIn → ℝ → ℝ)
  (get : δ → Cell → ℝ × (ℝ → ℝ)) (upd : δ → Cell → CellOut → δ)

/-- C67: without rounding, the rounded day of a basin is the day of the basin the other properties are about. -/
theorem C67_basin_exact (cin : Cell → CellIn) (order : List (Cell × Cell)) (d : δ) (state : Cell → CellState) :
    basinDayR exact hanasaki (fun c s => outflowConstant s c.len c.width c.rough c.mult c.slope) cin get upd order d state
      = basinDay cin get upd order d state := by
  have hnode : basinNodeR exact hanasaki (fun c s => outflowConstant s c.len c.width c.rough c.mult c.slope) cin get upd
      = basinNode cin get upd := by
    funext b x up
    unfold basinNodeR basinNode
    simp only [C67_cell_exact, cellResInR_exact, cellRiverInR_exact]
  unfold basinDayR basinDay
  rw [hnode]
  rfl

section
variable (cin : Cell → CellIn) (d : δ) (state : Cell → CellState)

/-- Cells that come later do not touch what a cell has done. -/
theorem fold_other (q : List (Cell × Cell)) (x : Cell) (hx : x ∉ q.map Prod.fst) : ∀ t : NetState (Basin δ),
    let s := q.foldl (routeStepR A (basinNodeR A rule kRiver cin get upd)) t
    s.up x = t.up x ∧ s.ledger.state x = t.ledger.state x ∧ s.ledger.out x = t.ledger.out x ∧ s.flow x = t.flow x := by
  induction q with
  | nil => intro t; exact ⟨rfl, rfl, rfl, rfl⟩
  | cons e q ih =>
    intro t
    rw [List.map_cons, List.mem_cons, not_or] at hx
    obtain ⟨h1, h2, h3, h4⟩ := ih hx.2 (routeStepR A (basinNodeR A rule kRiver cin get upd) t e)
    rw [List.foldl_cons]
    refine ⟨h1.trans ?_, h2.trans ?_, h3.trans ?_, h4.trans ?_⟩ <;>
      simp only [routeStepR, basinNodeR, Function.update_of_ne hx.1]

/-- What the cell `e.1` has done at the end of the day is what it computed at its turn, from its storages in the morning. -/
theorem basinDayR_turn (p q : List (Cell × Cell)) (e : Cell × Cell) (h : Sound (p ++ e :: q)) :
    let sp := basinDayR A rule kRiver cin get upd p d state
    let s := basinDayR A rule kRiver cin get upd (p ++ e :: q) d state
    let g := get sp.ledger.demand e.1
    let o := cellDayR A rule kRiver (cin e.1) (state e.1) (sp.inflow e.1) g.1 g.2
    s.up e.1 = sp.inflow e.1 ∧ s.ledger.state e.1 = o.state ∧ s.ledger.out e.1 = some o ∧ s.flow e.1 = o.streamflow := by
  intro sp s g o
  have hnd := h.nodup
  rw [List.map_append, List.map_cons, List.nodup_append] at hnd
  have hp : e.1 ∉ p.map Prod.fst := fun hh => hnd.2.2 _ hh _ (by simp) rfl
  have hq : e.1 ∉ q.map Prod.fst := (List.nodup_cons.mp hnd.2.1).1
  have hst : sp.ledger.state e.1 = state e.1 :=
    (fold_other (A := A) rule kRiver get upd cin p e.1 hp (routeStart ⟨d, state, fun _ => none⟩)).2.1
  have hs : s = q.foldl (routeStepR A (basinNodeR A rule kRiver cin get upd))
      (routeStepR A (basinNodeR A rule kRiver cin get upd) sp e) := by
    simp only [s, sp, basinDayR, routeR, List.foldl_append, List.foldl_cons]
  obtain ⟨h1, h2, h3, h4⟩ := fold_other (A := A) rule kRiver get upd cin q e.1 hq
    (routeStepR A (basinNodeR A rule kRiver cin get upd) sp e)
  rw [hs]
  refine ⟨h1.trans ?_, h2.trans ?_, h3.trans ?_, h4.trans ?_⟩ <;>
    simp only [routeStepR, basinNodeR, Function.update_self, hst] <;> rfl

/-- At its turn, every cell of the basin is of the size `M` (`CellSize`), and its discharge is not corrected. -/
def BasinSize (A : Arith) (order : List (Cell × Cell)) (M : ℝ) : Prop :=
  ∀ p e q, order = p ++ e :: q →
    let sp := basinDayR A rule kRiver cin get upd p d state
    let g := get sp.ledger.demand e.1
    CellSize A (cin e.1) (state e.1) (sp.inflow e.1) g.1 g.2
      (rule (cellResInR A (cin e.1) (state e.1) (sp.inflow e.1) g.1).han) (kRiver (cin e.1)) M ∧ (cin e.1).corr = 1

/-- What the cells of a basin take in: runoff, recharge and precipitation on open water. -/
noncomputable def basinGain (s : NetState (Basin δ)) (x : Cell) : ℝ :=
  (cin x).runoff + (cin x).recharge + ((s.ledger.out x).map CellOut.precipSwb).getD 0

/-- What they evaporate and use. -/
noncomputable def basinLoss (s : NetState (Basin δ)) (x : Cell) : ℝ := ((s.ledger.out x).map CellOut.evapTotal).getD 0

/-- What rounding and the threshold of reservoirs may take from a cell. -/
noncomputable def cellBound (u η M : ℝ) (c : CellIn) : ℝ :=
  (if c.resArea > 0 then max c.minV 0 else 0) + (402 * (u * M + η) + 30 * (M * η))

theorem streamflow_nonneg (hA : A.Ok) (minV k s q dm : ℝ) : 0 ≤ (riverR A minV 1 k s q dm).2.1 := by
  simp only [riverR]
  refine mul_nonneg hA ?_ zero_le_one
  split_ifs <;> first | exact le_rfl | linarith

/-- A cell in its turn, in the form the network asks for. -/
theorem turn_err (hA : A.Ok) (hn : A.Near u η) (hu : u ≤ 1 / 4) (M : ℝ) (hη : η ≤ M / 2) (order : List (Cell × Cell))
    (h : Sound order) (hz : BasinSize rule kRiver get upd cin d state A order M) :
    let s := basinDayR A rule kRiver cin get upd order d state
    ∀ x ∈ order.map Prod.fst, (0 ≤ s.flow x ∧ s.up x ≤ M) ∧
      let diff := s.up x + basinGain cin s x - ((s.ledger.state x).total - (state x).total + basinLoss s x
        + if (cin x).sink then 0 else s.flow x)
      diff ≤ cellBound u η M (cin x) ∧ (0 < s.flow x → |diff| ≤ cellBound u η M (cin x)) := by
  intro s x hx
  obtain ⟨e, he, rfl⟩ := List.mem_map.mp hx
  obtain ⟨p, q, rfl⟩ := List.append_of_mem he
  obtain ⟨t1, t2, t3, t4⟩ := basinDayR_turn (A := A) rule kRiver get upd cin d state p q e h
  obtain ⟨hc, hcorr⟩ := hz p e q rfl
  change s.up e.1 = _ at t1
  change s.ledger.state e.1 = _ at t2
  change s.ledger.out e.1 = _ at t3
  change s.flow e.1 = _ at t4
  unfold basinGain basinLoss
  rw [t1, t2, t3, t4]
  generalize (basinDayR A rule kRiver cin get upd p d state).inflow e.1 = up at *
  generalize get (basinDayR A rule kRiver cin get upd p d state).ledger.demand e.1 = g at *
  clear t1 t2 t3 t4
  clear_value s
  generalize cin e.1 = c at *
  generalize state e.1 = st at *
  have hday := C67_cell_day hA hn c st up g.1 g.2 _ _ M hc hcorr hu hη
  have hv := hc.volumes
  have hup : |up| ≤ M := hv _ (by simp [cellVolumes])
  have hfl : |(cellRiverR A c st up g.1 g.2 (rule (cellResInR A c st up g.1).han) (kRiver c)).2.1| ≤ M :=
    hv _ (by simp [cellVolumes])
  have hprec : (cellDayR A rule kRiver c st up g.1 g.2).precipSwb
      = cellPrecipR A c st up g.1 (rule (cellResInR A c st up g.1).han) := by
    have a3 : lakeAreaR A .globalLake (gloLakeInR A c st up g.1) st.gloLake = c.glolakeArea := by
      simp [lakeAreaR, gloLakeInR, CellIn.lakeIn]
    simp only [cellDayR, cellPrecipR, a3]
    have e1 : lakeAreaR A .localLake (c.lakeIn c.locLake 0 0 0) st.locLake
        = lakeAreaR A .localLake (locLakeInR A c st) st.locLake := rfl
    have e2 : lakeAreaR A .localWetland (c.lakeIn c.locWet 0 0 0) st.locWet
        = lakeAreaR A .localWetland (locWetInR A c st) st.locWet := rfl
    have e3 : lakeAreaR A .globalWetland (c.lakeIn c.gloWet 0 0 0) st.gloWet
        = lakeAreaR A .globalWetland (gloWetInR A c st up g.1 (rule (cellResInR A c st up g.1).han)) st.gloWet := rfl
    rw [e1, e2, e3]
    ring
  have hnn : 0 ≤ (cellDayR A rule kRiver c st up g.1 g.2).streamflow := by
    simp only [cellDayR, cellRiverR, hcorr]
    exact streamflow_nonneg hA _ _ _ _ _
  refine ⟨⟨hnn, (le_abs_self _).trans hup⟩, ?_⟩
  simp only [Option.map_some, Option.getD_some, hprec]
  simp only at hday
  have hrun : |cellRunoffR A c st up g.1 g.2 (rule (cellResInR A c st up g.1).han) (kRiver c)
      - ((if c.sink then 0 else (cellDayR A rule kRiver c st up g.1 g.2).streamflow) - up)| ≤ 2 * (u * M + η) := by
    have hM0 : 0 ≤ M := (abs_nonneg _).trans hup
    have hE : 0 ≤ u * M := _root_.mul_nonneg hn.u0 hM0
    have hη0 := hn.η0
    unfold cellRunoffR
    split_ifs
    · rw [abs_le]; constructor <;> linarith
    · have := hn.err (K := 2 * M) (x := (cellRiverR A c st up g.1 g.2 (rule (cellResInR A c st up g.1).han) (kRiver c)).2.1 - up)
        ((abs_sub _ _).trans (by linarith))
      refine le_trans this ?_
      linarith
  change _ - ((cellDayR A rule kRiver c st up g.1 g.2).state.total - st.total + _
    + (cellDayR A rule kRiver c st up g.1 g.2).evapTotal) ≤ _ ∧ (0 < (cellDayR A rule kRiver c st up g.1 g.2).streamflow → |_
    - ((cellDayR A rule kRiver c st up g.1 g.2).state.total - st.total + _
    + (cellDayR A rule kRiver c st up g.1 g.2).evapTotal)| ≤ _) at hday
  unfold cellBound
  generalize cellDayR A rule kRiver c st up g.1 g.2 = o at *
  generalize cellRunoffR A c st up g.1 g.2 (rule (cellResInR A c st up g.1).han) (kRiver c) = ro at *
  generalize (if c.sink = true then 0 else o.streamflow) = fl at *
  generalize (if c.resArea > 0 then max c.minV 0 else 0) = mv at *
  obtain ⟨r1, r2⟩ := abs_le.mp hrun
  refine ⟨by linarith [hday.1], fun hq => ?_⟩
  obtain ⟨q1, q2⟩ := abs_le.mp (hday.2 hq)
  exact abs_le.mpr ⟨by linarith, by linarith⟩

/-- C67, a river basin: with every operation rounded, the water the basin takes in on a day is what its cells gain, evaporate, use
and discharge at the outlets, up to 402 roundings of the largest volume and 30 underflows in every cell, two roundings at every
confluence and the thresholds of the reservoirs.  This bounds lost water on every day, and created water on days on which no
river is dry. -/
theorem C67_basin_day (hA : A.Ok) (hn : A.Near u η) (hu : u ≤ 1 / 4) (M : ℝ) (hη : η ≤ M / 2) (order : List (Cell × Cell))
    (h : Sound order) (hsink : ∀ a ∈ order, (cin a.1).sink = true → ¬ drains a.2)
    (hz : BasinSize rule kRiver get upd cin d state A order M) :
    let s := basinDayR A rule kRiver cin get upd order d state
    let cells := order.map Prod.fst
    let gain := (cells.map (basinGain cin s)).sum
    let spent := (cells.map fun x => (s.ledger.state x).total - (state x).total + basinLoss s x).sum
      + ((order.filter fun a => ¬ (drains a.2 ∧ a.2 ∈ cells)).map fun a => if (cin a.1).sink then 0 else s.flow a.1).sum
    let bound := (cells.map fun x => cellBound u η M (cin x)).sum + (inner order).length * (2 * (u * M + η))
    gain - spent ≤ bound ∧ ((∀ x ∈ cells, 0 < s.flow x) → |gain - spent| ≤ bound) := by
  intro s cells gain spent bound
  have ht := turn_err rule kRiver get upd cin d state hA hn hu M hη order h hz
  let diff := fun x => s.up x + basinGain cin s x - ((s.ledger.state x).total - (state x).total + basinLoss s x
        + if (cin x).sink then 0 else s.flow x)
  let created := fun x => max 0 (-diff x - cellBound u η M (cin x))
  have hnet := C67_network_balance (basinNodeR A rule kRiver cin get upd) hA hn (by linarith) order h
    ⟨d, state, fun _ => none⟩ M (fun l x => (l.state x).total) (fun x => basinGain cin s x + created x) (basinLoss s)
    (fun x => cellBound u η M (cin x)) (fun x => (cin x).sink) hsink (fun x hx => (ht x hx).1) (by
      intro x hx
      obtain ⟨-, h1, -⟩ := ht x hx
      change diff x ≤ _ at h1
      have e : ∀ a b c k : ℝ, a + (b + k) - c = a + b - c + k := by intros; ring
      rw [e]
      change |diff x + max 0 (-diff x - cellBound u η M (cin x))| ≤ _
      have hM0 : 0 ≤ cellBound u η M (cin x) := by
        have hM : 0 ≤ M := by linarith [hn.η0]
        have := _root_.mul_nonneg hn.u0 hM
        have := _root_.mul_nonneg hM hn.η0
        have := hn.η0
        unfold cellBound
        have : (0 : ℝ) ≤ if (cin x).resArea > 0 then max (cin x).minV 0 else 0 := by split_ifs <;> simp
        linarith
      generalize cellBound u η M (cin x) = B at *
      generalize diff x = D at *
      rcases le_total 0 (-D - B) with h2 | h2
      · rw [max_eq_right h2, abs_le]; constructor <;> linarith
      · rw [max_eq_left h2, abs_le]; constructor <;> linarith)
  simp only at hnet
  rw [List.sum_map_add] at hnet
  change |gain + (cells.map created).sum - spent| ≤ bound at hnet
  have hc0 : 0 ≤ (cells.map created).sum := by
    apply List.sum_nonneg
    intro v hv
    obtain ⟨x, -, rfl⟩ := List.mem_map.mp hv
    exact le_max_left _ _
  refine ⟨by linarith [(abs_le.mp hnet).2], fun hq => ?_⟩
  have hz0 : (cells.map created).sum = 0 := by
    apply List.sum_eq_zero
    intro v hv
    obtain ⟨x, hx, rfl⟩ := List.mem_map.mp hv
    have := (ht x hx).2.2 (hq x hx)
    change |diff x| ≤ _ at this
    exact max_eq_left (by linarith [(abs_le.mp this).1])
  rw [hz0, add_zero] at hnet
  exact hnet
end

/-- What a basin takes in on a day, less what it evaporates, uses and discharges at the outlets. -/
noncomputable def basinNet (order : List (Cell × Cell)) (t : (Cell → CellState) × BasinInput δ × NetState (Basin δ)) : ℝ :=
  ((order.map Prod.fst).map fun x => basinGain t.2.1.cin t.2.2 x - basinLoss t.2.2 x).sum
    - ((order.filter fun a => ¬ (drains a.2 ∧ a.2 ∈ order.map Prod.fst)).map fun a =>
        if (t.2.1.cin a.1).sink then 0 else t.2.2.flow a.1).sum

/-- C67, a run: over any number of days, what a river basin takes in, less what it evaporates, uses and discharges, is what its
storages gain, up to the bound of `C67_basin_day` for every day. -/
theorem C67_basin_run (hA : A.Ok) (hn : A.Near u η) (hu : u ≤ 1 / 4) (M E : ℝ) (hη : η ≤ M / 2) (order : List (Cell × Cell))
    (h : Sound order) (is : List (BasinInput δ)) : ∀ state : Cell → CellState,
    (∀ t ∈ basinRunR A rule kRiver get upd order state is,
      BasinSize rule kRiver get upd t.2.1.cin t.2.1.demand t.1 A order M ∧
      (∀ a ∈ order, (t.2.1.cin a.1).sink = true → ¬ drains a.2) ∧
      ∀ x ∈ order.map Prod.fst, cellBound u η M (t.2.1.cin x) ≤ E) →
    let run := basinRunR A rule kRiver get upd order state is
    let cells := order.map Prod.fst
    let last := (run.map fun t => t.2.2.ledger.state).getLastD state
    let diff := (run.map (basinNet order)).sum - (cells.map fun x => (last x).total - (state x).total).sum
    let bound := is.length * (order.length * E + (inner order).length * (2 * (u * M + η)))
    diff ≤ bound ∧ ((∀ t ∈ run, ∀ x ∈ cells, 0 < t.2.2.flow x) → |diff| ≤ bound) := by
  induction is with
  | nil => intro state _; simp [basinRunR, Function.comp_def]
  | cons i is ih =>
    intro state hd
    simp only [basinRunR, List.mem_cons, forall_eq_or_imp] at hd
    obtain ⟨⟨hz, hs, hE⟩, hrest⟩ := hd
    have h1 := C67_basin_day rule kRiver get upd i.cin i.demand state hA hn hu M hη order h hs hz
    have h2 := ih _ hrest
    simp only [basinRunR, List.map_cons, List.sum_cons, List.getLastD_cons, List.length_cons, List.mem_cons,
      forall_eq_or_imp] at h1 h2 ⊢
    have hsum : ((order.map Prod.fst).map fun x => cellBound u η M (i.cin x)).sum ≤ order.length * E := by
      have := List.sum_le_card_nsmul ((order.map Prod.fst).map fun x => cellBound u η M (i.cin x)) E (by
        intro v hv
        obtain ⟨x, hx, rfl⟩ := List.mem_map.mp hv
        exact hE x hx)
      simpa using this
    generalize basinDayR A rule kRiver i.cin get upd order i.demand state = s at *
    generalize basinRunR A rule kRiver get upd order s.ledger.state is = rest at *
    generalize ((rest.map fun t => t.2.2.ledger.state).getLastD s.ledger.state) = fin at *
    generalize (rest.map (basinNet order)).sum = N at *
    have e1 : ((order.map Prod.fst).map fun x => (fin x).total - (state x).total).sum
        = ((order.map Prod.fst).map fun x => (fin x).total - (s.ledger.state x).total).sum
          + ((order.map Prod.fst).map fun x => (s.ledger.state x).total - (state x).total).sum := by
      rw [← List.sum_map_add]; congr 1; apply List.map_congr_left; intro x _; ring
    have e2 : basinNet order (state, i, s) = ((order.map Prod.fst).map (basinGain i.cin s)).sum
        - ((order.map Prod.fst).map (basinLoss s)).sum
        - ((order.filter fun a => ¬ (drains a.2 ∧ a.2 ∈ order.map Prod.fst)).map fun a =>
            if (i.cin a.1).sink then 0 else s.flow a.1).sum := by
      have : ((order.map Prod.fst).map fun x => basinGain i.cin s x - basinLoss s x).sum
          + ((order.map Prod.fst).map (basinLoss s)).sum = ((order.map Prod.fst).map (basinGain i.cin s)).sum := by
        rw [← List.sum_map_add]; congr 1; apply List.map_congr_left; intro x _; ring
      unfold basinNet; simp only; linarith
    have e3 : ((order.map Prod.fst).map fun x => (s.ledger.state x).total - (state x).total + basinLoss s x).sum
        = ((order.map Prod.fst).map fun x => (s.ledger.state x).total - (state x).total).sum
          + ((order.map Prod.fst).map (basinLoss s)).sum := by rw [← List.sum_map_add]
    rw [e1, e2]
    rw [e3] at h1
    generalize ((order.map Prod.fst).map (basinGain i.cin s)).sum = G at *
    generalize ((order.map Prod.fst).map (basinLoss s)).sum = L at *
    generalize (List.map (fun a : Cell × Cell => if (i.cin a.1).sink then (0 : ℝ) else s.flow a.1) _).sum = O at *
    generalize ((order.map Prod.fst).map fun x => (fin x).total - (s.ledger.state x).total).sum = D1 at *
    generalize ((order.map Prod.fst).map fun x => (s.ledger.state x).total - (state x).total).sum = D2 at *
    generalize ((order.map Prod.fst).map fun x => cellBound u η M (i.cin x)).sum = B at *
    push_cast
    have e4 : ((is.length : ℝ) + 1) * (order.length * E + (inner order).length * (2 * (u * M + η)))
        = is.length * (order.length * E + (inner order).length * (2 * (u * M + η)))
          + (order.length * E + (inner order).length * (2 * (u * M + η))) := by ring
    rw [e4]
    generalize (is.length : ℝ) * _ = R at *
    generalize ((inner order).length : ℝ) * _ = I at *
    refine ⟨by linarith [h1.1, h2.1], fun hq => ?_⟩
    have a1 := abs_le.mp (h1.2 hq.1)
    have a2 := abs_le.mp (h2.2 hq.2)
    exact abs_le.mpr ⟨by linarith, by linarith⟩

/-! ### The hypotheses are met -/

section
variable (cin : Cell → CellIn) (d : δ) (state : Cell → CellState)

/-- A cell of the basin has sensible inputs, storages within its limits, machine numbers for its capacities and no global
wetland that discharges a negative volume. -/
structure TurnOk (A : Arith) (rule : HanIn → ℝ → ℝ × ℝ) (kRiver : CellIn → ℝ → ℝ) (c : CellIn) (st : CellState) : Prop where
  physical : c.Physical
  ok : st.Ok c
  corr : c.corr = 1
  k : 0 ≤ kRiver c st.river
  capacity : (A.F c.locLake.maxStorage ∧ A.F c.locWet.maxStorage) ∧ A.F c.maxGlolake ∧ A.F c.gloWet.maxStorage
  wetland : ∀ up demand, 0 ≤ up → 0 ≤ demand → 0 < c.gloWet.frac →
    0 ≤ (cellGloWetR A c st up demand (rule (cellResInR A c st up demand).han)).outflow

/-- C67: the sizes exist for every basin of such cells with demands that are machine numbers and not negative. -/
theorem C67_basin_sizes (hA : A.Ok) (hbig : ∀ B : ℝ, ∃ M, B ≤ M ∧ A.F M) (order : List (Cell × Cell)) (h : Sound order)
    (hg : ∀ l x, 0 ≤ (get l x).1 ∧ A.F (get l x).1)
    (hc : ∀ x ∈ order.map Prod.fst, TurnOk A rule kRiver (cin x) (state x)) :
    ∃ B : ℝ, ∀ M, B ≤ M → A.F M → BasinSize rule kRiver get upd cin d state A order M := by
  have turn : ∀ e ∈ order, ∀ (l : δ) (up : ℝ), 0 ≤ up → ∃ B : ℝ, ∀ M, B ≤ M → A.F M →
      CellSize A (cin e.1) (state e.1) up (get l e.1).1 (get l e.1).2
        (rule (cellResInR A (cin e.1) (state e.1) up (get l e.1).1).han) (kRiver (cin e.1)) M := by
    intro e he l up hup
    have ht := hc e.1 (List.mem_map_of_mem he)
    exact C67_cell_sizes hA _ _ _ _ _ _ _ ht.physical ht.ok hup (hg l e.1).1 (hg l e.1).2 ht.k ht.capacity.1.1
      ht.capacity.1.2 ht.capacity.2.1 ht.capacity.2.2 (ht.wetland _ _ hup (hg l e.1).1)
  have inflow : ∀ p q : List (Cell × Cell), order = p ++ q → ∀ x,
      0 ≤ (basinDayR A rule kRiver cin get upd p d state).inflow x := by
    intro p
    induction p using List.reverseRecOn with
    | nil => intro q _ x; simp [basinDayR, routeR, routeStart]
    | append_singleton p e ih =>
      intro q hq x
      rw [List.append_assoc, List.singleton_append] at hq
      have i1 := ih _ hq
      have hst : (basinDayR A rule kRiver cin get upd p d state).ledger.state e.1 = state e.1 := by
        have hnd := h.nodup
        rw [hq, List.map_append, List.map_cons, List.nodup_append] at hnd
        have hp : e.1 ∉ p.map Prod.fst := fun hh => hnd.2.2 _ hh _ (by simp) rfl
        exact (fold_other (A := A) rule kRiver get upd cin p e.1 hp (routeStart ⟨d, state, fun _ => none⟩)).2.1
      have he : e ∈ order := by rw [hq]; simp
      unfold basinDayR at i1 hst ⊢
      rw [routeR_append]
      generalize routeR A (basinNodeR A rule kRiver cin get upd) p ⟨d, state, fun _ => none⟩ = s at *
      have hr : 0 ≤ cellRiverInR A (cin e.1) (state e.1) (s.inflow e.1) (get s.ledger.demand e.1).1
          (rule (cellResInR A (cin e.1) (state e.1) (s.inflow e.1) (get s.ledger.demand e.1).1).han) := by
        obtain ⟨B, hB⟩ := turn e he s.ledger.demand (s.inflow e.1) (i1 e.1)
        obtain ⟨M, hM, hF⟩ := hbig B
        exact (hB M hM hF).riverIn.1
      have hf : 0 ≤ (cellDayR A rule kRiver (cin e.1) (state e.1) (s.inflow e.1) (get s.ledger.demand e.1).1
          (get s.ledger.demand e.1).2).streamflow := by
        simp only [cellDayR, cellRiverR, (hc e.1 (List.mem_map_of_mem he)).corr]
        exact streamflow_nonneg hA _ _ _ _ _
      have hup : ∀ y, 0 ≤ Function.update s.inflow e.1 (cellRiverInR A (cin e.1) (state e.1) (s.inflow e.1)
          (get s.ledger.demand e.1).1
          (rule (cellResInR A (cin e.1) (state e.1) (s.inflow e.1) (get s.ledger.demand e.1).1).han)) y := by
        intro y
        by_cases hy : y = e.1
        · subst hy; rw [Function.update_self]; exact hr
        · rw [Function.update_of_ne hy]; exact i1 y
      simp only [routeStepR, basinNodeR, hst]
      split_ifs
      · by_cases hx : x = e.2
        · subst hx; rw [Function.update_self]; exact add_nonneg hA (hup _) hf
        · rw [Function.update_of_ne hx]; exact hup x
      · exact hup x
  have key : ∀ n : ℕ, ∃ B : ℝ, ∀ M, B ≤ M → A.F M → ∀ p e q, order = p ++ e :: q → p.length < n →
      CellSize A (cin e.1) (state e.1) ((basinDayR A rule kRiver cin get upd p d state).inflow e.1)
        (get (basinDayR A rule kRiver cin get upd p d state).ledger.demand e.1).1
        (get (basinDayR A rule kRiver cin get upd p d state).ledger.demand e.1).2
        (rule (cellResInR A (cin e.1) (state e.1) ((basinDayR A rule kRiver cin get upd p d state).inflow e.1)
          (get (basinDayR A rule kRiver cin get upd p d state).ledger.demand e.1).1).han) (kRiver (cin e.1)) M := by
    intro n
    induction n with
    | zero => exact ⟨0, fun _ _ _ p e q _ hl => absurd hl (by omega)⟩
    | succ n ih =>
      obtain ⟨B, hB⟩ := ih
      by_cases hn : ∃ p e q, order = p ++ e :: q ∧ p.length = n
      · obtain ⟨p, e, q, ho, hl⟩ := hn
        obtain ⟨B', hB'⟩ := turn e (by rw [ho]; simp) (basinDayR A rule kRiver cin get upd p d state).ledger.demand _
          (inflow p _ ho e.1)
        refine ⟨max B B', fun M hM hF p' e' q' ho' hl' => ?_⟩
        rw [max_le_iff] at hM
        rcases Nat.lt_succ_iff_lt_or_eq.mp hl' with h1 | h1
        · exact hB M hM.1 hF p' e' q' ho' h1
        · obtain ⟨rfl, h2⟩ := List.append_inj (ho'.symm.trans ho) (h1.trans hl.symm)
          obtain ⟨rfl, -⟩ := List.cons.inj h2
          exact hB' M hM.2 hF
      · refine ⟨B, fun M hM hF p e q ho hl => ?_⟩
        rcases Nat.lt_succ_iff_lt_or_eq.mp hl with h1 | h1
        · exact hB M hM hF p e q ho h1
        · exact absurd ⟨p, e, q, ho, h1⟩ hn
  obtain ⟨B, hB⟩ := key order.length
  refine ⟨B, fun M hM hF p e q ho => ⟨hB M hM hF p e q ho ?_, (hc e.1 (by rw [ho]; simp)).corr⟩⟩
  rw [ho]; simp
end

/-- A cell with lakes and a reservoir drains into one without, which is the outlet; the demand of every cell is 2 km³. -/
noncomputable def pairIn (x : Cell) : CellIn := if x = (1, 1) then roundCell else landCell

noncomputable def pairState (x : Cell) : CellState := if x = (1, 1) then exState else landState

theorem pair_ok (rule : HanIn → ℝ → ℝ × ℝ) (x : Cell) : TurnOk binary64 rule (fun _ _ => 0.9) (pairIn x) (pairState x) := by
  have f0 : binary64.F 0 := Arith.zero_F binary64_ok
  have f2 : binary64.F (1 / 2) := by have := half64 1 1 (by norm_num) (by norm_num); norm_num at this ⊢; exact this
  have f4 : binary64.F (1 / 4) := by have := half64 1 2 (by norm_num) (by norm_num); norm_num at this ⊢; exact this
  unfold pairIn pairState
  split_ifs
  · refine ⟨roundCell_physical, roundState_ok, by norm_num [roundCell, exCell], by norm_num, ?_, ?_⟩
    · norm_num [roundCell, exCell]
      exact ⟨⟨by simpa using f4, f0⟩, by simpa using f2, f0⟩
    · intro up dm _ _ hf; norm_num [roundCell] at hf
  · refine ⟨?_, ?_, by norm_num [landCell, exCell], by norm_num, ?_, ?_⟩
    · constructor <;> (try unfold landCell exCell) <;> (try constructor) <;> norm_num
    · constructor <;> (try unfold landCell exCell) <;> (try unfold landState) <;> norm_num
    · norm_num [landCell, exCell]
      exact ⟨f0, by simpa using f2, f0⟩
    · intro up dm _ _ hf; norm_num [landCell] at hf

theorem pair_sound : Sound [((1, 1), (1, 2)), ((1, 2), (0, 0))] :=
  ⟨by decide, by decide, by decide⟩

/-- A day of that basin in binary64 arithmetic, whatever the release rule answers. -/
example (rule : HanIn → ℝ → ℝ × ℝ) : ∃ M : ℝ,
    let order := [((1, 1), (1, 2)), ((1, 2), (0, 0))]
    let run := basinRunR binary64 rule (fun _ _ => 0.9) (fun _ _ => (2, id)) (fun (l : Unit) _ _ => l) order pairState
      [⟨pairIn, ()⟩]
    (run.map (basinNet order)).sum - ((order.map Prod.fst).map fun x =>
        (((run.map fun t => t.2.2.ledger.state).getLastD pairState) x).total - (pairState x).total).sum
      ≤ 1 * (2 * (max (cellBound (2 ^ (-53 : ℤ)) (2 ^ (-1075 : ℤ)) M roundCell)
          (cellBound (2 ^ (-53 : ℤ)) (2 ^ (-1075 : ℤ)) M landCell)) + 1 * (2 * (2 ^ (-53 : ℤ) * M + 2 ^ (-1075 : ℤ)))) := by
  have hF2 : binary64.F 2 := by exact_mod_cast nat64 2 (by norm_num)
  obtain ⟨B, hB⟩ := C67_basin_sizes rule (fun _ _ => 0.9) (fun _ _ => (2, id)) (fun (l : Unit) _ _ => l) pairIn () pairState
    binary64_ok (fun B => by obtain ⟨M, -, h, h'⟩ := machine_above B; exact ⟨M, h, h'⟩) _ pair_sound
    (fun _ _ => ⟨by norm_num, hF2⟩) (fun x _ => pair_ok rule x)
  obtain ⟨M, h4, hM, hF⟩ := machine_above B
  refine ⟨M, ?_⟩
  have := C67_basin_run rule (fun _ _ => 0.9) (fun _ _ => (2, id)) (fun (l : Unit) _ _ => l) binary64_ok binary64_near
    (by norm_num) M (max (cellBound (2 ^ (-53 : ℤ)) (2 ^ (-1075 : ℤ)) M roundCell)
          (cellBound (2 ^ (-53 : ℤ)) (2 ^ (-1075 : ℤ)) M landCell)) (eta14.trans (by linarith)) _ pair_sound
    [⟨pairIn, ()⟩] pairState (by
      intro t ht
      simp only [basinRunR, List.mem_singleton] at ht
      subst ht
      refine ⟨hB M hM hF, ?_, ?_⟩
      · intro a _ hs
        exfalso
        simp only [pairIn] at hs
        split_ifs at hs <;> simp [roundCell, landCell, exCell] at hs
      · intro x _
        simp only [pairIn]
        split_ifs
        · exact le_max_left _ _
        · exact le_max_right _ _)
  have e : (inner [((1, 1), (1, 2)), ((1, 2), (0, 0))]).length = 1 := by decide
  have h1 := this.1
  simp only [e] at h1
  simpa using h1

end WG
