import Verif.Props.NbWhole
import Verif.Props.Whole

/-!
# C64 with water supply from neighbouring cells
-/

namespace WG

/-! ## Finding: a basin cannot ask the world -/

/-- In a dry inland sink without lakes, wetlands and reservoir all demand is left. -/
theorem sink_unsat (c : CellIn) (st : CellState) (d : ℝ) (keep : ℝ → ℝ) (hd : 0 ≤ d) (h : c.Physical)
    (hriv : st.river = 0) (hr : ¬ c.resArea > 0) (hg : ¬ c.glolakeArea > 0) (hll : ¬ c.locLake.frac > 0)
    (hlw : ¬ c.locWet.frac > 0) (hgw : ¬ c.gloWet.frac > 0) (hrun : c.runoff = 0) (hdis : (cellGw c st 0).discharge = 0)
    (hsink : c.sink = true) : (cellDay c st 0 d keep).unsat = d := by
  have e5 : (cellSplit c st).1 = 0 := by
    simp [cellSplit, fracRouting, cellEarlyDischarge, CellIn.gwKind, hrun, hsink, hdis]
  have e4 : (cellLocLake c st).outflow = (cellSplit c st).1 := by
    unfold cellLocLake bodyDay; rw [if_neg hll]; rfl
  have e3 : (cellLocWet c st).outflow = (cellLocLake c st).outflow := by
    unfold cellLocWet bodyDay; rw [if_neg hlw]; rfl
  have e2 : (cellGloLake c st 0 d).outflow = (cellLocWet c st).outflow + 0 := by
    unfold cellGloLake bodyDay; rw [if_neg hg]; rfl
  have e1 : (cellRes c st 0 d).outflow = (cellGloLake c st 0 d).outflow := by
    unfold cellRes; rw [if_neg hr]
  have e0 : (cellGloWet c st 0 d).outflow = (cellRes c st 0 d).outflow := by
    unfold cellGloWet bodyDay; rw [if_neg hgw]; rfl
  have hq : cellRiverIn c st 0 d = 0 := by
    unfold cellRiverIn
    simp only [hsink, if_true]
    rw [e0, e1, e2, e3, e4, e5, add_zero]
  have hu2 : cellUnsat2 c st 0 d keep = d := by
    unfold cellUnsat2 cellUnsat1
    rw [if_neg (by rintro ⟨-, k | k⟩ <;> contradiction), if_neg hr, if_neg hg]
  have hk := river_k_pos c st h
  have v := C15_abstraction c.minV c.corr _ st.river (cellRiverIn c st 0 d) (cellUnsat2 c st 0 d keep) hk
    (by rw [hriv]) (by rw [hq])
  have hru : (cellRiver c st 0 d keep).unsat = d := by
    have h1 := v.1
    have h2 := v.2.1
    rw [hriv, hq, hu2] at h1
    simp only [zero_add, mul_zero, zero_mul, zero_div, min_eq_right hd] at h1
    unfold cellRiver
    rw [hriv, hq, hu2]
    rw [hriv, hq, hu2] at h2
    linarith
  change (cellTapped c st 0 d keep).2.1 = d
  unfold cellTapped
  rw [if_neg (fun k : cellTap c st 0 d keep => hll k.2.1)]
  exact hru

/-- Dry inland sinks. -/
noncomputable def lonelyBase (_ : Cell) : CellIn := { dryRes with resArea := 0, sink := true, potNag := 0 }

/-- The world: the cell `(1, 1)` has the neighbour `(1, 2)`. -/
def lonelyRun : NbRun :=
  { delayed := true, resOpt := true, unit := fun _ => 0, order := dryOrder
    nbs := fun x => if x = (1, 1) then [((1, 2), (0, 0))] else [] }

/-- The basin of the cell `(1, 1)`. -/
def lonelyBasin : NbRun := { lonelyRun with order := masked dryOrder fun x => x = (1, 1) }

/-- The cell `(1, 1)` has a demand of 1. -/
noncomputable def lonelyDay : NbDayIn :=
  { cin := lonelyBase, pot := fun x => if x = (1, 1) then 1 else 0, unagg := fun x => if x = (1, 1) then 1 else 0
    month := 3, day := 1 }

/-- Only the river of `(1, 2)` has water. -/
noncomputable def lonelyCarry : NbCarry :=
  ⟨fun _ => ⟨0, 0, 0⟩, fun _ => 0, fun _ => 0, fun _ => 0, fun _ => (0, 0),
    fun x => ⟨0, 0, 0, 0, 0, 0.8, 0, if x = (1, 2) then 2 else 0⟩⟩

theorem lonelyBase_physical (x : Cell) : (lonelyBase x).Physical := by
  constructor <;> (try unfold lonelyBase dryRes exCell) <;> (try constructor) <;> norm_num

theorem lonely_nolake (x : Cell) : ¬ (lonelyBase x).hasLake := by
  simp [lonelyBase, dryRes, CellIn.hasLake]

theorem lonely_ok (x : Cell) : (lonelyCarry.state x).Ok (lonelyBase x) := by
  constructor <;> (try simp only [lonelyCarry, lonelyBase]) <;> (try split_ifs) <;> simp [dryRes, exCell]

theorem lonely_good (o : List (Cell × Cell)) (hs : Sound o) :
    NbRun.Good lonelyBase { lonelyRun with order := o } ∧ lonelyDay.Good lonelyBase { lonelyRun with order := o } ∧
    lonelyCarry.Good lonelyBase { lonelyRun with order := o } := by
  refine ⟨⟨hs, ⟨fun x hx => absurd hx (lonely_nolake x), fun x hx => absurd hx (lonely_nolake x),
    fun x _ hx => absurd hx (lonely_nolake x)⟩, ?_⟩, ⟨fun _ => ⟨rfl, rfl, rfl, rfl, rfl, rfl, rfl⟩, ?_, fun _ => rfl, ?_,
    fun x hx => absurd hx (lonely_nolake x)⟩, nbCarry_start _ _ _ fun x _ => lonely_ok x⟩
  · intro x p hp
    simp only [lonelyRun] at hp
    split_ifs at hp with h1
    · simp only [List.mem_singleton] at hp; subst hp; rw [h1]; decide
    · simp at hp
  · intro x _
    refine ⟨lonelyBase_physical x, ?_, ?_⟩
    · simp [lonelyDay, lonelyBase, dryRes, exCell]
    · intro hf; simp [lonelyDay, lonelyBase, dryRes, exCell] at hf
  · intro x _; simp only [lonelyDay]; split_ifs <;> norm_num

theorem lonely_unsat (told : ℝ) (htold : told = 0) (keep : ℝ → ℝ) :
    (cellDay { lonelyBase (1, 1) with unsatNas := told } (lonelyCarry.state (1, 1)) 0 1 keep).unsat = 1 := by
  subst htold
  refine sink_unsat _ _ 1 keep (by norm_num) (physical_unsatNas (lonelyBase_physical _) _) ?_ ?_ ?_ ?_ ?_ ?_ ?_ ?_ ?_
  · simp [lonelyCarry]
  · simp [lonelyBase]
  · simp [lonelyBase, dryRes]
  · simp [lonelyBase, dryRes]
  · simp [lonelyBase, dryRes, exCell]
  · simp [lonelyBase, dryRes]
  · simp [lonelyBase, dryRes]
  · simp [cellGw, groundwaterBalance, gwStorage, lonelyBase, dryRes, lonelyCarry, CellIn.gwKind]
  · simp [lonelyBase]

/-- The turn of `(1, 1)` in the world (`o := dryOrder`) and in the basin: it is left with its demand and asks the cell with
the most water that it knows. -/
theorem lonely_turn (o : List (Cell × Cell)) :
    let r : NbRun := { lonelyRun with order := o }
    let l := ((lonelyDay).after r lonelyCarry [((1, 1), (0, 0))]).ledger.demand
    l.nbMap (1, 1) = (if (1, 2) ∈ o.map Prod.fst then (1, 2) else (0, 0)) ∧
    l.sent (1, 1) = (if realCell (l.nbMap (1, 1)) then 1 else 0) ∧
    l.acc (1, 1) = (if realCell (l.nbMap (1, 1)) then 0 else 1) := by
  intro r l
  set q := lonelyDay.nbDay r lonelyCarry with hq
  set l0 := lonelyDay.ledger r lonelyCarry with hl0
  set t := nbTurn lonelyBase q l0 (1, 1) (lonelyCarry.state (1, 1)) 0 with ht
  have hl : l = nbUpd lonelyBase q l0 (1, 1) t (Function.update lonelyCarry.state (1, 1) t.state) := rfl
  have hdem : nbDemand lonelyBase q l0 (1, 1) = 1 := by
    simp [nbDemand, nbOwn, hl0, hq, NbDayIn.ledger, NbDayIn.nbDay, NbLedger.takenUp, dayDemand, lonelyDay, lonelyCarry, r,
      lonelyRun, lonelyBase, dryRes, exCell]
  have hdaily : (nbDaily q l0 (1, 1)).getD 0 = 0 := by
    simp [nbDaily, NbLedger.takenUp, hl0, NbDayIn.ledger, lonelyCarry]
  have hun : t.unsat = 1 := by
    rw [ht]; unfold nbTurn nbIn; rw [hdem]; exact lonely_unsat _ hdaily _
  have ha : ∀ ret, (allocate (nbAlloc lonelyBase q l0 (1, 1) t) ret).1 = 1 := by
    intro ret
    simp [allocate, allocSplit, nbAlloc, hun, hl0, NbDayIn.ledger, lonelyCarry]
  have hn : l.nbMap (1, 1) = (if (1, 2) ∈ o.map Prod.fst then (1, 2) else (0, 0)) := by
    rw [hl]
    simp only [nbUpd, Function.update_self, ha]
    have hav : nbAvail lonelyBase q (Function.update lonelyCarry.state (1, 1) t.state) (1, 2) =
        if (1, 2) ∈ o.map Prod.fst then 2 else 0 := by
      rw [hq, show lonelyBase = lonelyDay.cin from rfl, nbAvail_eq]
      unfold waterIn
      have h2 : Function.update lonelyCarry.state ((1, 1) : Cell) t.state (1, 2) = lonelyCarry.state (1, 2) :=
        Function.update_of_ne (by decide) _ _
      rw [h2]
      by_cases hm : ((1, 2) : Cell) ∈ o.map Prod.fst
      · have ht2 : (lonelyCarry.state (1, 2)).river + ((lonelyCarry.state (1, 2)).locLake
            + (lonelyDay.cin (1, 2)).locLake.maxStorage) + ((lonelyCarry.state (1, 2)).gloLake
            + (lonelyDay.cin (1, 2)).maxGlolake) + (if r.resOpt then (lonelyCarry.state (1, 2)).res else 0) = 2 := by
          norm_num [lonelyCarry, lonelyDay, lonelyBase, dryRes, exCell, r, lonelyRun]
        simp only [ht2]
        rw [if_pos hm, if_pos ⟨hm, by norm_num⟩]
      · rw [if_neg hm, if_neg (fun h => hm h.1)]
    have hns : q.nbs (1, 1) = [((1, 2), (0, 0))] := by simp [hq, NbDayIn.nbDay, r, lonelyRun]
    have hmo : ¬ (q.month = 12 ∧ q.day = 31) := by simp [hq, NbDayIn.nbDay, lonelyDay]
    unfold getNeighbour
    rw [if_pos one_pos, if_neg hmo, hns]
    simp only [List.foldl_cons, List.foldl_nil, neighbourStep, hav]
    by_cases hm : ((1, 2) : Cell) ∈ o.map Prod.fst
    · rw [if_pos hm, if_pos hm]; norm_num
    · rw [if_neg hm, if_neg hm]; norm_num
  refine ⟨hn, ?_, ?_⟩
  · rw [hl]; simp only [nbUpd, Function.update_self, ha]
  · rw [hl]; simp only [nbUpd, Function.update_self, ha]

/-- **Finding (C64).**  The neighbouring-cell option makes the result of a basin depend on the land around it: the cell
`(1, 1)` is a basin of its own (nothing drains into it), and both runs start from the same storages and have the same
demand.  In the run of the world the demand it cannot satisfy (1 km³) is handed to its neighbour `(1, 2)`; in the run of the
basin the neighbour is switched off and the cell keeps its demand. -/
theorem C64_violated_neighbours :
    let B : Cell → Bool := fun x => x = (1, 1)
    let g := lonelyDay.next lonelyRun lonelyCarry
    let b := lonelyDay.next { lonelyRun with order := masked lonelyRun.order B } lonelyCarry
    UpstreamClosed lonelyRun.order B ∧ g.sent (1, 1) = 1 ∧ b.sent (1, 1) = 0 ∧
      g.nbMap (1, 1) = (1, 2) ∧ b.nbMap (1, 1) = (0, 0) := by
  intro B g b
  have hB : masked dryOrder B = [((1, 1), (0, 0))] := by simp [masked, dryOrder, B]
  have hg := lonely_turn dryOrder
  have hb := lonely_turn [((1, 1), (0, 0))]
  simp only at hg hb
  rw [if_pos (by simp [dryOrder])] at hg
  rw [if_neg (by simp)] at hb
  have hm : realCell (1, 2) := by decide
  have hm' : ¬ realCell (0, 0) := by decide
  obtain ⟨hg1, hg2, -⟩ := hg
  obtain ⟨hb1, hb2, -⟩ := hb
  rw [hg1, if_pos hm] at hg2
  rw [hb1, if_neg hm'] at hb2
  refine ⟨?_, ?_, ?_, ?_, ?_⟩
  · intro e he hd
    simp only [lonelyRun, dryOrder, List.mem_cons, List.not_mem_nil, or_false] at he
    rcases he with rfl | rfl <;> simp [drains] at hd
  · rw [← hg2]; rfl
  · have : b = lonelyDay.next { lonelyRun with order := [((1, 1), (0, 0))] } lonelyCarry := by
      simp only [b, lonelyRun, hB]
    rw [this, ← hb2]; rfl
  · rw [← hg1]; rfl
  · have : b = lonelyDay.next { lonelyRun with order := [((1, 1), (0, 0))] } lonelyCarry := by
      simp only [b, lonelyRun, hB]
    rw [this, ← hb1]; rfl

/-! ## A basin whose neighbours are inside -/

/-- What a cell does depends on the sharing of the demand of a lake only if there is one. -/
theorem cellDay_keep (c : CellIn) (st : CellState) (up d : ℝ) (k k' : ℝ → ℝ)
    (h : c.useOpt = true → c.hasLake → k = k') : cellDay c st up d k = cellDay c st up d k' := by
  have h2 : cellUnsat2 c st up d k = cellUnsat2 c st up d k' := by
    unfold cellUnsat2
    by_cases hc : c.useOpt = true ∧ (c.resArea > 0 ∨ c.glolakeArea > 0)
    · rw [if_pos hc, if_pos hc, h hc.1 hc.2]
    · rw [if_neg hc, if_neg hc]
  have h3 : cellRiver c st up d k = cellRiver c st up d k' := by unfold cellRiver; rw [h2]
  have h4 : cellTapped c st up d k = cellTapped c st up d k' := by
    unfold cellTapped cellTap; rw [h3]
  unfold cellDay
  rw [h2, h3, h4]

theorem redistribute_filter (i : RedistIn Cell) (B : Cell → Bool) (o : List Cell)
    (h : ∀ c ∈ o, i.unit i.x = i.unit c → B c = true) (rip : Cell → ℝ) :
    redistribute { i with order := o.filter B } rip = redistribute { i with order := o } rip := by
  unfold redistribute
  change (o.filter B).foldl (redistStep i) (i.acc, rip) = o.foldl (redistStep i) (i.acc, rip)
  generalize (i.acc, rip) = st
  induction o generalizing st with
  | nil => rfl
  | cons c o ih =>
    have h' : ∀ c ∈ o, i.unit i.x = i.unit c → B c = true := fun c hc => h c (by simp [hc])
    by_cases hb : B c
    · rw [List.filter_cons_of_pos hb, List.foldl_cons, List.foldl_cons, ih h']
    · rw [List.filter_cons_of_neg hb, List.foldl_cons, ih h']
      congr 1
      unfold redistStep
      rw [if_neg (fun k => hb (h c (by simp) k.1))]

theorem neighbour_congr (B : Cell → Bool) (av av' : Cell → ℝ) (x : Cell) (nbs : List (Cell × Cell))
    (h : ∀ p ∈ nbs, p.1 ≠ (0, 0) → av p.1 = av' p.1) (best : Cell × ℝ) :
    nbs.foldl (neighbourStep av x) best = nbs.foldl (neighbourStep av' x) best := by
  induction nbs generalizing best with
  | nil => rfl
  | cons p nbs ih =>
    rw [List.foldl_cons, List.foldl_cons, ih fun p hp => h p (by simp [hp])]
    congr 1
    unfold neighbourStep
    by_cases h0 : p.1 = (0, 0)
    · rw [if_pos h0, if_pos h0]
    · rw [if_neg h0, if_neg h0, h p (by simp) h0]

/-- The neighbours that cells asked are on their side of the boundary. -/
def NbClosed (B : Cell → Bool) (m : Cell → Cell) : Prop := ∀ x, m x = (0, 0) ∨ B (m x) = B x

/-- Two ledgers agree inside the basin. -/
def NbLedger.Agree (B : Cell → Bool) (l l' : NbLedger) : Prop :=
  ∀ x, B x → l.acc x = l'.acc x ∧ l.rip x = l'.rip x ∧ l.sent x = l'.sent x ∧ l.toSupply x = l'.toSupply x ∧
    l.ret x = l'.ret x ∧ l.retNext x = l'.retNext x ∧ l.daily x = l'.daily x ∧ l.nbMap x = l'.nbMap x ∧
    l.turned x = l'.turned x

/-- What the cells share agrees inside the basin. -/
def NbAgree (B : Cell → Bool) (b b' : Basin NbLedger) : Prop :=
  b.demand.Agree B b'.demand ∧ NbClosed B b.demand.nbMap ∧ ∀ x, B x → b.state x = b'.state x ∧ b.out x = b'.out x

/-- The days of the routing loop agree inside the basin. -/
structure NbDay.Agree (B : Cell → Bool) (q q' : NbDay) : Prop where
  order : q'.order = q.order.filter B
  unit : q'.unit = q.unit
  delayed : q'.delayed = q.delayed
  resOpt : q'.resOpt = q.resOpt
  month : q'.month = q.month
  day : q'.day = q.day
  nbs : q'.nbs = q.nbs
  data : ∀ x, B x → q'.prev x = q.prev x ∧ q'.pot x = q.pot x ∧ q'.unagg x = q.unagg x

section
variable {B : Cell → Bool} {cin cin' : Cell → CellIn} {q q' : NbDay}

theorem takenUp_agree {l l' : NbLedger} (hl : l.Agree B l') {x : Cell} (hx : B x) : l.takenUp x = l'.takenUp x := by
  obtain ⟨-, -, -, -, h, -⟩ := hl x hx
  unfold NbLedger.takenUp; rw [h]

theorem nbOwn_agree (hc : ∀ x, B x → cin x = cin' x) (hq : q.Agree B q') {l l' : NbLedger} (hl : l.Agree B l') {x : Cell}
    (hx : B x) : nbOwn cin q l x = nbOwn cin' q' l' x := by
  obtain ⟨h1, h2, h3, h4, h5, h6, h7, h8, h9⟩ := hl x hx
  unfold nbOwn
  rw [h1, h2, hc x hx, hq.unit, hq.delayed, takenUp_agree hl hx]

theorem nbDaily_agree (hq : q.Agree B q') {l l' : NbLedger} (hl : l.Agree B l') {x : Cell}
    (hx : B x) : nbDaily q l x = nbDaily q' l' x := by
  obtain ⟨h1, h2, h3, h4, h5, h6, h7, h8, h9⟩ := hl x hx
  unfold nbDaily
  rw [takenUp_agree hl hx, h7, (hq.data x hx).1]

theorem nbRetNext_agree {l l' : NbLedger} (hl : l.Agree B l') {x : Cell} (hx : B x) : nbRetNext l x = nbRetNext l' x := by
  obtain ⟨h1, h2, h3, h4, h5, h6, h7, h8, h9⟩ := hl x hx
  unfold nbRetNext
  rw [takenUp_agree hl hx, h6]

theorem nbIn_agree (hc : ∀ x, B x → cin x = cin' x) (hq : q.Agree B q') {l l' : NbLedger} (hl : l.Agree B l') {x : Cell}
    (hx : B x) : nbIn cin q l x = nbIn cin' q' l' x := by
  unfold nbIn
  rw [hc x hx, nbDaily_agree hq hl hx]

theorem nbDemand_agree (hc : ∀ x, B x → cin x = cin' x) (hq : q.Agree B q') {l l' : NbLedger} (hl : l.Agree B l') {x : Cell}
    (hx : B x) : nbDemand cin q l x = nbDemand cin' q' l' x := by
  obtain ⟨h1, h2, h3, h4, h5, h6, h7, h8, h9⟩ := hl x hx
  unfold nbDemand
  rw [nbOwn_agree hc hq hl hx, h4]

theorem nbRedist_agree (hq : q.Agree B q') {l l' : NbLedger} (hl : l.Agree B l') {x : Cell}
    (hx : B x) (hu : ∀ c ∈ q.order, q.unit x = q.unit c → B c = true) (u : ℝ) :
    (redistribute (nbRedist q l x u) l.rip).1 = (redistribute (nbRedist q' l' x u) l'.rip).1 ∧
      ∀ c, B c → (redistribute (nbRedist q l x u) l.rip).2 c = (redistribute (nbRedist q' l' x u) l'.rip).2 c := by
  obtain ⟨h1, h2, h3, h4, h5, h6, h7, h8, h9⟩ := hl x hx
  have e : redistribute (nbRedist q l x u) l.rip
      = redistribute { nbRedist q l x u with order := q.order.filter B } l.rip :=
    (redistribute_filter (nbRedist q l x u) B q.order hu l.rip).symm
  rw [e]
  exact redist_agree B { nbRedist q l x u with order := q.order.filter B } (nbRedist q' l' x u) (hq.data x hx).1.symm h4 rfl (hq.data x hx).2.1.symm hq.unit.symm hq.order.symm
    (nbRetNext_agree hl hx) rfl hx (fun c hc => (hq.data c hc).2.2.symm) _ _ fun c hc => (hl c hc).2.1

theorem nbTurn_agree (hc : ∀ x, B x → cin x = cin' x) (hq : q.Agree B q') {l l' : NbLedger} (hl : l.Agree B l') {x : Cell}
    (hx : B x) (hu : (cin x).useOpt = true → (cin x).hasLake → ∀ c ∈ q.order, q.unit x = q.unit c → B c = true)
    (st : CellState) (up : ℝ) : nbTurn cin q l x st up = nbTurn cin' q' l' x st up := by
  unfold nbTurn
  rw [← nbIn_agree hc hq hl hx, ← nbDemand_agree hc hq hl hx]
  apply cellDay_keep
  intro h1 h2
  funext u
  exact (nbRedist_agree hq hl hx (hu h1 h2) u).1

theorem nbUpd_agree (hc : ∀ x, B x → cin x = cin' x) (hq : q.Agree B q')
    (hnb : ∀ x, ∀ p ∈ q.nbs x, p.1 ≠ (0, 0) → B p.1 = B x) {l l' : NbLedger} (hl : l.Agree B l') {x : Cell}
    (hx : B x) (hu : (cin x).useOpt = true → (cin x).hasLake → ∀ c ∈ q.order, q.unit x = q.unit c → B c = true)
    (o : CellOut) (st st' : Cell → CellState) (hst : ∀ x, B x → st x = st' x) :
    (nbUpd cin q l x o st).Agree B (nbUpd cin' q' l' x o st') := by
  obtain ⟨h1, h2, h3, h4, h5, h6, h7, h8, h9⟩ := hl x hx
  have hal : ∀ ret ret' : Cell → Option ℝ, (∀ c, B c → ret c = ret' c) →
      (allocate (nbAlloc cin q l x o) ret).1 = (allocate (nbAlloc cin' q' l' x o) ret').1 ∧
      ∀ c, B c → (allocate (nbAlloc cin q l x o) ret).2.1 c = (allocate (nbAlloc cin' q' l' x o) ret').2.1 c := by
    intro ret ret' hret
    have hsp : allocSplit (nbAlloc cin q l x o) = allocSplit (nbAlloc cin' q' l' x o) := by
      unfold allocSplit nbAlloc
      simp only
      rw [h4, nbOwn_agree hc hq hl hx]
    refine ⟨show (allocSplit _).1 = (allocSplit _).1 by rw [hsp], fun c hcB => ?_⟩
    obtain ⟨c1, c2, c3, c4, c5, c6, c7, c8, c9⟩ := hl c hcB
    simp only [allocate]
    rw [hsp]
    have ht : (nbAlloc cin q l x o).toSupply = (nbAlloc cin' q' l' x o).toSupply := h4
    by_cases hp : (nbAlloc cin q l x o).toSupply > 0
    · rw [if_pos hp, if_pos (ht ▸ hp), alloc_fold, alloc_fold, hret c hcB, ← ht]
      have e1 : (nbAlloc cin q l x o).fromDemand c = (nbAlloc cin' q' l' x o).fromDemand c := c3
      have e2 : (nbAlloc cin q l x o).nbMap c = (nbAlloc cin' q' l' x o).nbMap c := c8
      have e3 : c ∈ (nbAlloc cin q l x o).order ↔ c ∈ (nbAlloc cin' q' l' x o).order := by
        change c ∈ q.order ↔ c ∈ q'.order
        rw [hq.order, List.mem_filter, and_iff_left hcB]
      rw [e1, e2]
      exact if_congr (and_congr_left' e3) rfl rfl
    · rw [if_neg hp, if_neg (ht ▸ hp), hret c hcB]
  have hret0 : ∀ c, B c → (if (l.takenUp x).isSome then Function.update l.ret x none else l.ret) c
      = (if (l'.takenUp x).isSome then Function.update l'.ret x none else l'.ret) c := by
    intro c hcB
    rw [takenUp_agree hl hx]
    by_cases ht : (l'.takenUp x).isSome
    · rw [if_pos ht, if_pos ht]
      by_cases hcx : c = x
      · subst hcx; rw [Function.update_self, Function.update_self]
      · rw [Function.update_of_ne hcx, Function.update_of_ne hcx, (hl c hcB).2.2.2.2.1]
    · rw [if_neg ht, if_neg ht, (hl c hcB).2.2.2.2.1]
  obtain ⟨ha, har⟩ := hal _ _ hret0
  -- the neighbour
  have hin : ∀ p ∈ q.nbs x, p.1 ≠ (0, 0) → B p.1 := fun p hp h0 => (hnb x p hp h0).trans hx
  have hav : ∀ p ∈ q.nbs x, p.1 ≠ (0, 0) → nbAvail cin q st p.1 = nbAvail cin' q' st' p.1 := by
    intro p hp h0
    have hb := hin p hp h0
    unfold nbAvail
    have e3 : p.1 ∈ q.order ↔ p.1 ∈ q'.order := by
      rw [hq.order, List.mem_filter, and_iff_left hb]
    simp only [e3, cellStorage, hst _ hb, hc _ hb, hq.resOpt]
  have hnbeq : ∀ d, getNeighbour (nbAvail cin q st) (q.nbs x) d x q.month q.day l.turned
      = getNeighbour (nbAvail cin' q' st') (q'.nbs x) d x q'.month q'.day l'.turned := by
    intro d
    rw [hq.nbs, hq.month, hq.day]
    unfold getNeighbour
    rw [neighbour_congr B _ _ x _ hav]
    by_cases hd : d > 0
    · simp only [if_pos hd]
      by_cases hdate : q.month = 12 ∧ q.day = 31
      · simp only [if_pos hdate]
        obtain ⟨-, -, hf⟩ := neighbour_fold (nbAvail cin' q' st') x (q.nbs x) ((0, 0), 0) le_rfl
        by_cases h0 : ((q.nbs x).foldl (neighbourStep (nbAvail cin' q' st') x) ((0, 0), 0)).1 = (0, 0)
        · rw [h0]; simp only [ite_self]
        · rcases hf with hf | ⟨p, hp, -, hf⟩
          · rw [hf] at h0; exact absurd rfl h0
          · rw [hf] at h0 ⊢
            have hb := hin p hp h0
            rw [(hl _ hb).2.2.2.2.2.2.2.2, h9]
      · simp only [if_neg hdate]
    · simp only [if_neg hd]
  have hnbB : ∀ d, realCell (getNeighbour (nbAvail cin' q' st') (q'.nbs x) d x q'.month q'.day l'.turned) →
      B (getNeighbour (nbAvail cin' q' st') (q'.nbs x) d x q'.month q'.day l'.turned) := by
    intro d hre
    rcases neighbour_cases (nbAvail cin' q' st') (q'.nbs x) d x q'.month q'.day l'.turned with h0 | ⟨-, p, hp, he, -⟩
    · rw [h0] at hre; exact absurd hre.1 (by simp)
    · rw [he] at hre ⊢
      rw [hq.nbs] at hp
      exact hin p hp fun h => by rw [h] at hre; exact absurd hre.1 (by simp)
  have upd : ∀ {β : Type} (f f' : Cell → β) (v v' : β), (∀ c, B c → f c = f' c) → v = v' →
      ∀ c, B c → ∀ z, Function.update f z v c = Function.update f' z v' c := by
    intro β f f' v v' hf hv c hcB z
    by_cases hcz : c = z
    · subst hcz; rw [Function.update_self, Function.update_self, hv]
    · rw [Function.update_of_ne hcz, Function.update_of_ne hcz, hf c hcB]
  intro c hcB
  unfold nbUpd
  simp only
  rw [ha, hnbeq, nbRetNext_agree hl hx, nbDaily_agree hq hl hx, h4]
  generalize (allocate (nbAlloc cin' q' l' x o) _).1 = a
  have hB' := hnbB a
  generalize getNeighbour (nbAvail cin' q' st') (q'.nbs x) a x q'.month q'.day l'.turned = nb at hB'
  refine ⟨?_, ?_, ?_, ?_, ?_, ?_, ?_, ?_, ?_⟩
  · exact upd _ _ _ _ (fun c hc => (hl c hc).1) rfl c hcB x
  · rw [← hc x hx]
    by_cases hlake : (cin x).useOpt = true ∧ (cin x).hasLake
    · rw [if_pos hlake, if_pos hlake]
      exact (nbRedist_agree hq hl hx (hu hlake.1 hlake.2) _).2 c hcB
    · rw [if_neg hlake, if_neg hlake]; exact (hl c hcB).2.1
  · exact upd _ _ _ _ (fun c hc => (hl c hc).2.2.1) rfl c hcB x
  · have h0 : ∀ c, B c → (if l'.toSupply x > 0 then Function.update l.toSupply x 0 else l.toSupply) c
        = (if l'.toSupply x > 0 then Function.update l'.toSupply x 0 else l'.toSupply) c := by
      intro c hcB
      by_cases ht : l'.toSupply x > 0
      · rw [if_pos ht, if_pos ht]; exact upd _ _ _ _ (fun c hc => (hl c hc).2.2.2.1) rfl c hcB x
      · rw [if_neg ht, if_neg ht]; exact (hl c hcB).2.2.2.1
    by_cases hre : realCell nb
    · rw [if_pos hre, if_pos hre]
      exact upd _ _ _ _ h0 (by rw [h0 nb (hB' hre)]) c hcB nb
    · rw [if_neg hre, if_neg hre]; exact h0 c hcB
  · exact har c hcB
  · exact upd _ _ _ _ (fun c hc => (hl c hc).2.2.2.2.2.1) rfl c hcB x
  · have hd0 := fun c hcB => upd l.daily l'.daily (nbDaily q' l' x) _ (fun c hc => (hl c hc).2.2.2.2.2.2.1) rfl c hcB x
    by_cases hre : realCell nb
    · rw [h9, (hl nb (hB' hre)).2.2.2.2.2.2.2.2]
      by_cases ht : realCell nb ∧ l'.turned nb > l'.turned x
      · rw [if_pos ht, if_pos ht]; exact upd _ _ _ _ hd0 rfl c hcB x
      · rw [if_neg ht, if_neg ht]; exact hd0 c hcB
    · rw [if_neg (fun h => hre h.1), if_neg (fun h => hre h.1)]; exact hd0 c hcB
  · exact upd _ _ _ _ (fun c hc => (hl c hc).2.2.2.2.2.2.2.1) rfl c hcB x
  · exact upd _ _ _ _ (fun c hc => (hl c hc).2.2.2.2.2.2.2.2) rfl c hcB x

/-- The turn of a cell outside leaves the ledger inside as it is. -/
theorem nbUpd_outside (hnb : ∀ x, ∀ p ∈ q.nbs x, p.1 ≠ (0, 0) → B p.1 = B x) {l l' : NbLedger} (hl : l.Agree B l')
    (hm : NbClosed B l.nbMap) {x : Cell} (hx : ¬ B x) (hx0 : x ≠ (0, 0))
    (hu : (cin x).useOpt = true → (cin x).hasLake → ∀ c ∈ q.order, q.unit x = q.unit c → ¬ B c)
    (o : CellOut) (st : Cell → CellState) : (nbUpd cin q l x o st).Agree B l' := by
  have hnbB : ∀ d, realCell (getNeighbour (nbAvail cin q st) (q.nbs x) d x q.month q.day l.turned) →
      ¬ B (getNeighbour (nbAvail cin q st) (q.nbs x) d x q.month q.day l.turned) := by
    intro d hre
    rcases neighbour_cases (nbAvail cin q st) (q.nbs x) d x q.month q.day l.turned with h0 | ⟨-, p, hp, he, -⟩
    · rw [h0] at hre; exact absurd hre.1 (by simp)
    · rw [he] at hre ⊢
      rw [hnb x p hp fun h => by rw [h] at hre; exact absurd hre.1 (by simp)]
      exact hx
  intro c hcB
  have hcx : c ≠ x := fun e => hx (e ▸ hcB)
  obtain ⟨c1, c2, c3, c4, c5, c6, c7, c8, c9⟩ := hl c hcB
  have hret : ∀ ret : Cell → Option ℝ, (allocate (nbAlloc cin q l x o) ret).2.1 c = ret c := by
    intro ret
    simp only [allocate]
    by_cases hp : (nbAlloc cin q l x o).toSupply > 0
    · rw [if_pos hp, alloc_fold, if_neg]
      rintro ⟨-, he⟩
      have he' : l.nbMap c = x := he
      rcases hm c with h0 | h0
      · exact hx0 (he' ▸ h0)
      · rw [he'] at h0; exact hx (h0.trans hcB)
    · rw [if_neg hp]
  unfold nbUpd
  simp only
  generalize ha : (allocate (nbAlloc cin q l x o) _).1 = a
  have hB' := hnbB a
  generalize getNeighbour (nbAvail cin q st) (q.nbs x) a x q.month q.day l.turned = nb at hB'
  refine ⟨?_, ?_, ?_, ?_, ?_, ?_, ?_, ?_, ?_⟩
  · rw [Function.update_of_ne hcx, c1]
  · by_cases hlake : (cin x).useOpt = true ∧ (cin x).hasLake
    · rw [if_pos hlake, redist_other' _ _ c ?_ hcx, c2]
      intro hmem
      rw [RedistIn.riparian, List.mem_filter] at hmem
      exact hu hlake.1 hlake.2 c hmem.1 (of_decide_eq_true hmem.2).1 hcB
    · rw [if_neg hlake, c2]
  · rw [Function.update_of_ne hcx, c3]
  · have h0 : (if l.toSupply x > 0 then Function.update l.toSupply x 0 else l.toSupply) c = l.toSupply c := by
      by_cases ht : l.toSupply x > 0
      · rw [if_pos ht, Function.update_of_ne hcx]
      · rw [if_neg ht]
    by_cases hre : realCell nb
    · rw [if_pos hre, Function.update_of_ne (fun e : c = nb => hB' hre (e ▸ hcB)), h0, c4]
    · rw [if_neg hre, h0, c4]
  · rw [hret]
    by_cases ht : (l.takenUp x).isSome
    · rw [if_pos ht, Function.update_of_ne hcx, c5]
    · rw [if_neg ht, c5]
  · rw [Function.update_of_ne hcx, c6]
  · by_cases hre : realCell nb ∧ l.turned nb > l.turned x
    · rw [if_pos hre, Function.update_of_ne hcx, Function.update_of_ne hcx, c7]
    · rw [if_neg hre, Function.update_of_ne hcx, c7]
  · rw [Function.update_of_ne hcx, c8]
  · rw [Function.update_of_ne hcx, c9]

theorem nbUpd_closed (hnb : ∀ x, ∀ p ∈ q.nbs x, p.1 ≠ (0, 0) → B p.1 = B x) {l : NbLedger} (hm : NbClosed B l.nbMap)
    (x : Cell) (o : CellOut) (st : Cell → CellState) : NbClosed B (nbUpd cin q l x o st).nbMap := by
  intro c
  unfold nbUpd
  simp only
  by_cases hcx : c = x
  · subst hcx
    rw [Function.update_self]
    generalize (allocate _ _).1 = a
    by_cases h0 : getNeighbour (nbAvail cin q st) (q.nbs c) a c q.month q.day l.turned = (0, 0)
    · exact Or.inl h0
    · rcases neighbour_cases (nbAvail cin q st) (q.nbs c) a c q.month q.day l.turned with h | ⟨-, p, hp, he, -⟩
      · exact Or.inl h
      · right
        rw [he] at h0 ⊢
        exact hnb c p hp h0
  · rw [Function.update_of_ne hcx]
    exact hm c

/-- A day of the routing loop. -/
theorem nbDayRun_agree {world : List (Cell × Cell)} (hup : UpstreamClosed world B) (hc : ∀ x, B x → cin x = cin' x)
    (hq : q.Agree B q') (hnb : ∀ x, ∀ p ∈ q.nbs x, p.1 ≠ (0, 0) → B p.1 = B x)
    (hu : ∀ x, (cin x).useOpt = true → (cin x).hasLake → ∀ c ∈ q.order, q.unit x = q.unit c → B c = B x)
    (h0 : (0, 0) ∉ world.map Prod.fst) {l l' : NbLedger} (hl : l.Agree B l') (hm : NbClosed B l.nbMap)
    {st st' : Cell → CellState} (hst : ∀ x, B x → st x = st' x) :
    NetAgree B (NbAgree B) (nbDayRun cin q world l st) (nbDayRun cin' q' (masked world B) l' st') := by
  unfold nbDayRun route
  apply route_masked B (NbAgree B) _ _ world hup
  · rintro b b' x up hx ⟨hb1, hb2, hb3⟩
    have hu' := fun h1 h2 c hc e => (hu x h1 h2 c hc e).trans hx
    have ho := nbTurn_agree hc hq hb1 hx hu' (b.state x) up
    rw [show nbTurn cin' q' b'.demand x (b.state x) up = nbTurn cin' q' b'.demand x (b'.state x) up by
      rw [(hb3 x hx).1]] at ho
    constructor
    · simp only [nbNode]
      rw [ho]
      refine ⟨nbUpd_agree hc hq hnb hb1 hx hu' _ _ _ ?_, nbUpd_closed hnb hb2 x _ _, fun c hcB => ?_⟩
      · intro c hcB
        by_cases hcx : c = x
        · subst hcx; simp only [Function.update_self]
        · simp only [Function.update_of_ne hcx]; exact (hb3 c hcB).1
      · by_cases hcx : c = x
        · subst hcx; simp only [Function.update_self, and_self]
        · simp only [Function.update_of_ne hcx]; exact hb3 c hcB
    · simp only [nbNode]
      rw [ho, nbIn_agree hc hq hb1 hx, nbDemand_agree hc hq hb1 hx, (hb3 x hx).1]
  · rintro b b' x hxw up hx ⟨hb1, hb2, hb3⟩
    simp only [nbNode]
    refine ⟨nbUpd_outside hnb hb1 hb2 hx (fun e => h0 (e ▸ hxw)) (fun h1 h2 c hc e k => hx ((hu x h1 h2 c hc e) ▸ k)) _ _,
      nbUpd_closed hnb hb2 x _ _, fun c hcB => ?_⟩
    have hcx : c ≠ x := fun e => hx (e ▸ hcB)
    simp only [Function.update_of_ne hcx]
    exact hb3 c hcB
  · exact ⟨⟨hl, hm, fun x hx => ⟨hst x hx, rfl⟩⟩, fun _ _ => rfl, fun _ _ => rfl, fun _ _ => rfl⟩

end

/-! ## The claim -/

/-- Two simulations are in the same state inside the basin. -/
def NbSim.Agree (B : Cell → Bool) (s s' : NbSim) : Prop :=
  ∀ x, B x → s.carry.unsat x = s'.carry.unsat x ∧ s.carry.rip x = s'.carry.rip x ∧ s.carry.sent x = s'.carry.sent x ∧
    s.carry.toSupply x = s'.carry.toSupply x ∧ s.carry.nbMap x = s'.carry.nbMap x ∧ s.full x = s'.full x

/-- Two days bring the same to the cells of the basin. -/
def NbWgDay.Agree (B : Cell → Bool) (d d' : NbWgDay) : Prop :=
  d.month = d'.month ∧ d.day = d'.day ∧ ∀ x, B x → d.weather x = d'.weather x ∧ d.lateral x = d'.lateral x ∧
    d.pot x = d'.pot x ∧ d.unagg x = d'.unagg x

/-- The basin is cut out along the water: every cell that drains into it is inside, and each cell is on the same side of
the boundary as its neighbours. -/
structure NbRun.Cut (B : Cell → Bool) (r : NbRun) : Prop where
  upstream : UpstreamClosed r.order B
  neighbours : ∀ x, ∀ p ∈ r.nbs x, p.1 ≠ (0, 0) → B p.1 = B x
  cells : (0, 0) ∉ r.order.map Prod.fst

/-- The lakes and reservoirs with their shores lie on one side of the boundary. -/
def NbWgDay.ShoresWhole (B : Cell → Bool) (r : NbRun) (d : NbWgDay) : Prop :=
  ∀ x, (d.lateral x).useOpt = true → (d.lateral x).hasLake → ∀ c ∈ r.order.map Prod.fst, r.unit x = r.unit c → B c = B x

section
variable (par : Cell → FullPar) (r : NbRun) (B : Cell → Bool)

theorem masked_cells (world : List (Cell × Cell)) : (masked world B).map Prod.fst = (world.map Prod.fst).filter B := by
  unfold masked
  rw [List.filter_map]
  rfl

theorem nbWgDay_agree (hr : r.Cut B) (d d' : NbWgDay) (hd : d.Agree B d') (hs : d.ShoresWhole B r) (s s' : NbSim)
    (h : s.Agree B s') (hm : NbClosed B s.carry.nbMap) :
    let r' : NbRun := { r with order := masked r.order B }
    (d.next par r s).Agree B (d'.next par r' s') ∧ NbClosed B (d.next par r s).carry.nbMap ∧
      ∀ x, B x → d.recs par r s x = d'.recs par r' s' x := by
  intro r'
  have hfull : ∀ x, B x → s.full x = s'.full x := fun x hx => (h x hx).2.2.2.2.2
  have hstate : ∀ x, B x → s.carry.state x = s'.carry.state x := fun x hx => congrArg FullState.lat (hfull x hx)
  have hcin : ∀ x, B x → (d.lat par s).cin x = (d'.lat par s').cin x := by
    intro x hx
    obtain ⟨w, l, -, -⟩ := hd.2.2 x hx
    simp only [NbWgDay.lat]
    rw [w, l, hfull x hx]
  have hq : ((d.lat par s).nbDay r s.carry).Agree B ((d'.lat par s').nbDay r' s'.carry) :=
    ⟨masked_cells B _, rfl, rfl, rfl, hd.1.symm, hd.2.1.symm, rfl, fun x hx =>
      ⟨congrArg Unsat.prev (h x hx).1.symm, (hd.2.2 x hx).2.2.1.symm, (hd.2.2 x hx).2.2.2.symm⟩⟩
  have hl : ((d.lat par s).ledger r s.carry).Agree B ((d'.lat par s').ledger r' s'.carry) := by
    intro x hx
    obtain ⟨h1, h2, h3, h4, h5, -⟩ := h x hx
    refine ⟨?_, h2, h3, h4, rfl, rfl, ?_, h5, rfl⟩
    · simp only [NbDayIn.ledger]
      rw [hcin x hx, h1]
      simp only [NbWgDay.lat]
      rw [(hd.2.2 x hx).2.2.1]
    · simp only [NbDayIn.ledger]; rw [h1]
  have hu : ∀ x, ((d.lat par s).cin x).useOpt = true → ((d.lat par s).cin x).hasLake →
      ∀ c ∈ ((d.lat par s).nbDay r s.carry).order, r.unit x = r.unit c → B c = B x := by
    intro x h1 h2
    exact hs x h1 h2
  have key := nbDayRun_agree (world := r.order) hr.upstream hcin hq hr.neighbours hu hr.cells hl hm hstate
  have hn : (d.lat par s).routed r s.carry = nbDayRun (d.lat par s).cin ((d.lat par s).nbDay r s.carry) r.order
    ((d.lat par s).ledger r s.carry) s.carry.state := rfl
  have hn' : (d'.lat par s').routed r' s'.carry = nbDayRun (d'.lat par s').cin ((d'.lat par s').nbDay r' s'.carry)
    (masked r.order B) ((d'.lat par s').ledger r' s'.carry) s'.carry.state := rfl
  rw [← hn, ← hn'] at key
  obtain ⟨⟨k1, k2, k3⟩, -, kup, -⟩ := key
  refine ⟨fun x hx => ?_, k2, fun x hx => ?_⟩
  · obtain ⟨e1, e2, e3, e4, e5, e6, e7, e8, e9⟩ := k1 x hx
    refine ⟨?_, e2, e3, e4, e8, ?_⟩
    · simp only [NbWgDay.next, NbDayIn.next]
      rw [e1, e5, e6, e7, hcin x hx, (h x hx).1]
      have hdate : decide ((d.lat par s).month = 12 ∧ (d.lat par s).day = 31)
          = decide ((d'.lat par s').month = 12 ∧ (d'.lat par s').day = 31) := by
        apply decide_eq_decide.mpr
        change d.month = 12 ∧ d.day = 31 ↔ d'.month = 12 ∧ d'.day = 31
        rw [hd.1, hd.2.1]
      rw [hdate]
    · have hw := (hd.2.2 x hx).1
      have hv : s.vert x = s'.vert x := congrArg FullState.vert (hfull x hx)
      have hla : s.land x = s'.land x := congrArg FullState.land (hfull x hx)
      simp only [NbSim.full, NbWgDay.next, NbDayIn.next]
      rw [(k3 x hx).1, (k3 x hx).2, hw, hv, hla, hstate x hx]
  · simp only [NbWgDay.recs]
    rw [(k3 x hx).2, kup x hx, hfull x hx, (hd.2.2 x hx).1, (hd.2.2 x hx).2.1]

/-- **C64 with water supply from neighbouring cells.**  A simulation of a basin gives in every cell of the basin, on every
day, the records, the storages and the demands (own, shared along shores, passed on to neighbours, waiting at supply cells)
of the simulation of the whole world — whatever the data of the cells outside are — if each cell is on the same side of the
boundary as the neighbours it may ask (an island or a continent) and as the shores of its lake or reservoir.  The first
condition is needed: `C64_violated_neighbours`. -/
theorem C64_neighbours (hr : r.Cut B) (days days' : List NbWgDay)
    (hdays : List.Forall₂ (fun d d' => d.Agree B d' ∧ d.ShoresWhole B r) days days') (s s' : NbSim)
    (h : s.Agree B s') (hm : NbClosed B s.carry.nbMap) :
    let g := nbSimRun par r s days
    let b := nbSimRun par { r with order := masked r.order B } s' days'
    g.1.Agree B b.1 ∧ List.Forall₂ (fun t t' => ∀ x, B x → t x = t' x) g.2 b.2 := by
  induction hdays generalizing s s' with
  | nil => exact ⟨h, .nil⟩
  | cons hd _ ih =>
    obtain ⟨k1, k2, k3⟩ := nbWgDay_agree par r B hr _ _ hd.1 hd.2 s s' h hm
    obtain ⟨i1, i2⟩ := ih _ _ k1 k2
    exact ⟨i1, .cons k3 i2⟩

end

/-- The two cells of `askRun`, each other's neighbour and on the shore of one reservoir, and a third cell far away. -/
def islandRun : NbRun := { askRun with order := dryOrder ++ [((5, 5), (0, 0))] }

/-- The island. -/
def island : Cell → Bool := fun x => x = (1, 1) ∨ x = (1, 2)

theorem islandRun_cut : islandRun.Cut island := by
  refine ⟨?_, ?_, by decide⟩
  · intro e he hd
    simp only [islandRun, askRun, dryOrder, List.cons_append, List.nil_append, List.mem_cons, List.not_mem_nil, or_false] at he
    rcases he with rfl | rfl | rfl <;> simp [drains] at hd
  · intro x p hp _
    simp only [islandRun, askRun] at hp
    split_ifs at hp with h1 h2
    · simp only [List.mem_singleton] at hp; subst hp h1; decide
    · simp only [List.mem_singleton] at hp; subst hp h2; decide
    · simp at hp

theorem waitDay_shores : waitDay.ShoresWhole island islandRun := by
  intro x _ hl c _ hu
  have hx : x = (1, 2) := (dryBase_lake x).1 hl
  subst hx
  have hc : c = (1, 1) ∨ c = (1, 2) := by
    by_contra hne
    simp only [islandRun, askRun, dryUnit] at hu
    rw [if_pos (by simp), if_neg hne] at hu
    norm_num at hu
  rcases hc with rfl | rfl <;> decide

example : masked islandRun.order island ≠ islandRun.order := by decide

example := C64_neighbours (fun _ => exFull) islandRun island islandRun_cut [waitDay, waitDay]
  [{ waitDay with pot := fun x => if x = (1, 2) then 1 else if x = (5, 5) then 77 else 0 },
   { waitDay with unagg := fun x => if x = (1, 1) then 1 else if x = (5, 5) then 77 else 0 }]
  (by
    have key : ∀ x : Cell, island x → x ≠ (5, 5) := by rintro x hx rfl; revert hx; decide
    refine .cons ⟨⟨rfl, rfl, fun x hx => ⟨rfl, rfl, ?_, rfl⟩⟩, waitDay_shores⟩
      (.cons ⟨⟨rfl, rfl, fun x hx => ⟨rfl, rfl, rfl, ?_⟩⟩, waitDay_shores⟩ .nil)
    · simp [waitDay, key x hx]
    · simp [waitDay, key x hx])
  waitSim waitSim (fun _ _ => ⟨rfl, rfl, rfl, rfl, rfl, rfl⟩)
  (by
    intro x
    by_cases h1 : x = (1, 1)
    · subst h1; simp [waitSim, waitCarry, island]
    · by_cases h2 : x = (1, 2)
      · subst h2; simp [waitSim, waitCarry, island]
      · left; simp [waitSim, waitCarry, h1, h2])

end WG
