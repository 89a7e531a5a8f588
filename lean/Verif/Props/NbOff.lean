import Verif.Props.NbWhole
import Verif.Props.Whole
import Verif.Props.Natural

/-!
# C83: water supply from neighbouring cells changes nothing unless a cell asks for it
-/

namespace WG

section
variable {σ τ : Type}

/-- Two loops that agree as long as what is seen at the end of the loop in each cell is `Q`. -/
theorem route_rel_final (R : σ → τ → Prop) (Q : Cell → σ → τ → Prop) (node : σ → Cell → ℝ → σ × ℝ × ℝ)
    (node' : τ → Cell → ℝ → τ × ℝ × ℝ)
    (hin : ∀ l l' x up, R l l' → (node l x up).2 = (node' l' x up).2 ∧
      (Q x (node l x up).1 (node' l' x up).1 → R (node l x up).1 (node' l' x up).1))
    (hQ : ∀ l l' x y up up', y ≠ x → Q x (node l y up).1 (node' l' y up').1 → Q x l l')
    (w : List (Cell × Cell)) (hnd : (w.map Prod.fst).Nodup) (s : NetState σ) (t : NetState τ)
    (h : NetAgree (fun _ => true) R s t)
    (hfin : ∀ e ∈ w, Q e.1 (w.foldl (routeStep node) s).ledger (w.foldl (routeStep node') t).ledger) :
    NetAgree (fun _ => true) R (w.foldl (routeStep node) s) (w.foldl (routeStep node') t) := by
  have back : ∀ (x : Cell) (w : List (Cell × Cell)), x ∉ w.map Prod.fst → ∀ (s : NetState σ) (t : NetState τ),
      Q x (w.foldl (routeStep node) s).ledger (w.foldl (routeStep node') t).ledger → Q x s.ledger t.ledger := by
    intro x w
    induction w with
    | nil => intro _ s t h; exact h
    | cons e w ih =>
      intro hx s t hq
      simp only [List.map_cons, List.mem_cons, not_or] at hx
      rw [List.foldl_cons, List.foldl_cons] at hq
      have := ih hx.2 _ _ hq
      simp only [routeStep] at this
      exact hQ _ _ x e.1 _ _ (Ne.symm hx.1) this
  induction w generalizing s t with
  | nil => exact h
  | cons e w ih =>
    simp only [List.map_cons, List.nodup_cons] at hnd
    rw [List.foldl_cons, List.foldl_cons]
    have hq : Q e.1 (routeStep node s e).ledger (routeStep node' t e).ledger :=
      back e.1 w hnd.1 _ _ (by have := hfin e (by simp); rwa [List.foldl_cons, List.foldl_cons] at this)
    have hinflow : s.inflow e.1 = t.inflow e.1 := h.inflow e.1 rfl
    obtain ⟨k2, k1⟩ := hin s.ledger t.ledger e.1 (s.inflow e.1) h.ledger
    have hs : NetAgree (fun _ => true) R (routeStep node s e) (routeStep node' t e) := by
      have e1 : s.inflow = t.inflow := funext fun x => h.inflow x rfl
      have e2 : s.up = t.up := funext fun x => h.up x rfl
      have e3 : s.flow = t.flow := funext fun x => h.flow x rfl
      refine ⟨?_, fun x _ => ?_, fun x _ => ?_, fun x _ => ?_⟩
      · simp only [routeStep] at hq ⊢
        rw [← hinflow] at hq ⊢
        exact k1 hq
      · simp only [routeStep]; rw [← hinflow, k2, e1]
      · simp only [routeStep]; rw [← hinflow, e2]
      · simp only [routeStep]; rw [← hinflow, k2, e3]
    refine ih hnd.2 _ _ hs ?_
    intro e' he'
    have := hfin e' (by simp [he'])
    rwa [List.foldl_cons, List.foldl_cons] at this

end

/-- The ledger with the option in which nobody waits for anybody, and the ledger without. -/
structure NbLedger.Quiet (l : NbLedger) (m : DemandState) : Prop where
  acc : l.acc = m.acc
  rip : l.rip = m.rip
  supply : ∀ x, l.toSupply x = 0
  ret : ∀ x, l.ret x = none
  next : ∀ x, l.retNext x = none
  daily : ∀ x, l.daily x = some (m.daily x)

/-- The day without the option. -/
def NbWgDay.off (d : NbWgDay) : WgDay :=
  { weather := d.weather, lateral := d.lateral, pot := d.pot, unagg := d.unagg, dec31 := decide (d.month = 12 ∧ d.day = 31) }

section
variable (par : Cell → FullPar) (r : NbRun)

/-- Two loops in the same state. -/
def QuietAgree (t : Sim DemandState) (b : Basin NbLedger) (b' : Basin DemandState) : Prop :=
  b.demand.Quiet b'.demand ∧ b'.demand.prev = t.demand.prev ∧ b'.demand.daily = t.demand.daily ∧ b.state = b'.state ∧
    b.out = b'.out ∧ ∀ x, b.state x = ((b.out x).map CellOut.state).getD (t.state x).lat

/-- What the cell did: it asked no neighbour, or it was left without demand. -/
def NoAsk (x : Cell) (b : Basin NbLedger) (b' : Basin DemandState) : Prop :=
  ¬ realCell (b.demand.nbMap x) ∨ ∀ o, b'.out x = some o → o.unsat ≤ 0

/-- The simulations agree. -/
structure NbSim.Off (s : NbSim) (t : Sim DemandState) : Prop where
  state : ∀ x, s.full x = t.state x
  unsat : ∀ x, s.carry.unsat x = ⟨t.demand.acc x, t.demand.prev x, t.demand.daily x⟩
  rip : s.carry.rip = t.demand.rip
  supply : ∀ x, s.carry.toSupply x = 0

theorem quiet_step (d : NbWgDay) (s : NbSim) (t : Sim DemandState) (h : s.Off t) (b : Basin NbLedger)
    (b' : Basin DemandState) (x : Cell) (up : ℝ) (hb : QuietAgree t b b') :
    let lat := d.lat par s
    let node := nbNode lat.cin (lat.nbDay r s.carry) b x up
    let sim := d.off.sim r.delayed r.unit r.order
    let node' := basinNode (simIn par sim t) sim.get sim.upd b' x up
    node.2 = node'.2 ∧ (NoAsk x node.1 node'.1 → QuietAgree t node.1 node'.1) := by
  intro lat node sim node'
  obtain ⟨hq, hp, hd, hst, hout, hlast⟩ := hb
  have htk : b.demand.takenUp x = none := by unfold NbLedger.takenUp; rw [hq.ret x]
  have hdl : nbDaily (lat.nbDay r s.carry) b.demand x = some (t.demand.daily x) := by
    unfold nbDaily; rw [htk, hq.daily x, hd]
  have hrn : nbRetNext b.demand x = none := by unfold nbRetNext; rw [htk, hq.next x]
  have hin : nbIn lat.cin (lat.nbDay r s.carry) b.demand x = simIn par sim t x := by
    unfold nbIn
    rw [hdl, Option.getD_some]
    simp only [lat, NbWgDay.lat, simIn, sim, WgDay.sim, WgDay.inputs, NbWgDay.off]
    rw [h.state x]
    rfl
  have hred : ∀ u, nbRedist (lat.nbDay r s.carry) b.demand x u
      = (d.off.demand r.unit r.order b'.demand).redist x u := by
    intro u
    unfold nbRedist DemandDay.redist
    rw [hrn, hq.supply x]
    have hprev : (lat.nbDay r s.carry).prev x = b'.demand.prev x := by
      rw [hp]; simp only [NbDayIn.nbDay]; rw [h.unsat x]
    rw [hprev]
    rfl
  have hget : (nbDemand lat.cin (lat.nbDay r s.carry) b.demand x, nbKeep (lat.nbDay r s.carry) b.demand x)
      = sim.get b'.demand x := by
    refine Prod.ext ?_ (funext fun u => ?_)
    · change nbDemand lat.cin (lat.nbDay r s.carry) b.demand x
        = b'.demand.acc x + (if r.unit x > 0 ∧ (d.lateral x).useOpt = true then b'.demand.rip x else 0)
      unfold nbDemand nbOwn
      rw [htk, hq.supply x, hq.acc, hq.rip]
      simp only [Option.getD_none, ite_self, add_zero]
      rfl
    · change (redistribute (nbRedist (lat.nbDay r s.carry) b.demand x u) b.demand.rip).1
        = (redistribute ((d.off.demand r.unit r.order b'.demand).redist x u) b'.demand.rip).1
      rw [hred, hq.rip]
  have hg1 : nbDemand lat.cin (lat.nbDay r s.carry) b.demand x = (sim.get b'.demand x).1 := congrArg Prod.fst hget
  have hg2 : nbKeep (lat.nbDay r s.carry) b.demand x = (sim.get b'.demand x).2 := congrArg Prod.snd hget
  have hturn : nbTurn lat.cin (lat.nbDay r s.carry) b.demand x (b.state x) up
      = cellDay (simIn par sim t x) (b'.state x) up (sim.get b'.demand x).1 (sim.get b'.demand x).2 := by
    unfold nbTurn
    rw [hin, hg1, hg2, hst]
  refine ⟨?_, ?_⟩
  · simp only [node, node', nbNode, basinNode]
    rw [hturn, hin, hg1, hst]
  · intro hno
    simp only [node, node', nbNode, basinNode] at hno ⊢
    rw [hturn] at hno ⊢
    set o := cellDay (simIn par sim t x) (b'.state x) up (sim.get b'.demand x).1 (sim.get b'.demand x).2 with ho
    have hsup : ¬ (nbAlloc lat.cin (lat.nbDay r s.carry) b.demand x o).toSupply > 0 := by
      change ¬ b.demand.toSupply x > 0; rw [hq.supply x]; exact lt_irrefl _
    have ha1 : ∀ ret, (allocate (nbAlloc lat.cin (lat.nbDay r s.carry) b.demand x o) ret).1 = o.unsat := by
      intro ret
      simp only [allocate, allocSplit]
      rw [if_neg hsup]; rfl
    have ha2 : ∀ ret, (allocate (nbAlloc lat.cin (lat.nbDay r s.carry) b.demand x o) ret).2.1 = ret := by
      intro ret
      simp only [allocate]
      rw [if_neg hsup]
    -- nobody is asked
    have hnr : ¬ realCell ((nbUpd lat.cin (lat.nbDay r s.carry) b.demand x o
        (Function.update b.state x o.state)).nbMap x) := by
      rcases hno with h0 | h0
      · exact h0
      · have hu : o.unsat ≤ 0 := h0 o (by simp only [Function.update_self])
        simp only [nbUpd, Function.update_self]
        rw [ha1]
        unfold getNeighbour
        rw [if_neg (not_lt.mpr hu)]
        exact fun k => absurd k.1 (by simp)
    have hnm : (nbUpd lat.cin (lat.nbDay r s.carry) b.demand x o (Function.update b.state x o.state)).nbMap x
        = getNeighbour (nbAvail lat.cin (lat.nbDay r s.carry) (Function.update b.state x o.state))
          ((lat.nbDay r s.carry).nbs x) o.unsat x (lat.nbDay r s.carry).month (lat.nbDay r s.carry).day b.demand.turned := by
      simp only [nbUpd, Function.update_self]
      rw [ha1]
    rw [hnm] at hnr
    have htk' : ¬ (b.demand.takenUp x).isSome = true := by rw [htk]; simp
    refine ⟨⟨?_, ?_, ?_, ?_, ?_, ?_⟩, hp, hd, ?_, ?_, ?_⟩
    · simp only [nbUpd]
      rw [ha1, if_neg hnr, hq.acc]
      rfl
    · simp only [nbUpd, sim, WgDay.sim, ledgerUpd]
      rw [hred, hq.rip]
      rfl
    · intro y
      simp only [nbUpd]
      rw [ha1, if_neg hnr, if_neg (show ¬ b.demand.toSupply x > 0 from hsup)]
      exact hq.supply y
    · intro y
      simp only [nbUpd]
      rw [ha2, if_neg htk']
      exact hq.ret y
    · intro y
      simp only [nbUpd]
      rw [hrn]
      by_cases hy : y = x
      · subst hy; rw [Function.update_self]
      · rw [Function.update_of_ne hy, hq.next y]
    · intro y
      simp only [nbUpd]
      rw [ha1, if_neg (fun k => hnr k.1), hdl]
      change _ = some (b'.demand.daily y)
      by_cases hy : y = x
      · subst hy; rw [Function.update_self, hd]
      · rw [Function.update_of_ne hy, hq.daily y]
    · rw [hst]
    · rw [hout]
    · intro y
      by_cases hy : y = x
      · subst hy; simp only [Function.update_self, Option.map_some, Option.getD_some]
      · simp only [Function.update_of_ne hy]; exact hlast y

/-- The loop of the day without the option. -/
noncomputable def offNet (d : NbWgDay) (t : Sim DemandState) : NetState (Basin DemandState) :=
  simNet par r.order (d.off.sim r.delayed r.unit r.order) t

theorem noAsk_stable (cin : Cell → CellIn) (q : NbDay) (cin' : Cell → CellIn) (get : DemandState → Cell → ℝ × (ℝ → ℝ))
    (upd : DemandState → Cell → CellOut → DemandState) (b : Basin NbLedger) (b' : Basin DemandState) (x y : Cell)
    (up up' : ℝ) (hxy : y ≠ x) (h : NoAsk x (nbNode cin q b y up).1 (basinNode cin' get upd b' y up').1) : NoAsk x b b' := by
  unfold NoAsk at h ⊢
  simp only [nbNode, basinNode, nbUpd] at h
  rw [Function.update_of_ne (Ne.symm hxy), Function.update_of_ne (Ne.symm hxy)] at h
  exact h

theorem off_net (hnd : (r.order.map Prod.fst).Nodup) (d : NbWgDay) (s : NbSim) (t : Sim DemandState) (h : s.Off t)
    (hno : ∀ x ∈ r.order.map Prod.fst, NoAsk x ((d.lat par s).routed r s.carry).ledger (offNet par r d t).ledger) :
    NetAgree (fun _ => true) (QuietAgree t) ((d.lat par s).routed r s.carry) (offNet par r d t) := by
  unfold NbDayIn.routed nbDayRun offNet simNet basinDay route
  apply route_rel_final (QuietAgree t) NoAsk
  · intro l l' x up hl
    exact quiet_step par r d s t h l l' x up hl
  · intro l l' x y up up' hxy hq
    exact noAsk_stable _ _ _ _ _ l l' x y up up' hxy hq
  · exact hnd
  · refine ⟨⟨⟨?_, h.rip, h.supply, fun _ => rfl, fun _ => rfl, ?_⟩, rfl, rfl, ?_, rfl, ?_⟩, fun _ _ => rfl, fun _ _ => rfl,
      fun _ _ => rfl⟩
    · funext x
      change dayDemand (d.lateral x).useOpt r.delayed (d.pot x) (s.carry.unsat x).acc
        = dayDemand (d.lateral x).useOpt r.delayed (d.pot x) (t.demand.acc x)
      rw [h.unsat x]
    · intro x
      change some (s.carry.unsat x).daily = some (t.demand.daily x)
      rw [h.unsat x]
    · funext x
      exact congrArg FullState.lat (h.state x)
    · intro x
      exact congrArg FullState.lat (h.state x)
  · intro e he
    exact hno e.1 (List.mem_map_of_mem he)

theorem off_day (hnd : (r.order.map Prod.fst).Nodup) (d : NbWgDay) (s : NbSim) (t : Sim DemandState) (h : s.Off t)
    (hno : ∀ x ∈ r.order.map Prod.fst, NoAsk x ((d.lat par s).routed r s.carry).ledger (offNet par r d t).ledger) :
    (d.next par r s).Off (simDay par r.order (d.off.sim r.delayed r.unit r.order) t).1 ∧
      ∀ x, d.recs par r s x = (simDay par r.order (d.off.sim r.delayed r.unit r.order) t).2 x := by
  obtain ⟨⟨kq, kp, kd, kst, kout, klast⟩, -, kup, -⟩ := off_net par r hnd d s t h hno
  have hn : simNet par r.order (d.off.sim r.delayed r.unit r.order) t = offNet par r d t := rfl
  refine ⟨⟨fun x => ?_, fun x => ?_, ?_, ?_⟩, fun x => ?_⟩
  · have hv : s.vert x = (t.state x).vert := congrArg FullState.vert (h.state x)
    have hla : s.land x = (t.state x).land := congrArg FullState.land (h.state x)
    simp only [simDay, NbSim.full, NbWgDay.next, NbDayIn.next]
    rw [hn, klast x, kout]
    cases ho : (offNet par r d t).ledger.out x with
    | none =>
      simp only [Option.map_none, Option.getD_none]
      rw [hv, hla]
    | some o =>
      simp only [Option.map_some, Option.getD_some]
      rw [show (⟨s.vert x, s.land x, s.carry.state x⟩ : FullState) = t.state x from h.state x]
      rfl
  · change endOfDay (d.lateral x).useOpt r.delayed (decide (d.month = 12 ∧ d.day = 31))
        (((d.lat par s).routed r s.carry).ledger.demand.acc x) (((d.lat par s).routed r s.carry).ledger.demand.ret x)
        (((d.lat par s).routed r s.carry).ledger.demand.retNext x) (((d.lat par s).routed r s.carry).ledger.demand.daily x)
        (s.carry.unsat x)
      = endOfDay (d.lateral x).useOpt r.delayed (decide (d.month = 12 ∧ d.day = 31))
        ((offNet par r d t).ledger.demand.acc x) none none (some 0)
        ⟨(offNet par r d t).ledger.demand.acc x, (offNet par r d t).ledger.demand.prev x,
          (offNet par r d t).ledger.demand.daily x⟩
    rw [kq.acc, kq.ret x, kq.next x, kq.daily x, h.unsat x, kp, kd]
    unfold endOfDay
    simp only [Option.getD_none, Option.isSome_some, if_true]
  · exact kq.rip
  · intro x
    simp only [NbWgDay.next, NbDayIn.next]
    exact kq.supply x
  · simp only [simDay, NbWgDay.recs, hn]
    rw [kout, kup x rfl, h.state x]
    rfl

/-! ## The claim -/

/-- On none of the days does a cell ask a neighbour (the map of neighbours asked, `neighbouring_cells_map`, has no cell). -/
def NobodyAsks : NbSim → List NbWgDay → Prop
  | _, [] => True
  | s, d :: ds => (∀ x ∈ r.order.map Prod.fst, ¬ realCell ((d.next par r s).carry.nbMap x)) ∧ NobodyAsks (d.next par r s) ds

/-- In the simulation without the option no cell is left with demand after its turn on any of the days. -/
def EverybodyServed : Sim DemandState → List NbWgDay → Prop
  | _, [] => True
  | t, d :: ds => (∀ x ∈ r.order.map Prod.fst, ∀ o, (offNet par r d t).ledger.out x = some o → o.unsat ≤ 0) ∧
      EverybodyServed (simDay par r.order (d.off.sim r.delayed r.unit r.order) t).1 ds

theorem wgRun_world (t : Sim DemandState) (days : List NbWgDay) :
    wgRun par r.delayed r.unit r.order (fun _ => true) t (days.map NbWgDay.off)
      = simRun par r.order t (days.map fun d => d.off.sim r.delayed r.unit r.order) := by
  have hall : masked r.order (fun _ => true) = r.order := by simp [masked]
  unfold wgRun
  rw [hall, List.map_map]
  rfl

/-- **C83.**  As long as no cell asks a neighbour, a simulation with water supply from neighbouring cells has the states,
the demands and the records of the simulation without the option. -/
theorem C83_nobody_asks (hnd : (r.order.map Prod.fst).Nodup) (days : List NbWgDay) (s : NbSim) (t : Sim DemandState)
    (h : s.Off t) (hno : NobodyAsks par r s days) :
    let g := nbSimRun par r s days
    let b := wgRun par r.delayed r.unit r.order (fun _ => true) t (days.map NbWgDay.off)
    g.1.Off b.1 ∧ g.2 = b.2 := by
  rw [wgRun_world]
  induction days generalizing s t with
  | nil => exact ⟨h, rfl⟩
  | cons d ds ih =>
    obtain ⟨k1, k2⟩ := off_day par r hnd d s t h fun x hx => Or.inl (hno.1 x hx)
    obtain ⟨i1, i2⟩ := ih _ _ k1 hno.2
    refine ⟨i1, ?_⟩
    simp only [nbSimRun, List.map_cons, simRun]
    rw [show d.recs par r s = (simDay par r.order (d.off.sim r.delayed r.unit r.order) t).2 from funext k2]
    exact congrArg _ i2

/-- **C83.**  In particular the option changes nothing in a simulation in which every cell can meet its demand itself: then
no cell asks a neighbour. -/
theorem C83_everybody_served (hnd : (r.order.map Prod.fst).Nodup) (days : List NbWgDay) (s : NbSim) (t : Sim DemandState)
    (h : s.Off t) (hno : EverybodyServed par r t days) :
    let g := nbSimRun par r s days
    let b := wgRun par r.delayed r.unit r.order (fun _ => true) t (days.map NbWgDay.off)
    g.1.Off b.1 ∧ g.2 = b.2 := by
  rw [wgRun_world]
  induction days generalizing s t with
  | nil => exact ⟨h, rfl⟩
  | cons d ds ih =>
    obtain ⟨k1, k2⟩ := off_day par r hnd d s t h fun x hx => Or.inr (hno.1 x hx)
    obtain ⟨i1, i2⟩ := ih _ _ k1 hno.2
    refine ⟨i1, ?_⟩
    simp only [nbSimRun, List.map_cons, simRun]
    rw [show d.recs par r s = (simDay par r.order (d.off.sim r.delayed r.unit r.order) t).2 from funext k2]
    exact congrArg _ i2

/-- No demand for surface water is open. -/
def DemandState.None (l : DemandState) : Prop := ∀ x, l.acc x = 0 ∧ l.prev x = 0 ∧ l.daily x = 0 ∧ l.rip x = 0

theorem served_of_none (days : List NbWgDay) (hpot : ∀ d ∈ days, ∀ x, d.pot x = 0) (t : Sim DemandState)
    (h : t.demand.None) : EverybodyServed par r t days := by
  induction days generalizing t with
  | nil => trivial
  | cons d ds ih =>
    have key := simNet_inv par r.order (d.off.sim r.delayed r.unit r.order) t DemandState.None (fun _ o => o.unsat ≤ 0)
      (by
        intro x
        refine ⟨?_, (h x).2⟩
        change dayDemand (d.lateral x).useOpt r.delayed (d.pot x) (t.demand.acc x) = 0
        unfold dayDemand
        rw [hpot d (by simp) x, (h x).1]
        split_ifs <;> simp)
      (by
        intro l x st up hl o
        have hred := fun u (hu : u = 0) => redistribute_zero ((d.off.demand r.unit r.order l).redist x u) l.rip hu (hl x).2.1 rfl
          rfl fun y => (hl y).2.2.2
        have hg1 : ((d.off.sim r.delayed r.unit r.order).get l x).1 = 0 := by
          simp only [WgDay.sim, ledgerGet]
          rw [(hl x).1, (hl x).2.2.2]
          split_ifs <;> simp
        have ho : o = cellDay (simIn par (d.off.sim r.delayed r.unit r.order) t x) st up 0
            ((d.off.sim r.delayed r.unit r.order).get l x).2 := by rw [← hg1]
        obtain ⟨-, h2, -, h4⟩ := cellDay_noDemand (simIn par (d.off.sim r.delayed r.unit r.order) t x) st up
          ((d.off.sim r.delayed r.unit r.order).get l x).2 (fun _ => (hred 0 rfl).1)
        rw [← ho] at h2 h4
        refine ⟨fun y => ⟨?_, (hl y).2.1, (hl y).2.2.1, ?_⟩, h2.le⟩
        · change Function.update l.acc x o.unsat y = 0
          by_cases hy : y = x
          · subst hy; rw [Function.update_self]; exact h2
          · rw [Function.update_of_ne hy]; exact (hl y).1
        · simp only [WgDay.sim, ledgerUpd]
          split_ifs
          · exact (hred o.lakeUnsat h4).2 y
          · exact (hl y).2.2.2)
    refine ⟨fun x _ o ho => key.2 x o ho, ih (fun d hd => hpot d (by simp [hd])) _ ?_⟩
    intro x
    obtain ⟨k1, k2, k3, k4⟩ := key.1 x
    simp only [simDay, WgDay.sim] at k1 k2 k3 k4 ⊢
    rw [k1, k2, k3]
    refine ⟨?_, ?_, ?_, k4⟩ <;> unfold endOfDay <;> simp <;> split_ifs <;> simp

/-- **C83.**  Without demand for surface water the option changes nothing. -/
theorem C83_no_demand (hnd : (r.order.map Prod.fst).Nodup) (days : List NbWgDay) (hpot : ∀ d ∈ days, ∀ x, d.pot x = 0)
    (s : NbSim) (t : Sim DemandState) (h : s.Off t) (hz : t.demand.None) :
    let g := nbSimRun par r s days
    let b := wgRun par r.delayed r.unit r.order (fun _ => true) t (days.map NbWgDay.off)
    g.1.Off b.1 ∧ g.2 = b.2 :=
  C83_everybody_served par r hnd days s t h (served_of_none par r days hpot t hz)

/-- **C83.**  Neither does it in a world whose cells have no neighbours (single-cell islands). -/
theorem C83_no_neighbours (hnd : (r.order.map Prod.fst).Nodup) (hnb : ∀ x, ∀ p ∈ r.nbs x, ¬ realCell p.1)
    (days : List NbWgDay) (s : NbSim) (t : Sim DemandState) (h : s.Off t) :
    let g := nbSimRun par r s days
    let b := wgRun par r.delayed r.unit r.order (fun _ => true) t (days.map NbWgDay.off)
    g.1.Off b.1 ∧ g.2 = b.2 := by
  apply C83_nobody_asks par r hnd days s t h
  clear h t
  induction days generalizing s with
  | nil => trivial
  | cons d ds ih =>
    refine ⟨?_, ih _⟩
    suffices H : ∀ (w : List (Cell × Cell)) (cin : Cell → CellIn) (q : NbDay), q.nbs = r.nbs →
        ∀ n : NetState (Basin NbLedger), ∀ x, (x ∈ w.map Prod.fst ∨ ¬ realCell (n.ledger.demand.nbMap x)) →
        ¬ realCell ((w.foldl (routeStep (nbNode cin q)) n).ledger.demand.nbMap x) from
      fun x hx => H r.order _ _ rfl _ x (Or.inl hx)
    intro w cin q hq
    induction w with
    | nil => intro n x hx; exact hx.resolve_left (by simp)
    | cons e w ihw =>
      intro n x hx
      rw [List.foldl_cons]
      apply ihw
      by_cases hw : x ∈ w.map Prod.fst
      · exact Or.inl hw
      · right
        simp only [routeStep, nbNode, nbUpd]
        by_cases hxe : x = e.1
        · subst hxe
          rw [Function.update_self]
          intro hre
          rcases neighbour_cases (nbAvail cin q (Function.update n.ledger.state e.1
            (nbTurn cin q n.ledger.demand e.1 (n.ledger.state e.1) (n.inflow e.1)).state)) (q.nbs e.1) _ e.1 q.month q.day
            n.ledger.demand.turned with h0 | ⟨-, p, hp, he, -⟩
          · rw [h0] at hre; exact absurd hre.1 (by simp)
          · rw [he] at hre
            rw [hq] at hp
            exact hnb e.1 p hp hre
        · rw [Function.update_of_ne hxe]
          rcases hx with hx | hx
          · simp only [List.map_cons, List.mem_cons] at hx
            exact absurd (hx.resolve_left hxe) hw
          · exact hx

end

/-! ### The hypotheses are met -/

/-- The state of a simulation as one without the option sees it. -/
def NbSim.plain (s : NbSim) : Sim DemandState :=
  ⟨⟨fun x => (s.carry.unsat x).acc, fun x => (s.carry.unsat x).prev, fun x => (s.carry.unsat x).daily, s.carry.rip⟩, s.full⟩

theorem plain_off (s : NbSim) (h : ∀ x, s.carry.toSupply x = 0) : s.Off s.plain := ⟨fun _ => rfl, fun _ => rfl, rfl, h⟩

/-- The cells of `waitSim` with open demand at which nobody waits. -/
noncomputable def calmSim : NbSim :=
  { waitSim with carry := { waitCarry with toSupply := fun _ => 0, sent := fun _ => 0, nbMap := fun _ => (0, 0) } }

/-- Two cells with demand, on two islands. -/
example := C83_no_neighbours (fun _ => exFull) { askRun with nbs := fun _ => [((0, 0), (0, 0))] } (by decide)
  (by intro x p hp; simp only [List.mem_singleton] at hp; subst hp; decide) [waitDay, waitDay] calmSim calmSim.plain
  (plain_off _ fun _ => rfl)

example := C83_nobody_asks (fun _ => exFull) { askRun with nbs := fun _ => [] } (by decide) [waitDay] calmSim calmSim.plain
  (plain_off _ fun _ => rfl)
  ⟨by
    intro x hx
    simp only [askRun, dryOrder, List.map_cons, List.map_nil, List.mem_cons, List.not_mem_nil, or_false] at hx
    rcases hx with rfl | rfl
    all_goals
      change ¬ realCell (getNeighbour _ [] _ _ _ _ _)
      unfold getNeighbour
      simp only [List.foldl_nil]
      split_ifs <;> decide, trivial⟩

/-- Two neighbours that need no surface water: nobody asks, and the reservoir they share works as without the option. -/
noncomputable def idleSim : NbSim :=
  { calmSim with carry := { calmSim.carry with unsat := fun _ => ⟨0, 0, 0⟩, rip := fun _ => 0 } }

example := C83_no_demand (fun _ => exFull) askRun (by decide) [{ waitDay with pot := fun _ => 0, unagg := fun _ => 0 }]
  (by intro d hd; simp only [List.mem_singleton] at hd; subst hd; intro x; rfl) idleSim idleSim.plain
  (plain_off _ fun _ => rfl) (fun _ => ⟨rfl, rfl, rfl, rfl⟩)

example := C83_everybody_served (fun _ => exFull) askRun (by decide)
  [{ waitDay with pot := fun _ => 0, unagg := fun _ => 0 }] idleSim idleSim.plain (plain_off _ fun _ => rfl)
  (served_of_none _ _ _ (by intro d hd; simp only [List.mem_singleton] at hd; subst hd; intro x; rfl) _
    (fun _ => ⟨rfl, rfl, rfl, rfl⟩))

end WG
