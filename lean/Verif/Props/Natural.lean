import Verif.Model.Natural
import Verif.Props.Whole

/-!
# C79: simulations without water use
-/

namespace WG

/-! ## A cell that is asked for nothing -/

section
variable (c : CellIn) (st : CellState) (up : ℝ) (keep : ℝ → ℝ)

theorem lakeDemand_zero (kind : LakeKind) (i : LakeIn) (h : i.demand = 0) : lakeDemand kind i = 0 := by
  unfold lakeDemand; rw [h]; cases kind <;> simp

theorem lakeUnsat_zero (kind : LakeKind) (i : LakeIn) (s : ℝ) (h : i.demand = 0) : lakeUnsat kind i s = 0 := by
  unfold lakeUnsat; rw [lakeDemand_zero kind i h]; simp

theorem gloLake_noDemand : (cellGloLake c st up 0).use = 0 ∧ (cellGloLake c st up 0).unsat = 0 := by
  unfold cellGloLake bodyDay
  split_ifs
  · simp only [lakeBalance]
    rw [lakeUnsat_zero _ _ _ rfl, lakeDemand_zero _ _ rfl]; simp
  · exact ⟨rfl, rfl⟩

theorem resAbstract_zero (st cap : ℝ) : (resAbstract 0 st cap).2 = 0 := by
  unfold resAbstract
  rw [if_neg (lt_irrefl 0)]
  split_ifs with h1 h2
  · rfl
  · exact absurd (by linarith) h2
  · rfl

theorem res_noDemand : (cellRes c st up 0).use = 0 ∧ (cellRes c st up 0).unsat = 0 := by
  unfold cellRes
  split_ifs
  · have hd : resDemand (cellResIn c st up 0) = 0 := by
      simp only [resDemand, cellResIn, (gloLake_noDemand c st up).2]; split_ifs <;> simp
    simp only [resBalance, hd, resAbstract_zero, sub_zero, and_self]
  · exact ⟨rfl, rfl⟩

theorem unsat1_noDemand : cellUnsat1 c st up 0 = 0 := by
  unfold cellUnsat1
  rw [(res_noDemand c st up).2, (gloLake_noDemand c st up).2]; simp

theorem unsat2_noDemand (hk : c.useOpt = true → keep 0 = 0) : cellUnsat2 c st up 0 keep = 0 := by
  unfold cellUnsat2
  rw [unsat1_noDemand]
  split_ifs with h
  · exact hk h.1
  · rfl

theorem river_noDemand (minV corr k s q : ℝ) : (riverBalance minV corr k s q 0).use = 0 ∧
    (riverBalance minV corr k s q 0).unsat = 0 := by
  simp only [riverBalance]; split_ifs <;> simp_all

theorem tapped_noDemand (hk : c.useOpt = true → keep 0 = 0) :
    cellTapped c st up 0 keep = ((cellLocLake c st).storage, 0, (cellLocLake c st).newFrac, 0) := by
  have hr : (cellRiver c st up 0 keep).unsat = 0 := by
    unfold cellRiver; rw [unsat2_noDemand c st up keep hk]; exact (river_noDemand _ _ _ _ _).2
  unfold cellTapped
  rw [if_neg (by unfold cellTap; rw [hr]; rintro ⟨-, -, h, -⟩; exact lt_irrefl _ h), hr]

theorem cellDay_noDemand (hk : c.useOpt = true → keep 0 = 0) :
    let o := cellDay c st up 0 keep
    o.nas = 0 ∧ o.unsat = 0 ∧ o.handed = 0 ∧ o.lakeUnsat = 0 := by
  have ht := tapped_noDemand c st up keep hk
  have hu := unsat2_noDemand c st up keep hk
  have hr : (cellRiver c st up 0 keep).use = 0 := by
    unfold cellRiver; rw [hu]; exact (river_noDemand _ _ _ _ _).1
  refine ⟨?_, ?_, ?_, unsat1_noDemand c st up⟩
  · simp only [cellDay]
    rw [ht, hr, (gloLake_noDemand c st up).1, (res_noDemand c st up).1]; simp
  · simp only [cellDay]; rw [ht]
  · simp only [cellDay]; rw [hu, unsat1_noDemand, sub_zero]

/-- The groundwater abstraction of a cell whose demand for groundwater is zero. -/
theorem gw_nag_zero (kind : GwKind) (s r u k w cu f p : ℝ) (h : u = 0 ∨ w ≤ 0) :
    (groundwaterBalance kind s r 0 u k w cu f p).nag = 0 := by
  simp only [groundwaterBalance]
  rcases h with h | h
  · rw [if_neg (by simp [h])]
  · have : updateNetabsGw 0 w cu u f = 0 := by
      unfold updateNetabsGw
      have hw : ¬ w > 0 := not_lt.mpr h
      simp only [hw, if_false, ite_self]
    rw [this, ite_self]

/-- The groundwater balance depends on unsatisfied demand, withdrawal and consumptive use through the abstraction only. -/
theorem gw_of_nag (kind : GwKind) (s r k f p u w cu u' w' cu' : ℝ) (h : u = 0 ∨ w ≤ 0) (h' : u' = 0 ∨ w' ≤ 0) :
    groundwaterBalance kind s r 0 u k w cu f p = groundwaterBalance kind s r 0 u' k w' cu' f p := by
  have e := gw_nag_zero kind s r u k w cu f p h
  have e' := gw_nag_zero kind s r u' k w' cu' f p h'
  simp only [groundwaterBalance] at e e' ⊢
  rw [e, e']

/-- Without demand, a cell does the same whether or not water use is subtracted. -/
theorem cellDay_quiet (b : Bool) (u w cu : ℝ) (keep' : ℝ → ℝ) (h0 : c.potNag = 0) (h : c.unsatNas = 0 ∨ c.withdrawal ≤ 0)
    (h' : u = 0 ∨ w ≤ 0) (hk : c.useOpt = true → keep 0 = 0) (hk' : b = true → keep' 0 = 0) :
    let c' : CellIn := { c with useOpt := b, unsatNas := u, withdrawal := w, consumptive := cu }
    cellDay c' st up 0 keep' = cellDay c st up 0 keep ∧ cellRiverIn c' st up 0 = cellRiverIn c st up 0 := by
  intro c'
  have hg : ∀ p, cellGw c' st p = cellGw c st p := by
    intro p
    unfold cellGw
    rw [h0]
    exact gw_of_nag c.gwKind st.gw c.recharge c.gwK c.fracReturn p u w cu c.unsatNas c.withdrawal c.consumptive h' h
  have he : cellEarlyDischarge c' st = cellEarlyDischarge c st := by
    unfold cellEarlyDischarge; rw [hg]; rfl
  have hs : cellSplit c' st = cellSplit c st := by unfold cellSplit; rw [he]
  have hll : cellLocLake c' st = cellLocLake c st := by unfold cellLocLake; rw [hs]; rfl
  have hlw : cellLocWet c' st = cellLocWet c st := by unfold cellLocWet; rw [hll]; rfl
  have hgl : cellGloLake c' st up 0 = cellGloLake c st up 0 := by unfold cellGloLake; rw [hlw]; rfl
  have hri : cellResIn c' st up 0 = cellResIn c st up 0 := by unfold cellResIn; rw [hgl]
  have hrs : cellRes c' st up 0 = cellRes c st up 0 := by unfold cellRes; rw [hri, hgl]
  have hgw : cellGloWet c' st up 0 = cellGloWet c st up 0 := by unfold cellGloWet; rw [hrs]; rfl
  have hp : cellPoint c' st up 0 = cellPoint c st up 0 := by unfold cellPoint; rw [hll, hlw, hgl, hgw, hrs]
  have hgf : cellGwFinal c' st up 0 = cellGwFinal c st up 0 := by unfold cellGwFinal; rw [hp, hg]
  have hrin : cellRiverIn c' st up 0 = cellRiverIn c st up 0 := by
    unfold cellRiverIn; rw [hs, hgf, hgw]; rfl
  have hrv : cellRiver c' st up 0 keep' = cellRiver c st up 0 keep := by
    unfold cellRiver
    rw [unsat2_noDemand c' st up keep' hk', unsat2_noDemand c st up keep hk, hrin]
  refine ⟨?_, hrin⟩
  have ht := tapped_noDemand c st up keep hk
  have ht' := tapped_noDemand c' st up keep' hk'
  rw [hll] at ht'
  simp only [cellDay]
  rw [hll, hlw, hgl, hrs, hgw, hgf, hrv, ht, ht', unsat1_noDemand, unsat1_noDemand,
    unsat2_noDemand c' st up keep' hk', unsat2_noDemand c st up keep hk]
  rfl

end

/-! ## Two simulations side by side -/

section
variable {δ ε : Type} (par : Cell → FullPar) (order : List (Cell × Cell))

theorem simDay_rel (R : δ → ε → Prop) (d : SimDay δ) (e : SimDay ε) (s : Sim δ) (t : Sim ε) (hst : s.state = t.state)
    (hw : d.weather = e.weather) (hR : R (d.start s.demand) (e.start t.demand))
    (hstep : ∀ l m x st up, R l m →
      let o := cellDay (simIn par d s x) st up (d.get l x).1 (d.get l x).2
      let o' := cellDay (simIn par e t x) st up (e.get m x).1 (e.get m x).2
      o = o' ∧ cellRiverIn (simIn par d s x) st up (d.get l x).1 = cellRiverIn (simIn par e t x) st up (e.get m x).1 ∧
        R (d.upd l x o) (e.upd m x o'))
    (hrec : ∀ x up o, fullRec (par x) (d.lateral s.demand x) (d.weather x) (s.state x) up o
      = fullRec (par x) (e.lateral t.demand x) (e.weather x) (t.state x) up o) :
    (simDay par order d s).1.state = (simDay par order e t).1.state ∧
    (simDay par order d s).2 = (simDay par order e t).2 ∧
    (simNet par order d s).ledger.out = (simNet par order e t).ledger.out ∧
    ∃ l m, R l m ∧ (simDay par order d s).1.demand = d.close l ∧ (simDay par order e t).1.demand = e.close m := by
  have key : NetAgree (fun _ => true) (fun (b : Basin δ) (b' : Basin ε) => R b.demand b'.demand ∧ b.state = b'.state ∧ b.out = b'.out)
      (simNet par order d s) (simNet par order e t) := by
    unfold simNet basinDay route
    apply route_rel
    · intro b b' x up ⟨h1, h2, h3⟩
      obtain ⟨k1, k2, k3⟩ := hstep b.demand b'.demand x (b'.state x) up h1
      simp only [basinNode]
      rw [h2, h3]
      refine ⟨⟨k3, ?_, ?_⟩, ?_⟩
      · rw [k1]
      · rw [k1]
      · rw [k1, k2]
    · exact ⟨⟨hR, by simp only [routeStart]; rw [hst], rfl⟩, fun _ _ => rfl, fun _ _ => rfl, fun _ _ => rfl⟩
  obtain ⟨h1, h2, h3⟩ := key.ledger
  refine ⟨?_, ?_, h3, _, _, h1, rfl, rfl⟩
  · simp only [simDay]
    rw [h3, hst, hw]
  · funext x
    simp only [simDay]
    rw [h3, key.up x rfl]
    congr 1
    funext o
    exact hrec x _ o

end

/-! ## Simulations without water use -/

/-- No groundwater abstraction is carried over into a simulation without water use: where unsatisfied demand is
remembered, no withdrawal for irrigation is. -/
def UseCarry.Quiet (c : UseCarry) : Prop := ∀ x, c.ledger.daily x = 0 ∨ c.prevW x ≤ 0

/-- Two days with the same weather and the same lateral inputs; the water-use data may differ. -/
def SameNature (d e : NatDay) : Prop := d.weather = e.weather ∧ d.lateral = e.lateral

/-- The in-day ledger of a run in which nothing is demanded. -/
def StillDay (subtract : Bool) (c : UseCarry) : Prop :=
  c.Quiet ∧ (∀ x, c.ledger.acc x = 0) ∧
    (subtract = true → (∀ x, c.ledger.prev x = 0) ∧ (∀ x, c.ledger.rip x = 0) ∧ ∀ x, c.ledger.daily x = 0)

theorem redistribute_zero (i : RedistIn Cell) (rip : Cell → ℝ) (ha : i.acc = 0) (hp : i.prev = 0) (hs : i.toSupply = 0)
    (hr : i.prevReturned = none) (hrip : ∀ x, rip x = 0) :
    (redistribute i rip).1 = 0 ∧ ∀ x, (redistribute i rip).2 x = 0 := by
  have hc : i.carried = 0 := by simp [RedistIn.carried, hr, hp, hs]
  unfold redistribute
  suffices H : ∀ (l : List Cell) (st : ℝ × (Cell → ℝ)), st.1 = 0 → (∀ x, st.2 x = 0) →
      (l.foldl (redistStep i) st).1 = 0 ∧ ∀ x, (l.foldl (redistStep i) st).2 x = 0 from H _ _ ha hrip
  intro l
  induction l with
  | nil => exact fun st h1 h2 => ⟨h1, h2⟩
  | cons r l ih =>
    intro st h1 h2
    rw [List.foldl_cons]
    apply ih
    · unfold redistStep
      rw [hc, ha]
      by_cases k1 : i.unit i.x = i.unit r ∧ i.x ≠ r
      · rw [if_pos k1, if_neg (by simp)]
      · rw [if_neg k1]; exact h1
    · intro x
      unfold redistStep
      rw [hc, ha]
      by_cases k1 : i.unit i.x = i.unit r ∧ i.x ≠ r
      · rw [if_pos k1, if_neg (by simp)]
        change Function.update (Function.update st.2 r 0) i.x 0 x = 0
        by_cases hx : x = i.x
        · subst hx; rw [Function.update_self]
        · rw [Function.update_of_ne hx]
          by_cases hxr : x = r
          · subst hxr; rw [Function.update_self]
          · rw [Function.update_of_ne hxr]; exact h2 x
      · rw [if_neg k1]; exact h2 x

section
variable (par : Cell → FullPar) (sub delayed : Bool) (unit : Cell → ℕ) (world : List (Cell × Cell))

/-- In a run in which nothing is demanded a cell asks for nothing. -/
theorem still_get (d : NatDay) (l : UseCarry) (hl : StillDay sub l) (x : Cell) :
    ((d.sim sub delayed unit world).get l x).1 = 0 ∧ (sub = true → ((d.sim sub delayed unit world).get l x).2 0 = 0) := by
  obtain ⟨hq, ha, hs⟩ := hl
  constructor
  · simp only [NatDay.sim, WgDay.sim, ledgerGet, NatDay.wg, WgDay.demand]
    rw [ha x]
    cases sub with
    | false => simp
    | true => simp [(hs rfl).2.1 x]
  · intro h
    obtain ⟨h1, h2, h3⟩ := hs h
    simp only [NatDay.sim, WgDay.sim, ledgerGet, NatDay.wg, WgDay.demand, DemandDay.redist]
    exact (redistribute_zero _ _ rfl (h1 x) rfl rfl h2).1

theorem still_upd (d : NatDay) (l : UseCarry) (hl : StillDay sub l) (x : Cell)
    (o : CellOut) (ho : o.unsat = 0) (ho' : o.lakeUnsat = 0) : StillDay sub ((d.sim sub delayed unit world).upd l x o) := by
  obtain ⟨hq, ha, hs⟩ := hl
  refine ⟨hq, fun y => ?_, fun h => ?_⟩
  · simp only [NatDay.sim, WgDay.sim, ledgerUpd, ho]
    by_cases hy : y = x
    · subst hy; rw [Function.update_self]
    · rw [Function.update_of_ne hy, ha y]
  · obtain ⟨h1, h2, h3⟩ := hs h
    refine ⟨h1, fun y => ?_, h3⟩
    simp only [NatDay.sim, WgDay.sim, ledgerUpd, WgDay.demand, DemandDay.redist, ho']
    split_ifs
    · exact (redistribute_zero _ _ rfl (h1 x) rfl rfl h2).2 y
    · exact h2 y

theorem still_start (d : NatDay) (hd : readUse sub d.use = UseData.zero) (c : UseCarry) (hq : c.Quiet)
    (hc : sub = true → StillDay true c) : StillDay sub ((d.sim sub delayed unit world).start c) := by
  refine ⟨hq, fun y => ?_, fun h => ?_⟩
  · simp only [NatDay.sim, WgDay.sim, dayDemand, NatDay.wg, hd, UseData.zero]
    cases sub with
    | false => simp
    | true => simp [(hc rfl).2.1 y]
  · exact (hc h).2.2 rfl

/-- At the end of such a day the memory asks for nothing on the next day. -/
theorem still_close (d : NatDay) (hd : readUse sub d.use = UseData.zero) (l : UseCarry) (hl : StillDay sub l) :
    StillDay sub ((d.sim sub delayed unit world).close l) ∧ ((d.sim sub delayed unit world).close l).Quiet := by
  obtain ⟨hq, ha, hs⟩ := hl
  have hq' : ((d.sim sub delayed unit world).close l).Quiet := by
    intro x
    refine Or.inr ?_
    simp only [NatDay.sim, hd, UseData.zero, le_refl]
  refine ⟨⟨hq', fun x => ?_, fun h => ?_⟩, hq'⟩
  · simp only [NatDay.sim, WgDay.sim, endOfDay, Option.getD_none, ha x]
    split_ifs <;> rfl
  · obtain ⟨h1, h2, h3⟩ := hs h
    refine ⟨fun x => ?_, h2, fun x => ?_⟩
    · simp only [NatDay.sim, WgDay.sim, endOfDay, Option.getD_none, ha x, h1 x]
      split_ifs <;> rfl
    · simp only [NatDay.sim, WgDay.sim, endOfDay, Option.getD_none, ha x, h1 x, h3 x, sub_zero, ite_self]

end

section
variable (par : Cell → FullPar) (sub delayed sub' delayed' : Bool) (unit unit' : Cell → ℕ)
  (world world' order : List (Cell × Cell))

/-- The memory at the start of a day on which nothing is demanded. -/
def StillStart (sub : Bool) (c : UseCarry) : Prop := c.Quiet ∧ (sub = true → StillDay true c)

theorem natIn_zero (d : NatDay) (hd : readUse sub d.use = UseData.zero) (s : Sim UseCarry) (x : Cell) :
    (simIn par (d.sim sub delayed unit world) s x).potNag = 0 ∧
    (simIn par (d.sim sub delayed unit world) s x).useOpt = sub ∧
    (simIn par (d.sim sub delayed unit world) s x).unsatNas = s.demand.ledger.daily x ∧
    (simIn par (d.sim sub delayed unit world) s x).withdrawal = s.demand.prevW x := by
  refine ⟨?_, rfl, rfl, rfl⟩
  simp only [simIn, fullIn, NatDay.sim, WgDay.sim, WgDay.inputs, NatDay.wg, hd, UseData.zero]

theorem natIn_same (d e : NatDay) (hde : SameNature d e) (hd : readUse sub d.use = UseData.zero)
    (he : readUse sub' e.use = UseData.zero) (s t : Sim UseCarry) (hst : s.state = t.state) (x : Cell) :
    simIn par (e.sim sub' delayed' unit' world') t x =
      { simIn par (d.sim sub delayed unit world) s x with
        useOpt := sub', unsatNas := t.demand.ledger.daily x, withdrawal := t.demand.prevW x,
        consumptive := t.demand.prevC x } := by
  simp only [simIn, fullIn, NatDay.sim, WgDay.sim, WgDay.inputs, NatDay.wg, hd, he, hde.1, hde.2, hst, UseData.zero]

/-- Two runs side by side in which nothing is demanded, one day. -/
theorem natDay_same (d e : NatDay) (hde : SameNature d e) (hd : readUse sub d.use = UseData.zero)
    (he : readUse sub' e.use = UseData.zero) (s t : Sim UseCarry) (hst : s.state = t.state)
    (hs : StillStart sub s.demand) (ht : StillStart sub' t.demand) :
    let r := simDay par order (d.sim sub delayed unit world) s
    let r' := simDay par order (e.sim sub' delayed' unit' world') t
    r.1.state = r'.1.state ∧ r.2 = r'.2 ∧
      (simNet par order (d.sim sub delayed unit world) s).ledger.out
        = (simNet par order (e.sim sub' delayed' unit' world') t).ledger.out ∧
      StillStart sub r.1.demand ∧ StillStart sub' r'.1.demand := by
  obtain ⟨k1, k2, k3, l, m, ⟨k4, k5⟩, k6, k7⟩ := simDay_rel par order (fun l m => StillDay sub l ∧ StillDay sub' m)
    (d.sim sub delayed unit world) (e.sim sub' delayed' unit' world') s t hst hde.1
    ⟨still_start sub delayed unit world d hd _ hs.1 hs.2, still_start sub' delayed' unit' world' e he _ ht.1 ht.2⟩
    (by
      intro l m x st up ⟨hl, hm⟩
      obtain ⟨g1, g2⟩ := still_get sub delayed unit world d l hl x
      obtain ⟨g1', g2'⟩ := still_get sub' delayed' unit' world' e m hm x
      obtain ⟨i1, i2, i3, i4⟩ := natIn_zero par sub delayed unit world d hd s x
      obtain ⟨i1', i2', i3', i4'⟩ := natIn_zero par sub' delayed' unit' world' e he t x
      have hk : (simIn par (d.sim sub delayed unit world) s x).useOpt = true →
          ((d.sim sub delayed unit world).get l x).2 0 = 0 := fun h => g2 (i2 ▸ h)
      have q := cellDay_quiet (simIn par (d.sim sub delayed unit world) s x) st up
        ((d.sim sub delayed unit world).get l x).2 sub' (t.demand.ledger.daily x) (t.demand.prevW x) (t.demand.prevC x)
        ((e.sim sub' delayed' unit' world').get m x).2 i1 (by rw [i3, i4]; exact hs.1 x) (ht.1 x) hk g2'
      have o1 := cellDay_noDemand (simIn par (d.sim sub delayed unit world) s x) st up
        ((d.sim sub delayed unit world).get l x).2 hk
      rw [natIn_same par sub delayed sub' delayed' unit unit' world world' d e hde hd he s t hst x]
      simp only at q o1 ⊢
      rw [g1, g1']
      refine ⟨q.1.symm, q.2.symm, still_upd sub delayed unit world d l hl x _ o1.2.1 o1.2.2.2, ?_⟩
      rw [q.1]
      exact still_upd sub' delayed' unit' world' e m hm x _ o1.2.1 o1.2.2.2)
    (by
      intro x up o
      simp only [fullRec, fullIn, NatDay.sim, WgDay.sim, WgDay.inputs, NatDay.wg, hde.1, hde.2, hst]
      rfl)
  have c1 := still_close sub delayed unit world d hd l k4
  have c2 := still_close sub' delayed' unit' world' e he m k5
  refine ⟨k1, k2, k3, ?_, ?_⟩
  · rw [k6]; exact ⟨c1.2, fun h => by cases h; exact c1.1⟩
  · rw [k7]; exact ⟨c2.2, fun h => by cases h; exact c2.1⟩

end

/-- What holds of the ledger during the day and of what every simulated cell does. -/
theorem simNet_inv {δ : Type} (par : Cell → FullPar) (order : List (Cell × Cell)) (d : SimDay δ) (s : Sim δ) (R : δ → Prop)
    (P : Cell → CellOut → Prop) (hR : R (d.start s.demand))
    (hstep : ∀ l x st up, R l →
      let o := cellDay (simIn par d s x) st up (d.get l x).1 (d.get l x).2
      R (d.upd l x o) ∧ P x o) :
    R (simNet par order d s).ledger.demand ∧ ∀ x o, (simNet par order d s).ledger.out x = some o → P x o := by
  unfold simNet basinDay route
  suffices H : ∀ (l : List (Cell × Cell)) (n : NetState (Basin δ)), R n.ledger.demand →
      (∀ x o, n.ledger.out x = some o → P x o) →
      R (l.foldl (routeStep (basinNode (simIn par d s) d.get d.upd)) n).ledger.demand ∧
      ∀ x o, (l.foldl (routeStep (basinNode (simIn par d s) d.get d.upd)) n).ledger.out x = some o → P x o from
    H order _ hR (fun x o h => by simp [routeStart] at h)
  intro l
  induction l with
  | nil => exact fun n h1 h2 => ⟨h1, h2⟩
  | cons e l ih =>
    intro n h1 h2
    rw [List.foldl_cons]
    obtain ⟨k1, k2⟩ := hstep n.ledger.demand e.1 (n.ledger.state e.1) (n.inflow e.1) h1
    apply ih
    · exact k1
    · intro x o ho
      simp only [routeStep, basinNode] at ho
      by_cases hx : x = e.1
      · subst hx
        rw [Function.update_self] at ho
        cases ho
        exact k2
      · rw [Function.update_of_ne hx] at ho
        exact h2 x o ho

/-- After a day without water use nothing remembered leads to an abstraction. -/
theorem quiet_next (par : Cell → FullPar) (order : List (Cell × Cell)) (delayed : Bool) (unit : Cell → ℕ)
    (world : List (Cell × Cell)) (d : NatDay) (s : Sim UseCarry) :
    (simDay par order (d.sim false delayed unit world) s).1.demand.Quiet := fun _ => Or.inr le_rfl

/-! ## The property -/

section
variable (par : Cell → FullPar) (world : List (Cell × Cell)) (B : Cell → Bool)

theorem natRun_cons (sub delayed : Bool) (unit : Cell → ℕ) (s : Sim UseCarry) (d : NatDay) (ds : List NatDay) :
    natRun par sub delayed unit world B s (d :: ds) =
      ((natRun par sub delayed unit world B
          (simDay par (masked world B) (d.sim sub delayed unit world) s).1 ds).1,
        (simDay par (masked world B) (d.sim sub delayed unit world) s).2 ::
          (natRun par sub delayed unit world B
            (simDay par (masked world B) (d.sim sub delayed unit world) s).1 ds).2) := rfl

theorem natRun_same (sub delayed sub' delayed' : Bool) (unit unit' : Cell → ℕ) (days days' : List NatDay)
    (hnat : List.Forall₂ SameNature days days') (hd : ∀ d ∈ days, readUse sub d.use = UseData.zero)
    (hd' : ∀ d ∈ days', readUse sub' d.use = UseData.zero) (s t : Sim UseCarry) (hst : s.state = t.state)
    (hs : StillStart sub s.demand) (ht : StillStart sub' t.demand) :
    let r := natRun par sub delayed unit world B s days
    let r' := natRun par sub' delayed' unit' world B t days'
    r.1.state = r'.1.state ∧ r.2 = r'.2 ∧ StillStart sub r.1.demand ∧ StillStart sub' r'.1.demand := by
  induction hnat generalizing s t with
  | nil => exact ⟨hst, rfl, hs, ht⟩
  | @cons d e ds es hde _ ih =>
    obtain ⟨k1, k2, -, k4, k5⟩ := natDay_same par sub delayed sub' delayed' unit unit' world world (masked world B) d e hde
      (hd d (by simp)) (hd' e (by simp)) s t hst hs ht
    have k := ih (fun d h => hd d (by simp [h])) (fun d h => hd' d (by simp [h])) _ _ k1 k4 k5
    simp only [natRun_cons] at k ⊢
    exact ⟨k.1, by rw [k2, k.2.1], k.2.2⟩

theorem zero_still (sub : Bool) : StillStart sub UseCarry.zero :=
  ⟨fun _ => Or.inl rfl, fun _ => ⟨fun _ => Or.inl rfl, fun _ => rfl, fun _ => ⟨fun _ => rfl, fun _ => rfl, fun _ => rfl⟩⟩⟩

theorem natRun_quiet (delayed : Bool) (unit : Cell → ℕ) (days : List NatDay) (s : Sim UseCarry)
    (hs : days = [] → s.demand.Quiet) : (natRun par false delayed unit world B s days).1.demand.Quiet := by
  induction days generalizing s with
  | nil => exact hs rfl
  | cons d ds ih =>
    rw [natRun_cons]
    exact ih _ (fun _ => quiet_next par _ delayed unit world d s)

/-- **C79 (no abstraction).**  In a simulation without water use, on every day and in every cell nothing is abstracted,
neither from groundwater nor from surface water, no demand is left over or handed on, and the evaporation of a cell has no
part from water use — whatever the water-use files contain.  (On the first day: provided no unsatisfied demand is remembered
where a withdrawal for irrigation is; a simulation that starts without saved states remembers nothing.) -/
theorem C79_no_abstraction (delayed : Bool) (unit : Cell → ℕ) (s : Sim UseCarry) (days : List NatDay)
    (hs : days = [] → ∀ x, s.demand.ledger.daily x = 0 ∨ s.demand.prevW x ≤ 0) (d : NatDay) (x : Cell) (o : CellOut)
    (ho : natOut par false delayed unit world B s days d x = some o) :
    o.nag = 0 ∧ o.nas = 0 ∧ o.unsat = 0 ∧ o.handed = 0 ∧ o.evapTotal = o.evap := by
  have hq := natRun_quiet par world B delayed unit days s hs
  refine (simNet_inv par (masked world B) (d.sim false delayed unit world) _ (StillDay false) (fun _ o =>
    o.nag = 0 ∧ o.nas = 0 ∧ o.unsat = 0 ∧ o.handed = 0 ∧ o.evapTotal = o.evap)
    (still_start false delayed unit world d rfl _ hq (fun h => by simp at h)) ?_).2 x o ho
  intro l y st up hl
  obtain ⟨g1, -⟩ := still_get false delayed unit world d l hl y
  obtain ⟨i1, i2, i3, i4⟩ := natIn_zero par false delayed unit world d rfl
    (natRun par false delayed unit world B s days).1 y
  have o1 := cellDay_noDemand (simIn par (d.sim false delayed unit world)
    (natRun par false delayed unit world B s days).1 y) st up
    ((d.sim false delayed unit world).get l y).2 (fun h => by simp [i2] at h)
  simp only at o1 ⊢
  rw [g1]
  refine ⟨still_upd false delayed unit world d l hl y _ o1.2.1 o1.2.2.2, ?_⟩
  have hn : (cellDay (simIn par (d.sim false delayed unit world)
    (natRun par false delayed unit world B s days).1 y) st up 0 ((d.sim false delayed unit world).get l y).2).nag = 0 := by
    simp only [cellDay, cellGwFinal, cellGw]
    rw [i1, i3, i4]
    exact gw_nag_zero _ _ _ _ _ _ _ _ _ (hq y)
  refine ⟨hn, o1.1, o1.2.1, o1.2.2.1, ?_⟩
  have := o1.1
  simp only [cellDay] at hn this ⊢
  rw [hn, this]; ring

/-- **C79 (independence).**  Two simulations without water use that have the same weather, the same lateral inputs and start
from the same storages have the same records on every day, the same storages at the end and do the same on the next day,
whatever the water-use files, the delayed-use option and the lake units of the two are. -/
theorem C79_independent (delayed delayed' : Bool) (unit unit' : Cell → ℕ) (s t : Sim UseCarry) (hst : s.state = t.state)
    (hs : ∀ x, s.demand.ledger.daily x = 0 ∨ s.demand.prevW x ≤ 0)
    (ht : ∀ x, t.demand.ledger.daily x = 0 ∨ t.demand.prevW x ≤ 0)
    (days days' : List NatDay) (hnat : List.Forall₂ SameNature days days') :
    let r := natRun par false delayed unit world B s days
    let r' := natRun par false delayed' unit' world B t days'
    r.1.state = r'.1.state ∧ r.2 = r'.2 ∧
      ∀ d d', SameNature d d' →
        natOut par false delayed unit world B s days d = natOut par false delayed' unit' world B t days' d' := by
  obtain ⟨k1, k2, k3, k4⟩ := natRun_same par world B false delayed false delayed' unit unit' days days' hnat
    (fun _ _ => rfl) (fun _ _ => rfl) s t hst ⟨hs, fun h => by simp at h⟩ ⟨ht, fun h => by simp at h⟩
  refine ⟨k1, k2, fun d d' hdd => ?_⟩
  exact (natDay_same par false delayed false delayed' unit unit' world world (masked world B) d d' hdd rfl rfl _ _ k1 k3
    k4).2.2.1

/-- **C79 (no demand).**  A simulation with water use whose files ask for nothing, started without saved states, has the
same records on every day, the same storages at the end and does the same on the next day as the simulation without water
use. -/
theorem C79_no_demand (delayed delayed' : Bool) (unit unit' : Cell → ℕ) (state : Cell → FullState)
    (days days' : List NatDay) (hnat : List.Forall₂ SameNature days days') (hzero : ∀ d ∈ days, d.use = UseData.zero) :
    let s : Sim UseCarry := ⟨UseCarry.zero, state⟩
    let r := natRun par true delayed unit world B s days
    let r' := natRun par false delayed' unit' world B s days'
    r.1.state = r'.1.state ∧ r.2 = r'.2 ∧
      ∀ d d', SameNature d d' → d.use = UseData.zero →
        natOut par true delayed unit world B s days d = natOut par false delayed' unit' world B s days' d' := by
  intro s
  obtain ⟨k1, k2, k3, k4⟩ := natRun_same par world B true delayed false delayed' unit unit' days days' hnat
    (fun d h => hzero d h) (fun _ _ => rfl) s s rfl (zero_still true) (zero_still false)
  refine ⟨k1, k2, fun d d' hdd h0 => ?_⟩
  exact (natDay_same par true delayed false delayed' unit unit' world world (masked world B) d d' hdd h0 rfl _ _ k1 k3
    k4).2.2.1

/-- **C79, finding.**  A simulation without water use that continues from the saved states of one with water use abstracts
groundwater on its first day in every cell in which surface water demand was left unsatisfied on the day before and
irrigation withdrew more than it consumed: the unsatisfied demand and the withdrawal of the day before are restored
(`update_latbal_for_restart`) and the groundwater balance adapts to them although no use is subtracted. -/
theorem C79_violated_restart (delayed : Bool) (unit : Cell → ℕ) (s : Sim UseCarry) (d : NatDay) (x : Cell) (o : CellOut)
    (hu : 0 < s.demand.ledger.daily x) (hf : 0 < (d.lateral x).fracReturn) (hf1 : (d.lateral x).fracReturn ≤ 1)
    (hc : 0 ≤ s.demand.prevC x) (hw : s.demand.prevC x < s.demand.prevW x)
    (ho : natOut par false delayed unit world B s [] d x = some o) :
    0 < o.nag := by
  refine (simNet_inv par (masked world B) (d.sim false delayed unit world) s (fun _ => True) (fun y o => y = x → 0 < o.nag)
    trivial ?_).2 x o ho rfl
  intro l y st up _
  refine ⟨trivial, fun hy => ?_⟩
  subst hy
  obtain ⟨i1, i2, i3, i4⟩ := natIn_zero par false delayed unit world d rfl s y
  simp only [cellDay, cellGwFinal, cellGw, groundwaterBalance]
  have i5 : (simIn par (d.sim false delayed unit world) s y).fracReturn = (d.lateral y).fracReturn := rfl
  have i6 : (simIn par (d.sim false delayed unit world) s y).consumptive = s.demand.prevC y := rfl
  rw [i1, i3, i4, i5, i6, if_pos hu.ne']
  have hW : 0 < s.demand.prevW y := lt_of_le_of_lt hc hw
  unfold updateNetabsGw
  rw [if_pos hu, if_pos hW]
  simp only
  set u := s.demand.ledger.daily y
  set W := s.demand.prevW y
  set C := s.demand.prevC y
  set f := (d.lateral y).fracReturn
  have he0 : 0 ≤ C / W := div_nonneg hc hW.le
  have he1 : C / W < 1 := (div_lt_one hW).2 hw
  set e := C / W
  have hfac : 0 < 1 - (1 - f) * (1 - e) := by nlinarith
  set k := 1 - (1 - f) * (1 - e)
  have hact : 1 / k * (W * k - u) < W := by
    rw [one_div, inv_mul_lt_iff₀ hfac]; nlinarith
  have hlt : (if 1 / k * (W * k - u) ≤ 0 then 0 else 1 / k * (W * k - u)) < W := by
    split_ifs
    · exact hW
    · exact hact
  have h1 : 0 < f * (1 - e) := mul_pos hf (by linarith)
  nlinarith

end

/-! ## Examples -/

/-- A day with water-use data that ask for water in every cell. -/
noncomputable def thirstyDay : NatDay :=
  { weather := shoreDay.weather, lateral := fun x => { shoreLat x with fracReturn := 1 / 2 }
    use := { gw := fun _ => 3, sw := fun _ => 5, unagg := fun _ => 5, monthly := fun _ => 150, withdrawal := fun _ => 4,
             consumptive := fun _ => 2 }
    dec31 := false }

/-- The same day with other water-use data. -/
noncomputable def thirstyDay' : NatDay :=
  { thirstyDay with
    use := { gw := fun _ => 1, sw := fun _ => 0, unagg := fun _ => 2, monthly := fun _ => 0, withdrawal := fun _ => 0,
             consumptive := fun _ => 0 } }

/-- The same day without demand. -/
noncomputable def idleDay : NatDay := { thirstyDay with use := UseData.zero }

/-- Every cell visited last is recorded. -/
theorem natOut_last (par : Cell → FullPar) (sub delayed : Bool) (unit : Cell → ℕ) (s : Sim UseCarry) (days : List NatDay)
    (d : NatDay) : ∃ o, natOut par sub delayed unit shoreOrder (fun _ => true) s days d (1, 2) = some o := by
  have e : masked shoreOrder (fun _ => true) = shoreOrder := by simp [masked]
  unfold natOut
  rw [e]
  simp only [simNet, basinDay, route, shoreOrder, List.foldl, routeStep, basinNode, Function.update_self, Option.some.injEq,
    exists_eq']

/-- A simulation that starts without saved states. -/
noncomputable def freshSim : Sim UseCarry := ⟨UseCarry.zero, fun _ => exFullState⟩

/-- A simulation that continues from saved states with unsatisfied demand. -/
noncomputable def thirstySim : Sim UseCarry :=
  ⟨{ ledger := ⟨fun _ => 1, fun _ => 1, fun _ => 1, fun _ => 0⟩, prevW := fun _ => 2, prevC := fun _ => 1 },
    fun _ => exFullState⟩

example : ∃ o, natOut (fun _ => exFull) false true shoreUnit shoreOrder (fun _ => true) freshSim [thirstyDay, thirstyDay]
    thirstyDay' (1, 2) = some o ∧ o.nag = 0 ∧ o.nas = 0 ∧ o.unsat = 0 ∧ o.handed = 0 ∧ o.evapTotal = o.evap := by
  obtain ⟨o, ho⟩ := natOut_last (fun _ => exFull) false true shoreUnit freshSim [thirstyDay, thirstyDay] thirstyDay'
  exact ⟨o, ho, C79_no_abstraction _ _ _ _ _ _ _ (fun _ _ => Or.inl rfl) _ _ o ho⟩

example := C79_independent (fun _ => exFull) shoreOrder (fun _ => true) true false shoreUnit (fun _ => 0) freshSim freshSim
  rfl (fun _ => Or.inl rfl) (fun _ => Or.inl rfl) [thirstyDay, thirstyDay'] [thirstyDay', idleDay]
  (.cons ⟨rfl, rfl⟩ (.cons ⟨rfl, rfl⟩ .nil))

example := C79_no_demand (fun _ => exFull) shoreOrder (fun _ => true) true false shoreUnit (fun _ => 0)
  (fun _ => exFullState) [idleDay, idleDay] [thirstyDay, thirstyDay'] (.cons ⟨rfl, rfl⟩ (.cons ⟨rfl, rfl⟩ .nil))
  (by simp [idleDay])

/-- With use subtracted the same day does ask for water: the hypothesis `d.use = UseData.zero` of `C79_no_demand` is not
for nothing. -/
example : ((thirstyDay.sim true true shoreUnit shoreOrder).get
    ((thirstyDay.sim true true shoreUnit shoreOrder).start UseCarry.zero) (2, 2)).1 = 5 := by
  simp [NatDay.sim, WgDay.sim, ledgerGet, dayDemand, NatDay.wg, readUse, thirstyDay, UseCarry.zero, shoreUnit, WgDay.demand]

example : ∃ o, natOut (fun _ => exFull) false true shoreUnit shoreOrder (fun _ => true) thirstySim [] thirstyDay (1, 2)
    = some o ∧ 0 < o.nag := by
  obtain ⟨o, ho⟩ := natOut_last (fun _ => exFull) false true shoreUnit thirstySim [] thirstyDay
  exact ⟨o, ho, C79_violated_restart _ _ _ _ _ _ _ _ o (by norm_num [thirstySim]) (by norm_num [thirstyDay])
    (by norm_num [thirstyDay]) (by norm_num [thirstySim]) (by norm_num [thirstySim]) ho⟩

end WG
