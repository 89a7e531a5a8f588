import Verif.Model.NbRunoff
import Verif.Props.Runoff
import Verif.Props.NbWhole

/-!
# C80 with water supply from neighbouring cells
-/

namespace WG

theorem cellDay_runoff (c : CellIn) (st : CellState) (up d : ℝ) (k : ℝ → ℝ) :
    (cellDay c st up d k).cellRunoff = if c.sink then - up else (cellDay c st up d k).streamflow - up := by
  simp only [cellDay]
  split_ifs <;> ring

theorem nbDay_out (cin : Cell → CellIn) (q : NbDay) (order : List (Cell × Cell)) (h : Sound order) (l : NbLedger)
    (state : Cell → CellState) :
    let s := nbDayRun cin q order l state
    ∀ x ∈ order.map Prod.fst, ∃ o, s.ledger.out x = some o ∧ s.flow x = o.streamflow ∧
      o.cellRunoff = if (cin x).sink then - s.up x else o.streamflow - s.up x := by
  induction order using List.reverseRecOn with
  | nil => simp
  | append_singleton p e ih =>
    obtain ⟨hp, hn, -⟩ := h.prefix
    have ih := ih hp
    unfold nbDayRun at ih ⊢
    simp only at ih ⊢
    rw [route_append]
    generalize route (nbNode cin q) p ⟨l, state, fun _ => none⟩ = s at *
    intro x hx
    by_cases hxe : x = e.1
    · subst hxe
      simp only [routeStep, nbNode, Function.update_self]
      refine ⟨_, rfl, rfl, ?_⟩
      exact cellDay_runoff _ _ _ _ _
    · have hxp : x ∈ p.map Prod.fst := by
        rw [List.map_append, List.mem_append] at hx
        rcases hx with hx | hx
        · exact hx
        · exact absurd (by simpa using hx) hxe
      simp only [routeStep, nbNode, Function.update_of_ne hxe]
      exact ih x hxp

section
variable (par : Cell → FullPar) (r : NbRun) (cf : Cell → ℝ)

/-- Inland sinks have no outflow cell, on every day. -/
def NbSinksEnd (days : List NbWgDay) : Prop :=
  ∀ d ∈ days, ∀ e ∈ r.order, (d.lateral e.1).sink = true → ¬ drains e.2

/-- C80 with water supply from neighbouring cells: on every day of a simulation the net cell runoff written for the cells
of a region that includes everything upstream of it adds up to the discharge written for the cells where water leaves the
region (water taken in one cell for the demand of a neighbour is not runoff). -/
theorem C80_neighbours (h : Sound r.order) (B : Cell → Bool) (hB : UpstreamClosed r.order B) (s : NbSim)
    (days : List NbWgDay) (hs : NbSinksEnd r days) (ha : ∀ x ∈ r.order.map Prod.fst, (par x).area ≠ 0)
    (hc : ∀ x ∈ r.order.map Prod.fst, cf x ≠ 0) :
    ∀ q ∈ nbRunoffRun par r cf s days, regionRunoff par r.order cf B q = regionOutflow r.order B q := by
  induction days generalizing s with
  | nil => simp [nbRunoffRun]
  | cons d ds ih =>
    intro q hq
    rw [nbRunoffRun, List.mem_cons] at hq
    rcases hq with rfl | hq
    · exact region_balance par r.order cf h B hB ((d.lat par s).routed r s.carry).ledger.out
        ((d.lat par s).routed r s.carry).flow ((d.lat par s).routed r s.carry).up (fun x => (d.lateral x).sink)
        (nbDay_out (d.lat par s).cin ((d.lat par s).nbDay r s.carry) r.order h ((d.lat par s).ledger r s.carry) s.carry.state)
        (C26_upstream (nbNode (d.lat par s).cin ((d.lat par s).nbDay r s.carry)) r.order h
          ⟨(d.lat par s).ledger r s.carry, s.carry.state, fun _ => none⟩)
        (hs d List.mem_cons_self) ha hc _ (fun _ => rfl)
    · exact ih _ (fun d' hd' => hs d' (List.mem_cons_of_mem _ hd')) q hq

/-- C80 with water supply from neighbouring cells: the two outputs are those of the water balance, as in `C80_records`. -/
theorem C80_neighbours_records (h : Sound r.order) (s : NbSim) (days : List NbWgDay) :
    List.Forall₂ (fun (q : Cell → Option RunoffRec) (recs : Cell → Option DayRec) => ∀ x ∈ r.order.map Prod.fst, ∃ rec,
        recs x = some rec ∧ q x = some
          { ncrun := baseUnits .lbFlux "ncrun" (par x).area (cf x) (rec.dis.getD 0 - rec.up)
            dis := rec.dis.map (baseUnits .lbFlux "dis" (par x).area (cf x)) })
      (nbRunoffRun par r cf s days) (nbSimRun par r s days).2 := by
  induction days generalizing s with
  | nil => exact .nil
  | cons d ds ih =>
    refine .cons (fun x hx => ?_) (ih _)
    obtain ⟨o, h1, -, h3⟩ := nbDay_out (d.lat par s).cin ((d.lat par s).nbDay r s.carry) r.order h ((d.lat par s).ledger r s.carry)
      s.carry.state x hx
    have h1' : ((d.lat par s).routed r s.carry).ledger.out x = some o := h1
    have h4 : o.cellRunoff = if (d.lateral x).sink then - ((d.lat par s).routed r s.carry).up x
        else o.streamflow - ((d.lat par s).routed r s.carry).up x := h3
    refine ⟨fullRec (par x) (d.lateral x) (d.weather x) (s.full x) (((d.lat par s).routed r s.carry).up x) o, ?_, ?_⟩
    · simp only [NbWgDay.recs, h1']; rfl
    · have e1 : (fullRec (par x) (d.lateral x) (d.weather x) (s.full x) (((d.lat par s).routed r s.carry).up x) o).dis
          = if (d.lateral x).sink then none else some o.streamflow := rfl
      have e2 : (fullRec (par x) (d.lateral x) (d.weather x) (s.full x) (((d.lat par s).routed r s.carry).up x) o).up
          = ((d.lat par s).routed r s.carry).up x := rfl
      rw [e1, e2]
      simp only [NbWgDay.runoff, h1', Option.map_some, runoffRec, h4]
      cases (d.lateral x).sink <;> simp

end

/-! ## Non-vacuity -/

example := C80_neighbours (fun _ => exFull) askRun (fun _ => 80) askRun_good.sound (fun _ => true)
  (fun _ _ _ _ => rfl) waitSim [waitDay, waitDay]
  (by
    intro d hd e _ hk
    exfalso
    simp only [List.mem_cons, List.not_mem_nil, or_false, or_self] at hd
    subst hd
    simp only [waitDay] at hk
    obtain ⟨a, ha⟩ := dryBase_cases e.1
    rw [ha] at hk
    simp [dryRes, exCell] at hk)
  (fun x _ => by simp [exFull]) (fun x _ => by norm_num)

example := C80_neighbours_records (fun _ => exFull) askRun (fun _ => 80) askRun_good.sound waitSim [waitDay, waitDay]

end WG
