import Verif.Model.CheckedNb
import Verif.Props.Checked
import Verif.Props.NbWhole

/-!
# No division by zero when demand is distributed (C78)
-/

namespace WG

/-- **C78.**  The demand a lake or reservoir leaves unsatisfied is shared among its shore cells without a division by zero,
whatever the data are. -/
theorem C78_redistribute {α : Type} [DecidableEq α] (i : RedistIn α) (rip : α → ℝ) :
    redistributeC i rip = some (redistribute i rip) := by
  refine foldlM_some _ (redistStep i) _ _ fun p a q _ => ?_
  generalize p.foldl (redistStep i) (i.acc, rip) = st
  unfold redistStepC redistStep
  by_cases a1 : i.unit i.x = i.unit a ∧ i.x ≠ a
  · simp only [if_pos a1]
    by_cases a2 : i.acc - i.carried > 0
    · simp only [if_pos a2]
      by_cases a3 : i.unagg i.x ≤ 0
      · simp only [if_pos a3]
        by_cases a4 : i.unagg a ≤ 0
        · simp [a4]
        · by_cases a5 : i.pot - i.unagg i.x > 0
          · simp [a4, a5, cdiv_ok a5.ne']
          · simp [a4, a5]
      · simp only [if_neg a3]
        by_cases a5 : i.pot > 0
        · by_cases a4 : i.unagg a ≤ 0
          · simp [a4, a5, cdiv_ok a5.ne']
          · simp [a4, a5, cdiv_ok a5.ne']
        · by_cases a4 : i.unagg a ≤ 0
          · simp [a4, a5]
          · simp [a4, a5]
    · simp only [if_neg a2]
  · simp only [if_neg a1]

/-- **C78.**  What a cell could not supply is given back to those who asked without a division by zero, whatever the data
are. -/
theorem C78_allocate (i : AllocIn) (returned : Cell → Option ℝ) : allocateC i returned = some (allocate i returned) := by
  unfold allocateC allocate
  by_cases h : i.toSupply > 0
  · simp only [if_pos h]
    refine obind (foldlM_some _ (fun r c => if (i.nbMap c).1 = i.x.1 ∧ (i.nbMap c).2 = i.x.2 then
        Function.update r c (some ((allocSplit i).2 * i.fromDemand c * (1 / i.toSupply))) else r) _ _ fun p a q _ => ?_) rfl
    rw [cdiv_ok h.ne']
    split_ifs <;> rfl
  · simp only [if_neg h]
    rfl

theorem nbRoute_out_none (cin : Cell → CellIn) (q : NbDay) (order : List (Cell × Cell)) (b : Basin NbLedger) (x : Cell)
    (hx : x ∉ order.map Prod.fst) : (route (nbNode cin q) order b).ledger.out x = b.out x := by
  induction order using List.reverseRecOn with
  | nil => rfl
  | append_singleton p e ih =>
    rw [List.map_append, List.mem_append, not_or] at hx
    have hxe : x ≠ e.1 := fun h' => hx.2 (by simp [h'])
    rw [route_append]
    simp only [routeStep, nbNode, Function.update_of_ne hxe]
    exact ih hx.1

section
variable (par : Cell → FullPar) (lat0 : Cell → CellIn) (r : NbRun)

/-- The data of the day are divisible in all cells, whatever demand is left unsatisfied. -/
def NbWgDay.Divisible (d : NbWgDay) : Prop :=
  ∀ x ∈ r.order.map Prod.fst, ∀ u, ({ d.lateral x with unsatNas := u } : CellIn).Divisible

theorem nbNode_sign {cin : Cell → CellIn} {q : NbDay} {cells P S : List Cell} {e : Cell} {l0 l : NbLedger}
    (hcells : cells = P ++ e :: S) (hnd : cells.Nodup) (h : NbOk cin q cells l0) (j1 : NbInv cin q cells l0 P l)
    (heP : e ∉ P) (hg : 0 < (cin e).glolakeArea) : 0 ≤ nbDemand cin q l e := by
  have he : e ∈ cells := by rw [hcells]; simp
  have hto : 0 ≤ l.toSupply e := by
    rw [← asked_sum hcells hnd j1]
    apply List.sum_nonneg
    intro y hy
    obtain ⟨c, -, rfl⟩ := List.mem_map.mp hy
    exact j1.sent c
  have hlk : (cin e).hasLake := Or.inr hg
  have hrz : l.rip e = 0 := j1.ripLake e fun L' _ ho => ho.2.2 (h.unique L' e ho.1 hlk ho.2.1)
  have ha := h.sign e hg
  have hr : 0 ≤ (l.ret e).getD 0 := by
    cases hr : l.ret e with
    | none => simp
    | some r => exact (j1.ret e he r hr).1
  unfold nbDemand nbOwn
  rw [takenUp_eq j1 he, hrz, j1.accNew e heP]
  simp only [ite_self, add_zero]
  split_ifs <;> linarith

/-- `nextC_ok` for a state that is only known to be sensible for today: nothing is assumed about the land of
yesterday. -/
theorem nextC_today (hr : r.Good lat0) (d : NbWgDay) (s : NbSim) (hg : (d.lat par s).Good lat0 r) (hgc : s.carry.Good lat0 r)
    (hs : ∀ x ∈ r.order.map Prod.fst, (s.vert x).Ok (par x).vert ∧ 0 ≤ (s.land x).ratio)
    (hd : d.Ok par lat0 r s) (hv : d.Divisible r) : d.nextC par r s = some (d.next par r s) := by
  have hok := nbDayIn_ok hr hg hgc
  have hcc : ∀ x ∈ r.order.map Prod.fst, ((d.lat par s).cin x).Physical ∧ (s.carry.state x).Ok ((d.lat par s).cin x) ∧
      0 ≤ ((d.lat par s).cin x).corr :=
    fun x hx => ⟨(hg.cell x hx).1, Ok_same (hg.same x) (hgc.state x hx), (hg.cell x hx).2.1⟩
  obtain ⟨vs, hvs, hvx⟩ := vertDayC_ok par (r.order.map Prod.fst) d.weather s.full (by
    intro x hx
    obtain ⟨g1, g3, -⟩ := hd.cells x hx
    exact vertCellC_ok _ _ _ g1.vert (hs x hx).1 g3.1 g3.2.1 (hs x hx).2)
  have hnet : routeC (nbNodeC (fun x => (vs x).map fun v => latInC (par x) (d.lateral x) (d.weather x) (s.land x) v) d.lateral
      ((d.lat par s).nbDay r s.carry)) r.order ⟨(d.lat par s).ledger r s.carry, s.carry.state, fun _ => none⟩
      = some ((d.lat par s).routed r s.carry) := by
    refine foldlM_some _ (routeStep (nbNode (d.lat par s).cin ((d.lat par s).nbDay r s.carry))) r.order _ fun p e q hl => ?_
    obtain ⟨j1, j2, j3, -, -⟩ := nb_inv hr.sound hok s.carry.state hcc p (e :: q) hl
    have hcells : r.order.map Prod.fst = p.map Prod.fst ++ e.1 :: q.map Prod.fst := by rw [hl]; simp
    have hnd := hr.sound.nodup
    have hnd' := hnd
    rw [hcells] at hnd'
    have heP : e.1 ∉ p.map Prod.fst := fun hm =>
      (List.nodup_append.1 hnd').2.2 e.1 hm e.1 (by simp) rfl
    have he : e.1 ∈ r.order.map Prod.fst := by rw [hcells]; simp
    have hsg := nbNode_sign hcells hnd hok j1 heP
    have hst := j3 e.1 heP
    unfold nbDayRun route at j1 j2 j3 hsg hst
    generalize List.foldl (routeStep (nbNode (d.lat par s).cin ((d.lat par s).nbDay r s.carry)))
      (routeStart ⟨(d.lat par s).ledger r s.carry, s.carry.state, fun _ => none⟩) p = n at *
    obtain ⟨c1, c2, -⟩ := hcc e.1 he
    have hdv := hv e.1 he ((nbDaily ((d.lat par s).nbDay r s.carry) n.ledger.demand e.1).getD 0)
    refine obind (a := nbNode (d.lat par s).cin ((d.lat par s).nbDay r s.carry) n.ledger e.1 (n.inflow e.1)) ?_ rfl
    refine obind (a := (d.lat par s).cin e.1) (by show Option.map _ (vs e.1) = _; rw [hvx _ he]; rfl) ?_
    have hcell := cellDayC_ok (nbIn (d.lat par s).cin ((d.lat par s).nbDay r s.carry) n.ledger.demand e.1)
      (n.ledger.state e.1) (n.inflow e.1) (nbDemand (d.lat par s).cin ((d.lat par s).nbDay r s.carry) n.ledger.demand e.1)
      (nbKeep ((d.lat par s).nbDay r s.carry) n.ledger.demand e.1) (physical_unsatNas c1 _)
      ⟨hdv.gwK, hdv.irrigation, hdv.resExp, hdv.days, hdv.inflow, hdv.width, hdv.rough, hdv.slope⟩
      (by rw [hst]; exact ok_unsatNas c2 _) (j2 e.1) hsg
    refine obind hcell ?_
    classical
    have hif : ∀ (P : Prop) [Decidable P] (i : RedistIn Cell) (v : Cell → ℝ),
        (if P then (redistributeC i v).map (·.2) else some v) = some (if P then (redistribute i v).2 else v) := by
      intro P _ i v
      rw [C78_redistribute]
      split_ifs <;> rfl
    exact obind (hif _ _ _) (obind (C78_allocate _ _) rfl)
  unfold NbWgDay.nextC
  refine obind hvs (obind hnet ?_)
  have hvert : ∀ x, (match ((d.lat par s).routed r s.carry).ledger.out x, vs x with
      | some _, some v => v.next
      | _, _ => s.vert x) = (d.next par r s).vert x := by
    intro x
    unfold NbWgDay.next
    simp only
    by_cases hx : x ∈ r.order.map Prod.fst
    · rw [hvx x hx]
      cases ((d.lat par s).routed r s.carry).ledger.out x <;> rfl
    · have : ((d.lat par s).routed r s.carry).ledger.out x = none := nbRoute_out_none _ _ _ _ _ hx
      rw [this]
  have hland : ∀ x, (match ((d.lat par s).routed r s.carry).ledger.out x, vs x with
      | some o, some _ => landUpdate (o.locLakeFrac + o.locWetFrac + o.gloWetFrac) (s.land x)
      | _, _ => s.land x) = (d.next par r s).land x := by
    intro x
    unfold NbWgDay.next
    simp only
    by_cases hx : x ∈ r.order.map Prod.fst
    · rw [hvx x hx]
      cases ((d.lat par s).routed r s.carry).ledger.out x <;> rfl
    · have : ((d.lat par s).routed r s.carry).ledger.out x = none := nbRoute_out_none _ _ _ _ _ hx
      rw [this]
  exact congrArg some (congrArg₂ (NbSim.mk _) (funext hvert) (funext hland))

theorem nextC_ok (hr : r.Good lat0) (hcorr : ∀ x ∈ r.order.map Prod.fst, 0 < (lat0 x).corr) (d : NbWgDay) (s : NbSim)
    (hs : s.Ok par lat0 r) (hd : d.Ok par lat0 r s) (hv : d.Divisible r) : d.nextC par r s = some (d.next par r s) :=
  nextC_today par lat0 r hr d s (nbLat_good hcorr hs hd) hs.1 (fun x hx => ⟨(hs.2 x hx).vert, (hs.2 x hx).ratio0⟩) hd hv

/-- **C78.**  In a simulation in which cells ask their neighbours for water, over any number of days: every division, every
power and every root of the water balances of every cell and of the distribution of demand has a result, and the
results are those of the model used for C50, C54, C58 and C59. -/
theorem C78_neighbours (hr : r.Good lat0) (hcorr : ∀ x ∈ r.order.map Prod.fst, 0 < (lat0 x).corr)
    (hsink : ∀ x ∈ r.order.map Prod.fst, (lat0 x).sink = true → (lat0 x).corr = 1)
    (days : List NbWgDay) (s : NbSim) (hs : s.Ok par lat0 r) (hd : NbWgDaysOk par lat0 r s days)
    (hv : ∀ d ∈ days, d.Divisible r) : nbSimRunC par r s days = some (nbSimRun par r s days).1 := by
  induction days generalizing s with
  | nil => rfl
  | cons d ds ih =>
    unfold nbSimRunC at ih ⊢
    rw [List.foldlM_cons, nextC_ok par lat0 r hr hcorr d s hs hd.1 (hv d (by simp))]
    exact ih _ (nbDay_ok hr hcorr hsink hs hd.1) hd.2 fun e he => hv e (by simp [he])

end

/-! ### The hypotheses are met -/

theorem waitDay_divisible : waitDay.Divisible askRun := by
  intro x _ u
  obtain ⟨a, ha⟩ := dryBase_cases x
  have e : waitDay.lateral x = { dryRes with resArea := a } := ha
  rw [e]
  constructor <;> norm_num [dryRes, exCell]

example := C78_neighbours (fun _ => exFull) dryBase askRun askRun_good (fun x _ => by rw [dryBase_corr]; norm_num)
    (fun x _ _ => dryBase_corr x) [waitDay] waitSim waitSim_ok ⟨waitDay_ok, trivial⟩
    (by intro d hd; rw [List.mem_singleton.1 hd]; exact waitDay_divisible)

example := C78_redistribute (nbRedist ((waitDay.lat (fun _ => exFull) waitSim).nbDay askRun waitCarry)
  ((waitDay.lat (fun _ => exFull) waitSim).ledger askRun waitCarry) (1, 2) 3) waitCarry.rip

end WG
