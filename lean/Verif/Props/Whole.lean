import Verif.Model.Whole
import Verif.Props.GlobalBalance
import Verif.Props.Demand
import Verif.Props.Basin

/-!
# A simulation of a basin is the simulation of the world in that basin (C64)
-/

namespace WG

/-! ## Lemmas: a loop with skipped cells -/

section
variable {σ τ : Type}

/-- Two states of the routing loop agree inside the basin. -/
structure NetAgree (B : Cell → Bool) (R : σ → τ → Prop) (s : NetState σ) (t : NetState τ) : Prop where
  ledger : R s.ledger t.ledger
  inflow : ∀ x, B x → s.inflow x = t.inflow x
  up : ∀ x, B x → s.up x = t.up x
  flow : ∀ x, B x → s.flow x = t.flow x

theorem route_masked (B : Cell → Bool) (R : σ → τ → Prop) (node : σ → Cell → ℝ → σ × ℝ × ℝ)
    (node' : τ → Cell → ℝ → τ × ℝ × ℝ)
    (world : List (Cell × Cell)) (hclosed : ∀ e ∈ world, drains e.2 → B e.2 → B e.1)
    (hin : ∀ l l' x up, B x → R l l' → R (node l x up).1 (node' l' x up).1 ∧ (node l x up).2 = (node' l' x up).2)
    (hout : ∀ l l', ∀ x ∈ world.map Prod.fst, ∀ up, ¬ B x → R l l' → R (node l x up).1 l')
    (s : NetState σ) (t : NetState τ) (h : NetAgree B R s t) :
    NetAgree B R (world.foldl (routeStep node) s) ((masked world B).foldl (routeStep node') t) := by
  induction world generalizing s t with
  | nil => exact h
  | cons e w ih =>
    have hc' : ∀ e ∈ w, drains e.2 → B e.2 → B e.1 := fun e he => hclosed e (by simp [he])
    have ho' : ∀ l l', ∀ x ∈ w.map Prod.fst, ∀ up, ¬ B x → R l l' → R (node l x up).1 l' :=
      fun l l' x hx => hout l l' x (by simp only [List.map_cons, List.mem_cons]; exact Or.inr hx)
    by_cases hb : B e.1
    · have e1 : masked (e :: w) B = e :: masked w B := by simp [masked, hb]
      rw [e1, List.foldl_cons, List.foldl_cons]
      apply ih hc' ho'
      have hup := h.inflow e.1 hb
      obtain ⟨k1, k2⟩ := hin s.ledger t.ledger e.1 (s.inflow e.1) hb h.ledger
      rw [hup] at k1 k2
      have hinf : ∀ x, B x → Function.update s.inflow e.1 (node s.ledger e.1 (t.inflow e.1)).2.1 x
          = Function.update t.inflow e.1 (node' t.ledger e.1 (t.inflow e.1)).2.1 x := by
        intro x hx
        by_cases hxe : x = e.1
        · subst hxe; rw [Function.update_self, Function.update_self, k2]
        · rw [Function.update_of_ne hxe, Function.update_of_ne hxe, h.inflow x hx]
      refine ⟨?_, ?_, ?_, ?_⟩
      · simp only [routeStep, hup]; exact k1
      · intro x hx
        simp only [routeStep, hup]
        by_cases hd : drains e.2
        · rw [if_pos hd, if_pos hd]
          by_cases hxe : x = e.2
          · rw [hxe, Function.update_self, Function.update_self, hinf e.2 (hxe ▸ hx), k2]
          · rw [Function.update_of_ne hxe, Function.update_of_ne hxe, hinf x hx]
        · rw [if_neg hd, if_neg hd, hinf x hx]
      · intro x hx
        simp only [routeStep, hup]
        by_cases hxe : x = e.1
        · subst hxe; rw [Function.update_self, Function.update_self]
        · rw [Function.update_of_ne hxe, Function.update_of_ne hxe, h.up x hx]
      · intro x hx
        simp only [routeStep, hup]
        by_cases hxe : x = e.1
        · subst hxe; rw [Function.update_self, Function.update_self, k2]
        · rw [Function.update_of_ne hxe, Function.update_of_ne hxe, h.flow x hx]
    · have e1 : masked (e :: w) B = masked w B := by simp [masked, hb]
      rw [e1, List.foldl_cons]
      apply ih hc' ho'
      have hne : ∀ x, B x → x ≠ e.1 := fun x hx he => hb (he ▸ hx)
      refine ⟨hout _ _ e.1 (by simp) _ hb h.ledger, ?_, ?_, ?_⟩
      · intro x hx
        simp only [routeStep]
        by_cases hd : drains e.2
        · rw [if_pos hd]
          have hxe : x ≠ e.2 := fun he => hb (hclosed e (by simp) hd (he ▸ hx))
          rw [Function.update_of_ne hxe, Function.update_of_ne (hne x hx), h.inflow x hx]
        · rw [if_neg hd, Function.update_of_ne (hne x hx), h.inflow x hx]
      · intro x hx
        simp only [routeStep]
        rw [Function.update_of_ne (hne x hx), h.up x hx]
      · intro x hx
        simp only [routeStep]
        rw [Function.update_of_ne (hne x hx), h.flow x hx]

theorem route_rel (R : σ → τ → Prop) (node : σ → Cell → ℝ → σ × ℝ × ℝ) (node' : τ → Cell → ℝ → τ × ℝ × ℝ)
    (world : List (Cell × Cell))
    (hin : ∀ l l' x up, R l l' → R (node l x up).1 (node' l' x up).1 ∧ (node l x up).2 = (node' l' x up).2)
    (s : NetState σ) (t : NetState τ) (h : NetAgree (fun _ => true) R s t) :
    NetAgree (fun _ => true) R (world.foldl (routeStep node) s) (world.foldl (routeStep node') t) := by
  have k := route_masked (fun _ => true) R node node' world (fun _ _ _ _ => rfl) (fun l l' x up _ => hin l l' x up)
    (fun _ _ _ _ _ h => absurd rfl h) s t h
  have hall : masked world (fun _ => true) = world := by simp [masked]
  rw [hall] at k
  exact k

end

/-! ## Lemmas: sharing demand -/

theorem redist_agree (B : Cell → Bool) (i j : RedistIn Cell) (hprev : i.prev = j.prev) (hs : i.toSupply = j.toSupply)
    (ha : i.acc = j.acc) (hp : i.pot = j.pot) (hu : i.unit = j.unit) (ho : i.order = j.order)
    (hr : i.prevReturned = j.prevReturned) (hx : i.x = j.x) (hB : B i.x) (hun : ∀ c, B c → i.unagg c = j.unagg c)
    (rip rip' : Cell → ℝ) (h : ∀ c, B c → rip c = rip' c) :
    (redistribute i rip).1 = (redistribute j rip').1 ∧
      ∀ c, B c → (redistribute i rip).2 c = (redistribute j rip').2 c := by
  have hc : i.carried = j.carried := by unfold RedistIn.carried; rw [hs, hr, hprev]
  have hux : i.unagg i.x = j.unagg j.x := by rw [hun _ hB, hx]
  unfold redistribute
  rw [ha, ho]
  have key : ∀ (l : List Cell) (st st' : ℝ × (Cell → ℝ)), st.1 = st'.1 → (∀ c, B c → st.2 c = st'.2 c) →
      (l.foldl (redistStep i) st).1 = (l.foldl (redistStep j) st').1 ∧
        ∀ c, B c → (l.foldl (redistStep i) st).2 c = (l.foldl (redistStep j) st').2 c := by
    intro l
    induction l with
    | nil => intro st st' h1 h2; exact ⟨h1, h2⟩
    | cons r l ih =>
      intro st st' h1 h2
      rw [List.foldl_cons, List.foldl_cons]
      have upd : ∀ (v v' : ℝ), (B r → v = v') → ∀ c, B c → Function.update st.2 r v c = Function.update st'.2 r v' c := by
        intro v v' hv c hcB
        by_cases hcr : c = r
        · subst hcr; rw [Function.update_self, Function.update_self, hv hcB]
        · rw [Function.update_of_ne hcr, Function.update_of_ne hcr, h2 c hcB]
      apply ih
      · unfold redistStep
        rw [hu, hx, ha, hc, hp]
        rw [hx] at hux
        rw [hux]
        by_cases a1 : j.unit j.x = j.unit r ∧ j.x ≠ r
        · simp only [if_pos a1]
          by_cases a2 : j.acc - j.carried > 0
          · simp only [if_pos a2]
            by_cases a3 : j.unagg j.x ≤ 0
            · simp only [if_pos a3]
            · simp only [if_neg a3]
          · simp only [if_neg a2]
        · simp only [if_neg a1]; exact h1
      · intro c hcB
        unfold redistStep
        rw [hu, hx, ha, hc, hp]
        rw [hx] at hux
        rw [hux]
        by_cases a1 : j.unit j.x = j.unit r ∧ j.x ≠ r
        · simp only [if_pos a1]
          by_cases a2 : j.acc - j.carried > 0
          · simp only [if_pos a2]
            by_cases a3 : j.unagg j.x ≤ 0
            · simp only [if_pos a3]
              exact upd _ _ (fun hr' => by rw [hun r hr']) c hcB
            · simp only [if_neg a3]
              exact upd _ _ (fun hr' => by rw [hun r hr']) c hcB
          · simp only [if_neg a2]
            by_cases hcx : c = j.x
            · subst hcx; rw [Function.update_self, Function.update_self]
            · rw [Function.update_of_ne hcx, Function.update_of_ne hcx]
              exact upd 0 0 (fun _ => rfl) c hcB
        · simp only [if_neg a1]; exact h2 c hcB
  exact key _ _ _ rfl h

/-! ## The claim -/

/-- Two ledgers agree inside the basin. -/
def DemandState.Agree (B : Cell → Bool) (l l' : DemandState) : Prop :=
  ∀ x, B x → l.acc x = l'.acc x ∧ l.prev x = l'.prev x ∧ l.daily x = l'.daily x ∧ l.rip x = l'.rip x

/-- Two simulations are in the same state inside the basin. -/
def Sim.Agree (B : Cell → Bool) (s s' : Sim DemandState) : Prop :=
  s.demand.Agree B s'.demand ∧ ∀ x, B x → s.state x = s'.state x

/-- Two days bring the same to the cells of the basin. -/
def WgDay.Agree (B : Cell → Bool) (d d' : WgDay) : Prop :=
  d.dec31 = d'.dec31 ∧ ∀ x, B x → d.weather x = d'.weather x ∧ d.lateral x = d'.lateral x ∧ d.pot x = d'.pot x ∧
    d.unagg x = d'.unagg x

/-- The basin contains every cell that drains into it. -/
def UpstreamClosed (world : List (Cell × Cell)) (B : Cell → Bool) : Prop :=
  ∀ e ∈ world, drains e.2 → B e.2 → B e.1

/-- No cell of the basin lies on the shore of a lake or reservoir whose outflow cell is outside. -/
def ShoresInside (world : List (Cell × Cell)) (unit : Cell → ℕ) (B : Cell → Bool) (d : WgDay) : Prop :=
  ∀ x ∈ world.map Prod.fst, ∀ r, B r → unit x = unit r → (d.lateral x).useOpt = true → (d.lateral x).hasLake → B x

section
variable (par : Cell → FullPar) (delayed : Bool) (unit : Cell → ℕ) (world : List (Cell × Cell)) (B : Cell → Bool)

/-- What the cells share agrees inside the basin. -/
def BasinAgree (b b' : Basin DemandState) : Prop :=
  b.demand.Agree B b'.demand ∧ ∀ x, B x → b.state x = b'.state x ∧ b.out x = b'.out x

theorem get_agree (d d' : WgDay) (hd : d.Agree B d') (l l' : DemandState) (h : l.Agree B l') (x : Cell) (hx : B x) :
    (d.sim delayed unit world).get l x = (d'.sim delayed unit world).get l' x := by
  obtain ⟨-, -, hp, hu⟩ := hd.2 x hx
  obtain ⟨-, hl, hp', hu'⟩ := hd.2 x hx
  obtain ⟨h1, h2, h3, h4⟩ := h x hx
  simp only [WgDay.sim, ledgerGet]
  refine Prod.ext ?_ (funext fun u => ?_)
  · simp only
    rw [h1, h4, hl]
    rfl
  · exact (redist_agree B ((d.demand unit world l).redist x u) ((d'.demand unit world l').redist x u) h2 rfl rfl hp rfl rfl
      rfl rfl hx (fun c hc => (hd.2 c hc).2.2.2) l.rip l'.rip (fun c hc => (h c hc).2.2.2)).1

theorem upd_agree (d d' : WgDay) (hd : d.Agree B d') (l l' : DemandState) (h : l.Agree B l') (x : Cell) (hx : B x)
    (o : CellOut) : ((d.sim delayed unit world).upd l x o).Agree B ((d'.sim delayed unit world).upd l' x o) := by
  obtain ⟨-, hl, hp, hu⟩ := hd.2 x hx
  obtain ⟨-, h2, -, -⟩ := h x hx
  intro c hc
  obtain ⟨k1, k2, k3, k4⟩ := h c hc
  refine ⟨?_, k2, k3, ?_⟩
  · simp only [WgDay.sim, ledgerUpd]
    by_cases hcx : c = x
    · subst hcx; rw [Function.update_self, Function.update_self]
    · rw [Function.update_of_ne hcx, Function.update_of_ne hcx, k1]
  · simp only [WgDay.sim, ledgerUpd]
    rw [hl]
    by_cases hlake : (d'.lateral x).useOpt = true ∧ (d'.lateral x).hasLake
    · rw [if_pos hlake, if_pos hlake]
      exact (redist_agree B ((d.demand unit world l).redist x o.lakeUnsat) ((d'.demand unit world l').redist x o.lakeUnsat)
        h2 rfl rfl hp rfl rfl rfl rfl hx (fun c hc => (hd.2 c hc).2.2.2) l.rip l'.rip (fun c hc => (h c hc).2.2.2)).2 c hc
    · rw [if_neg hlake, if_neg hlake, k4]

theorem upd_outside (d : WgDay) (hs : ShoresInside world unit B d) (l l' : DemandState) (h : l.Agree B l') (x : Cell)
    (hx : x ∈ world.map Prod.fst) (hb : ¬ B x) (o : CellOut) : ((d.sim delayed unit world).upd l x o).Agree B l' := by
  intro c hc
  obtain ⟨k1, k2, k3, k4⟩ := h c hc
  have hcx : c ≠ x := fun e => hb (e ▸ hc)
  refine ⟨?_, k2, k3, ?_⟩
  · simp only [WgDay.sim, ledgerUpd]
    rw [Function.update_of_ne hcx, k1]
  · simp only [WgDay.sim, ledgerUpd]
    by_cases hlake : (d.lateral x).useOpt = true ∧ (d.lateral x).hasLake
    · rw [if_pos hlake, redist_other _ x _ _ c ?_ hcx, k4]
      intro hmem
      rw [DemandDay.riparian, List.mem_filter] at hmem
      have := (of_decide_eq_true hmem.2).1
      exact hb (hs x hx c hc this hlake.1 hlake.2)
    · rw [if_neg hlake, k4]

theorem simIn_agree (d d' : WgDay) (hd : d.Agree B d') (s s' : Sim DemandState) (h : s.Agree B s') (x : Cell) (hx : B x) :
    simIn par (d.sim delayed unit world) s x = simIn par (d'.sim delayed unit world) s' x := by
  obtain ⟨hw, hl, -, -⟩ := hd.2 x hx
  obtain ⟨-, -, h3, -⟩ := h.1 x hx
  simp only [simIn, WgDay.sim, WgDay.inputs]
  rw [hw, hl, h3, h.2 x hx]

theorem simNet_agree (hup : UpstreamClosed world B) (d d' : WgDay) (hd : d.Agree B d') (hs : ShoresInside world unit B d)
    (s s' : Sim DemandState) (h : s.Agree B s') :
    NetAgree B (BasinAgree B) (simNet par world (d.sim delayed unit world) s)
      (simNet par (masked world B) (d'.sim delayed unit world) s') := by
  unfold simNet basinDay route
  apply route_masked B (BasinAgree B) _ _ world hup
  · intro b b' x up hx hb
    have hg := get_agree delayed unit world B d d' hd b.demand b'.demand hb.1 x hx
    have hi := simIn_agree par delayed unit world B d d' hd s s' h x hx
    have hst := (hb.2 x hx).1
    have ho : cellDay (simIn par (d.sim delayed unit world) s x) (b.state x) up ((d.sim delayed unit world).get b.demand x).1
        ((d.sim delayed unit world).get b.demand x).2
        = cellDay (simIn par (d'.sim delayed unit world) s' x) (b'.state x) up
          ((d'.sim delayed unit world).get b'.demand x).1 ((d'.sim delayed unit world).get b'.demand x).2 := by
      rw [hg, hi, hst]
    constructor
    · simp only [basinNode]
      rw [ho]
      refine ⟨upd_agree delayed unit world B d d' hd _ _ hb.1 x hx _, fun c hc => ?_⟩
      by_cases hcx : c = x
      · subst hcx; simp only [Function.update_self, and_self]
      · simp only [Function.update_of_ne hcx]
        exact hb.2 c hc
    · simp only [basinNode]
      rw [ho, hg, hi, hst]
  · intro b b' x hx up hbx hb
    simp only [basinNode]
    refine ⟨upd_outside delayed unit world B d hs _ _ hb.1 x hx hbx _, fun c hc => ?_⟩
    have hcx : c ≠ x := fun e => hbx (e ▸ hc)
    simp only [Function.update_of_ne hcx]
    exact hb.2 c hc
  · refine ⟨⟨fun x hx => ?_, fun x hx => ⟨congrArg FullState.lat (h.2 x hx), rfl⟩⟩, fun _ _ => rfl, fun _ _ => rfl, fun _ _ => rfl⟩
    obtain ⟨-, hl, hp, -⟩ := hd.2 x hx
    obtain ⟨k1, k2, k3, k4⟩ := h.1 x hx
    refine ⟨?_, k2, k3, k4⟩
    simp only [WgDay.sim, routeStart]
    rw [hl, hp, k1]

theorem simDay_agree (hup : UpstreamClosed world B) (d d' : WgDay) (hd : d.Agree B d') (hs : ShoresInside world unit B d)
    (s s' : Sim DemandState) (h : s.Agree B s') :
    (simDay par world (d.sim delayed unit world) s).1.Agree B
        (simDay par (masked world B) (d'.sim delayed unit world) s').1 ∧
      ∀ x, B x → (simDay par world (d.sim delayed unit world) s).2 x
        = (simDay par (masked world B) (d'.sim delayed unit world) s').2 x := by
  have hn := simNet_agree par delayed unit world B hup d d' hd hs s s' h
  refine ⟨⟨fun x hx => ?_, fun x hx => ?_⟩, fun x hx => ?_⟩
  · obtain ⟨-, hl, -, -⟩ := hd.2 x hx
    obtain ⟨k1, k2, k3, k4⟩ := hn.ledger.1 x hx
    simp only [simDay, WgDay.sim] at k1 k2 k3 k4 ⊢
    rw [k1, k2, k3, k4, hl, hd.1]
    exact ⟨rfl, rfl, rfl, rfl⟩
  · have e := (hn.ledger.2 x hx).2
    simp only [simDay]
    rw [e, h.2 x hx]
    have hw : (d.sim delayed unit world).weather x = (d'.sim delayed unit world).weather x := (hd.2 x hx).1
    rw [hw]
  · have e := (hn.ledger.2 x hx).2
    simp only [simDay]
    rw [e, h.2 x hx, hn.up x hx]
    have hw : (d.sim delayed unit world).weather x = (d'.sim delayed unit world).weather x := (hd.2 x hx).1
    have hl : (d.sim delayed unit world).lateral s.demand x = (d'.sim delayed unit world).lateral s'.demand x := by
      simp only [WgDay.sim, WgDay.inputs]
      rw [(hd.2 x hx).2.1, (h.1 x hx).2.2.1]
    rw [hw, hl]

/-- **C64.**  A simulation of a basin gives in every cell of the basin, on every day, the records, the storages and the
unsatisfied demands of the simulation of the whole world, over any number of days, with water use, reservoirs and delayed
use as in the world — whatever the data of the cells outside are, and in whatever order cells are routed.  Needed: the
basin contains every cell draining into it, and no cell on the shore of a lake or reservoir whose outflow cell is
outside. -/
theorem C64_basin_run (hup : UpstreamClosed world B) (days days' : List WgDay)
    (hdays : List.Forall₂ (fun d d' => d.Agree B d' ∧ ShoresInside world unit B d) days days')
    (s s' : Sim DemandState) (h : s.Agree B s') :
    let g := wgRun par delayed unit world (fun _ => true) s days
    let b := wgRun par delayed unit world B s' days'
    g.1.Agree B b.1 ∧ List.Forall₂ (fun r r' => ∀ x, B x → r x = r' x) g.2 b.2 := by
  have hall : masked world (fun _ => true) = world := by simp [masked]
  simp only [wgRun, hall]
  induction hdays generalizing s s' with
  | nil => exact ⟨h, .nil⟩
  | cons hd _ ih =>
    obtain ⟨k1, k2⟩ := simDay_agree par delayed unit world B hup _ _ hd.1 hd.2 s s' h
    obtain ⟨i1, i2⟩ := ih _ _ k1
    exact ⟨i1, .cons k2 i2⟩

end

/-- **C64.**  The basins that are selected for stations (C40) contain every cell draining into them: if the table of
upstream cells knows the rivers of the routing order, the mask of any set of stations can be simulated on its own. -/
theorem C64_station_basin (world : List (Cell × Cell)) (B : Cell → Bool) (gid : Cell → Option ℤ)
    (coords : List ((ℤ × ℤ) × ℤ)) (tab : InflowTable) (stations : List (ℤ × ℤ)) (limit : ℕ) (mask : Cell → Option ℤ)
    (h : basinMask true gid coords tab stations limit = .ok mask) (hB : ∀ x, B x ↔ mask x = some 0)
    (htab : ∀ e ∈ world, drains e.2 → ∀ b, gid e.2 = some b → ∃ a, gid e.1 = some a ∧ DrainsInto tab a b) :
    UpstreamClosed world B := by
  intro e he hd hb
  obtain ⟨b, hgb, st, hst, s, hs, hr⟩ := ((C40_mask gid coords tab stations limit mask h e.2).2).1 ((hB _).1 hb)
  obtain ⟨a, hga, hab⟩ := htab e he hd b hgb
  exact (hB _).2 (((C40_mask gid coords tab stations limit mask h e.1).2).2 ⟨a, hga, st, hst, s, hs, hr.head hab⟩)

/-! ## The whole simulation with its demand: balance, states, demand -/

theorem sound_masked {world : List (Cell × Cell)} (h : Sound world) (B : Cell → Bool) : Sound (masked world B) :=
  ⟨h.nodup.sublist (List.filter_sublist.map _), h.before.sublist List.filter_sublist,
    fun e he => h.noself e (List.mem_filter.mp he).1⟩

/-- A sensible day: sensible cells and weather, global wetlands that do not run dry within the day, and no negative
demand on a global lake. -/
structure WgDay.Ok (par : Cell → FullPar) (lat0 : Cell → CellIn) (delayed : Bool) (unit : Cell → ℕ)
    (world : List (Cell × Cell)) (B : Cell → Bool) (d : WgDay) (s : Sim DemandState) : Prop where
  same : ∀ x, SameCell (lat0 x) (d.lateral x)
  cells : ∀ x ∈ (masked world B).map Prod.fst, GoodCell (par x) (d.inputs s.demand x) ∧
    WeatherOk (par x) (d.weather x) (s.state x) ∧ (simIn par (d.sim delayed unit world) s x).WetDeep
  sign : ∀ x, 0 < (lat0 x).glolakeArea → 0 ≤ d.pot x

/-- What holds of demand on every day: nothing is handed to an outflow cell, and no global lake owes a negative
amount. -/
def DemandState.Good (lat0 : Cell → CellIn) (l : DemandState) : Prop :=
  (∀ x, (lat0 x).hasLake → l.rip x = 0) ∧ ∀ x, 0 < (lat0 x).glolakeArea → 0 ≤ l.acc x

section
variable (par : Cell → FullPar) (lat0 : Cell → CellIn) (delayed : Bool) (unit : Cell → ℕ) (world : List (Cell × Cell))
  (B : Cell → Bool)

/-- Sensible days, one after the other. -/
def WgDaysOk : Sim DemandState → List WgDay → Prop
  | _, [] => True
  | s, d :: ds => d.Ok par lat0 delayed unit world B s ∧
    WgDaysOk (simDay par (masked world B) (d.sim delayed unit world) s).1 ds

theorem wgDay_ok (hu : ∀ x y, (lat0 x).hasLake → (lat0 y).hasLake → unit x = unit y → x = y) (d : WgDay)
    (s : Sim DemandState) (h : d.Ok par lat0 delayed unit world B s) :
    (d.sim delayed unit world).Ok par lat0 (masked world B) (DemandState.Good lat0) s := by
  have hlake : ∀ x, (lat0 x).hasLake ↔ (d.lateral x).hasLake := fun x => hasLake_same (h.same x).bodies
  have hsim : ∀ x, SameBodies (d.lateral x) (simIn par (d.sim delayed unit world) s x) :=
    fun x => ⟨rfl, rfl, rfl, rfl, rfl, rfl, rfl⟩
  have hlake2 : ∀ x, (lat0 x).hasLake ↔ (simIn par (d.sim delayed unit world) s x).hasLake :=
    fun x => (hlake x).trans (hasLake_same (hsim x))
  have harea : ∀ x, (lat0 x).glolakeArea = (simIn par (d.sim delayed unit world) s x).glolakeArea :=
    fun x => (h.same x).bodies.area
  have hled : ∀ l : DemandState, LedgerOk (simIn par (d.sim delayed unit world) s)
      (ledgerGet (simIn par (d.sim delayed unit world) s) (d.demand unit world l))
      (ledgerUpd (simIn par (d.sim delayed unit world) s) (d.demand unit world l))
      (LedgerInv (simIn par (d.sim delayed unit world) s)) :=
    fun l => ledger_ok_of_unique _ _ fun x y hx hy => hu x y ((hlake2 x).2 hx) ((hlake2 y).2 hy)
  have hinv : ∀ l : DemandState, l.Good lat0 → LedgerInv (simIn par (d.sim delayed unit world) s) ⟨l.acc, l.rip⟩ :=
    fun l hl => ⟨fun x hx => hl.1 x ((hlake2 x).2 hx), fun x hx => hl.2 x (by rw [harea]; exact hx)⟩
  refine ⟨fun x hx => ?_, ⟨?_, ?_⟩, ?_, ?_⟩
  · obtain ⟨g1, g2, g3⟩ := h.cells x hx
    exact ⟨g1, ⟨⟨(h.same x).bodies.locLake, (h.same x).bodies.locWet, (h.same x).bodies.gloWet, (h.same x).bodies.area,
      (h.same x).bodies.max, (h.same x).bodies.resArea, (h.same x).bodies.cap⟩, (h.same x).redExp, (h.same x).corr,
      (h.same x).sink, (h.same x).minV⟩, g2, g3⟩
  · intro l x st up hl hp hst hup
    have k := (hled l).step ⟨l.acc, l.rip⟩ x st up (hinv l hl) hp hst hup
    exact ⟨fun y hy => k.1 y ((hlake2 y).1 hy), fun y hy => k.2 y (by rw [← harea]; exact hy)⟩
  · intro l x hl hx
    exact (hled l).sign ⟨l.acc, l.rip⟩ x (hinv l hl) hx
  · intro l hl
    refine ⟨hl.1, fun x hx => ?_⟩
    have a1 := hl.2 x hx
    have a2 := h.sign x hx
    change 0 ≤ dayDemand (d.lateral x).useOpt delayed (d.pot x) (l.acc x)
    unfold dayDemand
    split_ifs <;> linarith
  · intro l hl
    refine ⟨hl.1, fun x hx => ?_⟩
    have a1 := hl.2 x hx
    change 0 ≤ (endOfDay (d.lateral x).useOpt delayed d.dec31 (l.acc x) none none (some 0)
      ⟨l.acc x, l.prev x, l.daily x⟩).acc
    simp only [endOfDay, Option.getD_none]
    split_ifs <;> simp [a1]

theorem wgDays_ok (hu : ∀ x y, (lat0 x).hasLake → (lat0 y).hasLake → unit x = unit y → x = y) (days : List WgDay)
    (s : Sim DemandState) (h : WgDaysOk par lat0 delayed unit world B s days) :
    SimDaysOk par lat0 (masked world B) (DemandState.Good lat0) s (days.map fun d : WgDay => d.sim delayed unit world) := by
  induction days generalizing s with
  | nil => trivial
  | cons d ds ih => exact ⟨wgDay_ok par lat0 delayed unit world B hu d s h.1, ih _ h.2⟩

/-- **C54 (whole model).**  Over any number of days of a simulation with its real exchange of demand — reservoirs and
lakes supplying their shores, unsatisfied demand carried over, groundwater abstraction adapted — the storages of
all cells stay physical, land and water fractions add up, and no global lake ever owes a negative demand. -/
theorem C54_with_demand (h : Sound world) (hcorr : ∀ x ∈ world.map Prod.fst, B x → 0 < (lat0 x).corr)
    (hu : ∀ x y, (lat0 x).hasLake → (lat0 y).hasLake → unit x = unit y → x = y) (days : List WgDay) (s : Sim DemandState)
    (hs : ∀ x ∈ world.map Prod.fst, B x → FullOk (par x) (lat0 x) (s.state x)) (hg : s.demand.Good lat0)
    (hd : WgDaysOk par lat0 delayed unit world B s days) :
    let r := wgRun par delayed unit world B s days
    r.1.demand.Good lat0 ∧ ∀ x ∈ world.map Prod.fst, B x → FullOk (par x) (lat0 x) (r.1.state x) := by
  have hsub : ∀ x, x ∈ (masked world B).map Prod.fst ↔ x ∈ world.map Prod.fst ∧ B x := by
    intro x
    simp only [masked, List.mem_map, List.mem_filter]
    constructor
    · rintro ⟨e, ⟨h1, h2⟩, rfl⟩; exact ⟨⟨e, h1, rfl⟩, h2⟩
    · rintro ⟨⟨e, h1, rfl⟩, h2⟩; exact ⟨e, ⟨h1, h2⟩, rfl⟩
  have k := C54_simulation_states par lat0 (masked world B) (DemandState.Good lat0) (sound_masked h B)
    (fun x hx => hcorr x ((hsub x).1 hx).1 ((hsub x).1 hx).2) (days.map fun d : WgDay => d.sim delayed unit world) s
    ⟨hg, fun x hx => hs x ((hsub x).1 hx).1 ((hsub x).1 hx).2⟩ (wgDays_ok par lat0 delayed unit world B hu days s hd)
  exact ⟨k.1, fun x hx hb => k.2 x ((hsub x).2 ⟨hx, hb⟩)⟩

/-- **C50 (whole model).**  The long-term balance error computed from the outputs of a simulation with its real exchange
of demand, of the world or of a basin, is at most the volume of the residues that may be flushed. -/
theorem C50_with_demand (h : Sound world) (hcorr : ∀ x ∈ world.map Prod.fst, B x → 0 < (lat0 x).corr)
    (hsink : ∀ x ∈ world.map Prod.fst, B x → (lat0 x).sink = true → (lat0 x).corr = 1)
    (hu : ∀ x y, (lat0 x).hasLake → (lat0 y).hasLake → unit x = unit y → x = y) (days : List WgDay) (s : Sim DemandState)
    (hs : ∀ x ∈ world.map Prod.fst, B x → FullOk (par x) (lat0 x) (s.state x)) (hg : s.demand.Good lat0)
    (hd : WgDaysOk par lat0 delayed unit world B s days)
    (cells : List Cell) (hcells : ∀ x ∈ cells, (x ∈ world.map Prod.fst ∧ B x) ∧ Closing (par x) (lat0 x)) (n : ℕ) (recs : Cell → List (List DayRec))
    (hrec : ∀ x ∈ cells, (recs x).flatten = (wgRun par delayed unit world B s days).2.filterMap (· x) ∧
      (recs x).length = n) :
    |balanceError cells (fun x => (lat0 x).corr) (fun x => twsBefore (par x) (s.state x)) n recs|
      ≤ (cells.map fun x => flushTol (par x) (lat0 x)).sum * days.length / n := by
  have hsub : ∀ x, x ∈ (masked world B).map Prod.fst ↔ x ∈ world.map Prod.fst ∧ B x := by
    intro x
    simp only [masked, List.mem_map, List.mem_filter]
    constructor
    · rintro ⟨e, ⟨h1, h2⟩, rfl⟩; exact ⟨⟨e, h1, rfl⟩, h2⟩
    · rintro ⟨⟨e, h1, rfl⟩, h2⟩; exact ⟨e, ⟨h1, h2⟩, rfl⟩
  have k := C50_simulation par lat0 (masked world B) (DemandState.Good lat0) (sound_masked h B)
    (fun x hx => hcorr x ((hsub x).1 hx).1 ((hsub x).1 hx).2) (fun x hx => hsink x ((hsub x).1 hx).1 ((hsub x).1 hx).2)
    (days.map fun d : WgDay => d.sim delayed unit world) s
    ⟨hg, fun x hx => hs x ((hsub x).1 hx).1 ((hsub x).1 hx).2⟩ (wgDays_ok par lat0 delayed unit world B hu days s hd) cells
    (fun x hx => ⟨(hsub x).2 (hcells x hx).1, (hcells x hx).2⟩) n recs (fun x hx => ⟨(hrec x hx).1, (hrec x hx).2⟩)
  rw [List.length_map] at k
  exact k

/-- **C50 (whole model).**  With any areal correction factors, no water is created in a simulation with its real exchange of demand,
of the world or of a basin: the error of the tool is not below minus the volume of the residues. -/
theorem C50_with_demand_no_gain (h : Sound world) (hcorr : ∀ x ∈ world.map Prod.fst, B x → 0 < (lat0 x).corr)
    (hsink : ∀ x ∈ world.map Prod.fst, B x → (lat0 x).sink = true → (lat0 x).corr = 1)
    (hu : ∀ x y, (lat0 x).hasLake → (lat0 y).hasLake → unit x = unit y → x = y) (days : List WgDay) (s : Sim DemandState)
    (hs : ∀ x ∈ world.map Prod.fst, B x → FullOk (par x) (lat0 x) (s.state x)) (hg : s.demand.Good lat0)
    (hd : WgDaysOk par lat0 delayed unit world B s days)
    (cells : List Cell) (hcells : ∀ x ∈ cells, (x ∈ world.map Prod.fst ∧ B x) ∧ LandStays (par x) (lat0 x)) (n : ℕ) (recs : Cell → List (List DayRec))
    (hrec : ∀ x ∈ cells, (recs x).flatten = (wgRun par delayed unit world B s days).2.filterMap (· x) ∧
      (recs x).length = n) :
    -((cells.map fun x => flushTol (par x) (lat0 x)).sum * days.length / n)
      ≤ balanceError cells (fun x => (lat0 x).corr) (fun x => twsBefore (par x) (s.state x)) n recs := by
  have hsub : ∀ x, x ∈ (masked world B).map Prod.fst ↔ x ∈ world.map Prod.fst ∧ B x := by
    intro x
    simp only [masked, List.mem_map, List.mem_filter]
    constructor
    · rintro ⟨e, ⟨h1, h2⟩, rfl⟩; exact ⟨⟨e, h1, rfl⟩, h2⟩
    · rintro ⟨⟨e, h1, rfl⟩, h2⟩; exact ⟨e, ⟨h1, h2⟩, rfl⟩
  have k := C50_simulation_no_gain par lat0 (masked world B) (DemandState.Good lat0) (sound_masked h B)
    (fun x hx => hcorr x ((hsub x).1 hx).1 ((hsub x).1 hx).2) (fun x hx => hsink x ((hsub x).1 hx).1 ((hsub x).1 hx).2)
    (days.map fun d : WgDay => d.sim delayed unit world) s
    ⟨hg, fun x hx => hs x ((hsub x).1 hx).1 ((hsub x).1 hx).2⟩ (wgDays_ok par lat0 delayed unit world B hu days s hd) cells
    (fun x hx => ⟨(hsub x).2 (hcells x hx).1, (hcells x hx).2⟩) n recs (fun x hx => ⟨(hrec x hx).1, (hrec x hx).2⟩)
  rw [List.length_map] at k
  exact k

end

/-! ## The demand of the whole simulation is the ledger of C33 -/

section
variable (par : Cell → FullPar) (lat0 : Cell → CellIn) (delayed : Bool) (unit : Cell → ℕ) (world : List (Cell × Cell))

/-- The demand side of a day of the simulation. -/
noncomputable def WgDay.ledgerDay (d : WgDay) (s : Sim DemandState) : DayIn :=
  { cin := simIn par (d.sim delayed unit world) s, pot := d.pot, unagg := d.unagg, dec31 := d.dec31 }

/-- The demand side of the state of the simulation. -/
def Sim.carry (s : Sim DemandState) : Carry :=
  { acc := s.demand.acc, prev := s.demand.prev, rip := s.demand.rip, state := fun x => (s.state x).lat }

/-- Same ledger, same storages, same results. -/
def SameLedger (s : Sim DemandState) (b : Basin DemandState) (b' : Basin Ledger) : Prop :=
  b.demand.acc = b'.demand.acc ∧ b.demand.rip = b'.demand.rip ∧ b.demand.prev = s.demand.prev ∧ b.state = b'.state ∧
    b.out = b'.out ∧ ∀ x, b.state x = match b.out x with
      | none => (s.state x).lat
      | some o => o.state

theorem ledger_refines (d : WgDay) (s : Sim DemandState) :
    NetAgree (fun _ => true) (SameLedger s) (simNet par world (d.sim delayed unit world) s)
      ((d.ledgerDay par delayed unit world s).routed delayed unit world s.carry) := by
  unfold simNet DayIn.routed demandDayRun basinDay route
  apply route_rel
  · rintro b b' x up ⟨h1, h2, h3, h4, h5, h6⟩
    have hq : d.demand unit world b.demand = (d.ledgerDay par delayed unit world s).demandDay unit world s.carry := by
      simp only [WgDay.demand, DayIn.demandDay, WgDay.ledgerDay, Sim.carry, h3]
    have hl : (⟨b.demand.acc, b.demand.rip⟩ : Ledger) = b'.demand := by rw [h1, h2]
    have hg : (d.sim delayed unit world).get b.demand x = ledgerGet (d.ledgerDay par delayed unit world s).cin
        ((d.ledgerDay par delayed unit world s).demandDay unit world s.carry) b'.demand x := by
      simp only [WgDay.sim]
      rw [hq, hl]
      rfl
    have ho : cellDay (simIn par (d.sim delayed unit world) s x) (b.state x) up ((d.sim delayed unit world).get b.demand x).1
        ((d.sim delayed unit world).get b.demand x).2
        = cellDay ((d.ledgerDay par delayed unit world s).cin x) (b'.state x) up
          (ledgerGet (d.ledgerDay par delayed unit world s).cin
            ((d.ledgerDay par delayed unit world s).demandDay unit world s.carry) b'.demand x).1
          (ledgerGet (d.ledgerDay par delayed unit world s).cin
            ((d.ledgerDay par delayed unit world s).demandDay unit world s.carry) b'.demand x).2 := by
      rw [hg, h4]; rfl
    constructor
    · simp only [basinNode]
      rw [ho]
      have hu : ∀ o, ledgerUpd d.lateral (d.demand unit world b.demand) ⟨b.demand.acc, b.demand.rip⟩ x o
          = ledgerUpd (d.ledgerDay par delayed unit world s).cin
            ((d.ledgerDay par delayed unit world s).demandDay unit world s.carry) b'.demand x o := by
        intro o; rw [hq, hl]; rfl
      refine ⟨?_, ?_, h3, ?_, ?_, fun c => ?_⟩
      · simp only [WgDay.sim]; rw [hu]
      · simp only [WgDay.sim]; rw [hu]
      · simp only; rw [h4]
      · simp only; rw [h5]
      · by_cases hc : c = x
        · subst hc; simp only [Function.update_self]
        · simp only [Function.update_of_ne hc]; exact h6 c
    · simp only [basinNode]
      rw [ho, hg, h4]; rfl
  · exact ⟨⟨rfl, rfl, rfl, rfl, rfl, fun _ => rfl⟩, fun _ _ => rfl, fun _ _ => rfl, fun _ _ => rfl⟩

theorem carry_refines (d : WgDay) (s : Sim DemandState) :
    (simDay par world (d.sim delayed unit world) s).1.carry
      = (d.ledgerDay par delayed unit world s).next delayed unit world s.carry := by
  obtain ⟨h1, h2, h3, h4, h5, h6⟩ := (ledger_refines par delayed unit world d s).ledger
  have hst : (fun x => ((simDay par world (d.sim delayed unit world) s).1.state x).lat)
      = ((d.ledgerDay par delayed unit world s).routed delayed unit world s.carry).ledger.state := by
    rw [← h4]
    funext x
    rw [h6 x]
    simp only [simDay]
    cases (simNet par world (d.sim delayed unit world) s).ledger.out x <;> rfl
  have hend : ∀ (use : Bool) (a : ℝ) (u u' : Unsat), u.prev = u'.prev →
      (endOfDay use delayed d.dec31 a none none (some 0) u).acc = (endOfDay use delayed d.dec31 a none none (some 0) u').acc ∧
      (endOfDay use delayed d.dec31 a none none (some 0) u).prev
        = (endOfDay use delayed d.dec31 a none none (some 0) u').prev := by
    intro use a u u' hp
    cases use <;> cases delayed <;> simp [endOfDay, hp]
  have hacc : (simDay par world (d.sim delayed unit world) s).1.demand.acc
      = ((d.ledgerDay par delayed unit world s).next delayed unit world s.carry).acc := by
    funext x
    simp only [DayIn.next]
    rw [← h1]
    exact (hend _ _ _ _ (by rw [h3]; rfl)).1
  have hprev : (simDay par world (d.sim delayed unit world) s).1.demand.prev
      = ((d.ledgerDay par delayed unit world s).next delayed unit world s.carry).prev := by
    funext x
    simp only [DayIn.next]
    rw [← h1]
    exact (hend _ _ _ _ (by rw [h3]; rfl)).2
  have hrip : (simDay par world (d.sim delayed unit world) s).1.demand.rip
      = ((d.ledgerDay par delayed unit world s).next delayed unit world s.carry).rip := h2
  have hs : (fun x => ((simDay par world (d.sim delayed unit world) s).1.state x).lat)
      = ((d.ledgerDay par delayed unit world s).next delayed unit world s.carry).state := hst
  unfold Sim.carry
  rw [hacc, hprev, hrip, hs]
  rfl

/-- What the cells take from surface water on a day of the simulation. -/
noncomputable def wgUsed (d : WgDay) (s : Sim DemandState) : ℝ :=
  ((world.map Prod.fst).map (did (simNet par world (d.sim delayed unit world) s) (·.nas))).sum

/-- The demand left unsatisfied in the cells at the end of a day, before 31 December clears it. -/
noncomputable def wgLeft (d : WgDay) (s : Sim DemandState) : ℝ :=
  ((world.map Prod.fst).map (simNet par world (d.sim delayed unit world) s).ledger.demand.acc).sum

/-- Taken and given up over some days of a simulation with delayed use. -/
noncomputable def wgTaken : Sim DemandState → List WgDay → ℝ × ℝ
  | _, [] => (0, 0)
  | s, d :: ds =>
    let r := wgTaken (simDay par world (d.sim true unit world) s).1 ds;
    (wgUsed par true unit world d s + r.1, (if d.dec31 then wgLeft par true unit world d s else 0) + r.2)

/-- The data of the day fit the lakes: water use is on, and an outflow cell carries the demand of its unit. -/
structure WgDay.Demands (d : WgDay) : Prop where
  use : ∀ x, (d.lateral x).useOpt = true
  cons : ∀ x, (lat0 x).hasLake → d.pot x = min (d.unagg x) 0 + (max (d.unagg x) 0 +
    (((world.map Prod.fst).filter fun r => unit x = unit r ∧ x ≠ r).map fun r => max (d.unagg r) 0).sum)

/-- **C33 (whole model).**  Over any number of days of a simulation with delayed use — with the weather, runoff, storages
and adapted groundwater abstraction it really has — the demand of all days and what was open at the start is what the
cells took, what was given up on 31 Decembers and what is open at the end. -/
theorem C33_with_demand (h : Sound world) (hcorr : ∀ x ∈ world.map Prod.fst, 0 < (lat0 x).corr)
    (hu : UnitsOk lat0 unit (world.map Prod.fst)) (days : List WgDay) (hdem : ∀ d ∈ days, d.Demands lat0 unit world)
    (s : Sim DemandState) (hs : ∀ x ∈ world.map Prod.fst, FullOk (par x) (lat0 x) (s.state x))
    (hc : s.carry.Good lat0 unit (world.map Prod.fst))
    (hd : WgDaysOk par lat0 true unit world (fun _ => true) s days) :
    let r := wgRun par true unit world (fun _ => true) s days
    s.carry.open lat0 unit world + (days.map fun d => ((world.map Prod.fst).map d.pot).sum).sum =
      (wgTaken par unit world s days).1 + (wgTaken par unit world s days).2 + r.1.carry.open lat0 unit world := by
  have hall : masked world (fun _ => true) = world := by simp [masked]
  simp only [wgRun, hall]
  induction days generalizing s with
  | nil => simp [wgTaken, simRun]
  | cons d ds ih =>
    have hd1 := hd.1
    have hd2 := hd.2
    rw [hall] at hd2
    have hg : s.demand.Good lat0 := by
      refine ⟨fun x hx => hc.rip x ?_, fun x hx => (hc.acc x (Or.inr hx)).1⟩
      rintro L - ⟨a1, a2, a3⟩
      exact a3 (hu.unique L x a1 hx a2)
    have hok := wgDay_ok par lat0 true unit world (fun _ => true) hu.unique d s hd1
    rw [hall] at hok
    have hnext := simDay_ok par lat0 world (DemandState.Good lat0) h hcorr (d.sim true unit world) s ⟨hg, hs⟩ hok
    have hgood : (d.ledgerDay par true unit world s).Good lat0 unit (world.map Prod.fst) := by
      refine ⟨fun x => ?_, fun x hx => ?_, fun x => (hdem d (by simp)).use x, fun x hx => ?_, fun x hx =>
        (hdem d (by simp)).cons x hx⟩
      · exact ⟨(hd1.same x).bodies.locLake, (hd1.same x).bodies.locWet, (hd1.same x).bodies.gloWet,
          (hd1.same x).bodies.area, (hd1.same x).bodies.max, (hd1.same x).bodies.resArea, (hd1.same x).bodies.cap⟩
      · obtain ⟨g1, g2, g3, g4⟩ := hok.cells x hx
        refine ⟨fullIn_physical _ _ _ _ g1 (FullOk_same g2 (hs x hx)) g3, ?_, g4⟩
        change 0 ≤ (d.lateral x).corr
        rw [← (hd1.same x).corr]; exact (hcorr x hx).le
      · have : 0 < (lat0 x).glolakeArea := by rw [(hd1.same x).bodies.area]; exact hx
        exact hd1.sign x this
    obtain ⟨k1, k2⟩ := delayed_day h hu hgood hc
    rw [← carry_refines] at k1 k2
    have i := ih (fun d hd => hdem d (by simp [hd])) _ hnext.2 k1 hd2
    obtain ⟨h1, h2, h3, h4, h5, h6⟩ := (ledger_refines par true unit world d s).ledger
    have e1 : wgUsed par true unit world d s = (d.ledgerDay par true unit world s).used unit world s.carry := by
      unfold wgUsed DayIn.used did
      rw [h5]
    have e2 : (if d.dec31 then wgLeft par true unit world d s else 0)
        = (d.ledgerDay par true unit world s).givenUp unit world s.carry := by
      unfold wgLeft DayIn.givenUp
      rw [h1]; rfl
    simp only [List.map_cons, List.sum_cons, simRun, wgTaken]
    rw [e1, e2]
    have e3 : ((world.map Prod.fst).map (d.ledgerDay par true unit world s).pot).sum = ((world.map Prod.fst).map d.pot).sum := rfl
    rw [e3] at k2
    linarith

end

/-! ## A shore cell whose lake is outside the basin -/

/-- A simulation in which all is empty and dry, on cells without land. -/
noncomputable def drySim : Sim DemandState :=
  { demand := ⟨fun _ => 0, fun _ => 0, fun _ => 0, fun _ => 0⟩
    state := fun _ => { vert := sampleVertState, land := ⟨0, 0, 0, 0, 0, 0, false⟩, lat := ⟨0, 0, 0, 0, 0, 0.8, 0, 0⟩ } }

/-- A dry day; the demand of the shore cell is asked of the outflow cell. -/
noncomputable def dryWgDay : WgDay :=
  { weather := fun _ => ⟨280, 200, 300, 0⟩, lateral := dryBase, pot := (dryDay false).pot, unagg := (dryDay false).unagg,
    dec31 := false }

/-- **C64 violated.**  A basin with a cell on the shore of a lake or reservoir whose outflow cell lies outside gives other
results than the world: the demand of the shore cell is asked of the outflow cell, which is not simulated; in the
world it gives back what it cannot supply, in the basin the demand disappears. -/
theorem C64_violated_shore (delayed : Bool) :
    let B : Cell → Bool := fun x => x = (1, 1)
    let g := wgRun (fun _ => exFull) delayed dryUnit dryOrder (fun _ => true) drySim [dryWgDay]
    let b := wgRun (fun _ => exFull) delayed dryUnit dryOrder B drySim [dryWgDay]
    UpstreamClosed dryOrder B ∧ g.1.demand.rip (1, 1) = 1 ∧ b.1.demand.rip (1, 1) = 0 := by
  intro B g b
  have hall : masked dryOrder (fun _ => true) = dryOrder := by simp [masked]
  have hB : masked dryOrder B = [((1, 1), (0, 0))] := by simp [masked, dryOrder, B]
  have hnl : ¬ (dryBase (1, 1)).hasLake := by rw [dryBase_lake]; decide
  refine ⟨?_, ?_, ?_⟩
  · intro e he hd
    simp only [dryOrder, List.mem_cons, List.not_mem_nil, or_false] at he
    rcases he with rfl | rfl <;> simp [drains] at hd
  · have e1 : g.1.demand.rip = (g.1.carry).rip := rfl
    have e2 : g.1 = (simDay (fun _ => exFull) dryOrder (dryWgDay.sim delayed dryUnit dryOrder) drySim).1 := by
      simp only [g, wgRun, hall]; rfl
    rw [e1, e2, carry_refines]
    have hdl : (dryWgDay.ledgerDay (fun _ => exFull) delayed dryUnit dryOrder drySim)
        = { dryDay false with cin := simIn (fun _ => exFull) (dryWgDay.sim delayed dryUnit dryOrder) drySim } := rfl
    have hdc : drySim.carry = dryCarry := rfl
    rw [hdl, hdc]
    have hb2 : dryBase (1, 2) = dryRes := by simp [dryBase]
    apply dry_rip_gen
    · exact hnl
    · change (dryBase (1, 2)).hasLake
      rw [dryBase_lake]
    · change (dryBase (1, 2)).useOpt = true
      rw [hb2]; rfl
    · intro st hst
      have hpet : 0 ≤ (fullVert exFull ⟨280, 200, 300, 0⟩ (drySim.state (1, 2))).openPet :=
        (C09_pet_sign _ _ _ sampleVertForcing_ok.temp sampleVert_ok.alpha).1
      have hphys := dryRes_physical
      refine dry_unsat_gen _ st 1 (by norm_num) ?_ ?_ (by rw [hst]) ?_ ?_ ?_ ?_ ?_ ?_ ?_ ?_
      · refine ⟨?_, mul_nonneg hpet (by norm_num), ?_, ?_, ?_, ?_, ?_, ?_, ?_, ?_, ?_, ?_, ?_, ?_⟩
        · change (0 : ℝ) ≤ 0 * 1e-6; norm_num
        · change (0 : ℝ) ≤ if (0 : ℝ) = 0 then _ * exFull.area * 1e-6 * (0 : ℝ) else _
          rw [if_pos rfl, mul_zero]
        all_goals simp only [simIn, fullIn, WgDay.sim, WgDay.inputs, dryWgDay, hb2]
        exacts [hphys.minV, hphys.factor, hphys.swbK, hphys.gwConst, hphys.redExp, hphys.len, hphys.locLake, hphys.locWet,
          hphys.gloWet, hphys.maxGlolake, hphys.cap]
      · subst hst
        constructor <;> simp [simIn, fullIn, WgDay.sim, WgDay.inputs, dryWgDay, hb2, dryRes, exCell]
      · simp [simIn, fullIn, WgDay.sim, WgDay.inputs, dryWgDay, hb2, dryRes, exCell]
      · simp [simIn, fullIn, WgDay.sim, WgDay.inputs, dryWgDay, hb2, dryRes, exCell]
      · simp [simIn, fullIn, WgDay.sim, WgDay.inputs, dryWgDay, hb2, dryRes, exCell]
      · simp [simIn, fullIn, WgDay.sim, WgDay.inputs, dryWgDay, hb2, dryRes, exCell]
      · change (0 : ℝ) * 1e-6 = 0; norm_num
      · change (if (0 : ℝ) = 0 then _ * exFull.area * 1e-6 * (0 : ℝ) else _) = 0
        rw [if_pos rfl, mul_zero]
      · simp [simIn, fullIn, WgDay.sim, WgDay.inputs, dryWgDay, hb2, dryRes, exCell]
      · simp [simIn, fullIn, WgDay.sim, WgDay.inputs, dryWgDay, hb2, dryRes, exCell]
  · simp only [b, wgRun, hB, List.map_cons, List.map_nil, simRun, simDay, simNet, basinDay, route, List.foldl_cons,
      List.foldl_nil, routeStep, routeStart, basinNode, WgDay.sim, ledgerUpd, dryWgDay]
    rw [if_neg (fun h => hnl h.2)]
    rfl

/-! ## Non-vacuity -/

/-- Three cells; the last has a global lake and a reservoir, the first is on its shore. -/
noncomputable def shoreLat (x : Cell) : CellIn :=
  if x = (1, 2) then exLat else { exLat with glolakeArea := 0, maxGlolake := 0, resArea := 0 }

/-- The first and the last cell belong to unit 7. -/
def shoreUnit (x : Cell) : ℕ := if x = (1, 1) ∨ x = (1, 2) then 7 else 0

/-- The routing order. -/
def shoreOrder : List (Cell × Cell) := [((1, 1), (1, 2)), ((2, 2), (1, 2)), ((1, 2), (0, 0))]

/-- A day with a demand of 2 in the outflow cell and of 1 in the shore cell. -/
noncomputable def shoreDay : WgDay :=
  { weather := fun _ => exWeather, lateral := shoreLat, pot := fun x => if x = (1, 2) then 3 else 0,
    unagg := fun x => if x = (1, 2) then 2 else if x = (1, 1) then 1 else 0, dec31 := false }

/-- Nothing is open. -/
noncomputable def shoreSim : Sim DemandState := ⟨⟨fun _ => 0, fun _ => 0, fun _ => 0, fun _ => 0⟩, fun _ => exFullState⟩

theorem shoreLat_lake (x : Cell) : (shoreLat x).hasLake ↔ x = (1, 2) := by
  unfold shoreLat CellIn.hasLake
  by_cases h : x = (1, 2)
  · simp [h, exLat, exCell]
  · simp [h]

theorem shoreLat_good (x : Cell) : GoodCell exFull (shoreLat x) := by
  have h := exLat_good
  unfold shoreLat
  by_cases hx : x = (1, 2)
  · rw [if_pos hx]; exact h
  · rw [if_neg hx]
    exact { h with lat := { h.lat with maxGlolake := by simp, cap := by simp } }

theorem shoreState_ok (x : Cell) : FullOk exFull (shoreLat x) exFullState := by
  have h := exFullState_ok
  unfold shoreLat
  by_cases hx : x = (1, 2)
  · rw [if_pos hx]; exact h
  · rw [if_neg hx]
    exact { h with lat := { h.lat with gloLake := by simp, res := by simp } }

theorem shoreDay_ok (B : Cell → Bool) :
    WgDaysOk (fun _ => exFull) shoreLat true shoreUnit shoreOrder B shoreSim [shoreDay] := by
  refine ⟨⟨fun x => ⟨⟨rfl, rfl, rfl, rfl, rfl, rfl, rfl⟩, rfl, rfl, rfl, rfl⟩, fun x _ => ⟨?_, exWeather_ok, ?_⟩, fun x _ => ?_⟩,
    trivial⟩
  · have h := shoreLat_good x
    exact { h with lat := { h.lat with } }
  · intro hf
    change 0 < (shoreLat x).gloWet.frac at hf
    unfold shoreLat at hf
    split_ifs at hf <;> simp [exLat] at hf
  · simp only [shoreDay]; split_ifs <;> norm_num

theorem shoreUnits_ok : UnitsOk shoreLat shoreUnit (shoreOrder.map Prod.fst) where
  here := by intro x hx; rw [shoreLat_lake] at hx; subst hx; simp [shoreOrder]
  pos := by intro x hx; rw [shoreLat_lake] at hx; subst hx; simp [shoreUnit]
  unique := by intro x y hx hy _; rw [shoreLat_lake] at hx hy; rw [hx, hy]

theorem shoreLat_corr (x : Cell) : (shoreLat x).corr = 1 := by unfold shoreLat; split_ifs <;> rfl

/-- The basin of the cell `(2, 2)` meets the hypotheses of `C64_basin_run`. -/
example := C64_basin_run (fun _ => exFull) true shoreUnit shoreOrder (fun x => x = (2, 2))
  (by
    intro e he hd hb
    simp only [shoreOrder, List.mem_cons, List.not_mem_nil, or_false] at he
    rcases he with rfl | rfl | rfl <;> simp_all [drains])
  [shoreDay, shoreDay] [shoreDay, shoreDay]
  (by
    have h : shoreDay.Agree (fun x => x = (2, 2)) shoreDay ∧ ShoresInside shoreOrder shoreUnit (fun x => x = (2, 2)) shoreDay := by
      refine ⟨⟨rfl, fun _ _ => ⟨rfl, rfl, rfl, rfl⟩⟩, fun x _ r hr hu _ hl => ?_⟩
      have hx := (shoreLat_lake x).1 hl
      simp only [decide_eq_true_eq] at hr
      subst hx hr
      simp [shoreUnit] at hu
    exact .cons h (.cons h .nil))
  shoreSim shoreSim ⟨fun _ _ => ⟨rfl, rfl, rfl, rfl⟩, fun _ _ => rfl⟩

example := C54_with_demand (fun _ => exFull) shoreLat true shoreUnit shoreOrder (fun _ => true) exOrder_sound
  (fun x _ _ => by rw [shoreLat_corr]; norm_num) shoreUnits_ok.unique [shoreDay] shoreSim (fun x _ _ => shoreState_ok x)
  ⟨fun _ _ => rfl, fun _ _ => le_rfl⟩ (shoreDay_ok _)

example (recs : Cell → List (List DayRec))
    (h : ∀ x, recs x = [(wgRun (fun _ => exFull) true shoreUnit shoreOrder (fun _ => true) shoreSim [shoreDay]).2.filterMap (· x)]) :=
  C50_with_demand (fun _ => exFull) shoreLat true shoreUnit shoreOrder (fun _ => true) exOrder_sound
    (fun x _ _ => by rw [shoreLat_corr]; norm_num) (fun x _ _ _ => shoreLat_corr x) shoreUnits_ok.unique [shoreDay] shoreSim
    (fun x _ _ => shoreState_ok x) ⟨fun _ _ => rfl, fun _ _ => le_rfl⟩ (shoreDay_ok _) [(1, 1), (2, 2), (1, 2)]
    (fun x hx => ⟨by revert x; decide, exFull_closing _⟩) 1 recs (fun x _ => ⟨by rw [h x]; simp, by rw [h x]; rfl⟩)

example (recs : Cell → List (List DayRec))
    (h : ∀ x, recs x = [(wgRun (fun _ => exFull) true shoreUnit shoreOrder (fun _ => true) shoreSim [shoreDay]).2.filterMap (· x)]) :=
  C50_with_demand_no_gain (fun _ => exFull) shoreLat true shoreUnit shoreOrder (fun _ => true) exOrder_sound
    (fun x _ _ => by rw [shoreLat_corr]; norm_num) (fun x _ _ _ => shoreLat_corr x) shoreUnits_ok.unique [shoreDay] shoreSim
    (fun x _ _ => shoreState_ok x) ⟨fun _ _ => rfl, fun _ _ => le_rfl⟩ (shoreDay_ok _) [(1, 1), (2, 2), (1, 2)]
    (fun x hx => ⟨by revert x; decide, (exFull_closing _).stays⟩) 1 recs (fun x _ => ⟨by rw [h x]; simp, by rw [h x]; rfl⟩)

example := C33_with_demand (fun _ => exFull) shoreLat shoreUnit shoreOrder exOrder_sound
  (fun x _ => by rw [shoreLat_corr]; norm_num) shoreUnits_ok [shoreDay]
  (by
    intro d hd
    simp only [List.mem_cons, List.not_mem_nil, or_false] at hd
    subst hd
    refine ⟨fun x => ?_, fun x hx => ?_⟩
    · simp only [shoreDay, shoreLat]; split_ifs <;> rfl
    · rw [shoreLat_lake] at hx
      subst hx
      norm_num [shoreDay, shoreOrder, shoreUnit, List.filter])
  shoreSim (fun x _ => shoreState_ok x)
  ⟨fun x _ => (shoreState_ok x).lat, fun _ _ => ⟨le_rfl, rfl⟩, fun _ _ => rfl⟩ (shoreDay_ok _)

/-- The cells of `shoreOrder` have the ids 1, 2 and 3 of the table `exTab`, where 1 and 2 drain into 3. -/
def shoreId (x : Cell) : Option ℤ :=
  if x = (1, 1) then some 1 else if x = (2, 2) then some 2 else if x = (1, 2) then some 3 else none

example : ∃ mask, basinMask true shoreId [((2, 2), 5), ((1, 1), 3)] exTab [(1, 1)] 1000 = .ok mask ∧
    UpstreamClosed shoreOrder (fun x => mask x = some 0) := by
  refine ⟨_, rfl, C64_station_basin shoreOrder _ shoreId [((2, 2), 5), ((1, 1), 3)] exTab [(1, 1)] 1000 _ rfl
    (fun x => by simp only [decide_eq_true_eq]) ?_⟩
  intro e he hd b hb
  simp only [shoreOrder, List.mem_cons, List.not_mem_nil, or_false] at he
  rcases he with rfl | rfl | rfl
  · refine ⟨1, rfl, by decide, [1, 2, 0, 0], ?_, by decide⟩
    simp [shoreId] at hb; subst hb; rfl
  · refine ⟨2, rfl, by decide, [1, 2, 0, 0], ?_, by decide⟩
    simp [shoreId] at hb; subst hb; rfl
  · simp [drains] at hd

/-! ### The unsatisfied demand of a day -/

theorem simRun_append {δ : Type} (par : Cell → FullPar) (order : List (Cell × Cell)) (a b : List (SimDay δ)) (s : Sim δ) :
    (simRun par order s (a ++ b)).1 = (simRun par order (simRun par order s a).1 b).1 := by
  induction a generalizing s with
  | nil => rfl
  | cons d ds ih => exact ih _

theorem sim_prev (par : Cell → FullPar) (delayed : Bool) (unit : Cell → ℕ) (world order : List (Cell × Cell)) (d : WgDay)
    (s : Sim DemandState) : (simNet par order (d.sim delayed unit world) s).ledger.demand.prev = s.demand.prev := by
  have key : ∀ (l : List (Cell × Cell)) (n : NetState (Basin DemandState)), n.ledger.demand.prev = s.demand.prev →
      (l.foldl (routeStep (basinNode (simIn par (d.sim delayed unit world) s) (d.sim delayed unit world).get
        (d.sim delayed unit world).upd)) n).ledger.demand.prev = s.demand.prev := by
    intro l
    induction l with
    | nil => intro n h; exact h
    | cons e l ih => intro n h; exact ih _ h
  exact key order _ rfl

/-- **C33 (whole model, the day).**  With delayed use, what a cell hands to the groundwater balance of the next day is the change of its
accumulated unsatisfied demand during the day, and nothing after a 31 December, on every day but the first of the simulation, in a
simulation of the world or of a basin. -/
theorem C33_daily_with_demand (par : Cell → FullPar) (unit : Cell → ℕ) (world : List (Cell × Cell)) (B : Cell → Bool)
    (s : Sim DemandState) (days : List WgDay) (d next : WgDay) (hne : days ≠ []) (x : Cell)
    (huse : ∀ e ∈ days ++ [d], (e.lateral x).useOpt = true) :
    let before := (wgRun par true unit world B s days).1
    let after := (wgRun par true unit world B s (days ++ [d])).1
    (next.inputs after.demand x).unsatNas = if d.dec31 then 0 else after.demand.acc x - before.demand.acc x := by
  have step : ∀ (s : Sim DemandState) (d : WgDay), (d.lateral x).useOpt = true →
      let r := (simDay par (masked world B) (d.sim true unit world) s).1
      r.demand.daily x = (if d.dec31 then 0 else r.demand.acc x - s.demand.prev x) ∧ r.demand.prev x = r.demand.acc x := by
    intro s d hd
    have hp := sim_prev par true unit world (masked world B) d s
    simp only [simDay, WgDay.sim, endOfDay, hd, if_true, Option.getD_none, Option.isSome_some] at hp ⊢
    rw [hp]
    cases d.dec31 <;> simp
  obtain ⟨ds, e, rfl⟩ : ∃ ds e, days = ds ++ [e] := by
    rcases days.eq_nil_or_concat with h | ⟨ds, e, h⟩
    · exact absurd h hne
    · exact ⟨ds, e, by simpa using h⟩
  simp only [wgRun, List.map_append, simRun_append, List.map_cons, List.map_nil]
  generalize (simRun par (masked world B) s (ds.map fun d => d.sim true unit world)).1 = s0
  obtain ⟨-, h1⟩ := step s0 e (huse e (by simp))
  obtain ⟨h2, -⟩ := step (simDay par (masked world B) (e.sim true unit world) s0).1 d (huse d (by simp))
  rw [h1] at h2
  exact h2

example := C33_daily_with_demand (fun _ => exFull) shoreUnit shoreOrder (fun _ => true) shoreSim [shoreDay] shoreDay shoreDay
  (by simp) (1, 1) (by intro e he; simp at he; subst he; simp only [shoreDay, shoreLat]; split_ifs <;> rfl)

end WG
