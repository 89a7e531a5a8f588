import Verif.Model.FloatDemand
import Verif.Props.OrderFree
import Verif.Lemmas.Binary64

/-!
# C96: floating-point results are reproducible bit for bit
-/

namespace WG

variable (A : Arith)

/-! ## Lemmas: a loop with skipped cells -/

section
variable {σ τ : Type}

theorem routeR_masked (B : Cell → Bool) (R : σ → τ → Prop) (node : σ → Cell → ℝ → σ × ℝ × ℝ)
    (node' : τ → Cell → ℝ → τ × ℝ × ℝ)
    (world : List (Cell × Cell)) (hclosed : ∀ e ∈ world, drains e.2 → B e.2 → B e.1)
    (hin : ∀ l l' x up, B x → R l l' → R (node l x up).1 (node' l' x up).1 ∧ (node l x up).2 = (node' l' x up).2)
    (hout : ∀ l l', ∀ x ∈ world.map Prod.fst, ∀ up, ¬ B x → R l l' → R (node l x up).1 l')
    (s : NetState σ) (t : NetState τ) (h : NetAgree B R s t) :
    NetAgree B R (world.foldl (routeStepR A node) s) ((masked world B).foldl (routeStepR A node') t) := by
  induction world generalizing s t with
  | nil => exact h
  | cons e w ih =>
    have hc' : ∀ e ∈ w, drains e.2 → B e.2 → B e.1 := fun e he => hclosed e (by simp [he])
    have ho' : ∀ l l', ∀ x ∈ w.map Prod.fst, ∀ up, ¬ B x → R l l' → R (node l x up).1 l' :=
      fun l l' x hx => hout l l' x (by simp only [List.map_cons, List.mem_cons]; exact Or.inr hx)
    by_cases hb : B e.1
    · have e1 : masked (e :: w) B = e :: masked w B := by simp [masked, hb]
      rw [e1, List.foldl_cons, List.foldl_cons]
      apply ih hc' ho'
      have hup := h.inflow e.1 hb
      obtain ⟨k1, k2⟩ := hin s.ledger t.ledger e.1 (s.inflow e.1) hb h.ledger
      rw [hup] at k1 k2
      have hinf : ∀ x, B x → Function.update s.inflow e.1 (node s.ledger e.1 (t.inflow e.1)).2.1 x
          = Function.update t.inflow e.1 (node' t.ledger e.1 (t.inflow e.1)).2.1 x := by
        intro x hx
        by_cases hxe : x = e.1
        · subst hxe; rw [Function.update_self, Function.update_self, k2]
        · rw [Function.update_of_ne hxe, Function.update_of_ne hxe, h.inflow x hx]
      refine ⟨?_, ?_, ?_, ?_⟩
      · simp only [routeStepR, hup]; exact k1
      · intro x hx
        simp only [routeStepR, hup]
        by_cases hd : drains e.2
        · rw [if_pos hd, if_pos hd]
          by_cases hxe : x = e.2
          · rw [hxe, Function.update_self, Function.update_self, hinf e.2 (hxe ▸ hx), k2]
          · rw [Function.update_of_ne hxe, Function.update_of_ne hxe, hinf x hx]
        · rw [if_neg hd, if_neg hd, hinf x hx]
      · intro x hx
        simp only [routeStepR, hup]
        by_cases hxe : x = e.1
        · subst hxe; rw [Function.update_self, Function.update_self]
        · rw [Function.update_of_ne hxe, Function.update_of_ne hxe, h.up x hx]
      · intro x hx
        simp only [routeStepR, hup]
        by_cases hxe : x = e.1
        · subst hxe; rw [Function.update_self, Function.update_self, k2]
        · rw [Function.update_of_ne hxe, Function.update_of_ne hxe, h.flow x hx]
    · have e1 : masked (e :: w) B = masked w B := by simp [masked, hb]
      rw [e1, List.foldl_cons]
      apply ih hc' ho'
      have hne : ∀ x, B x → x ≠ e.1 := fun x hx he => hb (he ▸ hx)
      refine ⟨hout _ _ e.1 (by simp) _ hb h.ledger, ?_, ?_, ?_⟩
      · intro x hx
        simp only [routeStepR]
        by_cases hd : drains e.2
        · rw [if_pos hd]
          have hxe : x ≠ e.2 := fun he => hb (hclosed e (by simp) hd (he ▸ hx))
          rw [Function.update_of_ne hxe, Function.update_of_ne (hne x hx), h.inflow x hx]
        · rw [if_neg hd, Function.update_of_ne (hne x hx), h.inflow x hx]
      · intro x hx
        simp only [routeStepR]
        rw [Function.update_of_ne (hne x hx), h.up x hx]
      · intro x hx
        simp only [routeStepR]
        rw [Function.update_of_ne (hne x hx), h.flow x hx]
end

/-! ## Lemmas: sharing demand -/

theorem redistStepR_fst (i : RedistIn Cell) (k : ℝ) (rip rip' : Cell → ℝ) (r : Cell) :
    (redistStepR A i (k, rip) r).1 = (redistStepR A i (k, rip') r).1 := by
  unfold redistStepR; split_ifs <;> rfl

theorem redistStepR_snd (i : RedistIn Cell) (k k' : ℝ) (rip rip' : Cell → ℝ) (r c : Cell) (h : rip c = rip' c) :
    (redistStepR A i (k, rip) r).2 c = (redistStepR A i (k', rip') r).2 c := by
  have U : ∀ (a b : Cell → ℝ) (z : Cell) (v : ℝ), a c = b c → Function.update a z v c = Function.update b z v c := by
    intro a b z v hab
    rw [Function.update_apply, Function.update_apply, hab]
  unfold redistStepR
  by_cases h1 : i.unit i.x = i.unit r ∧ i.x ≠ r
  · rw [if_pos h1, if_pos h1]
    by_cases h2 : A.sub i.acc (carriedR A i) > 0
    · rw [if_pos h2, if_pos h2]
      by_cases h3 : i.unagg i.x ≤ 0
      · rw [if_pos h3, if_pos h3]; exact U _ _ _ _ h
      · rw [if_neg h3, if_neg h3]; exact U _ _ _ _ h
    · rw [if_neg h2, if_neg h2]; exact U _ _ _ _ (U _ _ _ _ h)
  · rw [if_neg h1, if_neg h1]; exact h

theorem redistStepR_far (i : RedistIn Cell) (st : ℝ × (Cell → ℝ)) (r c : Cell) (h : i.unit c ≠ i.unit i.x) :
    (redistStepR A i st r).2 c = st.2 c := by
  have hx : c ≠ i.x := fun k => h (by rw [k])
  unfold redistStepR
  by_cases h1 : i.unit i.x = i.unit r ∧ i.x ≠ r
  · have hr : c ≠ r := fun k => h (by rw [k, h1.1])
    rw [if_pos h1]
    split_ifs <;> simp [Function.update_of_ne, hr, hx]
  · rw [if_neg h1]

theorem redistributeR_fst (i : RedistIn Cell) (rip rip' : Cell → ℝ) : (redistributeR A i rip).1 = (redistributeR A i rip').1 := by
  unfold redistributeR
  generalize i.acc = k
  induction i.order generalizing k rip rip' with
  | nil => rfl
  | cons r l ih =>
    rw [List.foldl_cons, List.foldl_cons]
    have h := redistStepR_fst A i k rip rip' r
    have e := ih (redistStepR A i (k, rip) r).2 (redistStepR A i (k, rip') r).2 (redistStepR A i (k, rip) r).1
    rw [Prod.mk.eta] at e
    rw [e, h]

theorem redistributeR_snd (i : RedistIn Cell) (rip rip' : Cell → ℝ) (c : Cell) (h : rip c = rip' c) :
    (redistributeR A i rip).2 c = (redistributeR A i rip').2 c := by
  unfold redistributeR
  have : ∀ (l : List Cell) (st st' : ℝ × (Cell → ℝ)), st.2 c = st'.2 c →
      (l.foldl (redistStepR A i) st).2 c = (l.foldl (redistStepR A i) st').2 c := by
    intro l
    induction l with
    | nil => intro st st' h; exact h
    | cons r l ih => intro st st' h; exact ih _ _ (redistStepR_snd A i st.1 st'.1 st.2 st'.2 r c h)
  exact this _ _ _ h

theorem redistributeR_far (i : RedistIn Cell) (rip : Cell → ℝ) (c : Cell) (h : i.unit c ≠ i.unit i.x) :
    (redistributeR A i rip).2 c = rip c := by
  unfold redistributeR
  have : ∀ (l : List Cell) (st : ℝ × (Cell → ℝ)), (l.foldl (redistStepR A i) st).2 c = st.2 c := by
    intro l
    induction l with
    | nil => intro st; rfl
    | cons r l ih => intro st; rw [List.foldl_cons, ih, redistStepR_far A i st r c h]
  exact this _ _

theorem redistStepR_comm (i : RedistIn Cell) (st : ℝ × (Cell → ℝ)) (a b : Cell) :
    redistStepR A i (redistStepR A i st a) b = redistStepR A i (redistStepR A i st b) a := by
  by_cases hab : a = b
  · rw [hab]
  unfold redistStepR
  by_cases h1 : i.unit i.x = i.unit a ∧ i.x ≠ a
  · by_cases h2 : i.unit i.x = i.unit b ∧ i.x ≠ b
    · rw [if_pos h1, if_pos h2, if_pos h2, if_pos h1]
      by_cases h3 : A.sub i.acc (carriedR A i) > 0
      · rw [if_pos h3, if_pos h3, if_pos h3, if_pos h3]
        by_cases h4 : i.unagg i.x ≤ 0
        · rw [if_pos h4, if_pos h4, if_pos h4, if_pos h4]
          exact Prod.ext rfl (Function.update_comm hab _ _ _)
        · rw [if_neg h4, if_neg h4, if_neg h4, if_neg h4]
          exact Prod.ext rfl (Function.update_comm hab _ _ _)
      · rw [if_neg h3, if_neg h3, if_neg h3, if_neg h3]
        refine Prod.ext rfl ?_
        funext c
        simp only [Function.update_apply]
        split_ifs <;> rfl
    · rw [if_pos h1, if_neg h2, if_neg h2, if_pos h1]
  · by_cases h2 : i.unit i.x = i.unit b ∧ i.x ≠ b
    · rw [if_neg h1, if_pos h2, if_neg h1]
    · rw [if_neg h1, if_neg h2, if_neg h1]

theorem redistributeR_perm (i : RedistIn Cell) (o' : List Cell) (h : i.order.Perm o') (rip : Cell → ℝ) :
    redistributeR A { i with order := o' } rip = redistributeR A i rip := by
  unfold redistributeR
  change o'.foldl (redistStepR A { i with order := o' }) (i.acc, rip) = _
  have e : redistStepR A { i with order := o' } = redistStepR A i := rfl
  rw [e, foldl_perm_comm _ (redistStepR_comm A i) h]

theorem simR_perm (delayed : Bool) (unit : Cell → ℕ) (world world' : List (Cell × Cell)) (h : world.Perm world') (d : WgDay) :
    d.simR A delayed unit world' = d.simR A delayed unit world := by
  have hr : ∀ (l : DemandState) (x : Cell) (u : ℝ) (rip : Cell → ℝ),
      redistributeR A ((d.demand unit world' l).redist x u) rip = redistributeR A ((d.demand unit world l).redist x u) rip :=
    fun l x u rip => redistributeR_perm A ((d.demand unit world l).redist x u) (world'.map Prod.fst) (h.map Prod.fst) rip
  unfold WgDay.simR
  congr 1
  · funext l x
    unfold ledgerGetR
    refine Prod.ext rfl ?_
    funext u
    simp only [hr]
  · funext l x o
    unfold ledgerUpdR
    simp only [hr]
theorem redistR_agree (B : Cell → Bool) (i j : RedistIn Cell) (hprev : i.prev = j.prev) (hs : i.toSupply = j.toSupply)
    (ha : i.acc = j.acc) (hp : i.pot = j.pot) (hu : i.unit = j.unit) (ho : i.order = j.order)
    (hr : i.prevReturned = j.prevReturned) (hx : i.x = j.x) (hB : B i.x) (hun : ∀ c, B c → i.unagg c = j.unagg c)
    (rip rip' : Cell → ℝ) (h : ∀ c, B c → rip c = rip' c) :
    (redistributeR A i rip).1 = (redistributeR A j rip').1 ∧
      ∀ c, B c → (redistributeR A i rip).2 c = (redistributeR A j rip').2 c := by
  have hc : carriedR A i = carriedR A j := by unfold carriedR; rw [hs, hr, hprev]
  have hux : i.unagg i.x = j.unagg j.x := by rw [hun _ hB, hx]
  unfold redistributeR
  rw [ha, ho]
  have key : ∀ (l : List Cell) (st st' : ℝ × (Cell → ℝ)), st.1 = st'.1 → (∀ c, B c → st.2 c = st'.2 c) →
      (l.foldl (redistStepR A i) st).1 = (l.foldl (redistStepR A j) st').1 ∧
        ∀ c, B c → (l.foldl (redistStepR A i) st).2 c = (l.foldl (redistStepR A j) st').2 c := by
    intro l
    induction l with
    | nil => intro st st' h1 h2; exact ⟨h1, h2⟩
    | cons r l ih =>
      intro st st' h1 h2
      rw [List.foldl_cons, List.foldl_cons]
      have upd : ∀ (v v' : ℝ), (B r → v = v') → ∀ c, B c → Function.update st.2 r v c = Function.update st'.2 r v' c := by
        intro v v' hv c hcB
        by_cases hcr : c = r
        · subst hcr; rw [Function.update_self, Function.update_self, hv hcB]
        · rw [Function.update_of_ne hcr, Function.update_of_ne hcr, h2 c hcB]
      apply ih
      · unfold redistStepR
        rw [hu, hx, ha, hc, hp]
        rw [hx] at hux
        rw [hux]
        by_cases a1 : j.unit j.x = j.unit r ∧ j.x ≠ r
        · simp only [if_pos a1]
          by_cases a2 : A.sub j.acc (carriedR A j) > 0
          · simp only [if_pos a2]
            by_cases a3 : j.unagg j.x ≤ 0
            · simp only [if_pos a3]
            · simp only [if_neg a3]
          · simp only [if_neg a2]
        · simp only [if_neg a1]; exact h1
      · intro c hcB
        unfold redistStepR
        rw [hu, hx, ha, hc, hp]
        rw [hx] at hux
        rw [hux]
        by_cases a1 : j.unit j.x = j.unit r ∧ j.x ≠ r
        · simp only [if_pos a1]
          by_cases a2 : A.sub j.acc (carriedR A j) > 0
          · simp only [if_pos a2]
            by_cases a3 : j.unagg j.x ≤ 0
            · simp only [if_pos a3]
              exact upd _ _ (fun hr' => by rw [hun r hr']) c hcB
            · simp only [if_neg a3]
              exact upd _ _ (fun hr' => by rw [hun r hr']) c hcB
          · simp only [if_neg a2]
            by_cases hcx : c = j.x
            · subst hcx; rw [Function.update_self, Function.update_self]
            · rw [Function.update_of_ne hcx, Function.update_of_ne hcx]
              exact upd 0 0 (fun _ => rfl) c hcB
        · simp only [if_neg a1]; exact h2 c hcB
  exact key _ _ _ rfl h


/-! ## Steps of the routing loop -/

/-- `q` is added in the cell `d`, if water flows there. -/
noncomputable def bumpR (i : Cell → ℝ) (d : Cell) (q : ℝ) : Cell → ℝ :=
  if drains d then Function.update i d (A.add (i d) q) else i

theorem bumpR_comm (i : Cell → ℝ) (d d' : Cell) (q q' : ℝ) (h : drains d → d ≠ d') :
    bumpR A (bumpR A i d q) d' q' = bumpR A (bumpR A i d' q') d q := by
  unfold bumpR
  by_cases h1 : drains d
  · by_cases h2 : drains d'
    · rw [if_pos h1, if_pos h2, if_pos h2, if_pos h1, Function.update_of_ne (h h1).symm, Function.update_of_ne (h h1),
        Function.update_comm (h h1)]
    · rw [if_pos h1, if_neg h2, if_neg h2, if_pos h1]
  · by_cases h2 : drains d'
    · rw [if_neg h1, if_pos h2, if_neg h1]
    · rw [if_neg h1, if_neg h2, if_neg h1]

theorem bumpR_update (i : Cell → ℝ) (d x : Cell) (q r : ℝ) (h : drains d → d ≠ x) :
    Function.update (bumpR A i d q) x r = bumpR A (Function.update i x r) d q := by
  unfold bumpR
  by_cases h1 : drains d
  · rw [if_pos h1, if_pos h1, Function.update_of_ne (h h1), Function.update_comm (h h1)]
  · rw [if_neg h1, if_neg h1]

theorem routeStepR_comm {σ : Type} (node : σ → Cell → ℝ → σ × ℝ × ℝ) (e f : Cell × Cell) (hne : e.1 ≠ f.1)
    (h1 : drains e.2 → e.2 ≠ f.1) (h2 : drains f.2 → f.2 ≠ e.1) (h3 : drains e.2 → e.2 ≠ f.2)
    (hn : ∀ l u v, (node (node l e.1 u).1 f.1 v).1 = (node (node l f.1 v).1 e.1 u).1 ∧
      (node (node l e.1 u).1 f.1 v).2 = (node l f.1 v).2 ∧ (node (node l f.1 v).1 e.1 u).2 = (node l e.1 u).2)
    (s : NetState σ) : routeStepR A node (routeStepR A node s e) f = routeStepR A node (routeStepR A node s f) e := by
  have st : ∀ (t : NetState σ) (g : Cell × Cell), routeStepR A node t g =
      { ledger := (node t.ledger g.1 (t.inflow g.1)).1
        inflow := bumpR A (Function.update t.inflow g.1 (node t.ledger g.1 (t.inflow g.1)).2.1) g.2
          (node t.ledger g.1 (t.inflow g.1)).2.2
        up := Function.update t.up g.1 (t.inflow g.1)
        flow := Function.update t.flow g.1 (node t.ledger g.1 (t.inflow g.1)).2.2 } := fun _ _ => rfl
  have at_ : ∀ (i : Cell → ℝ) (d x : Cell) (q : ℝ), (drains d → d ≠ x) → bumpR A i d q x = i x := by
    intro i d x q h
    unfold bumpR
    by_cases hd : drains d
    · rw [if_pos hd, Function.update_of_ne (h hd).symm]
    · rw [if_neg hd]
  have hfe : (routeStepR A node s e).inflow f.1 = s.inflow f.1 := by
    rw [st]
    exact (at_ _ _ _ _ h1).trans (Function.update_of_ne hne.symm _ _)
  have hef : (routeStepR A node s f).inflow e.1 = s.inflow e.1 := by
    rw [st]
    exact (at_ _ _ _ _ h2).trans (Function.update_of_ne hne _ _)
  obtain ⟨n1, n2, n3⟩ := hn s.ledger (s.inflow e.1) (s.inflow f.1)
  rw [st (routeStepR A node s e), hfe, st (routeStepR A node s f), hef]
  have k1 : (routeStepR A node s e).ledger = (node s.ledger e.1 (s.inflow e.1)).1 := rfl
  have k2 : (routeStepR A node s f).ledger = (node s.ledger f.1 (s.inflow f.1)).1 := rfl
  rw [k1, k2, n2, n3, n1, st s e, st s f]
  congr 1
  · rw [bumpR_update A _ _ _ _ _ h1, bumpR_update A _ _ _ _ _ h2, Function.update_comm hne, bumpR_comm A _ _ _ _ _ h3]
  · exact Function.update_comm hne _ _ _
  · exact Function.update_comm hne _ _ _

/-! ## Specification -/

/-- The two routing tables list the same river network, upstream cells first, and agree on what arithmetic that rounds
depends on: the order of the cells that drain into the same cell, and on which side of the outflow cell of a lake or
reservoir the cells on its shore stand. -/
structure SameTable (unit : Cell → ℕ) (days : List WgDay) (order order' : List (Cell × Cell)) : Prop
    extends SameNetwork unit days order order' where
  tributaries : ∀ e f, drains e.2 → e.2 = f.2 → Before order e f → Before order' e f

/-- What two runs did on a day is the same to the last bit in the cells of `B`: how the day started, what flowed in and
out of every cell, what its water balance yielded, and the state it left. -/
structure SameDay {δ ε : Type} (B : Cell → Bool) (t : Sim DemandState × δ × NetState (Basin DemandState) × Sim DemandState)
    (t' : Sim DemandState × ε × NetState (Basin DemandState) × Sim DemandState) : Prop where
  start : t.1.Agree B t'.1
  out : ∀ x, B x → t.2.2.1.ledger.out x = t'.2.2.1.ledger.out x
  flows : ∀ x, B x → t.2.2.1.up x = t'.2.2.1.up x ∧ t.2.2.1.inflow x = t'.2.2.1.inflow x ∧ t.2.2.1.flow x = t'.2.2.1.flow x
  close : t.2.2.2.Agree B t'.2.2.2

section
variable (rule : HanIn → ℝ → ℝ × ℝ) (kRiver : CellIn → ℝ → ℝ)

section
variable (d : WgDay) (delayed : Bool) (unit : Cell → ℕ) (world : List (Cell × Cell))

theorem getR_far (l : DemandState) (x y : Cell) (o : CellOut) (hne : x ≠ y) (h : ¬ OnShore d.lateral unit x y) :
    (d.simR A delayed unit world).get ((d.simR A delayed unit world).upd l x o) y = (d.simR A delayed unit world).get l y := by
  have hrip : ((d.simR A delayed unit world).upd l x o).rip y = l.rip y := by
    change (ledgerUpdR A d.lateral (d.demand unit world l) ⟨l.acc, l.rip⟩ x o).rip y = _
    unfold ledgerUpdR
    by_cases hk : (d.lateral x).useOpt = true ∧ (d.lateral x).hasLake
    · rw [if_pos hk]
      exact redistributeR_far A _ _ _ fun k => h ⟨hk.1, hk.2, k.symm⟩
    · rw [if_neg hk]
  have hacc : ((d.simR A delayed unit world).upd l x o).acc y = l.acc y := by
    change (ledgerUpdR A d.lateral (d.demand unit world l) ⟨l.acc, l.rip⟩ x o).acc y = _
    unfold ledgerUpdR
    exact Function.update_of_ne hne.symm _ _
  change ledgerGetR A d.lateral (d.demand unit world ((d.simR A delayed unit world).upd l x o))
    ⟨((d.simR A delayed unit world).upd l x o).acc, ((d.simR A delayed unit world).upd l x o).rip⟩ y
    = ledgerGetR A d.lateral (d.demand unit world l) ⟨l.acc, l.rip⟩ y
  unfold ledgerGetR
  refine Prod.ext ?_ ?_
  · simp only [hrip, hacc]; rfl
  · funext u
    exact redistributeR_fst A _ _ _

open Classical in
theorem updR_comm (l : DemandState) (x y : Cell) (o o' : CellOut) (hne : x ≠ y) (h : ¬ OnShore d.lateral unit x y) :
    (d.simR A delayed unit world).upd ((d.simR A delayed unit world).upd l x o) y o'
      = (d.simR A delayed unit world).upd ((d.simR A delayed unit world).upd l y o') x o := by
  change DemandState.mk (Function.update (Function.update l.acc x o.unsat) y o'.unsat) l.prev l.daily
      (if (d.lateral y).useOpt = true ∧ (d.lateral y).hasLake then
        (redistributeR A ((d.demand unit world l).redist y o'.lakeUnsat)
          (if (d.lateral x).useOpt = true ∧ (d.lateral x).hasLake then
            (redistributeR A ((d.demand unit world l).redist x o.lakeUnsat) l.rip).2 else l.rip)).2
       else (if (d.lateral x).useOpt = true ∧ (d.lateral x).hasLake then
            (redistributeR A ((d.demand unit world l).redist x o.lakeUnsat) l.rip).2 else l.rip))
    = DemandState.mk (Function.update (Function.update l.acc y o'.unsat) x o.unsat) l.prev l.daily
      (if (d.lateral x).useOpt = true ∧ (d.lateral x).hasLake then
        (redistributeR A ((d.demand unit world l).redist x o.lakeUnsat)
          (if (d.lateral y).useOpt = true ∧ (d.lateral y).hasLake then
            (redistributeR A ((d.demand unit world l).redist y o'.lakeUnsat) l.rip).2 else l.rip)).2
       else (if (d.lateral y).useOpt = true ∧ (d.lateral y).hasLake then
            (redistributeR A ((d.demand unit world l).redist y o'.lakeUnsat) l.rip).2 else l.rip))
  rw [Function.update_comm hne]
  congr 1
  by_cases hx : (d.lateral x).useOpt = true ∧ (d.lateral x).hasLake
  · by_cases hy : (d.lateral y).useOpt = true ∧ (d.lateral y).hasLake
    · rw [if_pos hx, if_pos hy, if_pos hx, if_pos hy]
      have hu : unit x ≠ unit y := fun k => h ⟨hx.1, hx.2, k⟩
      funext c
      by_cases hc : unit c = unit x
      · have hcy : unit c ≠ unit y := by rw [hc]; exact hu
        rw [redistributeR_far A ((d.demand unit world l).redist y o'.lakeUnsat) _ c hcy]
        refine redistributeR_snd A _ _ _ c ?_
        exact (redistributeR_far A ((d.demand unit world l).redist y o'.lakeUnsat) _ c hcy).symm
      · rw [redistributeR_far A ((d.demand unit world l).redist x o.lakeUnsat) _ c hc]
        refine redistributeR_snd A _ _ _ c ?_
        exact redistributeR_far A ((d.demand unit world l).redist x o.lakeUnsat) _ c hc
    · rw [if_pos hx, if_neg hy, if_pos hx, if_neg hy]
  · by_cases hy : (d.lateral y).useOpt = true ∧ (d.lateral y).hasLake
    · rw [if_neg hx, if_pos hy, if_neg hx]
    · rw [if_neg hx, if_neg hy, if_neg hx]

theorem nodeR_comm (cin : Cell → CellIn) (x y : Cell) (hne : x ≠ y) (h : ¬ OnShore d.lateral unit x y)
    (h' : ¬ OnShore d.lateral unit y x) (b : Basin DemandState) (u v : ℝ) :
    let node := basinNodeR A rule kRiver cin (d.simR A delayed unit world).get (d.simR A delayed unit world).upd
    (node (node b x u).1 y v).1 = (node (node b y v).1 x u).1 ∧
      (node (node b x u).1 y v).2 = (node b y v).2 ∧ (node (node b y v).1 x u).2 = (node b x u).2 := by
  intro node
  simp only [node, basinNodeR]
  simp only [getR_far A d delayed unit world _ x y _ hne h, getR_far A d delayed unit world _ y x _ hne.symm h',
    Function.update_of_ne hne, Function.update_of_ne hne.symm, and_self, and_true]
  congr 1
  · exact updR_comm A d delayed unit world _ x y _ _ hne h
  · exact Function.update_comm hne _ _ _
  · exact Function.update_comm hne _ _ _

end

/-! ## The order of the table -/

section
variable (par : Cell → FullPar) (delayed : Bool) (unit : Cell → ℕ)

theorem simNetR_order (order order' world : List (Cell × Cell)) (d : WgDay) (hp : order.Perm order') (hs : Sound order)
    (hs' : Sound order') (hsh : ∀ e f, OnShore d.lateral unit e.1 f.1 ∨ OnShore d.lateral unit f.1 e.1 →
      Before order e f → Before order' e f)
    (htr : ∀ e f, drains e.2 → e.2 = f.2 → Before order e f → Before order' e f) (s : Sim DemandState) :
    simNetR A rule kRiver par order (d.simR A delayed unit world) s
      = simNetR A rule kRiver par order' (d.simR A delayed unit world) s := by
  unfold simNetR basinDayR routeR
  refine foldl_trace _ (fun e f => (((drains e.2 ∧ e.2 = f.1) ∨ (drains f.2 ∧ f.2 = e.1)) ∨
    (OnShore d.lateral unit e.1 f.1 ∨ OnShore d.lateral unit f.1 e.1)) ∨ (drains e.2 ∧ e.2 = f.2)) order order'
    (List.Nodup.of_map _ hs.nodup) hp ?_ ?_ _
  · intro e he f hf hne hD t
    have hne1 : e.1 ≠ f.1 := fun k => hne (List.inj_on_of_nodup_map hs.nodup he hf k)
    exact routeStepR_comm A _ e f hne1 (fun k1 k2 => hD (.inl (.inl (.inl ⟨k1, k2⟩))))
      (fun k1 k2 => hD (.inl (.inl (.inr ⟨k1, k2⟩)))) (fun k1 k2 => hD (.inr ⟨k1, k2⟩))
      (fun b u v => nodeR_comm A rule kRiver d delayed unit world _ e.1 f.1 hne1 (fun k => hD (.inl (.inr (.inl k))))
        (fun k => hD (.inl (.inr (.inr k)))) b u v) t
  · intro e f hD h
    rcases hD with (hD | hD) | hD
    · exact before_of_drains hp hs hs' hD h
    · exact hsh e f hD h
    · exact htr e f hD.1 hD.2 h

/-- C96: in any arithmetic that rounds, two routing tables of the same network that agree on the order of the cells draining
into the same cell (and on the shores of lakes) give the same simulation of the world or of a basin to the last bit. -/
theorem C96_same_table (world world' : List (Cell × Cell)) (days : List WgDay)
    (h : SameTable unit days world world') (basin : Cell → Bool) (s : Sim DemandState) :
    wgRunR A rule kRiver par delayed unit world basin s days = wgRunR A rule kRiver par delayed unit world' basin s days := by
  have hm : (masked world basin).Perm (masked world' basin) := h.perm.filter _
  have hs := sound_masked h.sound basin
  have hs' := sound_masked h.sound' basin
  have hb : ∀ e f, (Before world e f → Before world' e f) → Before (masked world basin) e f →
      Before (masked world' basin) e f := by
    intro e f hk hb
    have h2 := (hk (hb.trans List.filter_sublist)).filter fun e => basin e.1
    have he := (List.mem_filter.1 (hb.subset List.mem_cons_self)).2
    have hf := (List.mem_filter.1 (hb.subset (List.mem_cons_of_mem _ List.mem_cons_self))).2
    have e1 : [e, f].filter (fun e => basin e.1) = [e, f] := by simp [he, hf]
    rw [e1] at h2
    exact h2
  have hsh : ∀ d ∈ days, ∀ e f, OnShore d.lateral unit e.1 f.1 ∨ OnShore d.lateral unit f.1 e.1 →
      Before (masked world basin) e f → Before (masked world' basin) e f :=
    fun d hd e f hD => hb e f (h.shores d hd e f hD)
  have htr : ∀ e f, drains e.2 → e.2 = f.2 → Before (masked world basin) e f → Before (masked world' basin) e f :=
    fun e f h1 h2 => hb e f (h.tributaries e f h1 h2)
  unfold wgRunR
  have e : (days.map fun d => d.simR A delayed unit world') = days.map fun d => d.simR A delayed unit world :=
    List.map_congr_left fun d _ => simR_perm A delayed unit world world' h.perm d
  rw [e]
  clear h e hb
  induction days generalizing s with
  | nil => rfl
  | cons d ds ih =>
    have hn : ∀ t, simNetR A rule kRiver par (masked world basin) (d.simR A delayed unit world) t
        = simNetR A rule kRiver par (masked world' basin) (d.simR A delayed unit world) t := fun t =>
      simNetR_order A rule kRiver par delayed unit _ _ world d hm hs hs' (hsh d List.mem_cons_self) htr t
    have hd : simDayR A rule kRiver par (masked world basin) (d.simR A delayed unit world) s
        = simDayR A rule kRiver par (masked world' basin) (d.simR A delayed unit world) s := by
      unfold simDayR
      rw [hn]
    simp only [List.map_cons, simRunR, hd, hn]
    rw [ih _ fun d' hd' => hsh d' (List.mem_cons_of_mem _ hd')]

end

/-! ## A basin on its own -/

section
variable (par : Cell → FullPar) (delayed : Bool) (unit : Cell → ℕ) (world : List (Cell × Cell)) (B : Cell → Bool)

theorem getR_agree (d d' : WgDay) (hd : d.Agree B d') (l l' : DemandState) (h : l.Agree B l') (x : Cell) (hx : B x) :
    (d.simR A delayed unit world).get l x = (d'.simR A delayed unit world).get l' x := by
  obtain ⟨-, -, hp, hu⟩ := hd.2 x hx
  obtain ⟨-, hl, hp', hu'⟩ := hd.2 x hx
  obtain ⟨h1, h2, h3, h4⟩ := h x hx
  simp only [WgDay.simR, ledgerGetR]
  refine Prod.ext ?_ (funext fun u => ?_)
  · simp only
    rw [h1, h4, hl]
    rfl
  · exact (redistR_agree A B ((d.demand unit world l).redist x u) ((d'.demand unit world l').redist x u) h2 rfl rfl hp rfl rfl
      rfl rfl hx (fun c hc => (hd.2 c hc).2.2.2) l.rip l'.rip (fun c hc => (h c hc).2.2.2)).1

theorem updR_agree (d d' : WgDay) (hd : d.Agree B d') (l l' : DemandState) (h : l.Agree B l') (x : Cell) (hx : B x)
    (o : CellOut) : ((d.simR A delayed unit world).upd l x o).Agree B ((d'.simR A delayed unit world).upd l' x o) := by
  obtain ⟨-, hl, hp, hu⟩ := hd.2 x hx
  obtain ⟨-, h2, -, -⟩ := h x hx
  intro c hc
  obtain ⟨k1, k2, k3, k4⟩ := h c hc
  refine ⟨?_, k2, k3, ?_⟩
  · simp only [WgDay.simR, ledgerUpdR]
    by_cases hcx : c = x
    · subst hcx; rw [Function.update_self, Function.update_self]
    · rw [Function.update_of_ne hcx, Function.update_of_ne hcx, k1]
  · simp only [WgDay.simR, ledgerUpdR]
    rw [hl]
    by_cases hlake : (d'.lateral x).useOpt = true ∧ (d'.lateral x).hasLake
    · rw [if_pos hlake, if_pos hlake]
      exact (redistR_agree A B ((d.demand unit world l).redist x o.lakeUnsat) ((d'.demand unit world l').redist x o.lakeUnsat)
        h2 rfl rfl hp rfl rfl rfl rfl hx (fun c hc => (hd.2 c hc).2.2.2) l.rip l'.rip (fun c hc => (h c hc).2.2.2)).2 c hc
    · rw [if_neg hlake, if_neg hlake, k4]

theorem updR_outside (d : WgDay) (hs : ShoresInside world unit B d) (l l' : DemandState) (h : l.Agree B l') (x : Cell)
    (hx : x ∈ world.map Prod.fst) (hb : ¬ B x) (o : CellOut) : ((d.simR A delayed unit world).upd l x o).Agree B l' := by
  intro c hc
  obtain ⟨k1, k2, k3, k4⟩ := h c hc
  have hcx : c ≠ x := fun e => hb (e ▸ hc)
  refine ⟨?_, k2, k3, ?_⟩
  · simp only [WgDay.simR, ledgerUpdR]
    rw [Function.update_of_ne hcx, k1]
  · simp only [WgDay.simR, ledgerUpdR]
    by_cases hlake : (d.lateral x).useOpt = true ∧ (d.lateral x).hasLake
    · rw [if_pos hlake, redistributeR_far A _ _ c ?_, k4]
      intro hu
      exact hb (hs x hx c hc hu.symm hlake.1 hlake.2)
    · rw [if_neg hlake, k4]

/-- The inputs of the lateral water balance of the day, `waterbalance_lateral.py:553-579`. -/
noncomputable def dayInR {δ : Type} (par : Cell → FullPar) (d : SimDay δ) (s : Sim δ) (x : Cell) : CellIn :=
  fullInR A (par x) (d.lateral s.demand x) (d.weather x) (s.state x)

theorem simInR_agree (d d' : WgDay) (hd : d.Agree B d') (s s' : Sim DemandState) (h : s.Agree B s') (x : Cell) (hx : B x) :
    dayInR A par (d.simR A delayed unit world) s x = dayInR A par (d'.simR A delayed unit world) s' x := by
  obtain ⟨hw, hl, -, -⟩ := hd.2 x hx
  obtain ⟨-, -, h3, -⟩ := h.1 x hx
  simp only [dayInR, WgDay.simR, WgDay.inputs]
  rw [hw, hl, h3, h.2 x hx]

theorem simNetR_agree (hup : UpstreamClosed world B) (d d' : WgDay) (hd : d.Agree B d') (hs : ShoresInside world unit B d)
    (s s' : Sim DemandState) (h : s.Agree B s') :
    NetAgree B (BasinAgree B) (simNetR A rule kRiver par world (d.simR A delayed unit world) s)
      (simNetR A rule kRiver par (masked world B) (d'.simR A delayed unit world) s') := by
  unfold simNetR basinDayR routeR
  apply routeR_masked A B (BasinAgree B) _ _ world hup
  · intro b b' x up hx hb
    have hg := getR_agree A delayed unit world B d d' hd b.demand b'.demand hb.1 x hx
    have hi := simInR_agree A par delayed unit world B d d' hd s s' h x hx
    have hst := (hb.2 x hx).1
    have ho : cellDayR A rule kRiver (dayInR A par (d.simR A delayed unit world) s x) (b.state x) up ((d.simR A delayed unit world).get b.demand x).1
        ((d.simR A delayed unit world).get b.demand x).2
        = cellDayR A rule kRiver (dayInR A par (d'.simR A delayed unit world) s' x) (b'.state x) up
          ((d'.simR A delayed unit world).get b'.demand x).1 ((d'.simR A delayed unit world).get b'.demand x).2 := by
      rw [hg, hi, hst]
    simp only [dayInR] at hi ho
    constructor
    · simp only [basinNodeR]
      rw [ho]
      refine ⟨updR_agree A delayed unit world B d d' hd _ _ hb.1 x hx _, fun c hc => ?_⟩
      by_cases hcx : c = x
      · subst hcx; simp only [Function.update_self, and_self]
      · simp only [Function.update_of_ne hcx]
        exact hb.2 c hc
    · simp only [basinNodeR]
      rw [ho, hg, hi, hst]
  · intro b b' x hx up hbx hb
    simp only [basinNodeR]
    refine ⟨updR_outside A delayed unit world B d hs _ _ hb.1 x hx hbx _, fun c hc => ?_⟩
    have hcx : c ≠ x := fun e => hbx (e ▸ hc)
    simp only [Function.update_of_ne hcx]
    exact hb.2 c hc
  · refine ⟨⟨fun x hx => ?_, fun x hx => ⟨congrArg FullState.lat (h.2 x hx), rfl⟩⟩, fun _ _ => rfl, fun _ _ => rfl, fun _ _ => rfl⟩
    obtain ⟨-, hl, hp, -⟩ := hd.2 x hx
    obtain ⟨k1, k2, k3, k4⟩ := h.1 x hx
    refine ⟨?_, k2, k3, k4⟩
    simp only [WgDay.simR, routeStart]
    rw [hl, hp, k1]

theorem simDayR_agree (hup : UpstreamClosed world B) (d d' : WgDay) (hd : d.Agree B d') (hs : ShoresInside world unit B d)
    (s s' : Sim DemandState) (h : s.Agree B s') :
    (simDayR A rule kRiver par world (d.simR A delayed unit world) s).Agree B
        (simDayR A rule kRiver par (masked world B) (d'.simR A delayed unit world) s') := by
  have hn := simNetR_agree A rule kRiver par delayed unit world B hup d d' hd hs s s' h
  refine ⟨fun x hx => ?_, fun x hx => ?_⟩
  · obtain ⟨-, hl, -, -⟩ := hd.2 x hx
    obtain ⟨k1, k2, k3, k4⟩ := hn.ledger.1 x hx
    simp only [simDayR, WgDay.simR] at k1 k2 k3 k4 ⊢
    rw [k1, k2, k3, k4, hl, hd.1]
    exact ⟨rfl, rfl, rfl, rfl⟩
  · have e := (hn.ledger.2 x hx).2
    simp only [simDayR]
    rw [e, h.2 x hx]
    have hw : (d.simR A delayed unit world).weather x = (d'.simR A delayed unit world).weather x := (hd.2 x hx).1
    rw [hw]

/-- C96: a simulation of a basin computes in every cell of the basin, on every day, the same numbers as the simulation of
the world, to the last bit, in any arithmetic that rounds, whatever the data of the cells outside are. -/
theorem C96_basin_run (hup : UpstreamClosed world B) (days days' : List WgDay)
    (hdays : List.Forall₂ (fun d d' => d.Agree B d' ∧ ShoresInside world unit B d) days days')
    (s s' : Sim DemandState) (h : s.Agree B s') :
    List.Forall₂ (SameDay B) (wgRunR A rule kRiver par delayed unit world (fun _ => true) s days)
      (wgRunR A rule kRiver par delayed unit world B s' days') := by
  have hall : masked world (fun _ => true) = world := by simp [masked]
  simp only [wgRunR, hall]
  induction hdays generalizing s s' with
  | nil => exact .nil
  | cons hd _ ih =>
    have hn := simNetR_agree A rule kRiver par delayed unit world B hup _ _ hd.1 hd.2 s s' h
    have hc := simDayR_agree A rule kRiver par delayed unit world B hup _ _ hd.1 hd.2 s s' h
    refine .cons ⟨h, fun x hx => (hn.ledger.2 x hx).2, fun x hx => ⟨hn.up x hx, hn.inflow x hx, hn.flow x hx⟩, hc⟩ ?_
    exact ih _ _ hc

theorem agree_rfl (s : Sim DemandState) : s.Agree B s := ⟨fun _ _ => ⟨rfl, rfl, rfl, rfl⟩, fun _ _ => rfl⟩

/-- C96: what happens outside a region that contains everything upstream of it (and no shore of a lake or reservoir whose
outflow cell is outside) does not change a bit inside. -/
theorem C96_upstream_only (hup : UpstreamClosed world B) (days days' : List WgDay)
    (hdays : List.Forall₂ (fun d d' => d.Agree B d' ∧ ShoresInside world unit B d ∧ ShoresInside world unit B d') days days')
    (s s' : Sim DemandState) (h : s.Agree B s') :
    List.Forall₂ (SameDay B) (wgRunR A rule kRiver par delayed unit world (fun _ => true) s days)
      (wgRunR A rule kRiver par delayed unit world (fun _ => true) s' days') := by
  have h1 := C96_basin_run A rule kRiver par delayed unit world B hup days days' (hdays.imp fun _ _ k => ⟨k.1, k.2.1⟩) s s' h
  have h2 := C96_basin_run A rule kRiver par delayed unit world B hup days' days'
    (by
      clear h1
      induction hdays with
      | nil => exact .nil
      | cons k _ ih => exact .cons ⟨⟨rfl, fun _ _ => ⟨rfl, rfl, rfl, rfl⟩⟩, k.2.2⟩ ih)
    s' s' (agree_rfl B s')
  revert h1 h2
  generalize wgRunR A rule kRiver par delayed unit world B s' days' = m
  generalize wgRunR A rule kRiver par delayed unit world (fun _ => true) s days = a
  generalize wgRunR A rule kRiver par delayed unit world (fun _ => true) s' days' = b
  intro h1 h2
  have tr : ∀ t u v : Sim DemandState, t.Agree B v → u.Agree B v → t.Agree B u := by
    intro t u v k l
    refine ⟨fun x hx => ?_, fun x hx => (k.2 x hx).trans (l.2 x hx).symm⟩
    obtain ⟨k1, k2, k3, k4⟩ := k.1 x hx
    obtain ⟨l1, l2, l3, l4⟩ := l.1 x hx
    exact ⟨k1.trans l1.symm, k2.trans l2.symm, k3.trans l3.symm, k4.trans l4.symm⟩
  induction h1 generalizing b with
  | nil => cases h2; exact .nil
  | cons k _ ih =>
    cases h2 with
    | cons l h2 =>
      exact .cons ⟨tr _ _ _ k.start l.start, fun x hx => (k.out x hx).trans (l.out x hx).symm,
        fun x hx => ⟨(k.flows x hx).1.trans (l.flows x hx).1.symm, (k.flows x hx).2.1.trans (l.flows x hx).2.1.symm,
          (k.flows x hx).2.2.trans (l.flows x hx).2.2.symm⟩, tr _ _ _ k.close l.close⟩ (ih _ h2)

/-- The state after the days of a run that started in `s`. -/
noncomputable def lastState {δ ε : Type} (s : Sim δ) (run : List (Sim δ × ε × NetState (Basin δ) × Sim δ)) : Sim δ :=
  (run.getLast?.map fun t => t.2.2.2).getD s

/-- C96: a run that continues from the state another run left computes the days the uninterrupted run would have computed,
to the last bit. -/
theorem C96_continued (s : Sim DemandState) (days days' : List WgDay) :
    wgRunR A rule kRiver par delayed unit world B s (days ++ days')
      = wgRunR A rule kRiver par delayed unit world B s days
        ++ wgRunR A rule kRiver par delayed unit world B
            (lastState s (wgRunR A rule kRiver par delayed unit world B s days)) days' := by
  unfold wgRunR
  induction days generalizing s with
  | nil => rfl
  | cons d ds ih =>
    simp only [List.cons_append, List.map_cons, simRunR]
    rw [ih]
    congr 3
    cases ds with
    | nil => rfl
    | cons d' ds =>
      simp only [lastState, List.map_cons, simRunR, List.getLast?_cons, Option.map_some, Option.getD_some]

end
end

/-! ## The order of the tributaries -/

/-- Three cells drain into the cell `(1, 4)`. -/
def tributaryOrder : List (Cell × Cell) :=
  [((1, 1), (1, 4)), ((1, 2), (1, 4)), ((1, 3), (1, 4)), ((1, 4), (0, 0))]

/-- The same network, the first cell listed last. -/
def tributaryOrder' : List (Cell × Cell) :=
  [((1, 2), (1, 4)), ((1, 3), (1, 4)), ((1, 1), (1, 4)), ((1, 4), (0, 0))]

/-- A cell `(1, 1)` with a streamflow of 1 km³, and others with little. -/
noncomputable def tributaryNode (_ : Unit) (x : Cell) (up : ℝ) : Unit × ℝ × ℝ :=
  ((), up, if x = (1, 1) then 1 else if x = (1, 4) then up else 3 / 2 ^ 55)

/-- **C96 violated (tributaries).**  The sum of the inflows of a cell depends on the order in which the routing table lists
the cells that drain into it: in binary64 arithmetic two tables of the same network, both upstream cells first, give
different streamflows at the outlet. -/
theorem C96_violated_tributaries :
    tributaryOrder.Perm tributaryOrder' ∧ Sound tributaryOrder ∧ Sound tributaryOrder' ∧
    (routeR binary64 tributaryNode tributaryOrder ()).flow (1, 4) = 1 ∧
    (routeR binary64 tributaryNode tributaryOrder' ()).flow (1, 4) = 1 + 1 / 2 ^ 52 := by
  have one : fl64 1 = 1 := by simpa using fl64_nat 1 (by norm_num)
  have small : fl64 (3 / 2 ^ 55) = 3 / 2 ^ 55 := by
    have e : (3 / 2 ^ 55 : ℝ) = ((3 : ℤ) : ℝ) * 2 ^ (-55 : ℤ) := by norm_num
    rw [e, fl64_fix 3 (-55) (by norm_num) (by norm_num)]
  have two : fl64 (3 / 2 ^ 55 + 3 / 2 ^ 55) = 3 / 2 ^ 54 := by
    have e : (3 / 2 ^ 55 + 3 / 2 ^ 55 : ℝ) = ((3 : ℤ) : ℝ) * 2 ^ (-54 : ℤ) := by norm_num
    rw [e, fl64_fix 3 (-54) (by norm_num) (by norm_num)]
    norm_num
  have lost : fl64 (1 + 3 / 2 ^ 55) = 1 := by
    rw [fl64_eval (2 ^ 52) (-52) (by norm_num) (by norm_num) (by norm_num) (by norm_num [abs_lt])]; norm_num
  have kept : fl64 (3 / 2 ^ 54 + 1) = 1 + (2 ^ 52)⁻¹ := by
    rw [fl64_eval (2 ^ 52 + 1) (-52) (by norm_num) (by norm_num) (by norm_num) (by norm_num [abs_lt])]; norm_num
  refine ⟨by decide, ⟨by decide, by decide, by decide⟩, ⟨by decide, by decide, by decide⟩, ?_, ?_⟩
  · simp only [routeR, tributaryOrder, List.foldl_cons, List.foldl_nil, routeStepR, routeStart, tributaryNode, drains,
      Function.update_apply, Arith.add, binary64]
    simp [one, small, lost]
  · simp only [routeR, tributaryOrder', List.foldl_cons, List.foldl_nil, routeStepR, routeStart, tributaryNode, drains,
      Function.update_apply, Arith.add, binary64]
    simp [one, small, two, kept]

/-! ## Non-vacuity -/

/-- A lake with its shore cell `(1, 1)` and outflow cell `(1, 2)`, and a river of its own `(2, 2)`. -/
def twoRivers : List (Cell × Cell) := [((1, 1), (1, 2)), ((2, 2), (0, 0)), ((1, 2), (0, 0))]

/-- The river of its own is listed first. -/
def twoRivers' : List (Cell × Cell) := [((2, 2), (0, 0)), ((1, 1), (1, 2)), ((1, 2), (0, 0))]

theorem twoRivers_same : SameTable shoreUnit [shoreDay, shoreDay] twoRivers twoRivers' := by
  have key : ∀ e f, Before twoRivers e f → ¬ (e = ((1, 1), (1, 2)) ∧ f = ((2, 2), (0, 0))) → Before twoRivers' e f := by
    intro e f hb hn
    have he : e ∈ twoRivers := hb.subset List.mem_cons_self
    have hf : f ∈ twoRivers := hb.subset (List.mem_cons_of_mem _ List.mem_cons_self)
    simp only [twoRivers, List.mem_cons, List.not_mem_nil, or_false] at he hf
    rcases he with rfl | rfl | rfl <;> rcases hf with rfl | rfl | rfl <;>
      first
        | exact absurd ⟨rfl, rfl⟩ hn
        | (unfold Before; decide)
        | exact absurd hb (by unfold Before; decide)
  refine ⟨⟨List.Perm.swap _ _ _, ⟨by decide, by decide, by decide⟩, ⟨by decide, by decide, by decide⟩,
    fun d hd e f h hb => key e f hb ?_⟩, fun e f h1 h2 hb => key e f hb ?_⟩
  · rintro ⟨rfl, rfl⟩
    simp only [List.mem_cons, List.not_mem_nil, or_false, or_self] at hd
    subst hd
    rcases h with h | h
    · exact absurd ((shoreLat_lake _).1 h.2.1) (by decide)
    · exact absurd ((shoreLat_lake _).1 h.2.1) (by decide)
  · rintro ⟨rfl, rfl⟩
    exact absurd h2 (by decide)

/-- Two days in binary64 arithmetic, with any release rule. -/
example (rule : HanIn → ℝ → ℝ × ℝ) (kRiver : CellIn → ℝ → ℝ) :=
  C96_same_table binary64 rule kRiver (fun _ => exFull) true shoreUnit twoRivers twoRivers' [shoreDay, shoreDay]
    twoRivers_same (fun _ => true) shoreSim

theorem lonely_shores (w : Cell → Weather) :
    ShoresInside twoRivers shoreUnit (fun x => x = (2, 2)) { shoreDay with weather := w } := by
  intro x _ r hr hu _ hl
  have hx := (shoreLat_lake x).1 hl
  simp only [decide_eq_true_eq] at hr
  subst hx hr
  simp [shoreUnit] at hu

theorem lonely_closed : UpstreamClosed twoRivers (fun x => x = (2, 2)) := by
  intro e he hd hb
  simp only [twoRivers, List.mem_cons, List.not_mem_nil, or_false] at he
  rcases he with rfl | rfl | rfl <;> simp_all [drains]

/-- The river `(2, 2)` on its own computes the same bits. -/
example (rule : HanIn → ℝ → ℝ × ℝ) (kRiver : CellIn → ℝ → ℝ) :=
  C96_basin_run binary64 rule kRiver (fun _ => exFull) true shoreUnit twoRivers (fun x => x = (2, 2)) lonely_closed
    [shoreDay, shoreDay] [shoreDay, shoreDay]
    (.cons ⟨⟨rfl, fun _ _ => ⟨rfl, rfl, rfl, rfl⟩⟩, lonely_shores _⟩
      (.cons ⟨⟨rfl, fun _ _ => ⟨rfl, rfl, rfl, rfl⟩⟩, lonely_shores _⟩ .nil))
    shoreSim shoreSim (agree_rfl _ _)

/-- The river `(2, 2)` does not notice that it is colder elsewhere. -/
example (rule : HanIn → ℝ → ℝ × ℝ) (kRiver : CellIn → ℝ → ℝ) :=
  C96_upstream_only binary64 rule kRiver (fun _ => exFull) true shoreUnit twoRivers (fun x => x = (2, 2)) lonely_closed
    [shoreDay] [{ shoreDay with weather := fun x => if x = (2, 2) then exWeather else ⟨250, 100, 200, 3⟩ }]
    (.cons ⟨⟨rfl, fun x hx => ⟨by simp only [decide_eq_true_eq] at hx; simp [shoreDay, hx], rfl, rfl, rfl⟩⟩,
      lonely_shores _, lonely_shores _⟩ .nil)
    shoreSim shoreSim (agree_rfl _ _)

/-- A run of one day continued for another. -/
example (rule : HanIn → ℝ → ℝ × ℝ) (kRiver : CellIn → ℝ → ℝ) :=
  C96_continued binary64 rule kRiver (fun _ => exFull) true shoreUnit twoRivers (fun _ => true) shoreSim [shoreDay] [shoreDay]

end WG
