import Verif.Props.Whole

/-!
# C82: the results do not depend on the order in which the routing table lists the cells
-/

namespace WG

/-! ## Lists that differ in the order of independent steps -/

theorem foldl_front {α β : Type} (f : β → α → β) (a : α) (p : List α) (s : β) (h : ∀ b ∈ p, ∀ s, f (f s a) b = f (f s b) a) :
    f (p.foldl f s) a = p.foldl f (f s a) := by
  induction p generalizing s with
  | nil => rfl
  | cons b p ih =>
    rw [List.foldl_cons, List.foldl_cons, ih _ fun c hc => h c (List.mem_cons_of_mem _ hc), h b List.mem_cons_self]

/-- Two lists of the same steps, which agree on the order of any two steps that depend on each other, lead to the same
result. -/
theorem foldl_trace {α β : Type} (f : β → α → β) (D : α → α → Prop) (l l' : List α) (hn : l.Nodup) (hp : l.Perm l')
    (hc : ∀ a ∈ l, ∀ b ∈ l, a ≠ b → ¬ D a b → ∀ s, f (f s a) b = f (f s b) a)
    (ho : ∀ a b, D a b → [a, b].Sublist l → [a, b].Sublist l') (s : β) : l.foldl f s = l'.foldl f s := by
  induction l generalizing l' s with
  | nil => rw [hp.nil_eq]
  | cons a t ih =>
    obtain ⟨p, q, rfl⟩ := List.append_of_mem (hp.mem_iff.1 List.mem_cons_self)
    have hn' := hp.nodup_iff.1 hn
    have ht : t.Perm (p ++ q) := (List.perm_cons a).1 (hp.trans List.perm_middle)
    rw [List.nodup_cons] at hn
    have hap : a ∉ p := by
      intro k
      exact (List.nodup_append.1 hn').2.2 a k a List.mem_cons_self rfl
    rw [List.foldl_append, List.foldl_cons, List.foldl_cons, foldl_front f a p s ?_, ← List.foldl_append]
    · refine ih (p ++ q) hn.2 ht (fun b hb c hc' => hc b (List.mem_cons_of_mem _ hb) c (List.mem_cons_of_mem _ hc')) ?_ _
      intro c d hcd hs
      have h1 := ho c d hcd (hs.cons a)
      have hca : c ≠ a := fun k => hn.1 (k ▸ hs.subset List.mem_cons_self)
      have hda : d ≠ a := fun k => hn.1 (k ▸ hs.subset (List.mem_cons_of_mem _ List.mem_cons_self))
      classical
      have h2 := h1.filter fun z => decide (z ≠ a)
      have e1 : [c, d].filter (fun z => decide (z ≠ a)) = [c, d] := by simp [hca, hda]
      rw [e1] at h2
      refine h2.trans ?_
      rw [List.filter_append, List.filter_cons]
      simp only [ne_eq, not_true_eq_false, decide_false]
      exact List.filter_sublist.append List.filter_sublist
    · intro b hb
      have hba : b ≠ a := fun k => hap (k ▸ hb)
      have hbt : b ∈ t := ht.mem_iff.2 (List.mem_append_left _ hb)
      refine hc a List.mem_cons_self b (List.mem_cons_of_mem _ hbt) hba.symm fun hD => ?_
      have h1 := ho a b hD ((List.singleton_sublist.2 hbt).cons_cons a)
      have h2 : [b, a].Sublist (p ++ a :: q) :=
        (List.singleton_sublist.2 hb).append (List.singleton_sublist.2 List.mem_cons_self)
      -- both orders in a list without repetitions
      have h3 := (List.pairwise_iff_forall_sublist (R := fun x y : α => x ≠ y)).1 hn' h1
      have hbp : b ∉ a :: q := fun k => (List.nodup_append.1 hn').2.2 b hb b k rfl
      obtain ⟨l1, l2, e, k1, k2⟩ := List.sublist_append_iff.1 h1
      cases l1 with
      | nil =>
        simp only [List.nil_append] at e
        rw [← e] at k2
        exact hbp (k2.subset (List.mem_cons_of_mem _ List.mem_cons_self))
      | cons z l1 =>
        simp only [List.cons_append, List.cons.injEq] at e
        exact hap (e.1 ▸ k1.subset List.mem_cons_self)

/-! ## Steps of the routing loop -/

/-- `q` is added in the cell `d`, if water flows there. -/
def bump (i : Cell → ℝ) (d : Cell) (q : ℝ) : Cell → ℝ := fun c => i c + if drains d ∧ c = d then q else 0

theorem bump_comm (i : Cell → ℝ) (d d' : Cell) (q q' : ℝ) : bump (bump i d q) d' q' = bump (bump i d' q') d q := by
  funext c; unfold bump; ring

theorem bump_update (i : Cell → ℝ) (d x : Cell) (q r : ℝ) (h : drains d → d ≠ x) :
    Function.update (bump i d q) x r = bump (Function.update i x r) d q := by
  funext c
  unfold bump
  by_cases hc : c = x
  · subst hc
    have : ¬ (drains d ∧ c = d) := fun k => h k.1 k.2.symm
    simp [this]
  · simp [hc]

theorem routeStep_comm {σ : Type} (node : σ → Cell → ℝ → σ × ℝ × ℝ) (e f : Cell × Cell) (hne : e.1 ≠ f.1)
    (h1 : drains e.2 → e.2 ≠ f.1) (h2 : drains f.2 → f.2 ≠ e.1)
    (hn : ∀ l u v, (node (node l e.1 u).1 f.1 v).1 = (node (node l f.1 v).1 e.1 u).1 ∧
      (node (node l e.1 u).1 f.1 v).2 = (node l f.1 v).2 ∧ (node (node l f.1 v).1 e.1 u).2 = (node l e.1 u).2)
    (s : NetState σ) : routeStep node (routeStep node s e) f = routeStep node (routeStep node s f) e := by
  have hfe : (routeStep node s e).inflow f.1 = s.inflow f.1 := by
    simp only [routeStep]
    split_ifs with h
    · rw [Function.update_of_ne (h1 h).symm, Function.update_of_ne hne.symm]
    · rw [Function.update_of_ne hne.symm]
  have hef : (routeStep node s f).inflow e.1 = s.inflow e.1 := by
    simp only [routeStep]
    split_ifs with h
    · rw [Function.update_of_ne (h2 h).symm, Function.update_of_ne hne]
    · rw [Function.update_of_ne hne]
  obtain ⟨n1, n2, n3⟩ := hn s.ledger (s.inflow e.1) (s.inflow f.1)
  have st : ∀ (t : NetState σ) (g : Cell × Cell), routeStep node t g =
      { ledger := (node t.ledger g.1 (t.inflow g.1)).1
        inflow := (let i := Function.update t.inflow g.1 (node t.ledger g.1 (t.inflow g.1)).2.1
          if drains g.2 then Function.update i g.2 (i g.2 + (node t.ledger g.1 (t.inflow g.1)).2.2) else i)
        up := Function.update t.up g.1 (t.inflow g.1)
        flow := Function.update t.flow g.1 (node t.ledger g.1 (t.inflow g.1)).2.2 } := fun _ _ => rfl
  have lhs : routeStep node (routeStep node s e) f =
      { ledger := (node (node s.ledger e.1 (s.inflow e.1)).1 f.1 (s.inflow f.1)).1
        inflow := (let i := Function.update (routeStep node s e).inflow f.1 (node s.ledger f.1 (s.inflow f.1)).2.1
          if drains f.2 then Function.update i f.2 (i f.2 + (node s.ledger f.1 (s.inflow f.1)).2.2) else i)
        up := Function.update (Function.update s.up e.1 (s.inflow e.1)) f.1 (s.inflow f.1)
        flow := Function.update (Function.update s.flow e.1 (node s.ledger e.1 (s.inflow e.1)).2.2) f.1
          (node s.ledger f.1 (s.inflow f.1)).2.2 } := by
    rw [st (routeStep node s e), hfe]
    have : (routeStep node s e).ledger = (node s.ledger e.1 (s.inflow e.1)).1 := rfl
    rw [this, n2]
    rfl
  have rhs : routeStep node (routeStep node s f) e =
      { ledger := (node (node s.ledger f.1 (s.inflow f.1)).1 e.1 (s.inflow e.1)).1
        inflow := (let i := Function.update (routeStep node s f).inflow e.1 (node s.ledger e.1 (s.inflow e.1)).2.1
          if drains e.2 then Function.update i e.2 (i e.2 + (node s.ledger e.1 (s.inflow e.1)).2.2) else i)
        up := Function.update (Function.update s.up f.1 (s.inflow f.1)) e.1 (s.inflow e.1)
        flow := Function.update (Function.update s.flow f.1 (node s.ledger f.1 (s.inflow f.1)).2.2) e.1
          (node s.ledger e.1 (s.inflow e.1)).2.2 } := by
    rw [st (routeStep node s f), hef]
    have : (routeStep node s f).ledger = (node s.ledger f.1 (s.inflow f.1)).1 := rfl
    rw [this, n3]
    rfl
  rw [lhs, rhs, n1, Function.update_comm hne, Function.update_comm hne]
  congr 1
  simp only [routeStep]
  generalize (node s.ledger e.1 (s.inflow e.1)).2.1 = re
  generalize (node s.ledger e.1 (s.inflow e.1)).2.2 = qe
  generalize (node s.ledger f.1 (s.inflow f.1)).2.1 = rf
  generalize (node s.ledger f.1 (s.inflow f.1)).2.2 = qf
  have B : ∀ (i : Cell → ℝ) (d : Cell) (q : ℝ), (if drains d then Function.update i d (i d + q) else i) = bump i d q := by
    intro i d q
    funext c
    unfold bump
    by_cases hd : drains d
    · by_cases hcd : c = d
      · subst hcd; simp [hd]
      · simp [hd, hcd]
    · simp [hd]
  simp only [B]
  rw [bump_update _ _ _ _ _ h1, bump_update _ _ _ _ _ h2, Function.update_comm hne, bump_comm]

/-! ## Redistribution among the cells of a shore -/

theorem redistStep_fst (i : RedistIn Cell) (k : ℝ) (rip rip' : Cell → ℝ) (r : Cell) :
    (redistStep i (k, rip) r).1 = (redistStep i (k, rip') r).1 := by
  unfold redistStep; split_ifs <;> rfl

theorem redistStep_snd (i : RedistIn Cell) (k k' : ℝ) (rip rip' : Cell → ℝ) (r c : Cell) (h : rip c = rip' c) :
    (redistStep i (k, rip) r).2 c = (redistStep i (k', rip') r).2 c := by
  have U : ∀ (a b : Cell → ℝ) (z : Cell) (v : ℝ), a c = b c → Function.update a z v c = Function.update b z v c := by
    intro a b z v hab
    rw [Function.update_apply, Function.update_apply, hab]
  unfold redistStep
  by_cases h1 : i.unit i.x = i.unit r ∧ i.x ≠ r
  · rw [if_pos h1, if_pos h1]
    by_cases h2 : i.acc - i.carried > 0
    · rw [if_pos h2, if_pos h2]
      by_cases h3 : i.unagg i.x ≤ 0
      · rw [if_pos h3, if_pos h3]; exact U _ _ _ _ h
      · rw [if_neg h3, if_neg h3]; exact U _ _ _ _ h
    · rw [if_neg h2, if_neg h2]; exact U _ _ _ _ (U _ _ _ _ h)
  · rw [if_neg h1, if_neg h1]; exact h

theorem redistStep_far (i : RedistIn Cell) (st : ℝ × (Cell → ℝ)) (r c : Cell) (h : i.unit c ≠ i.unit i.x) :
    (redistStep i st r).2 c = st.2 c := by
  have hx : c ≠ i.x := fun k => h (by rw [k])
  unfold redistStep
  by_cases h1 : i.unit i.x = i.unit r ∧ i.x ≠ r
  · have hr : c ≠ r := fun k => h (by rw [k, h1.1])
    rw [if_pos h1]
    split_ifs <;> simp [Function.update_of_ne, hr, hx]
  · rw [if_neg h1]

theorem redistribute_fst (i : RedistIn Cell) (rip rip' : Cell → ℝ) : (redistribute i rip).1 = (redistribute i rip').1 := by
  unfold redistribute
  generalize i.acc = k
  induction i.order generalizing k rip rip' with
  | nil => rfl
  | cons r l ih =>
    rw [List.foldl_cons, List.foldl_cons]
    have h := redistStep_fst i k rip rip' r
    have e := ih (redistStep i (k, rip) r).2 (redistStep i (k, rip') r).2 (redistStep i (k, rip) r).1
    rw [Prod.mk.eta] at e
    rw [e, h]

theorem redistribute_snd (i : RedistIn Cell) (rip rip' : Cell → ℝ) (c : Cell) (h : rip c = rip' c) :
    (redistribute i rip).2 c = (redistribute i rip').2 c := by
  unfold redistribute
  have : ∀ (l : List Cell) (st st' : ℝ × (Cell → ℝ)), st.2 c = st'.2 c →
      (l.foldl (redistStep i) st).2 c = (l.foldl (redistStep i) st').2 c := by
    intro l
    induction l with
    | nil => intro st st' h; exact h
    | cons r l ih => intro st st' h; exact ih _ _ (redistStep_snd i st.1 st'.1 st.2 st'.2 r c h)
  exact this _ _ _ h

theorem redistribute_far (i : RedistIn Cell) (rip : Cell → ℝ) (c : Cell) (h : i.unit c ≠ i.unit i.x) :
    (redistribute i rip).2 c = rip c := by
  unfold redistribute
  have : ∀ (l : List Cell) (st : ℝ × (Cell → ℝ)), (l.foldl (redistStep i) st).2 c = st.2 c := by
    intro l
    induction l with
    | nil => intro st; rfl
    | cons r l ih => intro st; rw [List.foldl_cons, ih, redistStep_far i st r c h]
  exact this _ _

theorem redistStep_comm (i : RedistIn Cell) (st : ℝ × (Cell → ℝ)) (a b : Cell) :
    redistStep i (redistStep i st a) b = redistStep i (redistStep i st b) a := by
  by_cases hab : a = b
  · rw [hab]
  unfold redistStep
  by_cases h1 : i.unit i.x = i.unit a ∧ i.x ≠ a
  · by_cases h2 : i.unit i.x = i.unit b ∧ i.x ≠ b
    · rw [if_pos h1, if_pos h2, if_pos h2, if_pos h1]
      by_cases h3 : i.acc - i.carried > 0
      · rw [if_pos h3, if_pos h3, if_pos h3, if_pos h3]
        by_cases h4 : i.unagg i.x ≤ 0
        · rw [if_pos h4, if_pos h4, if_pos h4, if_pos h4]
          exact Prod.ext rfl (Function.update_comm hab _ _ _)
        · rw [if_neg h4, if_neg h4, if_neg h4, if_neg h4]
          exact Prod.ext rfl (Function.update_comm hab _ _ _)
      · rw [if_neg h3, if_neg h3, if_neg h3, if_neg h3]
        refine Prod.ext rfl ?_
        funext c
        simp only [Function.update_apply]
        split_ifs <;> rfl
    · rw [if_pos h1, if_neg h2, if_neg h2, if_pos h1]
  · by_cases h2 : i.unit i.x = i.unit b ∧ i.x ≠ b
    · rw [if_neg h1, if_pos h2, if_neg h1]
    · rw [if_neg h1, if_neg h2, if_neg h1]

theorem foldl_perm_comm {α β : Type} (f : β → α → β) (hf : ∀ s a b, f (f s a) b = f (f s b) a) {l l' : List α}
    (h : l.Perm l') (s : β) : l.foldl f s = l'.foldl f s := by
  induction h generalizing s with
  | nil => rfl
  | cons a _ ih => exact ih _
  | swap a b l => simp only [List.foldl_cons, hf]
  | trans _ _ ih1 ih2 => rw [ih1, ih2]

theorem redistribute_perm (i : RedistIn Cell) (o' : List Cell) (h : i.order.Perm o') (rip : Cell → ℝ) :
    redistribute { i with order := o' } rip = redistribute i rip := by
  unfold redistribute
  change o'.foldl (redistStep { i with order := o' }) (i.acc, rip) = _
  have e : redistStep { i with order := o' } = redistStep i := rfl
  rw [e, foldl_perm_comm _ (redistStep_comm i) h]

theorem sim_perm (delayed : Bool) (unit : Cell → ℕ) (world world' : List (Cell × Cell)) (h : world.Perm world') (d : WgDay) :
    d.sim delayed unit world' = d.sim delayed unit world := by
  have hr : ∀ (l : DemandState) (x : Cell) (u : ℝ) (rip : Cell → ℝ),
      redistribute ((d.demand unit world' l).redist x u) rip = redistribute ((d.demand unit world l).redist x u) rip :=
    fun l x u rip => redistribute_perm ((d.demand unit world l).redist x u) (world'.map Prod.fst) (h.map Prod.fst) rip
  unfold WgDay.sim
  congr 1
  · funext l x
    unfold ledgerGet
    refine Prod.ext rfl ?_
    funext u
    simp only [hr]
  · funext l x o
    unfold ledgerUpd
    simp only [hr]

/-! ## Specification -/

/-- `e` comes before `f` in the routing order. -/
def Before (order : List (Cell × Cell)) (e f : Cell × Cell) : Prop := [e, f].Sublist order

/-- `x` is the outflow cell of a lake or reservoir with water use, and the cell `y` belongs to the same lake or
reservoir. -/
def OnShore (lateral : Cell → CellIn) (unit : Cell → ℕ) (x y : Cell) : Prop :=
  (lateral x).useOpt = true ∧ (lateral x).hasLake ∧ unit x = unit y

/-- The two routing orders list the same river network, upstream cells first, and put each cell of a lake or reservoir on
the same side of the outflow cell. -/
structure SameNetwork (unit : Cell → ℕ) (days : List WgDay) (order order' : List (Cell × Cell)) : Prop where
  perm : order.Perm order'
  sound : Sound order
  sound' : Sound order'
  shores : ∀ d ∈ days, ∀ e f, OnShore d.lateral unit e.1 f.1 ∨ OnShore d.lateral unit f.1 e.1 →
    Before order e f → Before order' e f

/-! ## Proof -/

section
variable (d : WgDay) (delayed : Bool) (unit : Cell → ℕ) (world : List (Cell × Cell))

theorem get_far (l : DemandState) (x y : Cell) (o : CellOut) (hne : x ≠ y) (h : ¬ OnShore d.lateral unit x y) :
    (d.sim delayed unit world).get ((d.sim delayed unit world).upd l x o) y = (d.sim delayed unit world).get l y := by
  have hrip : ((d.sim delayed unit world).upd l x o).rip y = l.rip y := by
    change (ledgerUpd d.lateral (d.demand unit world l) ⟨l.acc, l.rip⟩ x o).rip y = _
    unfold ledgerUpd
    by_cases hk : (d.lateral x).useOpt = true ∧ (d.lateral x).hasLake
    · rw [if_pos hk]
      exact redistribute_far _ _ _ fun k => h ⟨hk.1, hk.2, k.symm⟩
    · rw [if_neg hk]
  have hacc : ((d.sim delayed unit world).upd l x o).acc y = l.acc y := by
    change (ledgerUpd d.lateral (d.demand unit world l) ⟨l.acc, l.rip⟩ x o).acc y = _
    unfold ledgerUpd
    exact Function.update_of_ne hne.symm _ _
  change ledgerGet d.lateral (d.demand unit world ((d.sim delayed unit world).upd l x o))
    ⟨((d.sim delayed unit world).upd l x o).acc, ((d.sim delayed unit world).upd l x o).rip⟩ y
    = ledgerGet d.lateral (d.demand unit world l) ⟨l.acc, l.rip⟩ y
  unfold ledgerGet
  refine Prod.ext ?_ ?_
  · simp only [hrip, hacc]; rfl
  · funext u
    exact redistribute_fst _ _ _

open Classical in
theorem upd_comm (l : DemandState) (x y : Cell) (o o' : CellOut) (hne : x ≠ y) (h : ¬ OnShore d.lateral unit x y) :
    (d.sim delayed unit world).upd ((d.sim delayed unit world).upd l x o) y o'
      = (d.sim delayed unit world).upd ((d.sim delayed unit world).upd l y o') x o := by
  change DemandState.mk (Function.update (Function.update l.acc x o.unsat) y o'.unsat) l.prev l.daily
      (if (d.lateral y).useOpt = true ∧ (d.lateral y).hasLake then
        (redistribute ((d.demand unit world l).redist y o'.lakeUnsat)
          (if (d.lateral x).useOpt = true ∧ (d.lateral x).hasLake then
            (redistribute ((d.demand unit world l).redist x o.lakeUnsat) l.rip).2 else l.rip)).2
       else (if (d.lateral x).useOpt = true ∧ (d.lateral x).hasLake then
            (redistribute ((d.demand unit world l).redist x o.lakeUnsat) l.rip).2 else l.rip))
    = DemandState.mk (Function.update (Function.update l.acc y o'.unsat) x o.unsat) l.prev l.daily
      (if (d.lateral x).useOpt = true ∧ (d.lateral x).hasLake then
        (redistribute ((d.demand unit world l).redist x o.lakeUnsat)
          (if (d.lateral y).useOpt = true ∧ (d.lateral y).hasLake then
            (redistribute ((d.demand unit world l).redist y o'.lakeUnsat) l.rip).2 else l.rip)).2
       else (if (d.lateral y).useOpt = true ∧ (d.lateral y).hasLake then
            (redistribute ((d.demand unit world l).redist y o'.lakeUnsat) l.rip).2 else l.rip))
  rw [Function.update_comm hne]
  congr 1
  by_cases hx : (d.lateral x).useOpt = true ∧ (d.lateral x).hasLake
  · by_cases hy : (d.lateral y).useOpt = true ∧ (d.lateral y).hasLake
    · rw [if_pos hx, if_pos hy, if_pos hx, if_pos hy]
      have hu : unit x ≠ unit y := fun k => h ⟨hx.1, hx.2, k⟩
      funext c
      by_cases hc : unit c = unit x
      · have hcy : unit c ≠ unit y := by rw [hc]; exact hu
        rw [redistribute_far ((d.demand unit world l).redist y o'.lakeUnsat) _ c hcy]
        refine redistribute_snd _ _ _ c ?_
        exact (redistribute_far ((d.demand unit world l).redist y o'.lakeUnsat) _ c hcy).symm
      · rw [redistribute_far ((d.demand unit world l).redist x o.lakeUnsat) _ c hc]
        refine redistribute_snd _ _ _ c ?_
        exact redistribute_far ((d.demand unit world l).redist x o.lakeUnsat) _ c hc
    · rw [if_pos hx, if_neg hy, if_pos hx, if_neg hy]
  · by_cases hy : (d.lateral y).useOpt = true ∧ (d.lateral y).hasLake
    · rw [if_neg hx, if_pos hy, if_neg hx]
    · rw [if_neg hx, if_neg hy, if_neg hx]

theorem node_comm (cin : Cell → CellIn) (x y : Cell) (hne : x ≠ y) (h : ¬ OnShore d.lateral unit x y)
    (h' : ¬ OnShore d.lateral unit y x) (b : Basin DemandState) (u v : ℝ) :
    let node := basinNode cin (d.sim delayed unit world).get (d.sim delayed unit world).upd
    (node (node b x u).1 y v).1 = (node (node b y v).1 x u).1 ∧
      (node (node b x u).1 y v).2 = (node b y v).2 ∧ (node (node b y v).1 x u).2 = (node b x u).2 := by
  intro node
  simp only [node, basinNode]
  simp only [get_far d delayed unit world _ x y _ hne h, get_far d delayed unit world _ y x _ hne.symm h',
    Function.update_of_ne hne, Function.update_of_ne hne.symm, and_self, and_true]
  congr 1
  · exact upd_comm d delayed unit world _ x y _ _ hne h
  · exact Function.update_comm hne _ _ _
  · exact Function.update_comm hne _ _ _

end

theorem before_of_drains {order order' : List (Cell × Cell)} (hp : order.Perm order') (hs : Sound order) (hs' : Sound order')
    {e f : Cell × Cell} (hd : (drains e.2 ∧ e.2 = f.1) ∨ (drains f.2 ∧ f.2 = e.1)) (h : Before order e f) :
    Before order' e f := by
  have hk := (List.pairwise_iff_forall_sublist.1 hs.before) h
  have hd1 : drains e.2 ∧ e.2 = f.1 := hd.resolve_right fun k => hk k.1 k.2
  have he : e ∈ order' := hp.mem_iff.1 (h.subset List.mem_cons_self)
  have hf : f ∈ order' := hp.mem_iff.1 (h.subset (List.mem_cons_of_mem _ List.mem_cons_self))
  have hne : e ≠ f := by
    intro k
    exact hs.noself e (h.subset List.mem_cons_self) hd1.1 (by rw [hd1.2, k])
  obtain ⟨p, q, rfl⟩ := List.append_of_mem he
  rcases List.mem_append.1 hf with hf | hf
  · exfalso
    have k : [f, e].Sublist (p ++ e :: q) :=
      (List.singleton_sublist.2 hf).append (List.singleton_sublist.2 List.mem_cons_self)
    exact (List.pairwise_iff_forall_sublist.1 hs'.before) k hd1.1 hd1.2
  · have hfq : f ∈ q := by
      rcases List.mem_cons.1 hf with k | k
      · exact absurd k.symm hne
      · exact k
    exact ((List.singleton_sublist.2 hfq).cons_cons e).trans (List.sublist_append_right p _)

section
variable (par : Cell → FullPar) (delayed : Bool) (unit : Cell → ℕ)

theorem simNet_order (order order' world : List (Cell × Cell)) (d : WgDay) (hp : order.Perm order') (hs : Sound order)
    (hs' : Sound order') (hsh : ∀ e f, OnShore d.lateral unit e.1 f.1 ∨ OnShore d.lateral unit f.1 e.1 →
      Before order e f → Before order' e f) (s : Sim DemandState) :
    simNet par order (d.sim delayed unit world) s = simNet par order' (d.sim delayed unit world) s := by
  unfold simNet basinDay route
  refine foldl_trace _ (fun e f => ((drains e.2 ∧ e.2 = f.1) ∨ (drains f.2 ∧ f.2 = e.1)) ∨
    (OnShore d.lateral unit e.1 f.1 ∨ OnShore d.lateral unit f.1 e.1)) order order' (List.Nodup.of_map _ hs.nodup) hp ?_ ?_ _
  · intro e he f hf hne hD t
    have hne1 : e.1 ≠ f.1 := fun k => hne (List.inj_on_of_nodup_map hs.nodup he hf k)
    exact routeStep_comm _ e f hne1 (fun k1 k2 => hD (.inl (.inl ⟨k1, k2⟩))) (fun k1 k2 => hD (.inl (.inr ⟨k1, k2⟩)))
      (fun b u v => node_comm d delayed unit world _ e.1 f.1 hne1 (fun k => hD (.inr (.inl k))) (fun k => hD (.inr (.inr k))) b u v) t
  · intro e f hD h
    rcases hD with hD | hD
    · exact before_of_drains hp hs hs' hD h
    · exact hsh e f hD h

/-- C82: two routing tables of the same network give the same simulation of the world or of a basin: the same states and
the same records, on all days. -/
theorem C82_order_irrelevant (world world' : List (Cell × Cell)) (days : List WgDay)
    (h : SameNetwork unit days world world') (basin : Cell → Bool) (s : Sim DemandState) :
    wgRun par delayed unit world basin s days = wgRun par delayed unit world' basin s days := by
  have hm : (masked world basin).Perm (masked world' basin) := h.perm.filter _
  have hs := sound_masked h.sound basin
  have hs' := sound_masked h.sound' basin
  have hsh : ∀ d ∈ days, ∀ e f, OnShore d.lateral unit e.1 f.1 ∨ OnShore d.lateral unit f.1 e.1 →
      Before (masked world basin) e f → Before (masked world' basin) e f := by
    intro d hd e f hD hb
    have h1 := h.shores d hd e f hD (hb.trans List.filter_sublist)
    have h2 := h1.filter fun e => basin e.1
    have he := (List.mem_filter.1 (hb.subset List.mem_cons_self)).2
    have hf := (List.mem_filter.1 (hb.subset (List.mem_cons_of_mem _ List.mem_cons_self))).2
    have e1 : [e, f].filter (fun e => basin e.1) = [e, f] := by simp [he, hf]
    rw [e1] at h2
    exact h2
  unfold wgRun
  have e : (days.map fun d => d.sim delayed unit world') = days.map fun d => d.sim delayed unit world :=
    List.map_congr_left fun d _ => sim_perm delayed unit world world' h.perm d
  rw [e]
  clear h e
  induction days generalizing s with
  | nil => rfl
  | cons d ds ih =>
    have hn : ∀ t, simNet par (masked world basin) (d.sim delayed unit world) t
        = simNet par (masked world' basin) (d.sim delayed unit world) t := fun t =>
      simNet_order par delayed unit _ _ world d hm hs hs' (hsh d List.mem_cons_self) t
    have hd : simDay par (masked world basin) (d.sim delayed unit world) s
        = simDay par (masked world' basin) (d.sim delayed unit world) s := by
      unfold simDay
      rw [hn]
    simp only [List.map_cons, simRun, hd]
    rw [ih _ fun d' hd' => hsh d' (List.mem_cons_of_mem _ hd')]

/-- C82: without water use any two routing tables that list the upstream cells first give the same simulation. -/
theorem C82_without_use (world world' : List (Cell × Cell)) (days : List WgDay) (hp : world.Perm world')
    (hs : Sound world) (hs' : Sound world') (hu : ∀ d ∈ days, ∀ x, (d.lateral x).useOpt = false) (basin : Cell → Bool)
    (s : Sim DemandState) :
    wgRun par delayed unit world basin s days = wgRun par delayed unit world' basin s days :=
  C82_order_irrelevant par delayed unit world world' days ⟨hp, hs, hs', fun d hd e f h _ => by
    exfalso
    rcases h with h | h
    · exact Bool.false_ne_true ((hu d hd e.1).symm.trans h.1)
    · exact Bool.false_ne_true ((hu d hd f.1).symm.trans h.1)⟩ basin s

/-- C82: what happens outside a region that contains everything upstream of it (and no shore of a lake or reservoir whose
outflow cell is outside) does not matter inside: simulations of the world whose weather, data and initial states agree in
the region give the same states and the same records there. -/
theorem C82_upstream_only (world : List (Cell × Cell)) (B : Cell → Bool) (hup : UpstreamClosed world B) (days days' : List WgDay)
    (hdays : List.Forall₂ (fun d d' => d.Agree B d' ∧ ShoresInside world unit B d ∧ ShoresInside world unit B d') days days')
    (s s' : Sim DemandState) (h : s.Agree B s') :
    let g := wgRun par delayed unit world (fun _ => true) s days
    let g' := wgRun par delayed unit world (fun _ => true) s' days'
    (∀ x, B x → g.1.state x = g'.1.state x) ∧ List.Forall₂ (fun r r' => ∀ x, B x → r x = r' x) g.2 g'.2 := by
  intro g g'
  have h1 := C64_basin_run par delayed unit world B hup days days' (hdays.imp fun _ _ k => ⟨k.1, k.2.1⟩) s s' h
  have h2 := C64_basin_run par delayed unit world B hup days' days'
    (by
      clear h1
      induction hdays with
      | nil => exact .nil
      | cons k _ ih => exact .cons ⟨⟨rfl, fun _ _ => ⟨rfl, rfl, rfl, rfl⟩⟩, k.2.2⟩ ih)
    s' s' ⟨fun _ _ => ⟨rfl, rfl, rfl, rfl⟩, fun _ _ => rfl⟩
  refine ⟨fun x hx => (h1.1.2 x hx).trans (h2.1.2 x hx).symm, ?_⟩
  have a := h1.2
  have b := h2.2
  change List.Forall₂ _ g.2 _ at a
  change List.Forall₂ _ g'.2 _ at b
  revert a b
  generalize (wgRun par delayed unit world B s' days').2 = m
  generalize g.2 = u
  generalize g'.2 = v
  intro a
  induction a generalizing v with
  | nil => intro b; cases b; exact .nil
  | cons k _ ih =>
    intro b
    cases b with
    | cons k' b => exact .cons (fun x hx => (k x hx).trans (k' x hx).symm) (ih _ b)

end

/-! ## The shore of a lake -/

/-- **C82 violated (shores).**  If the tables disagree on whether a cell on the shore of a lake or reservoir comes before the
outflow cell, the results differ: in `dryOrder` the shore cell is asked for nothing on that day, in the reversed order for
what the reservoir could not supply. -/
theorem C82_violated_shore_order :
    let run := fun order => ((dryDay false).routed true dryUnit order dryCarry).ledger.out (1, 1)
    dryOrder.Perm dryOrder.reverse ∧ Sound dryOrder ∧ Sound dryOrder.reverse ∧
    (∃ o, run dryOrder = some o ∧ o.nas + o.unsat = 0) ∧ ∃ o, run dryOrder.reverse = some o ∧ o.nas + o.unsat = 1 := by
  intro run
  have huse : ∀ x, (dryBase x).useOpt = true := (dryDay_good true).use
  have hnl : ¬ (dryBase (1, 1)).hasLake := by rw [dryBase_lake]; decide
  have hok : ∀ x, (dryCarry.state x).Ok (dryBase x) := by
    intro x
    constructor <;> (try simp only [dryCarry, dryBase]) <;> (try split_ifs) <;> simp [dryRes, exCell]
  have hgl : ∀ x, ¬ 0 < (dryBase x).glolakeArea := by
    intro x; unfold dryBase; split_ifs <;> simp [dryRes]
  have hnot : ∀ (d : ℝ) (k : ℝ → ℝ), (cellDay (dryBase (1, 1)) (dryCarry.state (1, 1)) 0 d k).nas
      + (cellDay (dryBase (1, 1)) (dryCarry.state (1, 1)) 0 d k).unsat = d := by
    intro d k
    have h1 := C25_demand (dryBase (1, 1)) (dryCarry.state (1, 1)) 0 d k (dryBase_physical _) (hok _) le_rfl
      fun h => absurd h (hgl _)
    have h2 := ((C25_unsat_nonneg (dryBase (1, 1)) (dryCarry.state (1, 1)) 0 d k (dryBase_physical _) (hok _) le_rfl
      fun h => absurd h (hgl _)).2 (hgl _) fun h => hnl (.inl h)).2
    simp only at h1 h2
    linarith
  refine ⟨(List.reverse_perm _).symm, dryOrder_sound, ?_, ?_, ?_⟩
  · constructor <;> simp [dryOrder, drains]
  · -- the shore cell first
    set q := DayIn.demandDay dryUnit dryOrder dryCarry (dryDay false) with hq
    set l := DayIn.ledger true dryCarry (dryDay false) with hl
    have hget : (ledgerGet dryBase q l (1, 1)).1 = 0 := by
      simp only [ledgerGet, hl, DayIn.ledger, dayDemand, dryDay, dryCarry]
      simp
    refine ⟨cellDay (dryBase (1, 1)) (dryCarry.state (1, 1)) 0 (ledgerGet dryBase q l (1, 1)).1
      (ledgerGet dryBase q l (1, 1)).2, ?_, ?_⟩
    · change (route (basinNode dryBase (ledgerGet dryBase q) (ledgerUpd dryBase q)) dryOrder
        ⟨l, dryCarry.state, fun _ => none⟩).ledger.out (1, 1) = _
      simp only [route, dryOrder, List.foldl_cons, List.foldl_nil, routeStep, routeStart, basinNode]
      rw [Function.update_of_ne (by decide), Function.update_self]
    · rw [hget]; exact hnot _ _
  · -- the reservoir first
    set q := DayIn.demandDay dryUnit dryOrder.reverse dryCarry (dryDay false) with hq
    set l := DayIn.ledger true dryCarry (dryDay false) with hl
    have hacc2 : (ledgerGet dryBase q l (1, 2)).1 = 1 := by
      simp only [ledgerGet, hl, DayIn.ledger, dayDemand, dryDay, dryCarry]
      simp [huse]
    have hlu : (cellDay (dryBase (1, 2)) (dryCarry.state (1, 2)) 0 (ledgerGet dryBase q l (1, 2)).1
        (ledgerGet dryBase q l (1, 2)).2).lakeUnsat = 1 := by
      rw [hacc2]
      have hb2 : dryBase (1, 2) = dryRes := by simp [dryBase]
      change cellUnsat1 (dryBase (1, 2)) (dryCarry.state (1, 2)) 0 1 = 1
      rw [hb2]; exact dry_unsat _ rfl 1 (by norm_num)
    set o2 := cellDay (dryBase (1, 2)) (dryCarry.state (1, 2)) 0 (ledgerGet dryBase q l (1, 2)).1
        (ledgerGet dryBase q l (1, 2)).2 with ho2
    set l2 := ledgerUpd dryBase q l (1, 2) o2 with hl2
    have hrip : l2.rip (1, 1) = 1 := by
      have hcond : (dryBase (1, 2)).useOpt = true ∧ (dryBase (1, 2)).hasLake := ⟨huse _, by rw [dryBase_lake]⟩
      simp only [hl2, ledgerUpd, if_pos hcond, hlu]
      have hripar : (q.redist (1, 2) 1).riparian = [(1, 1)] := by
        simp [RedistIn.riparian, DemandDay.redist, hq, DayIn.demandDay, dryOrder, dryUnit, List.filter]
      have hpos : (q.redist (1, 2) 1).positive = 1 := by
        unfold RedistIn.positive
        rw [hripar]
        simp [DemandDay.redist, hq, DayIn.demandDay, dryDay]
      have hcar : (q.redist (1, 2) 1).carried = 0 := redist_carried q _ _
      have := (C21_redistribute (q.redist (1, 2) 1)
        (by unfold RedistIn.Consistent; rw [hpos]; simp [DemandDay.redist, hq, DayIn.demandDay, dryDay])
        (by rw [hpos]; norm_num) (by rw [hripar]; simp) (by rw [hcar]; norm_num [DemandDay.redist]) l.rip).1 (1, 1)
        (by rw [hripar]; simp)
      rw [this, hpos, hcar]
      norm_num [DemandDay.redist, hq, DayIn.demandDay, dryDay]
    have hacc1 : l2.acc (1, 1) = 0 := by
      simp only [hl2, ledgerUpd]
      rw [Function.update_of_ne (by decide)]
      simp [hl, DayIn.ledger, dayDemand, dryDay, dryCarry]
    have hget : (ledgerGet dryBase q l2 (1, 1)).1 = 1 := by
      simp only [ledgerGet, hacc1, hrip]
      rw [if_pos ⟨by simp [hq, DayIn.demandDay, dryUnit], huse _⟩, zero_add]
    refine ⟨cellDay (dryBase (1, 1)) (dryCarry.state (1, 1)) 0 (ledgerGet dryBase q l2 (1, 1)).1
      (ledgerGet dryBase q l2 (1, 1)).2, ?_, ?_⟩
    · change (route (basinNode dryBase (ledgerGet dryBase q) (ledgerUpd dryBase q)) [((1, 2), (0, 0)), ((1, 1), (0, 0))]
        ⟨l, dryCarry.state, fun _ => none⟩).ledger.out (1, 1) = _
      simp only [route, List.foldl_cons, List.foldl_nil, routeStep, routeStart, basinNode]
      rw [Function.update_self, Function.update_of_ne (by decide)]
      simp [drains, hl2, ho2]
    · rw [hget]; exact hnot _ _

/-! ## Non-vacuity -/

/-- The network of `shoreOrder` with the two headwater cells exchanged. -/
def shoreOrder' : List (Cell × Cell) := [((2, 2), (1, 2)), ((1, 1), (1, 2)), ((1, 2), (0, 0))]

theorem shoreOrder'_sound : Sound shoreOrder' := by
  constructor
  · simp [shoreOrder']
  · simp [shoreOrder', drains]
  · simp [shoreOrder', drains]

theorem shore_perm : shoreOrder.Perm shoreOrder' := List.Perm.swap _ _ _

example := C82_order_irrelevant (fun _ => exFull) true shoreUnit shoreOrder shoreOrder' [shoreDay, shoreDay]
  ⟨shore_perm, exOrder_sound, shoreOrder'_sound, by
    intro d hd e f h hb
    simp only [List.mem_cons, List.not_mem_nil, or_false, or_self] at hd
    subst hd
    have he : e ∈ shoreOrder := hb.subset List.mem_cons_self
    have hf : f ∈ shoreOrder := hb.subset (List.mem_cons_of_mem _ List.mem_cons_self)
    have hn : e ≠ f := by
      have := (List.pairwise_iff_forall_sublist.1 (List.Nodup.of_map _ exOrder_sound.nodup)) hb
      exact this
    have hk : ∀ g g' : Cell × Cell, OnShore shoreDay.lateral shoreUnit g.1 g'.1 → g ∈ shoreOrder → g' ∈ shoreOrder → g ≠ g' →
        g = ((1, 2), (0, 0)) ∧ g' = ((1, 1), (1, 2)) := by
      intro g g' ho hg hg' hgg
      have hx := (shoreLat_lake g.1).1 ho.2.1
      have hu := ho.2.2
      simp only [shoreOrder, List.mem_cons, List.not_mem_nil, or_false] at hg hg'
      rcases hg with rfl | rfl | rfl
      · simp at hx
      · simp at hx
      · rcases hg' with rfl | rfl | rfl
        · exact ⟨rfl, rfl⟩
        · simp [shoreUnit] at hu
        · exact absurd rfl hgg
    rcases h with h | h
    · obtain ⟨rfl, rfl⟩ := hk e f h he hf hn
      exfalso
      exact absurd hb (by unfold Before; decide)
    · obtain ⟨rfl, rfl⟩ := hk f e h hf he hn.symm
      unfold Before; decide⟩ (fun _ => true) shoreSim

example := C82_without_use (fun _ => exFull) true shoreUnit shoreOrder shoreOrder'
  [{ shoreDay with lateral := fun x => { shoreLat x with useOpt := false } }] shore_perm exOrder_sound shoreOrder'_sound
  (by intro d hd x; simp only [List.mem_cons, List.not_mem_nil, or_false] at hd; subst hd; rfl) (fun _ => true) shoreSim

/-- The cell `(2, 2)` does not notice that it is colder in the other cells. -/
example := C82_upstream_only (fun _ => exFull) true shoreUnit shoreOrder (fun x => x = (2, 2))
  (by
    intro e he hd hb
    simp only [shoreOrder, List.mem_cons, List.not_mem_nil, or_false] at he
    rcases he with rfl | rfl | rfl <;> simp_all [drains])
  [shoreDay] [{ shoreDay with weather := fun x => if x = (2, 2) then exWeather else ⟨250, 100, 200, 3⟩ }]
  (by
    have hs : ∀ w, ShoresInside shoreOrder shoreUnit (fun x => x = (2, 2)) { shoreDay with weather := w } := by
      intro w x _ r hr hu _ hl
      have hx := (shoreLat_lake x).1 hl
      simp only [decide_eq_true_eq] at hr
      subst hx hr
      simp [shoreUnit] at hu
    refine .cons ⟨⟨rfl, fun x hx => ⟨?_, rfl, rfl, rfl⟩⟩, hs _, hs _⟩ .nil
    simp only [decide_eq_true_eq] at hx
    simp [shoreDay, hx])
  shoreSim shoreSim ⟨fun _ _ => ⟨rfl, rfl, rfl, rfl⟩, fun _ _ => rfl⟩

end WG
