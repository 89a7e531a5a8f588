import Verif.Props.OrderYears

/-!
# C64 over several years

The basin run and the global run over years in which reservoirs start to operate (`/repo/run_watergap.py:225-333`).
-/

namespace WG

/-- A lake or reservoir that starts to operate has all its cells on one side of the boundary. -/
def Grid.UnitsWhole (G : Grid) (B : Cell → Bool) : Prop :=
  ∀ x ∈ G.cells, ∀ y ∈ G.cells, G.assign x = G.assign y → G.assign x ≠ ⊤ → B x = B y

theorem find_congr {ι : Type} (p q : ι → Bool) (l : List ι) (h : ∀ x ∈ l, p x = q x) : l.find? p = l.find? q := by
  induction l with
  | nil => rfl
  | cons a l ih =>
    simp only [List.find?_cons, h a List.mem_cons_self, ih fun x hx => h x (List.mem_cons_of_mem _ hx)]

theorem handUnit_agree (cells : List Cell) (assign : Cell → WithTop ℤ) (area area' lost lost' st st' : Cell → ℝ)
    (B : Cell → Bool) (hu : ∀ x ∈ cells, ∀ y ∈ cells, assign x = assign y → assign x ≠ ⊤ → B x = B y)
    (ha : ∀ x, B x → area x = area' x) (hl : ∀ x, B x → lost x = lost' x) (hs : ∀ x, B x → st x = st' x) (u : WithTop ℤ) :
    ∀ x, B x → handUnit cells assign area lost st u x = handUnit cells assign area' lost' st' u x := by
  intro x hx
  by_cases hin : u ≠ ⊤ ∧ ∃ c ∈ cells, assign c = u ∧ B c
  · obtain ⟨hu0, c, hc, hcu, hcB⟩ := hin
    have hside : ∀ y ∈ cells, assign y = u → B y := fun y hy hyu => by
      rw [hu y hy c hc (hyu.trans hcu.symm) (hyu ▸ hu0)]; exact hcB
    unfold handUnit
    rw [find_congr _ (fun x => decide (assign x = u ∧ u ≠ ⊤ ∧ 0 < area' x)) cells fun y hy => by
      by_cases hyu : assign y = u
      · simp [hyu, ha y (hside y hy hyu)]
      · simp [hyu]]
    have hsum : (cells.map fun y => if assign y = u then lost y else 0) = cells.map fun y => if assign y = u then lost' y else 0 :=
      List.map_congr_left fun y hy => by
        by_cases hyu : assign y = u
        · rw [if_pos hyu, if_pos hyu, hl y (hside y hy hyu)]
        · rw [if_neg hyu, if_neg hyu]
    rw [hsum]
    cases cells.find? fun x => decide (assign x = u ∧ u ≠ ⊤ ∧ 0 < area' x) with
    | none => exact hs x hx
    | some z =>
      by_cases hz : x = z
      · subst hz
        simp only [Function.update_self, hs x hx]
      · simp only [Function.update_of_ne hz, hs x hx]
  · have out : ∀ (area lost st : Cell → ℝ), handUnit cells assign area lost st u x = st x := by
      intro area lost st
      unfold handUnit
      cases hf : cells.find? fun x => decide (assign x = u ∧ u ≠ ⊤ ∧ 0 < area x) with
      | none => rfl
      | some z =>
        have hz := List.find?_some hf
        simp only [decide_eq_true_eq] at hz
        have hne : x ≠ z := by
          rintro rfl
          exact hin ⟨hz.2.1, x, List.mem_of_find?_eq_some hf, hz.1, hx⟩
        simp only [Function.update_of_ne hne]
    rw [out, out, hs x hx]

theorem handLost_agree (cells : List Cell) (assign : Cell → WithTop ℤ) (area area' lost lost' st st' : Cell → ℝ)
    (B : Cell → Bool) (hu : ∀ x ∈ cells, ∀ y ∈ cells, assign x = assign y → assign x ≠ ⊤ → B x = B y)
    (ha : ∀ x, B x → area x = area' x) (hl : ∀ x, B x → lost x = lost' x) (hs : ∀ x, B x → st x = st' x) :
    ∀ x, B x → handLost cells assign area lost st x = handLost cells assign area' lost' st' x := by
  unfold handLost
  generalize assignedUnits cells assign = us
  induction us generalizing st st' with
  | nil => exact hs
  | cons u us ih => exact ih _ _ (handUnit_agree cells assign area area' lost lost' st st' B hu ha hl hs u)

/-! ## Without the option -/

/-- Two years bring the same to the cells of the basin. -/
def WgYear.Agree (world : List (Cell × Cell)) (unit : Cell → ℕ) (B : Cell → Bool) (y y' : WgYear) : Prop :=
  y.glores = y'.glores ∧ (∀ x, B x → y.resArea x = y'.resArea x) ∧
    List.Forall₂ (fun d d' => d.Agree B d' ∧ ShoresInside world unit B d) y.days y'.days

theorem yearStart_agree (G : Grid) (B : Cell → Bool) (hu : G.UnitsWhole B) (y y' : ResYear DemandState)
    (hg : y.glores = y'.glores) (ha : ∀ x, B x → y.resArea x = y'.resArea x) (s s' : Sim DemandState) (h : s.Agree B s') :
    (yearStart G y s).Agree B (yearStart G y' s') := by
  refine ⟨h.1, fun x hx => ?_⟩
  have k := handLost_agree G.cells G.assign y.resArea y'.resArea
    (fun z => yearLost (G.area z) (G.frac z) (y.glores z) (s.state z))
    (fun z => yearLost (G.area z) (G.frac z) (y'.glores z) (s'.state z))
    (fun z => (s.state z).lat.res) (fun z => (s'.state z).lat.res) B hu ha
    (fun z hz => by rw [hg, h.2 z hz]) (fun z hz => by rw [h.2 z hz]) x hx
  simp only [hg] at k
  simp only [yearStart, h.2 x hx, hg, k]

/-- **C64.**  Over years in which reservoirs start to operate, a run of a basin that contains everything upstream of it and
whose lakes and reservoirs lie inside it has the states, demands and records of the global run in its cells. -/
theorem C64_years (G : Grid) (delayed : Bool) (unit : Cell → ℕ) (world : List (Cell × Cell)) (B : Cell → Bool)
    (hup : UpstreamClosed world B) (hu : G.UnitsWhole B) (g : Cell → ℝ) (days days' : List WgDay)
    (hdays : List.Forall₂ (fun d d' => d.Agree B d' ∧ ShoresInside world unit B d) days days') (years years' : List WgYear)
    (hy : List.Forall₂ (WgYear.Agree world unit B) years years') (s s' : Sim DemandState) (h : s.Agree B s') :
    let a := wgSpan G delayed unit world (fun _ => true) g days s years
    let b := wgSpan G delayed unit world B g days' s' years'
    a.1.Agree B b.1 ∧ List.Forall₂ (fun r r' => ∀ x, B x → r x = r' x) a.2 b.2 := by
  induction hy generalizing g days days' s s' with
  | nil => exact C64_basin_run (G.par g) delayed unit world B hup days days' hdays s s' h
  | @cons y y' ys ys' hyy _ ih =>
    obtain ⟨k1, k2⟩ := C64_basin_run (G.par g) delayed unit world B hup days days' hdays s s' h
    obtain ⟨hg, ha, hd⟩ := hyy
    rw [wgSpan_cons, wgSpan_cons, ← hg]
    obtain ⟨i1, i2⟩ := ih y.glores y.days y'.days hd _ _ (yearStart_agree G B hu
      ⟨y.glores, y.resArea, y.days.map fun d => d.sim delayed unit world⟩
      ⟨y.glores, y'.resArea, y'.days.map fun d => d.sim delayed unit world⟩ rfl ha _ _ k1)
    exact ⟨i1, List.rel_append k2 i2⟩

/-! ## With the option -/

/-- Two years bring the same to the cells of the basin. -/
def NbYear.Agree (r : NbRun) (B : Cell → Bool) (y y' : NbYear) : Prop :=
  y.glores = y'.glores ∧ (∀ x, B x → y.resArea x = y'.resArea x) ∧
    List.Forall₂ (fun d d' => d.Agree B d' ∧ d.ShoresWhole B r) y.days y'.days

theorem nbYearStart_agree (G : Grid) (B : Cell → Bool) (hu : G.UnitsWhole B) (y y' : NbYear)
    (hg : y.glores = y'.glores) (ha : ∀ x, B x → y.resArea x = y'.resArea x) (s s' : NbSim) (h : s.Agree B s') :
    (nbYearStart G y s).Agree B (nbYearStart G y' s') := by
  have hf : ∀ x, B x → s.full x = s'.full x := fun x hx => (h x hx).2.2.2.2.2
  intro x hx
  obtain ⟨h1, h2, h3, h4, h5, h6⟩ := h x hx
  have k := handLost_agree G.cells G.assign y.resArea y'.resArea
    (fun z => yearLost (G.area z) (G.frac z) (y.glores z) (s.full z))
    (fun z => yearLost (G.area z) (G.frac z) (y'.glores z) (s'.full z))
    (fun z => (s.carry.state z).res) (fun z => (s'.carry.state z).res) B hu ha
    (fun z hz => by rw [hg, hf z hz]) (fun z hz => congrArg (fun f : FullState => f.lat.res) (hf z hz)) x hx
  refine ⟨h1, h2, h3, h4, h5, ?_⟩
  have e1 : s.carry.state x = s'.carry.state x := congrArg FullState.lat h6
  have e2 : s.land x = s'.land x := congrArg FullState.land h6
  have e3 : s.vert x = s'.vert x := congrArg FullState.vert h6
  simp only [hg] at k
  simp only [NbSim.full] at k
  simp only [NbSim.full, nbYearStart, e1, e2, e3, hg, k]

theorem nbSimRun_closed (par : Cell → FullPar) (r : NbRun) (B : Cell → Bool) (hr : r.Cut B) (days : List NbWgDay)
    (hd : ∀ d ∈ days, d.ShoresWhole B r) (s : NbSim) (hm : NbClosed B s.carry.nbMap) :
    NbClosed B (nbSimRun par r s days).1.carry.nbMap := by
  induction days generalizing s with
  | nil => exact hm
  | cons d ds ih =>
    exact ih (fun e he => hd e (List.mem_cons_of_mem _ he)) _
      (nbWgDay_agree par r B hr d d ⟨rfl, rfl, fun _ _ => ⟨rfl, rfl, rfl, rfl⟩⟩ (hd d List.mem_cons_self) s s
        (fun _ _ => ⟨rfl, rfl, rfl, rfl, rfl, rfl⟩) hm).2.1

/-- **C64.**  So has a basin run with water supply from neighbouring cells if the basin also contains the neighbours of its
cells. -/
theorem C64_neighbour_years (G : Grid) (r : NbRun) (B : Cell → Bool) (hr : r.Cut B) (hu : G.UnitsWhole B) (g : Cell → ℝ)
    (days days' : List NbWgDay) (hdays : List.Forall₂ (fun d d' => d.Agree B d' ∧ d.ShoresWhole B r) days days')
    (years years' : List NbYear) (hy : List.Forall₂ (NbYear.Agree r B) years years') (s s' : NbSim) (h : s.Agree B s')
    (hm : NbClosed B s.carry.nbMap) :
    let a := nbSpan G r g days s years
    let b := nbSpan G { r with order := masked r.order B } g days' s' years'
    a.1.Agree B b.1 ∧ List.Forall₂ (fun t t' => ∀ x, B x → t x = t' x) a.2 b.2 := by
  induction hy generalizing g days days' s s' with
  | nil => exact C64_neighbours (G.par g) r B hr days days' hdays s s' h hm
  | @cons y y' ys ys' hyy _ ih =>
    obtain ⟨k1, k2⟩ := C64_neighbours (G.par g) r B hr days days' hdays s s' h hm
    obtain ⟨hg, ha, hd⟩ := hyy
    have hsh : ∀ d ∈ days, d.ShoresWhole B r := by
      have hds := hdays
      clear h hm k1 k2 hdays
      induction hds with
      | nil => intro d hd; cases hd
      | cons k _ ihd =>
        intro d hd
        rcases List.mem_cons.1 hd with rfl | hd
        · exact k.2
        · exact ihd d hd
    simp only [nbSpan, ← hg]
    obtain ⟨i1, i2⟩ := ih y.glores y.days y'.days hd _ _ (nbYearStart_agree G B hu y y' hg ha _ _ k1)
      (nbSimRun_closed (G.par g) r B hr days hsh s hm)
    exact ⟨i1, List.rel_append k2 i2⟩

/-! ## C82: what is downstream does not matter -/

theorem recs_trans (B : Cell → Bool) {a m b : List (Cell → Option DayRec)}
    (h : List.Forall₂ (fun r r' => ∀ x, B x → r x = r' x) a m) (h' : List.Forall₂ (fun r r' => ∀ x, B x → r x = r' x) b m) :
    List.Forall₂ (fun r r' => ∀ x, B x → r x = r' x) a b := by
  induction h generalizing b with
  | nil => cases h'; exact .nil
  | cons k _ ih =>
    cases h' with
    | cons k' h' => exact .cons (fun x hx => (k x hx).trans (k' x hx).symm) (ih h')

theorem forall₂_self {α β : Type} {P : α → β → Prop} {Q : β → Prop} {R : β → β → Prop} (hR : ∀ b, Q b → R b b)
    (hQ : ∀ a b, P a b → Q b) {l : List α} {m : List β} (h : List.Forall₂ P l m) : List.Forall₂ R m m := by
  induction h with
  | nil => exact .nil
  | cons k _ ih => exact .cons (hR _ (hQ _ _ k)) ih

/-- **C82.**  Over years in which reservoirs start to operate, simulations of the world whose weather, data and initial
states agree in a region that contains everything upstream of it, and its lakes and reservoirs as a whole, give the same
there. -/
theorem C82_years_upstream_only (G : Grid) (delayed : Bool) (unit : Cell → ℕ) (world : List (Cell × Cell)) (B : Cell → Bool)
    (hup : UpstreamClosed world B) (hu : G.UnitsWhole B) (g : Cell → ℝ) (days days' : List WgDay)
    (hdays : List.Forall₂ (fun d d' => d.Agree B d' ∧ ShoresInside world unit B d ∧ ShoresInside world unit B d') days days')
    (years years' : List WgYear)
    (hy : List.Forall₂ (fun y y' => y.Agree world unit B y' ∧ ∀ d ∈ y'.days, ShoresInside world unit B d) years years')
    (s s' : Sim DemandState) (h : s.Agree B s') :
    let a := wgSpan G delayed unit world (fun _ => true) g days s years
    let b := wgSpan G delayed unit world (fun _ => true) g days' s' years'
    a.1.Agree B b.1 ∧ List.Forall₂ (fun r r' => ∀ x, B x → r x = r' x) a.2 b.2 := by
  have refl : ∀ d : WgDay, ShoresInside world unit B d → d.Agree B d ∧ ShoresInside world unit B d :=
    fun d k => ⟨⟨rfl, fun _ _ => ⟨rfl, rfl, rfl, rfl⟩⟩, k⟩
  have h1 := C64_years G delayed unit world B hup hu g days days' (hdays.imp fun _ _ k => ⟨k.1, k.2.1⟩) years years'
    (hy.imp fun _ _ k => k.1) s s' h
  have h2 := C64_years G delayed unit world B hup hu g days' days' (forall₂_self refl (fun _ _ k => k.2.2) hdays) years' years'
    (forall₂_self (Q := fun y' => ∀ d ∈ y'.days, ShoresInside world unit B d)
      (fun y k => ⟨rfl, fun _ _ => rfl, List.forall₂_same.2 fun d hd => refl d (k d hd)⟩) (fun _ _ k => k.2) hy)
    s' s' ⟨fun _ _ => ⟨rfl, rfl, rfl, rfl⟩, fun _ _ => rfl⟩
  refine ⟨⟨fun x hx => ?_, fun x hx => (h1.1.2 x hx).trans (h2.1.2 x hx).symm⟩, recs_trans B h1.2 h2.2⟩
  obtain ⟨a1, a2, a3, a4⟩ := h1.1.1 x hx
  obtain ⟨b1, b2, b3, b4⟩ := h2.1.1 x hx
  exact ⟨a1.trans b1.symm, a2.trans b2.symm, a3.trans b3.symm, a4.trans b4.symm⟩

/-- **C82.**  So it is with water supply from neighbouring cells if the region also contains the neighbours of its cells. -/
theorem C82_neighbour_years_upstream_only (G : Grid) (r : NbRun) (B : Cell → Bool) (hr : r.Cut B) (hu : G.UnitsWhole B)
    (g : Cell → ℝ) (days days' : List NbWgDay)
    (hdays : List.Forall₂ (fun d d' => d.Agree B d' ∧ d.ShoresWhole B r ∧ d'.ShoresWhole B r) days days')
    (years years' : List NbYear)
    (hy : List.Forall₂ (fun y y' => y.Agree r B y' ∧ ∀ d ∈ y'.days, d.ShoresWhole B r) years years')
    (s s' : NbSim) (h : s.Agree B s') (hm : NbClosed B s.carry.nbMap) (hm' : NbClosed B s'.carry.nbMap) :
    let a := nbSpan G r g days s years
    let b := nbSpan G r g days' s' years'
    a.1.Agree B b.1 ∧ List.Forall₂ (fun t t' => ∀ x, B x → t x = t' x) a.2 b.2 := by
  have refl : ∀ d : NbWgDay, d.ShoresWhole B r → d.Agree B d ∧ d.ShoresWhole B r :=
    fun d k => ⟨⟨rfl, rfl, fun _ _ => ⟨rfl, rfl, rfl, rfl⟩⟩, k⟩
  have h1 := C64_neighbour_years G r B hr hu g days days' (hdays.imp fun _ _ k => ⟨k.1, k.2.1⟩) years years'
    (hy.imp fun _ _ k => k.1) s s' h hm
  have h2 := C64_neighbour_years G r B hr hu g days' days' (forall₂_self refl (fun _ _ k => k.2.2) hdays) years' years'
    (forall₂_self (Q := fun y' => ∀ d ∈ y'.days, d.ShoresWhole B r)
      (fun y k => ⟨rfl, fun _ _ => rfl, List.forall₂_same.2 fun d hd => refl d (k d hd)⟩) (fun _ _ k => k.2) hy)
    s' s' (fun _ _ => ⟨rfl, rfl, rfl, rfl, rfl, rfl⟩) hm'
  refine ⟨fun x hx => ?_, recs_trans B h1.2 h2.2⟩
  obtain ⟨a1, a2, a3, a4, a5, a6⟩ := h1.1 x hx
  obtain ⟨b1, b2, b3, b4, b5, b6⟩ := h2.1 x hx
  exact ⟨a1.trans b1.symm, a2.trans b2.symm, a3.trans b3.symm, a4.trans b4.symm, a5.trans b5.symm, a6.trans b6.symm⟩

/-! ### The hypotheses are met -/

/-- The two cells of the island belong to one reservoir, the far cell to another. -/
noncomputable def islandGrid : Grid :=
  { exGrid with
    cells := [(1, 1), (1, 2), (5, 5)]
    assign := fun x => if x = (5, 5) then (2 : ℤ) else (1 : ℤ) }

theorem islandGrid_whole : islandGrid.UnitsWhole island := by
  intro x hx y hy h _
  simp only [islandGrid, List.mem_cons, List.not_mem_nil, or_false] at hx hy h
  rcases hx with rfl | rfl | rfl <;> rcases hy with rfl | rfl | rfl <;>
    first | rfl | (exfalso; revert h; decide)

/-- The island does not notice the demand and the reservoir of the far cell. -/
example := C64_neighbour_years islandGrid islandRun island islandRun_cut islandGrid_whole (fun _ => 0) [waitDay]
  [{ waitDay with unagg := fun x => if x = (1, 1) then 1 else if x = (5, 5) then 77 else 0 }]
  (by
    have key : ∀ x : Cell, island x → x ≠ (5, 5) := by rintro x hx rfl; revert hx; decide
    refine .cons ⟨⟨rfl, rfl, fun x hx => ⟨rfl, rfl, rfl, ?_⟩⟩, waitDay_shores⟩ .nil
    simp [waitDay, key x hx])
  [damYear] [{ damYear with resArea := fun x => if x = (5, 5) then 0 else 50 }]
  (by
    have key : ∀ x : Cell, island x → x ≠ (5, 5) := by rintro x hx rfl; revert hx; decide
    exact .cons ⟨rfl, fun x hx => by simp [damYear, key x hx],
      .cons ⟨⟨rfl, rfl, fun x hx => ⟨rfl, rfl, rfl, rfl⟩⟩, waitDay_shores⟩ .nil⟩ .nil)
  waitSim waitSim (fun _ _ => ⟨rfl, rfl, rfl, rfl, rfl, rfl⟩) island_asked

/-- The same without a cut. -/
example := C82_neighbour_years_upstream_only islandGrid islandRun island islandRun_cut islandGrid_whole (fun _ => 0) [waitDay]
  [{ waitDay with unagg := fun x => if x = (1, 1) then 1 else if x = (5, 5) then 77 else 0 }]
  (by
    have key : ∀ x : Cell, island x → x ≠ (5, 5) := by rintro x hx rfl; revert hx; decide
    refine .cons ⟨⟨rfl, rfl, fun x hx => ⟨rfl, rfl, rfl, ?_⟩⟩, waitDay_shores, waitDay_shores⟩ .nil
    simp [waitDay, key x hx])
  [damYear] [{ damYear with resArea := fun x => if x = (5, 5) then 0 else 50 }]
  (by
    have key : ∀ x : Cell, island x → x ≠ (5, 5) := by rintro x hx rfl; revert hx; decide
    exact .cons ⟨⟨rfl, fun x hx => by simp [damYear, key x hx],
      .cons ⟨⟨rfl, rfl, fun x hx => ⟨rfl, rfl, rfl, rfl⟩⟩, waitDay_shores⟩ .nil⟩, fun d hd => by
        simp only [damYear, List.mem_singleton] at hd; subst hd; exact waitDay_shores⟩ .nil)
  waitSim waitSim (fun _ _ => ⟨rfl, rfl, rfl, rfl, rfl, rfl⟩) island_asked island_asked

example :
    let y : WgYear := ⟨fun x => if x = (1, 2) then 3 else 0, fun _ => 50, [shoreDay]⟩
    let a := wgSpan islandGrid true shoreUnit shoreOrder (fun _ => true) (fun _ => 0) [shoreDay] shoreSim [y]
    let b := wgSpan islandGrid true shoreUnit shoreOrder (fun x => x = (2, 2)) (fun _ => 0) [shoreDay] shoreSim [y]
    a.1.Agree (fun x => x = (2, 2)) b.1 ∧ List.Forall₂ (fun r r' => ∀ x, decide (x = (2, 2)) → r x = r' x) a.2 b.2 := by
  intro y a b
  have h : shoreDay.Agree (fun x => x = (2, 2)) shoreDay ∧ ShoresInside shoreOrder shoreUnit (fun x => x = (2, 2)) shoreDay := by
    refine ⟨⟨rfl, fun _ _ => ⟨rfl, rfl, rfl, rfl⟩⟩, fun x _ r hr hu _ hl => ?_⟩
    have hx := (shoreLat_lake x).1 hl
    simp only [decide_eq_true_eq] at hr
    subst hx hr
    simp [shoreUnit] at hu
  exact C64_years islandGrid true shoreUnit shoreOrder (fun x => x = (2, 2))
    (by
      intro e he hd hb
      simp only [shoreOrder, List.mem_cons, List.not_mem_nil, or_false] at he
      rcases he with rfl | rfl | rfl <;> simp_all [drains])
    (by
      intro x hx z hz _ _
      simp only [islandGrid, List.mem_cons, List.not_mem_nil, or_false] at hx hz
      rcases hx with rfl | rfl | rfl <;> rcases hz with rfl | rfl | rfl <;> rfl)
    (fun _ => 0) [shoreDay] [shoreDay] (.cons h .nil) [y] [y] (.cons ⟨rfl, fun _ _ => rfl, .cons h .nil⟩ .nil)
    shoreSim shoreSim ⟨fun _ _ => ⟨rfl, rfl, rfl, rfl⟩, fun _ _ => rfl⟩

/-- The cell `(2, 2)` does not notice that it is colder in the other cells. -/
example :=
  let d : WgDay := { shoreDay with weather := fun x => if x = (2, 2) then exWeather else ⟨250, 100, 200, 3⟩ }
  have hs : ∀ w, ShoresInside shoreOrder shoreUnit (fun x => x = (2, 2)) { shoreDay with weather := w } := by
    intro w x _ r hr hu _ hl
    have hx := (shoreLat_lake x).1 hl
    simp only [decide_eq_true_eq] at hr
    subst hx hr
    simp [shoreUnit] at hu
  have ha : shoreDay.Agree (fun x => x = (2, 2)) d := ⟨rfl, fun x hx => by
    simp only [decide_eq_true_eq] at hx
    subst hx
    exact ⟨rfl, rfl, rfl, rfl⟩⟩
  C82_years_upstream_only islandGrid true shoreUnit shoreOrder (fun x => x = (2, 2))
    (by
      intro e he hd hb
      simp only [shoreOrder, List.mem_cons, List.not_mem_nil, or_false] at he
      rcases he with rfl | rfl | rfl <;> simp_all [drains])
    (by
      intro x hx z hz _ _
      simp only [islandGrid, List.mem_cons, List.not_mem_nil, or_false] at hx hz
      rcases hx with rfl | rfl | rfl <;> rcases hz with rfl | rfl | rfl <;> rfl)
    (fun _ => 0) [shoreDay] [d] (.cons ⟨ha, hs _, hs _⟩ .nil) [⟨fun _ => 3, fun _ => 50, [shoreDay]⟩] [⟨fun _ => 3, fun _ => 50, [d]⟩]
    (.cons ⟨⟨rfl, fun _ _ => rfl, .cons ⟨ha, hs _⟩ .nil⟩, fun e he => by
      simp only [List.mem_singleton] at he; subst he; exact hs _⟩ .nil)
    shoreSim shoreSim ⟨fun _ _ => ⟨rfl, rfl, rfl, rfl⟩, fun _ _ => rfl⟩

end WG
