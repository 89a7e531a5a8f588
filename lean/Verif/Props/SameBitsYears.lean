import Verif.Model.WgYearsR
import Verif.Props.SameBits
import Verif.Props.BasinYears
import Verif.Props.FloatYears
import Verif.Props.FloatDemand

/-!
# C96 over several years

Bit for bit the same results over years in which reservoirs start to operate (`/repo/run_watergap.py:225-333`).
-/

namespace WG

variable (A : Arith) (tot : List ℝ → ℝ) (rule : HanIn → ℝ → ℝ × ℝ) (kRiver : CellIn → ℝ → ℝ) (G : Grid)
  (delayed : Bool) (unit : Cell → ℕ)

theorem wgSpanR_cons (world : List (Cell × Cell)) (basin : Cell → Bool) (g : Cell → ℝ) (days : List WgDay)
    (s : Sim DemandState) (y : WgYear) (ys : List WgYear) :
    wgSpanR A tot rule kRiver G delayed unit world basin g days s (y :: ys)
      = (wgRunR A rule kRiver (G.parR A g) delayed unit world basin s days).map (fun t => (g, t))
        ++ wgSpanR A tot rule kRiver G delayed unit world basin y.glores y.days
          (yearStartR A tot G (⟨y.glores, y.resArea, y.days.map fun d => d.simR A delayed unit world⟩ : ResYear DemandState)
            (lastState s (wgRunR A rule kRiver (G.parR A g) delayed unit world basin s days))) ys := rfl

theorem wgSpanR_nil (world : List (Cell × Cell)) (basin : Cell → Bool) (g : Cell → ℝ) (days : List WgDay)
    (s : Sim DemandState) :
    wgSpanR A tot rule kRiver G delayed unit world basin g days s []
      = (wgRunR A rule kRiver (G.parR A g) delayed unit world basin s days).map fun t => (g, t) := rfl

/-- **C96.**  Over years in which reservoirs start to operate, two routing tables that also list the tributaries of a cell in
the same order give the same simulation to the last bit, of the world and of any basin. -/
theorem C96_years_same_table (world world' : List (Cell × Cell)) (g : Cell → ℝ) (days : List WgDay) (years : List WgYear)
    (h : SameTable unit days world world') (hy : ∀ y ∈ years, SameTable unit y.days world world') (basin : Cell → Bool)
    (s : Sim DemandState) :
    wgSpanR A tot rule kRiver G delayed unit world basin g days s years
      = wgSpanR A tot rule kRiver G delayed unit world' basin g days s years := by
  induction years generalizing g days s with
  | nil =>
    rw [wgSpanR_nil, wgSpanR_nil, C96_same_table A rule kRiver (G.parR A g) delayed unit world world' days h basin s]
  | cons y ys ih =>
    rw [wgSpanR_cons, wgSpanR_cons, C96_same_table A rule kRiver (G.parR A g) delayed unit world world' days h basin s]
    simp only [ih y.glores y.days (hy y List.mem_cons_self) (fun z hz => hy z (List.mem_cons_of_mem _ hz))]
    rfl

theorem handUnitR_agree (cells : List Cell) (assign : Cell → WithTop ℤ) (area area' lost lost' st st' : Cell → ℝ)
    (B : Cell → Bool) (hu : ∀ x ∈ cells, ∀ y ∈ cells, assign x = assign y → assign x ≠ ⊤ → B x = B y)
    (ha : ∀ x, B x → area x = area' x) (hl : ∀ x, B x → lost x = lost' x) (hs : ∀ x, B x → st x = st' x) (u : WithTop ℤ) :
    ∀ x, B x → handUnitR A tot cells assign area lost st u x = handUnitR A tot cells assign area' lost' st' u x := by
  intro x hx
  by_cases hin : u ≠ ⊤ ∧ ∃ c ∈ cells, assign c = u ∧ B c
  · obtain ⟨hu0, c, hc, hcu, hcB⟩ := hin
    have hside : ∀ y ∈ cells, assign y = u → B y := fun y hy hyu => by
      rw [hu y hy c hc (hyu.trans hcu.symm) (hyu ▸ hu0)]; exact hcB
    unfold handUnitR
    rw [find_congr _ (fun x => decide (assign x = u ∧ u ≠ ⊤ ∧ 0 < area' x)) cells fun y hy => by
      by_cases hyu : assign y = u
      · simp [hyu, ha y (hside y hy hyu)]
      · simp [hyu]]
    have hsum : (cells.map fun y => if assign y = u then lost y else 0) = cells.map fun y => if assign y = u then lost' y else 0 :=
      List.map_congr_left fun y hy => by
        by_cases hyu : assign y = u
        · rw [if_pos hyu, if_pos hyu, hl y (hside y hy hyu)]
        · rw [if_neg hyu, if_neg hyu]
    rw [hsum]
    cases cells.find? fun x => decide (assign x = u ∧ u ≠ ⊤ ∧ 0 < area' x) with
    | none => exact hs x hx
    | some z =>
      by_cases hz : x = z
      · subst hz
        simp only [Function.update_self, hs x hx]
      · simp only [Function.update_of_ne hz, hs x hx]
  · have out : ∀ (area lost st : Cell → ℝ), handUnitR A tot cells assign area lost st u x = st x := by
      intro area lost st
      unfold handUnitR
      cases hf : cells.find? fun x => decide (assign x = u ∧ u ≠ ⊤ ∧ 0 < area x) with
      | none => rfl
      | some z =>
        have hz := List.find?_some hf
        simp only [decide_eq_true_eq] at hz
        have hne : x ≠ z := by
          rintro rfl
          exact hin ⟨hz.2.1, x, List.mem_of_find?_eq_some hf, hz.1, hx⟩
        simp only [Function.update_of_ne hne]
    rw [out, out, hs x hx]

theorem handLostR_agree (cells : List Cell) (assign : Cell → WithTop ℤ) (area area' lost lost' st st' : Cell → ℝ)
    (B : Cell → Bool) (hu : ∀ x ∈ cells, ∀ y ∈ cells, assign x = assign y → assign x ≠ ⊤ → B x = B y)
    (ha : ∀ x, B x → area x = area' x) (hl : ∀ x, B x → lost x = lost' x) (hs : ∀ x, B x → st x = st' x) :
    ∀ x, B x → handLostR A tot cells assign area lost st x = handLostR A tot cells assign area' lost' st' x := by
  unfold handLostR
  generalize assignedUnits cells assign = us
  induction us generalizing st st' with
  | nil => exact hs
  | cons u us ih => exact ih _ _ (handUnitR_agree A tot cells assign area area' lost lost' st st' B hu ha hl hs u)

theorem yearStartR_agree (B : Cell → Bool) (hu : G.UnitsWhole B) (y y' : ResYear DemandState)
    (hg : y.glores = y'.glores) (ha : ∀ x, B x → y.resArea x = y'.resArea x) (s s' : Sim DemandState) (h : s.Agree B s') :
    (yearStartR A tot G y s).Agree B (yearStartR A tot G y' s') := by
  refine ⟨h.1, fun x hx => ?_⟩
  have k := handLostR_agree A tot G.cells G.assign y.resArea y'.resArea
    (fun z => yearLostR A (G.area z) (G.frac z) (y.glores z) (s.state z))
    (fun z => yearLostR A (G.area z) (G.frac z) (y'.glores z) (s'.state z))
    (fun z => (s.state z).lat.res) (fun z => (s'.state z).lat.res) B hu ha
    (fun z hz => by rw [hg, h.2 z hz]) (fun z hz => by rw [h.2 z hz]) x hx
  simp only [hg] at k
  simp only [yearStartR, h.2 x hx, hg, k]

/-- After runs whose days are the same in `B` the states are the same in `B`. -/
theorem lastState_agree {δ ε : Type} (B : Cell → Bool) (s s' : Sim DemandState) (h : s.Agree B s')
    {a : List (Sim DemandState × δ × NetState (Basin DemandState) × Sim DemandState)}
    {b : List (Sim DemandState × ε × NetState (Basin DemandState) × Sim DemandState)} (hab : List.Forall₂ (SameDay B) a b) :
    (lastState s a).Agree B (lastState s' b) := by
  induction hab generalizing s s' with
  | nil => exact h
  | @cons t t' l l' k hl ih =>
    have e : ∀ {ζ : Type} (z : Sim DemandState) (u : Sim DemandState × ζ × NetState (Basin DemandState) × Sim DemandState) m,
        lastState z (u :: m) = lastState u.2.2.2 m := by
      intro ζ z u m
      unfold lastState
      cases m <;> simp [List.getLast?_cons]
    rw [e, e]
    exact ih _ _ k.close

/-- **C96.**  Over years in which reservoirs start to operate, a run of a basin that contains everything upstream of it and
whose lakes and reservoirs lie inside it does in its cells what the global run does, to the last bit. -/
theorem C96_years_basin_run (world : List (Cell × Cell)) (B : Cell → Bool) (hup : UpstreamClosed world B) (hu : G.UnitsWhole B)
    (g : Cell → ℝ) (days days' : List WgDay)
    (hdays : List.Forall₂ (fun d d' => d.Agree B d' ∧ ShoresInside world unit B d) days days') (years years' : List WgYear)
    (hy : List.Forall₂ (WgYear.Agree world unit B) years years') (s s' : Sim DemandState) (h : s.Agree B s') :
    List.Forall₂ (fun t t' => t.1 = t'.1 ∧ SameDay B t.2 t'.2)
      (wgSpanR A tot rule kRiver G delayed unit world (fun _ => true) g days s years)
      (wgSpanR A tot rule kRiver G delayed unit world B g days' s' years') := by
  induction hy generalizing g days days' s s' with
  | nil =>
    rw [wgSpanR_nil, wgSpanR_nil]
    have k := C96_basin_run A rule kRiver (G.parR A g) delayed unit world B hup days days' hdays s s' h
    exact List.forall₂_map_left_iff.2 (List.forall₂_map_right_iff.2 (k.imp fun _ _ k => ⟨rfl, k⟩))
  | @cons y y' ys ys' hyy _ ih =>
    have k := C96_basin_run A rule kRiver (G.parR A g) delayed unit world B hup days days' hdays s s' h
    obtain ⟨hg, ha, hd⟩ := hyy
    rw [wgSpanR_cons, wgSpanR_cons, ← hg]
    have i := ih y.glores y.days y'.days hd _ _ (yearStartR_agree A tot G B hu
      ⟨y.glores, y.resArea, y.days.map fun d => d.simR A delayed unit world⟩
      ⟨y.glores, y'.resArea, y'.days.map fun d => d.simR A delayed unit world⟩ rfl ha _ _ (lastState_agree B s s' h k))
    exact List.rel_append (List.forall₂_map_left_iff.2 (List.forall₂_map_right_iff.2 (k.imp fun _ _ k => ⟨rfl, k⟩))) i

/-- Without rounding these are the years of C64, C82, C83. -/
theorem C96_exact_years (world : List (Cell × Cell)) (B : Cell → Bool) (g : Cell → ℝ) (days : List WgDay)
    (s : Sim DemandState) (years : List WgYear) (hne : ∀ y ∈ years, y.days ≠ []) :
    ((wgSpanR exact List.sum hanasaki (fun c s => outflowConstant s c.len c.width c.rough c.mult c.slope) G delayed unit world B
        g days s years).getLast?.map fun t => t.2.2.2.2).getD s = (wgSpan G delayed unit world B g days s years).1 := by
  unfold wgSpanR wgSpan
  have e : (fun d : WgDay => d.simR exact delayed unit world) = fun d => d.sim delayed unit world :=
    funext fun d => C65_exact_ledger delayed unit world d
  rw [e]
  exact C65_exact_years G (masked world B) _ g _ s fun y hy => by
    obtain ⟨z, hz, rfl⟩ := List.mem_map.1 hy
    simpa using hne z hz

/-! ### The hypotheses are met -/

theorem twoRivers_year : SameTable shoreUnit [shoreDay] twoRivers twoRivers' :=
  let h := twoRivers_same
  ⟨⟨h.perm, h.sound, h.sound', fun d hd => h.shores d (by simp_all)⟩, h.tributaries⟩

/-- Two years in binary64 arithmetic, with any release rule and any order in which arrays are added up. -/
example (tot : List ℝ → ℝ) (rule : HanIn → ℝ → ℝ × ℝ) (kRiver : CellIn → ℝ → ℝ) :=
  C96_years_same_table binary64 tot rule kRiver exGrid true shoreUnit twoRivers twoRivers' (fun _ => 0) [shoreDay]
    [⟨fun x => if x = (1, 2) then 3 else 0, fun _ => 50, [shoreDay]⟩] twoRivers_year
    (by intro y hy; simp only [List.mem_singleton] at hy; subst hy; exact twoRivers_year) (fun _ => true) shoreSim

/-- The river `(2, 2)` on its own computes the same bits, also when reservoirs start elsewhere. -/
example (tot : List ℝ → ℝ) (rule : HanIn → ℝ → ℝ × ℝ) (kRiver : CellIn → ℝ → ℝ) :=
  C96_years_basin_run binary64 tot rule kRiver islandGrid true shoreUnit twoRivers (fun x => x = (2, 2)) lonely_closed
    (by
      intro x hx z hz _ _
      simp only [islandGrid, List.mem_cons, List.not_mem_nil, or_false] at hx hz
      rcases hx with rfl | rfl | rfl <;> rcases hz with rfl | rfl | rfl <;> rfl)
    (fun _ => 0) [shoreDay] [shoreDay] (.cons ⟨⟨rfl, fun _ _ => ⟨rfl, rfl, rfl, rfl⟩⟩, lonely_shores _⟩ .nil)
    [⟨fun x => if x = (1, 2) then 3 else 0, fun _ => 50, [shoreDay]⟩]
    [⟨fun x => if x = (1, 2) then 3 else 0, fun x => if x = (2, 2) then 50 else 0, [shoreDay]⟩]
    (.cons ⟨rfl, fun x hx => by simp only [decide_eq_true_eq] at hx; simp [hx],
      .cons ⟨⟨rfl, fun _ _ => ⟨rfl, rfl, rfl, rfl⟩⟩, lonely_shores _⟩ .nil⟩ .nil)
    shoreSim shoreSim (agree_rfl _ _)

example := C96_exact_years exGrid true shoreUnit shoreOrder (fun _ => true) (fun _ => 0) [shoreDay] shoreSim
  [⟨fun _ => 3, fun _ => 50, [shoreDay]⟩] (by intro y hy; simp only [List.mem_singleton] at hy; subst hy; simp)

end WG
