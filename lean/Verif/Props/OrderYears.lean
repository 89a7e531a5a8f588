import Verif.Model.NbYears
import Verif.Props.NbOrder
import Verif.Props.NbOff
import Verif.Props.NbYears

/-!
# C82, C83 over several years

The claims of `Props/OrderFree.lean`, `Props/NbOrder.lean` and `Props/NbOff.lean` over years in which reservoirs start to
operate (`/repo/run_watergap.py:225-333`).
-/

namespace WG

/-! ## C82 -/

theorem wgSpan_nil (G : Grid) (delayed : Bool) (unit : Cell → ℕ) (world : List (Cell × Cell)) (basin : Cell → Bool)
    (g : Cell → ℝ) (days : List WgDay) (s : Sim DemandState) :
    wgSpan G delayed unit world basin g days s [] = wgRun (G.par g) delayed unit world basin s days := rfl

theorem wgSpan_cons (G : Grid) (delayed : Bool) (unit : Cell → ℕ) (world : List (Cell × Cell)) (basin : Cell → Bool)
    (g : Cell → ℝ) (days : List WgDay) (s : Sim DemandState) (y : WgYear) (ys : List WgYear) :
    wgSpan G delayed unit world basin g days s (y :: ys)
      = let p := wgRun (G.par g) delayed unit world basin s days
        let q := wgSpan G delayed unit world basin y.glores y.days
          (yearStart G (⟨y.glores, y.resArea, y.days.map fun d => d.sim delayed unit world⟩ : ResYear DemandState) p.1) ys
        (q.1, p.2 ++ q.2) := rfl

/-- **C82.**  Over years in which reservoirs start to operate, two routing tables of the same river network give the same
simulation, of the world and of any basin. -/
theorem C82_years (G : Grid) (delayed : Bool) (unit : Cell → ℕ) (world world' : List (Cell × Cell)) (g : Cell → ℝ)
    (days : List WgDay) (years : List WgYear) (h : SameNetwork unit days world world')
    (hy : ∀ y ∈ years, SameNetwork unit y.days world world') (basin : Cell → Bool) (s : Sim DemandState) :
    wgSpan G delayed unit world basin g days s years = wgSpan G delayed unit world' basin g days s years := by
  induction years generalizing g days s with
  | nil => exact C82_order_irrelevant (G.par g) delayed unit world world' days h basin s
  | cons y ys ih =>
    rw [wgSpan_cons, wgSpan_cons, C82_order_irrelevant (G.par g) delayed unit world world' days h basin s]
    simp only [ih y.glores y.days (hy y List.mem_cons_self) (fun z hz => hy z (List.mem_cons_of_mem _ hz))]
    rfl

section
variable (par : Cell → FullPar) (r : NbRun)

theorem nbSimRun_asked (days : List NbWgDay) (s : NbSim) (hs : NbAsked r.nbs s.carry.nbMap) :
    NbAsked r.nbs (nbSimRun par r s days).1.carry.nbMap := by
  induction days generalizing s with
  | nil => exact hs
  | cons d ds ih =>
    exact ih _ (nbDayRun_asked (cin := (d.lat par s).cin) (q := (d.lat par s).nbDay r s.carry) r.order
      ((d.lat par s).ledger r s.carry) hs s.carry.state)

/-- **C82.**  So do two routing tables of the same river network and neighbourhoods with water supply from neighbouring
cells. -/
theorem C82_neighbour_years (G : Grid) (order' : List (Cell × Cell)) (g : Cell → ℝ) (days : List NbWgDay)
    (years : List NbYear) (h : SameNbNetwork r days order') (hy : ∀ y ∈ years, SameNbNetwork r y.days order') (s : NbSim)
    (hs : NbAsked r.nbs s.carry.nbMap) :
    nbSpan G { r with order := order' } g days s years = nbSpan G r g days s years := by
  induction years generalizing g days s with
  | nil => exact C82_with_neighbours (G.par g) r order' days h s hs
  | cons y ys ih =>
    simp only [nbSpan, C82_with_neighbours (G.par g) r order' days h s hs]
    rw [ih y.glores y.days (hy y List.mem_cons_self) (fun z hz => hy z (List.mem_cons_of_mem _ hz))
      (nbYearStart G y (nbSimRun (G.par g) r s days).1) (nbSimRun_asked (G.par g) r days s hs)]

/-! ## C83 -/

/-- The year without the option. -/
def NbYear.off (y : NbYear) : WgYear := ⟨y.glores, y.resArea, y.days.map NbWgDay.off⟩

theorem off_start (G : Grid) (y : NbYear) (ds : List (SimDay DemandState)) (s : NbSim) (t : Sim DemandState) (h : s.Off t) :
    (nbYearStart G y s).Off (yearStart G ⟨y.glores, y.resArea, ds⟩ t) := by
  have e : ∀ z, t.state z = s.full z := fun z => (h.state z).symm
  refine ⟨fun x => ?_, h.unsat, h.rip, h.supply⟩
  unfold nbYearStart yearStart
  simp only [e]
  rfl

/-- On none of the days of the years does a cell ask a neighbour. -/
def NobodyAsksYears (G : Grid) : (Cell → ℝ) → List NbWgDay → NbSim → List NbYear → Prop
  | g, days, s, [] => NobodyAsks (G.par g) r s days
  | g, days, s, y :: ys => NobodyAsks (G.par g) r s days ∧
      NobodyAsksYears G y.glores y.days (nbYearStart G y (nbSimRun (G.par g) r s days).1) ys

/-- **C83.**  Over years in which reservoirs start to operate the option changes nothing as long as no cell asks a
neighbour. -/
theorem C83_years (G : Grid) (hnd : (r.order.map Prod.fst).Nodup) (g : Cell → ℝ) (days : List NbWgDay) (years : List NbYear)
    (s : NbSim) (t : Sim DemandState) (h : s.Off t) (hno : NobodyAsksYears r G g days s years) :
    let a := nbSpan G r g days s years
    let b := wgSpan G r.delayed r.unit r.order (fun _ => true) g (days.map NbWgDay.off) t (years.map NbYear.off)
    a.1.Off b.1 ∧ a.2 = b.2 := by
  induction years generalizing g days s t with
  | nil => exact C83_nobody_asks (G.par g) r hnd days s t h hno
  | cons y ys ih =>
    obtain ⟨k1, k2⟩ := C83_nobody_asks (G.par g) r hnd days s t h hno.1
    obtain ⟨i1, i2⟩ := ih y.glores y.days _ _ (off_start G y
      ((y.days.map NbWgDay.off).map fun d => d.sim r.delayed r.unit r.order) _ _ k1) hno.2
    exact ⟨i1, congrArg₂ (· ++ ·) k2 i2⟩

/-- **C83.**  So it is in a world whose cells have no neighbours. -/
theorem C83_years_no_neighbours (G : Grid) (hnd : (r.order.map Prod.fst).Nodup) (hnb : ∀ x, ∀ p ∈ r.nbs x, ¬ realCell p.1)
    (g : Cell → ℝ) (days : List NbWgDay) (years : List NbYear) (s : NbSim) (t : Sim DemandState) (h : s.Off t) :
    let a := nbSpan G r g days s years
    let b := wgSpan G r.delayed r.unit r.order (fun _ => true) g (days.map NbWgDay.off) t (years.map NbYear.off)
    a.1.Off b.1 ∧ a.2 = b.2 := by
  induction years generalizing g days s t with
  | nil => exact C83_no_neighbours (G.par g) r hnd hnb days s t h
  | cons y ys ih =>
    obtain ⟨k1, k2⟩ := C83_no_neighbours (G.par g) r hnd hnb days s t h
    obtain ⟨i1, i2⟩ := ih y.glores y.days _ _ (off_start G y
      ((y.days.map NbWgDay.off).map fun d => d.sim r.delayed r.unit r.order) _ _ k1)
    exact ⟨i1, congrArg₂ (· ++ ·) k2 i2⟩

end

/-! ### The hypotheses are met -/

/-- A year from whose start on there is a reservoir in the cell `(1, 2)`. -/
noncomputable def damYear : NbYear := { glores := fun x => if x = (1, 2) then 3 else 0, resArea := fun _ => 50, days := [waitDay] }

theorem island_year : SameNbNetwork islandRun [waitDay] islandOrder' :=
  let h := island_network
  ⟨h.perm, h.sound, h.sound', h.real, fun d hd => h.shores d (by simp_all), h.neighbours⟩

/-- The two cells of the island ask each other before and after a reservoir starts to operate, in two orders. -/
example : nbSpan exGrid { islandRun with order := islandOrder' } (fun _ => 0) [waitDay, waitDay] waitSim [damYear]
    = nbSpan exGrid islandRun (fun _ => 0) [waitDay, waitDay] waitSim [damYear] :=
  C82_neighbour_years islandRun exGrid islandOrder' (fun _ => 0) [waitDay, waitDay] [damYear] island_network
    (by intro y hy; simp only [List.mem_singleton] at hy; subst hy; exact island_year) waitSim (by
    intro x
    by_cases h2 : x = (1, 2)
    · subst h2; right; exact ⟨((1, 1), (0, 0)), by simp [islandRun, askRun], rfl⟩
    · left; simp [waitSim, waitCarry, h2])

theorem shore_network (basinDays : List WgDay) (hu : ∀ d ∈ basinDays, ∀ x, (d.lateral x).useOpt = false) :
    SameNetwork shoreUnit basinDays shoreOrder shoreOrder' :=
  ⟨shore_perm, exOrder_sound, shoreOrder'_sound, fun d hd e f h _ => by
    exfalso
    rcases h with h | h
    · exact Bool.false_ne_true ((hu d hd e.1).symm.trans h.1)
    · exact Bool.false_ne_true ((hu d hd f.1).symm.trans h.1)⟩

example :
    let d : WgDay := { shoreDay with lateral := fun x => { shoreLat x with useOpt := false } }
    wgSpan exGrid true shoreUnit shoreOrder (fun _ => true) (fun _ => 0) [d] shoreSim [⟨fun _ => 3, fun _ => 50, [d]⟩]
      = wgSpan exGrid true shoreUnit shoreOrder' (fun _ => true) (fun _ => 0) [d] shoreSim [⟨fun _ => 3, fun _ => 50, [d]⟩] := by
  intro d
  have hu : ∀ e ∈ [d], ∀ x, (e.lateral x).useOpt = false := by
    intro e he x
    simp only [List.mem_singleton] at he
    subst he
    rfl
  exact C82_years exGrid true shoreUnit shoreOrder shoreOrder' (fun _ => 0) [d] _ (shore_network _ hu)
    (by intro y hy; simp only [List.mem_singleton] at hy; subst hy; exact shore_network _ hu) (fun _ => true) shoreSim

/-- Two cells with demand on two islands, before and after a reservoir starts to operate. -/
example := C83_years_no_neighbours { askRun with nbs := fun _ => [((0, 0), (0, 0))] } exGrid (by decide)
  (by intro x p hp; simp only [List.mem_singleton] at hp; subst hp; decide) (fun _ => 0) [waitDay, waitDay] [damYear] calmSim
  calmSim.plain (plain_off _ fun _ => rfl)

theorem nobody_nil (av : Cell → ℝ) (u : ℝ) (x : Cell) (month day : ℕ) (turned : Cell → ℕ) :
    ¬ realCell (getNeighbour av [] u x month day turned) := by
  rcases asked_mem av [] u x month day turned with h | ⟨p, hp, -⟩
  · rw [h]; decide
  · simp at hp

theorem nobody_day (par : Cell → FullPar) (s : NbSim) : NobodyAsks par { askRun with nbs := fun _ => [] } s [waitDay] :=
  ⟨by
    intro x hx
    simp only [askRun, dryOrder, List.map_cons, List.map_nil, List.mem_cons, List.not_mem_nil, or_false] at hx
    rcases hx with rfl | rfl
    all_goals
      change ¬ realCell (getNeighbour _ [] _ _ _ _ _)
      exact nobody_nil _ _ _ _ _ _, trivial⟩

example := C83_years { askRun with nbs := fun _ => [] } exGrid (by decide) (fun _ => 0) [waitDay] [damYear] calmSim calmSim.plain
  (plain_off _ fun _ => rfl) ⟨nobody_day _ _, nobody_day _ _⟩

end WG
