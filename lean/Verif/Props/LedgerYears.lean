import Verif.Props.OrderYears

/-!
# C58 over several years

The ledger of demand over years in which reservoirs start to operate (`/repo/run_watergap.py:225-333`).
-/

namespace WG

section
variable (G : Grid) (r : NbRun)

/-- What the cells took and what was given up over the years. -/
noncomputable def nbSpanUse : (Cell → ℝ) → List NbWgDay → NbSim → List NbYear → ℝ × ℝ
  | g, days, s, [] => (nbHistory r s.carry (nbLatDays (G.par g) r s days)).2
  | g, days, s, y :: ys =>
    (nbHistory r s.carry (nbLatDays (G.par g) r s days)).2
      + nbSpanUse y.glores y.days (nbYearStart G y (nbSimRun (G.par g) r s days).1) ys

/-- The water bodies of the last year. -/
def lastBodies (lat0 : Cell → CellIn) (years : List (NbYear × (Cell → CellIn))) : Cell → CellIn :=
  (years.getLast?.map Prod.snd).getD lat0

theorem nbLatDays_eff (par : Cell → FullPar) (lat0 : Cell → CellIn) (hr : r.Good lat0)
    (hcorr : ∀ x ∈ r.order.map Prod.fst, 0 < (lat0 x).corr) (days : List NbWgDay) (s : NbSim) (hs : (nbEff r s).Ok par lat0 r)
    (hd : NbWgDaysOk par lat0 r s days) : nbLatDays par r (nbEff r s) days = nbLatDays par r s days := by
  cases days with
  | nil => rfl
  | cons d ds =>
    simp only [nbLatDays]
    rw [(nbDay_eff par lat0 r hr hcorr d s hs hd.1).1, nbLat_eff]

theorem nbSpanUse_eff (lat0 : Cell → CellIn) (hr : r.Good lat0) (hcorr : ∀ x ∈ r.order.map Prod.fst, 0 < (lat0 x).corr)
    (g : Cell → ℝ) (days : List NbWgDay) (hne : days ≠ []) (s : NbSim) (hs : (nbEff r s).Ok (G.par g) lat0 r)
    (hd : NbWgDaysOk (G.par g) lat0 r s days) (years : List NbYear) :
    nbSpanUse G r g days (nbEff r s) years = nbSpanUse G r g days s years := by
  have e1 := nbLatDays_eff r (G.par g) lat0 hr hcorr days s hs hd
  have e2 := nbSimRun_eff (G.par g) lat0 r hr hcorr days hne s hs hd
  cases years with
  | nil => simp only [nbSpanUse, e1]; rfl
  | cons y ys => simp only [nbSpanUse, e1, e2]; rfl

/-- When the lakes of `lat1` include those of `lat0`, one to a unit, what has been handed to shores is the same. -/
theorem onTheWay_grow (lat0 lat1 : Cell → CellIn) (hr : r.Good lat1) (hl : ∀ x, (lat0 x).hasLake → (lat1 x).hasLake)
    (q : DemandDay) (hq : q.unit = r.unit) (rip : Cell → ℝ)
    (hrip : ∀ x, (∀ L ∈ r.order.map Prod.fst, ¬ ((lat0 L).hasLake ∧ r.unit L = r.unit x ∧ L ≠ x)) → rip x = 0) :
    onTheWay lat1 q (r.order.map Prod.fst) rip = onTheWay lat0 q (r.order.map Prod.fst) rip := by
  classical
  have key : ∀ (l : List Cell) (p p' : Cell → Prop) (f : Cell → ℝ), (∀ x, p x → p' x) → (∀ x, p' x → ¬ p x → f x = 0) →
      ((l.filter fun x => decide (p' x)).map f).sum = ((l.filter fun x => decide (p x)).map f).sum := by
    intro l p p' f h1 h2
    induction l with
    | nil => rfl
    | cons a l ih =>
      by_cases hp : p a
      · simp [hp, h1 a hp, ih]
      · by_cases hp' : p' a
        · simp [hp, hp', h2 a hp' hp, ih]
        · simp [hp, hp', ih]
  unfold onTheWay
  refine Eq.trans ?_ (key _ (NextDay lat0 q (r.order.map Prod.fst)) (NextDay lat1 q (r.order.map Prod.fst)) rip ?_ ?_)
  · rfl
  · rintro x ⟨L, hL, ho, hi⟩
    exact ⟨L, hL, ⟨hl L ho.1, ho.2⟩, hi⟩
  · rintro x ⟨L, hL, ho, hi⟩ hn
    apply hrip
    rintro L' hL' ⟨h1, h2, h3⟩
    have hu : r.unit L = r.unit x := by rw [← hq]; exact ho.2.1
    have e : L' = L := hr.units.unique L' L (hl L' h1) ho.1 (h2.trans hu.symm)
    subst e
    exact hn ⟨L', hL, ⟨h1, ho.2⟩, hi⟩

/-- **C58.**  Over years in which reservoirs start to operate: the demand of all days plus what was open at the start is what
the cells took, what was given up, and what is open at the end. -/
theorem C58_years (years : List (NbYear × (Cell → CellIn))) (g : Cell → ℝ) (lat0 : Cell → CellIn) (hr : r.Good lat0)
    (hcorr : ∀ x ∈ r.order.map Prod.fst, 0 < (lat0 x).corr)
    (hsink : ∀ x ∈ r.order.map Prod.fst, (lat0 x).sink = true → (lat0 x).corr = 1)
    (days : List NbWgDay) (s : NbSim) (hs : s.Ok (G.par g) lat0 r) (hst : NbStarted r g s)
    (ho : NbSpanOk G r g lat0 days s years) :
    let asked := fun ds : List NbWgDay => (ds.map fun d => ((r.order.map Prod.fst).map d.pot).sum).sum
    let u := nbSpanUse G r g days s (years.map Prod.fst)
    s.carry.open lat0 r + asked days + (years.map fun y => asked y.1.days).sum
      = u.1 + u.2 + (nbSpan G r g days s (years.map Prod.fst)).1.carry.open (lastBodies lat0 years) r := by
  intro asked u
  induction years generalizing g lat0 days s with
  | nil =>
    have h := C58_simulation (G.par g) lat0 r hr hcorr hsink days s hs ho.2
    simp only [List.map_nil, List.sum_nil, add_zero]
    exact h
  | cons y ys ih =>
    obtain ⟨h1, h2, h3, h4⟩ := ho
    have hh := C58_simulation (G.par g) lat0 r hr hcorr hsink days s hs h2
    set n := (nbSimRun (G.par g) r s days).1 with hn
    have hrok : n.Ok (G.par g) lat0 r := C54_neighbours (G.par g) lat0 r hr hcorr hsink days s hs h2
    have hrst : NbStarted r g n := by
      intro z hz
      obtain ⟨q1, q2⟩ := nbRun_land (G.par g) r days s z
      exact ⟨q1.trans (hst z hz).1, q2.trans (hst z hz).2⟩
    obtain ⟨hok', hst'⟩ := nbYearStart_ok G r g lat0 y.2 y.1 n hrok hrst h3
    have hcorr' : ∀ z ∈ r.order.map Prod.fst, 0 < (y.2 z).corr := fun z hz => by
      rw [← (h3.cells z hz).2.1.corr]; exact hcorr z hz
    have hsink' : ∀ z ∈ r.order.map Prod.fst, (y.2 z).sink = true → (y.2 z).corr = 1 := fun z hz => by
      rw [← (h3.cells z hz).2.1.corr, ← (h3.cells z hz).2.1.sink]; exact hsink z hz
    have hne : y.1.days ≠ [] ∧ NbWgDaysOk (G.par y.1.glores) y.2 r (nbYearStart G y.1 n) y.1.days := by
      cases ys with
      | nil => exact h4
      | cons z zs => exact ⟨h4.1, h4.2.1⟩
    have i := ih y.1.glores y.2 h3.good hcorr' hsink' y.1.days (nbEff r (nbYearStart G y.1 n)) hok' hst'
      (nbSpanOk_eff G r y.1.glores y.2 h3.good hcorr' y.1.days _ ys hok' h4)
    have hrun := nbSimRun_eff (G.par y.1.glores) y.2 r h3.good hcorr' y.1.days hne.1 _ hok' hne.2
    obtain ⟨j1, -⟩ := nbSpan_congr G r y.1.glores y.1.days _ _ (ys.map Prod.fst) hrun
    rw [j1, nbSpanUse_eff G r y.2 h3.good hcorr' y.1.glores y.1.days hne.1 _ hok' hne.2] at i
    have hopen : (nbEff r (nbYearStart G y.1 n)).carry.open y.2 r = n.carry.open lat0 r := by
      have e := onTheWay_grow r lat0 y.2 h3.good h3.lakes
        ⟨fun _ => 0, fun _ => 0, r.unit, fun _ => 0, r.order.map Prod.fst⟩ rfl n.carry.rip hrok.1.rip
      unfold NbCarry.open
      rw [show (nbEff r (nbYearStart G y.1 n)).carry.rip = n.carry.rip from rfl, e]
      rfl
    have hlast : lastBodies lat0 (y :: ys) = lastBodies y.2 ys := by
      unfold lastBodies
      cases ys with
      | nil => rfl
      | cons z zs => simp [List.getLast?_cons]
    rw [hopen] at i
    rw [hlast]
    simp only [u, List.map_cons, List.sum_cons, nbSpan, nbSpanUse, Prod.fst_add, Prod.snd_add] at i hh ⊢
    linarith

end

/-- Cells that ask each other before and after a reservoir starts to operate. -/
example : ∃ years : List (NbYear × (Cell → CellIn)), years ≠ [] ∧
    (let asked := fun ds : List NbWgDay => (ds.map fun d => ((farRun.order.map Prod.fst).map d.pot).sum).sum
     let u := nbSpanUse exGrid farRun (fun _ => 0) [waitDay] waitSim (years.map Prod.fst)
     waitSim.carry.open dryBase farRun + asked [waitDay] + (years.map fun y => asked y.1.days).sum
      = u.1 + u.2 + (nbSpan exGrid farRun (fun _ => 0) [waitDay] waitSim (years.map Prod.fst)).1.carry.open
        (lastBodies dryBase years) farRun) := by
  obtain ⟨cap, h⟩ := askSpan_ok
  exact ⟨_, by simp, C58_years exGrid farRun _ _ dryBase farRun_good ask_corr (fun x _ _ => dryBase_corr x) _ _
    askSpan_start.1 askSpan_start.2 h⟩

end WG
