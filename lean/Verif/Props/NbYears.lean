import Verif.Model.NbYears
import Verif.Props.NbWhole
import Verif.Props.Years

/-!
# C71 with water supply from neighbouring cells: the water balance over years in which reservoirs start to operate
-/

namespace WG

/-! ## Lemmas -/

section sim
variable (par : Cell → FullPar) (lat0 : Cell → CellIn) (r : NbRun)

open Classical in
/-- `eff` in all simulated cells. -/
noncomputable def nbEff (s : NbSim) : NbSim :=
  { s with land := fun x => if x ∈ r.order.map Prod.fst then (eff (s.full x)).land else s.land x }

theorem nbEff_full (s : NbSim) {x : Cell} (hx : x ∈ r.order.map Prod.fst) : (nbEff r s).full x = eff (s.full x) := by
  unfold NbSim.full nbEff
  simp only [if_pos hx]
  rfl

theorem nbEff_full_not (s : NbSim) {x : Cell} (hx : x ∉ r.order.map Prod.fst) : (nbEff r s).full x = s.full x := by
  unfold NbSim.full nbEff
  simp only [if_neg hx]

theorem nbLat_eff (d : NbWgDay) (s : NbSim) : d.lat par (nbEff r s) = d.lat par s := by
  unfold NbWgDay.lat
  congr 1
  funext x
  by_cases hx : x ∈ r.order.map Prod.fst
  · rw [nbEff_full r s hx, fullIn_eff]
  · rw [nbEff_full_not r s hx]

theorem nbDayOk_eff (d : NbWgDay) (s : NbSim) (hd : d.Ok par lat0 r s) : d.Ok par lat0 r (nbEff r s) := by
  refine ⟨hd.same, fun x hx => ?_, hd.use, hd.sign, hd.cons⟩
  obtain ⟨g1, g2, g3⟩ := hd.cells x hx
  rw [nbEff_full r s hx, fullIn_eff]
  exact ⟨g1, g2, g3⟩

theorem nbDay_eff (hr : r.Good lat0) (hcorr : ∀ x ∈ r.order.map Prod.fst, 0 < (lat0 x).corr) (d : NbWgDay) (s : NbSim)
    (hs : (nbEff r s).Ok par lat0 r) (hd : d.Ok par lat0 r s) :
    d.next par r (nbEff r s) = d.next par r s ∧ d.recs par r (nbEff r s) = d.recs par r s := by
  have hl := nbLat_eff par r d s
  have hnet : (d.lat par (nbEff r s)).routed r (nbEff r s).carry = (d.lat par s).routed r s.carry := by rw [hl]; rfl
  have hcar : (d.lat par (nbEff r s)).next r (nbEff r s).carry = (d.lat par s).next r s.carry := by rw [hl]; rfl
  have hsome : ∀ x ∈ r.order.map Prod.fst, ∃ o, ((d.lat par s).routed r s.carry).ledger.out x = some o := by
    intro x hx
    obtain ⟨rec, k1, -⟩ := nbDay_cell hr hcorr hs (nbDayOk_eff par lat0 r d s hd) x hx
    unfold NbWgDay.recs at k1
    rw [hnet] at k1
    obtain ⟨o, ho, -⟩ := Option.map_eq_some_iff.mp k1
    exact ⟨o, ho⟩
  constructor
  · unfold NbWgDay.next
    simp only [hnet, hcar]
    congr 1
    · funext x
      by_cases hx : x ∈ r.order.map Prod.fst
      · obtain ⟨o, ho⟩ := hsome x hx
        rw [ho, nbEff_full r s hx]
        rfl
      · rw [nbEff_full_not r s hx]; rfl
    · funext x
      by_cases hx : x ∈ r.order.map Prod.fst
      · obtain ⟨o, ho⟩ := hsome x hx
        rw [ho, nbEff_full r s hx]
        rfl
      · rw [nbEff_full_not r s hx]
        unfold nbEff
        simp only [if_neg hx]
  · funext x
    unfold NbWgDay.recs
    rw [hnet]
    by_cases hx : x ∈ r.order.map Prod.fst
    · rw [nbEff_full r s hx]
      simp only [fullRec_eff]
    · rw [nbEff_full_not r s hx]

theorem nbDaysOk_eff (hr : r.Good lat0) (hcorr : ∀ x ∈ r.order.map Prod.fst, 0 < (lat0 x).corr) (days : List NbWgDay)
    (s : NbSim) (hs : (nbEff r s).Ok par lat0 r) (hd : NbWgDaysOk par lat0 r s days) :
    NbWgDaysOk par lat0 r (nbEff r s) days := by
  cases days with
  | nil => trivial
  | cons d ds =>
    refine ⟨nbDayOk_eff par lat0 r d s hd.1, ?_⟩
    rw [(nbDay_eff par lat0 r hr hcorr d s hs hd.1).1]
    exact hd.2

theorem nbSimRun_eff (hr : r.Good lat0) (hcorr : ∀ x ∈ r.order.map Prod.fst, 0 < (lat0 x).corr) (days : List NbWgDay)
    (hne : days ≠ []) (s : NbSim) (hs : (nbEff r s).Ok par lat0 r) (hd : NbWgDaysOk par lat0 r s days) :
    nbSimRun par r (nbEff r s) days = nbSimRun par r s days := by
  cases days with
  | nil => exact absurd rfl hne
  | cons d ds =>
    simp only [nbSimRun]
    obtain ⟨h1, h2⟩ := nbDay_eff par lat0 r hr hcorr d s hs hd.1
    rw [h1, h2]

/-- After at least one day, the storage before the next day is the last one recorded, and the mean snow storage is the
mean over the bands. -/
theorem nbRun_end (hr : r.Good lat0) (hcorr : ∀ x ∈ r.order.map Prod.fst, 0 < (lat0 x).corr)
    (hsink : ∀ x ∈ r.order.map Prod.fst, (lat0 x).sink = true → (lat0 x).corr = 1) (days : List NbWgDay)
    (hne : days ≠ []) (s : NbSim) (hs : s.Ok par lat0 r) (hd : NbWgDaysOk par lat0 r s days)
    (x : Cell) (hx : x ∈ r.order.map Prod.fst) (z : ℝ) :
    (((nbSeries par r s days x).getLast?.map (·.tws)).getD z) = twsBefore (par x) ((nbSimRun par r s days).1.full x) ∧
    (let v := ((nbSimRun par r s days).1.full x).vert; v.canopy + v.snow + v.soil = v.water) := by
  induction days generalizing s z with
  | nil => exact absurd rfl hne
  | cons d ds ih =>
    obtain ⟨rec, k1, k2⟩ := nbDay_cell hr hcorr hs hd.1 x hx
    have htws := (cellStep_closes k2 (hs.2 x hx) (hcorr x hx) (hsink x hx)).2.2
    have hser : nbSeries par r s (d :: ds) x = rec :: nbSeries par r (d.next par r s) ds x := by
      simp only [nbSeries, nbSimRun]
      rw [List.filterMap_cons, k1]
    rw [hser, getLast_tws]
    cases ds with
    | nil =>
      simp only [nbSimRun]
      refine ⟨htws.symm, ?_⟩
      obtain ⟨c, w, up, dem, keep, g1, g2, -, -, -, -, hn, -⟩ := k2
      rw [hn]
      exact next_snow _ _ _ (hs.2 x hx).vert
    | cons e es =>
      exact ih (by simp) _ (nbDay_ok hr hcorr hsink hs hd.1) hd.2 _

/-- C71, C58 (whole simulation): after a 31 December, with delayed use, no cell has unsatisfied demand left and nothing waits
at a neighbour, whatever happened in the years before. So a cell that has its first reservoir from 1 January on starts with
no demand. -/
theorem C71_neighbours_new_year (hr : r.Good lat0) (hcorr : ∀ x ∈ r.order.map Prod.fst, 0 < (lat0 x).corr)
    (hsink : ∀ x ∈ r.order.map Prod.fst, (lat0 x).sink = true → (lat0 x).corr = 1) (hdl : r.delayed = true)
    (days : List NbWgDay) (d : NbWgDay) (hdate : d.month = 12 ∧ d.day = 31) (s : NbSim) (hs : s.Ok par lat0 r)
    (hd : NbWgDaysOk par lat0 r s (days ++ [d])) (x : Cell) (hx : x ∈ r.order.map Prod.fst) :
    let c := (nbSimRun par r s (days ++ [d])).1.carry
    c.unsat x = ⟨0, 0, 0⟩ ∧ c.toSupply x = 0 := by
  induction days generalizing s with
  | nil =>
    have hg := nbLat_good hcorr hs hd.1
    obtain ⟨h1, h2⟩ := nb_year_end hr hg hs.1 hdate x hx
    exact ⟨h1 hdl, h2⟩
  | cons e es ih => exact ih _ (nbDay_ok hr hcorr hsink hs hd.1) hd.2

/-- The reservoir fraction remembered from the last 1 January does not change from day to day. -/
theorem nbRun_land (days : List NbWgDay) (s : NbSim) (x : Cell) :
    ((nbSimRun par r s days).1.land x).init = (s.land x).init ∧
    ((nbSimRun par r s days).1.land x).gloresPrev = (s.land x).gloresPrev := by
  induction days generalizing s with
  | nil => exact ⟨rfl, rfl⟩
  | cons d ds ih =>
    simp only [nbSimRun]
    rw [(ih _).1, (ih _).2]
    simp only [NbWgDay.next]
    cases ((d.lat par s).routed r s.carry).ledger.out x with
    | none => exact ⟨rfl, rfl⟩
    | some o => exact ⟨rfl, rfl⟩

end sim

section span
variable (G : Grid) (r : NbRun)

/-- The start of the year `y`, in which the cells are described by `lat1`, after a year with reservoir fractions `g` and
cells described by `lat0`: as `YearOk`, and global lakes and reservoirs remain, with units as in `NbRun.Good`; in a cell in
which a lake or reservoir starts, no demand is left from the year before that its new ledger could not have (on 1 January
none is). -/
structure NbYearOk (g : Cell → ℝ) (lat0 : Cell → CellIn) (y : NbYear) (lat1 : Cell → CellIn) (s : NbSim) : Prop where
  cells : ∀ x ∈ r.order.map Prod.fst, YearFits (G.frac x) (g x) (y.glores x) (s.land x) ∧ SameOpen (lat0 x) (lat1 x) ∧
    GoodCell (G.par y.glores x) (lat1 x) ∧ ((nbYearStart G y s).carry.state x).Ok (lat1 x)
  good : r.Good lat1
  lakes : ∀ x, (lat0 x).hasLake → (lat1 x).hasLake
  demand : ∀ x, (lat1 x).hasLake → ¬ (lat0 x).hasLake → 0 ≤ (s.carry.unsat x).prev ∧
    (r.delayed = true → 0 ≤ (s.carry.unsat x).acc ∧ (s.carry.unsat x).acc ≤ (s.carry.unsat x).prev)

/-- Sensible days and years, one after the other, with at least one day in every year. -/
def NbSpanOk : (Cell → ℝ) → (Cell → CellIn) → List NbWgDay → NbSim → List (NbYear × (Cell → CellIn)) → Prop
  | g, lat0, days, s, [] => days ≠ [] ∧ NbWgDaysOk (G.par g) lat0 r s days
  | g, lat0, days, s, y :: ys => days ≠ [] ∧ NbWgDaysOk (G.par g) lat0 r s days ∧
      (let n := (nbSimRun (G.par g) r s days).1
       NbYearOk G r g lat0 y.1 y.2 n ∧ NbSpanOk y.1.glores y.2 y.1.days (nbYearStart G y.1 n) ys)

/-- The reservoir fractions of the last 1 January are remembered. -/
def NbStarted (g : Cell → ℝ) (s : NbSim) : Prop :=
  ∀ x ∈ r.order.map Prod.fst, (s.land x).init = false ∧ (s.land x).gloresPrev = g x

/-- What the starts of the years add to the water of a cell (km³). -/
noncomputable def nbSpanGap : (Cell → ℝ) → List NbWgDay → NbSim → List NbYear → Cell → ℝ
  | _, _, _, [], _ => 0
  | g, days, s, y :: ys, x =>
    let n := (nbSimRun (G.par g) r s days).1
    yearGap (G.frac x) (y.glores x) (G.area x) ((nbYearStart G y n).carry.state x).res (n.full x)
      + nbSpanGap y.glores y.days (nbYearStart G y n) ys x

/-- The residues that may be flushed in a cell (km³). -/
noncomputable def nbSpanTol : (Cell → ℝ) → (Cell → CellIn) → List NbWgDay → List (NbYear × (Cell → CellIn)) → Cell → ℝ
  | g, lat0, days, [], x => flushTol (G.par g x) (lat0 x) * days.length
  | g, lat0, days, y :: ys, x =>
    flushTol (G.par g x) (lat0 x) * days.length + nbSpanTol y.1.glores y.2 y.1.days ys x

/-- The records of a cell over all years. -/
noncomputable def nbSpanSeries (g : Cell → ℝ) (days : List NbWgDay) (s : NbSim) (years : List NbYear) (x : Cell) :
    List DayRec :=
  (nbSpan G r g days s years).2.filterMap (· x)

/-- `P` holds of a cell in all years. -/
def NbAllYears (P : FullPar → CellIn → Prop) (g : Cell → ℝ) (lat0 : Cell → CellIn) (years : List (NbYear × (Cell → CellIn)))
    (x : Cell) : Prop :=
  P (G.par g x) (lat0 x) ∧ ∀ y ∈ years, P (G.par y.1.glores x) (y.2 x)

theorem nbSpan_congr (g : Cell → ℝ) (days : List NbWgDay) (s s' : NbSim) (years : List NbYear)
    (h : nbSimRun (G.par g) r s days = nbSimRun (G.par g) r s' days) :
    nbSpan G r g days s years = nbSpan G r g days s' years ∧
    nbSpanGap G r g days s years = nbSpanGap G r g days s' years := by
  cases years with
  | nil => exact ⟨h, rfl⟩
  | cons y ys =>
    constructor
    · simp only [nbSpan, h]
    · funext x; simp only [nbSpanGap, h]

theorem nbSpanOk_eff (g : Cell → ℝ) (lat0 : Cell → CellIn) (hr : r.Good lat0)
    (hcorr : ∀ x ∈ r.order.map Prod.fst, 0 < (lat0 x).corr) (days : List NbWgDay) (s : NbSim)
    (years : List (NbYear × (Cell → CellIn))) (hs : (nbEff r s).Ok (G.par g) lat0 r)
    (ho : NbSpanOk G r g lat0 days s years) : NbSpanOk G r g lat0 days (nbEff r s) years := by
  cases years with
  | nil => exact ⟨ho.1, nbDaysOk_eff _ lat0 r hr hcorr days s hs ho.2⟩
  | cons y ys =>
    obtain ⟨h1, h2, h3⟩ := ho
    refine ⟨h1, nbDaysOk_eff _ lat0 r hr hcorr days s hs h2, ?_⟩
    rw [nbSimRun_eff _ lat0 r hr hcorr days h1 s hs h2]
    exact h3

theorem nbYearStart_ok (g : Cell → ℝ) (lat0 lat1 : Cell → CellIn) (y : NbYear) (s : NbSim)
    (hs : s.Ok (G.par g) lat0 r) (hst : NbStarted r g s) (hy : NbYearOk G r g lat0 y lat1 s) :
    (nbEff r (nbYearStart G y s)).Ok (G.par y.glores) lat1 r ∧ NbStarted r y.glores (nbEff r (nbYearStart G y s)) := by
  have hc : ∀ x ∈ r.order.map Prod.fst, YearCellOk (G.frac x) (g x) (y.glores x) (s.full x).land := by
    intro x hx
    obtain ⟨h1, -⟩ := hy.cells x hx
    exact ⟨(hst x hx).1, (hst x hx).2, h1.nonneg, h1.mono, h1.fits, h1.land, h1.released⟩
  constructor
  · refine ⟨?_, fun x hx => ?_⟩
    · have hg := hs.1
      exact
        { state := fun x hx => (hy.cells x hx).2.2.2
          lake := fun x hx => by
            by_cases h : (lat0 x).hasLake
            · exact hg.lake x h
            · exact hy.demand x hx h
          waits := hg.waits
          rip := fun x hx => hg.rip x fun L hL hk => hx L hL ⟨hy.lakes L hk.1, hk.2⟩
          sent := hg.sent
          real := hg.real
          self := hg.self
          pend := hg.pend }
    · obtain ⟨-, h2, h3, h4⟩ := hy.cells x hx
      rw [nbEff_full r _ hx]
      exact year_fullOk (hs.2 x hx) (hc x hx) h2 h3 ((nbYearStart G y s).carry.state x).res h4
  · intro x hx
    obtain ⟨-, h2, h3, -⟩ := hy.cells x hx
    have b := year_cur_bounds (hs.2 x hx) (hc x hx) h2 h3
    obtain ⟨-, -, -, -, k5, k6, -⟩ := yearLand_cur (hc x hx) b.1
    have e : (nbEff r (nbYearStart G y s)).land x = (eff ((nbYearStart G y s).full x)).land := by
      have := nbEff_full r (nbYearStart G y s) hx
      exact congrArg FullState.land this
    rw [e]
    exact ⟨k5, k6⟩

/-- C71 for a cell, with neighbours, in general: see `C71_neighbours_cell`. -/
theorem nbSpan_error (years : List (NbYear × (Cell → CellIn))) (g : Cell → ℝ) (lat0 : Cell → CellIn) (hr : r.Good lat0)
    (hcorr : ∀ x ∈ r.order.map Prod.fst, 0 < (lat0 x).corr)
    (hsink : ∀ x ∈ r.order.map Prod.fst, (lat0 x).sink = true → (lat0 x).corr = 1)
    (days : List NbWgDay) (s : NbSim) (hs : s.Ok (G.par g) lat0 r) (hst : NbStarted r g s)
    (ho : NbSpanOk G r g lat0 days s years) (x : Cell) (hx : x ∈ r.order.map Prod.fst) :
    let recs := nbSpanSeries G r g days s (years.map Prod.fst) x
    let e := (recs.map (dayNet (lat0 x).corr)).sum
        - ((recs.getLast?.map (·.tws)).getD (twsBefore (G.par g x) (s.full x)) - twsBefore (G.par g x) (s.full x))
        + nbSpanGap G r g days s (years.map Prod.fst) x
    ((NbAllYears G LandStays g lat0 years x → -nbSpanTol G g lat0 days years x ≤ e) ∧
      (NbAllYears G Closing g lat0 years x → e ≤ nbSpanTol G g lat0 days years x)) ∧
    recs.length = days.length + (years.map fun y => y.1.days.length).sum := by
  induction years generalizing g lat0 days s with
  | nil =>
    obtain ⟨c1, c2⟩ := nbSeries_errors (G.par g) lat0 r hr hcorr hsink days s hs ho.2 x hx
    have c3 := errors_sum c1
    rw [c2] at c3
    simp only [List.map_nil, nbSpanGap, nbSpanTol, add_zero, List.sum_nil]
    exact ⟨⟨fun hl => c3.1 hl.1, fun hl => c3.2 hl.1⟩, c2⟩
  | cons y ys ih =>
    obtain ⟨h1, h2, h3, h4⟩ := ho
    set n := (nbSimRun (G.par g) r s days).1 with hn
    obtain ⟨c1, c2⟩ := nbSeries_errors (G.par g) lat0 r hr hcorr hsink days s hs h2 x hx
    have c3 := errors_sum c1
    rw [c2] at c3
    obtain ⟨e1, e2⟩ := nbRun_end (G.par g) lat0 r hr hcorr hsink days h1 s hs h2 x hx (twsBefore (G.par g x) (s.full x))
    rw [e1] at c3
    have hrok : n.Ok (G.par g) lat0 r := C54_neighbours (G.par g) lat0 r hr hcorr hsink days s hs h2
    have hrst : NbStarted r g n := by
      intro z hz
      obtain ⟨q1, q2⟩ := nbRun_land (G.par g) r days s z
      exact ⟨q1.trans (hst z hz).1, q2.trans (hst z hz).2⟩
    obtain ⟨hok', hst'⟩ := nbYearStart_ok G r g lat0 y.2 y.1 n hrok hrst h3
    have hcorr' : ∀ z ∈ r.order.map Prod.fst, 0 < (y.2 z).corr := fun z hz => by
      rw [← (h3.cells z hz).2.1.corr]; exact hcorr z hz
    have hsink' : ∀ z ∈ r.order.map Prod.fst, (y.2 z).sink = true → (y.2 z).corr = 1 := fun z hz => by
      rw [← (h3.cells z hz).2.1.corr, ← (h3.cells z hz).2.1.sink]; exact hsink z hz
    obtain ⟨i1, i2⟩ := ih y.1.glores y.2 h3.good hcorr' hsink' y.1.days (nbEff r (nbYearStart G y.1 n)) hok' hst'
      (nbSpanOk_eff G r y.1.glores y.2 h3.good hcorr' y.1.days _ ys hok' h4)
    have hne : y.1.days ≠ [] ∧ NbWgDaysOk (G.par y.1.glores) y.2 r (nbYearStart G y.1 n) y.1.days := by
      cases ys with
      | nil => exact h4
      | cons z zs => exact ⟨h4.1, h4.2.1⟩
    have hrun := nbSimRun_eff (G.par y.1.glores) y.2 r h3.good hcorr' y.1.days hne.1 _ hok' hne.2
    obtain ⟨j1, j2⟩ := nbSpan_congr G r y.1.glores y.1.days _ _ (ys.map Prod.fst) hrun
    have hser' : nbSpanSeries G r y.1.glores y.1.days (nbEff r (nbYearStart G y.1 n)) (ys.map Prod.fst) x
        = nbSpanSeries G r y.1.glores y.1.days (nbYearStart G y.1 n) (ys.map Prod.fst) x := by
      unfold nbSpanSeries; rw [j1]
    rw [j2] at i1
    rw [hser'] at i1 i2
    have hser : nbSpanSeries G r g days s ((y :: ys).map Prod.fst) x
        = nbSeries (G.par g) r s days x
          ++ nbSpanSeries G r y.1.glores y.1.days (nbYearStart G y.1 n) (ys.map Prod.fst) x := by
      simp only [nbSpanSeries, nbSeries, List.map_cons, nbSpan, List.filterMap_append]
      rfl
    have hc : YearCellOk (G.frac x) (g x) (y.1.glores x) (n.full x).land := by
      obtain ⟨q1, -⟩ := h3.cells x hx
      exact ⟨(hrst x hx).1, (hrst x hx).2, q1.nonneg, q1.mono, q1.fits, q1.land, q1.released⟩
    have htws := year_tws (hrok.2 x hx) hc (h3.cells x hx).2.1 (h3.cells x hx).2.2.1
      ((nbYearStart G y.1 n).carry.state x).res e2
    have hstate : (nbEff r (nbYearStart G y.1 n)).full x
        = eff (yearState (G.frac x) (y.1.glores x) ((nbYearStart G y.1 n).carry.state x).res (n.full x)) := by
      rw [nbEff_full r _ hx]; rfl
    have htws' : twsBefore (G.par y.1.glores x) ((nbEff r (nbYearStart G y.1 n)).full x)
        = twsBefore (G.par g x) (n.full x)
          + yearGap (G.frac x) (y.1.glores x) (G.area x) ((nbYearStart G y.1 n).carry.state x).res (n.full x) := by
      rw [hstate]; exact htws
    rw [htws', ← (h3.cells x hx).2.1.corr] at i1
    have hlast : ∀ z z' : ℝ, ((nbSpanSeries G r g days s ((y :: ys).map Prod.fst) x).getLast?.map (·.tws)).getD z
        = ((nbSpanSeries G r y.1.glores y.1.days (nbYearStart G y.1 n) (ys.map Prod.fst) x).getLast?.map (·.tws)).getD z' := by
      intro z z'
      rw [hser, List.getLast?_append]
      cases hl : (nbSpanSeries G r y.1.glores y.1.days (nbYearStart G y.1 n) (ys.map Prod.fst) x).getLast? with
      | none =>
        rw [List.getLast?_eq_none_iff] at hl
        rw [hl] at i2
        simp only [List.length_nil] at i2
        have := List.length_pos_of_ne_nil hne.1
        omega
      | some l => rfl
    constructor
    · rw [hlast _ (twsBefore (G.par g x) (n.full x)
          + yearGap (G.frac x) (y.1.glores x) (G.area x) ((nbYearStart G y.1 n).carry.state x).res (n.full x)), hser,
        List.map_append, List.sum_append]
      simp only [List.map_cons, nbSpanGap, nbSpanTol, ← hn]
      have hall : ∀ P : FullPar → CellIn → Prop, NbAllYears G P g lat0 (y :: ys) x →
          P (G.par g x) (lat0 x) ∧ NbAllYears G P y.1.glores y.2 ys x := fun P hP =>
        ⟨hP.1, hP.2 y (by simp), fun z hz => hP.2 z (by simp [hz])⟩
      constructor
      · intro hl
        obtain ⟨l1, l2⟩ := hall _ hl
        linarith [i1.1 l2, c3.1 l1]
      · intro hl
        obtain ⟨l1, l2⟩ := hall _ hl
        linarith [i1.2 l2, c3.2 l1]
    · rw [hser, List.length_append, c2, i2]
      simp only [List.map_cons, List.sum_cons]

/-- C71 for a cell, with water supply from neighbouring cells: over any number of years, whoever asks whom for water, the
recorded fluxes and the change of the recorded storage agree up to flushed residues and what the starts of the years added. -/
theorem C71_neighbours_cell (years : List (NbYear × (Cell → CellIn))) (g : Cell → ℝ) (lat0 : Cell → CellIn) (hr : r.Good lat0)
    (hcorr : ∀ x ∈ r.order.map Prod.fst, 0 < (lat0 x).corr)
    (hsink : ∀ x ∈ r.order.map Prod.fst, (lat0 x).sink = true → (lat0 x).corr = 1)
    (days : List NbWgDay) (s : NbSim) (hs : s.Ok (G.par g) lat0 r) (hst : NbStarted r g s)
    (ho : NbSpanOk G r g lat0 days s years) (x : Cell) (hx : x ∈ r.order.map Prod.fst)
    (hcl : NbAllYears G Closing g lat0 years x) :
    let recs := nbSpanSeries G r g days s (years.map Prod.fst) x
    |(recs.map (dayNet (lat0 x).corr)).sum
        - ((recs.getLast?.map (·.tws)).getD (twsBefore (G.par g x) (s.full x)) - twsBefore (G.par g x) (s.full x))
        + nbSpanGap G r g days s (years.map Prod.fst) x| ≤ nbSpanTol G g lat0 days years x ∧
    recs.length = days.length + (years.map fun y => y.1.days.length).sum := by
  obtain ⟨⟨h1, h2⟩, h3⟩ := nbSpan_error G r years g lat0 hr hcorr hsink days s hs hst ho x hx
  exact ⟨abs_le.mpr ⟨h1 ⟨hcl.1.stays, fun y hy => (hcl.2 y hy).stays⟩, h2 hcl⟩, h3⟩

/-- C71 for a cell, with neighbours and any areal correction factor, whose land is never flooded altogether: no water is
created but by the starts of the years. -/
theorem C71_neighbours_no_gain (years : List (NbYear × (Cell → CellIn))) (g : Cell → ℝ) (lat0 : Cell → CellIn)
    (hr : r.Good lat0) (hcorr : ∀ x ∈ r.order.map Prod.fst, 0 < (lat0 x).corr)
    (hsink : ∀ x ∈ r.order.map Prod.fst, (lat0 x).sink = true → (lat0 x).corr = 1)
    (days : List NbWgDay) (s : NbSim) (hs : s.Ok (G.par g) lat0 r) (hst : NbStarted r g s)
    (ho : NbSpanOk G r g lat0 days s years) (x : Cell) (hx : x ∈ r.order.map Prod.fst)
    (hl : NbAllYears G LandStays g lat0 years x) :
    let recs := nbSpanSeries G r g days s (years.map Prod.fst) x
    (recs.getLast?.map (·.tws)).getD (twsBefore (G.par g x) (s.full x)) - twsBefore (G.par g x) (s.full x)
      ≤ (recs.map (dayNet (lat0 x).corr)).sum + nbSpanGap G r g days s (years.map Prod.fst) x + nbSpanTol G g lat0 days years x := by
  have := (nbSpan_error G r years g lat0 hr hcorr hsink days s hs hst ho x hx).1.1 hl
  simp only at this ⊢
  linarith

/-- **C71.** With water supply from neighbouring cells, over any number of years in which reservoirs come into operation:
the long-term error that the balance tool computes is, up to the volume of flushed residues, minus what the starts of the
years added. -/
theorem C71_neighbours (years : List (NbYear × (Cell → CellIn))) (g : Cell → ℝ) (lat0 : Cell → CellIn) (hr : r.Good lat0)
    (hcorr : ∀ x ∈ r.order.map Prod.fst, 0 < (lat0 x).corr)
    (hsink : ∀ x ∈ r.order.map Prod.fst, (lat0 x).sink = true → (lat0 x).corr = 1)
    (days : List NbWgDay) (s : NbSim) (hs : s.Ok (G.par g) lat0 r) (hst : NbStarted r g s)
    (ho : NbSpanOk G r g lat0 days s years) (cells : List Cell)
    (hcells : ∀ x ∈ cells, x ∈ r.order.map Prod.fst ∧ NbAllYears G Closing g lat0 years x)
    (n : ℕ) (recs : Cell → List (List DayRec))
    (hrec : ∀ x ∈ cells, (recs x).flatten = nbSpanSeries G r g days s (years.map Prod.fst) x ∧ (recs x).length = n) :
    |balanceError cells (fun x => (lat0 x).corr) (fun x => twsBefore (G.par g x) (s.full x)) n recs
      + (cells.map (nbSpanGap G r g days s (years.map Prod.fst))).sum / n|
      ≤ (cells.map (nbSpanTol G g lat0 days years)).sum / n := by
  rw [balanceError_eq cells _ _ n recs fun x hx => (hrec x hx).2, ← add_div, abs_div, Nat.abs_cast]
  apply div_le_div_of_nonneg_right _ (Nat.cast_nonneg n)
  rw [← List.sum_map_add]
  have hk := abs_sum_le cells (fun x => ((recs x).flatten.map (dayNet (lat0 x).corr)).sum
      - (lastTws (twsBefore (G.par g x) (s.full x)) (recs x) - twsBefore (G.par g x) (s.full x))
      + nbSpanGap G r g days s (years.map Prod.fst) x) (fun _ => 0) (nbSpanTol G g lat0 days years) fun x hx => by
    have := (C71_neighbours_cell G r years g lat0 hr hcorr hsink days s hs hst ho x (hcells x hx).1 (hcells x hx).2).1
    unfold lastTws
    rw [(hrec x hx).1, sub_zero]
    exact this
  simpa using hk

open Classical in
/-- C71, the start of a year on the whole grid, with neighbours: the water added is the sum of the rescaling errors, minus the
water of the lost land of units that have no reservoir to receive it. -/
theorem C71_neighbours_year_total (hn : G.cells.Nodup) (y : NbYear) (s : NbSim) :
    (G.cells.map fun x => yearGap (G.frac x) (y.glores x) (G.area x) ((nbYearStart G y s).carry.state x).res (s.full x)).sum
      = (G.cells.map fun x => if (s.land x).gloresPrev < y.glores x then
          (s.vert x).water * 1e-6 * G.area x * (yearLand (G.frac x) (y.glores x) (s.land x)).1.cur * ((s.land x).ratio - 1)
          else 0).sum
        - (G.cells.map fun x => if Served G.cells G.assign y.resArea x then 0
            else yearLost (G.area x) (G.frac x) (y.glores x) (s.full x)).sum :=
  C71_year_total (δ := Unit) G hn ⟨y.glores, y.resArea, []⟩ ⟨(), s.full⟩

/-- At the start of every year, the water of lost land has a reservoir to go to, and in the cells in which a reservoir
grows the land fraction did not change overnight (or there is no water on land). -/
def NbSpanExact : (Cell → ℝ) → List NbWgDay → NbSim → List NbYear → Prop
  | _, _, _, [] => True
  | g, days, s, y :: ys =>
    let n := (nbSimRun (G.par g) r s days).1
    (∀ x ∈ G.cells, yearLost (G.area x) (G.frac x) (y.glores x) (n.full x) ≠ 0 → Served G.cells G.assign y.resArea x) ∧
    (∀ x ∈ G.cells, (n.land x).gloresPrev < y.glores x → (n.land x).ratio = 1 ∨ (n.vert x).water = 0) ∧
    NbSpanExact y.glores y.days (nbYearStart G y n) ys

/-- C71, with neighbours: when the land fraction of the cells in which a reservoir grows did not change overnight, and the
water of the lost land has a reservoir to go to, the water on the grid is kept at the start of every year, whatever waits at
neighbours. -/
theorem C71_neighbours_exact (hn : G.cells.Nodup) (g : Cell → ℝ) (days : List NbWgDay) (s : NbSim) (years : List NbYear)
    (he : NbSpanExact G r g days s years) : (G.cells.map (nbSpanGap G r g days s years)).sum = 0 := by
  classical
  induction years generalizing g days s with
  | nil =>
    apply List.sum_eq_zero
    intro v hv
    obtain ⟨x, -, rfl⟩ := List.mem_map.mp hv
    rfl
  | cons y ys ih =>
    obtain ⟨h1, h2, h3⟩ := he
    simp only [nbSpanGap]
    rw [List.sum_map_add, C71_neighbours_year_total G hn, ih _ _ _ h3]
    have z1 : (G.cells.map fun x => if ((nbSimRun (G.par g) r s days).1.land x).gloresPrev < y.glores x then
          ((nbSimRun (G.par g) r s days).1.vert x).water * 1e-6 * G.area x
            * (yearLand (G.frac x) (y.glores x) ((nbSimRun (G.par g) r s days).1.land x)).1.cur
            * (((nbSimRun (G.par g) r s days).1.land x).ratio - 1) else 0).sum = 0 := by
      apply List.sum_eq_zero
      intro v hv
      obtain ⟨x, hx, rfl⟩ := List.mem_map.mp hv
      split_ifs with hl
      · rcases h2 x hx hl with q | q <;> rw [q] <;> ring
      · rfl
    have z2 : (G.cells.map fun x => if Served G.cells G.assign y.resArea x then 0
            else yearLost (G.area x) (G.frac x) (y.glores x) ((nbSimRun (G.par g) r s days).1.full x)).sum = 0 := by
      apply List.sum_eq_zero
      intro v hv
      obtain ⟨x, hx, rfl⟩ := List.mem_map.mp hv
      split_ifs with hsv
      · rfl
      · by_contra hne
        exact hsv (h1 x hx hne)
    rw [z1, z2]
    ring

/-- **C71.** Then the error of the tool over the whole grid, with water supply from neighbouring cells, is at most the volume
of the flushed residues. -/
theorem C71_neighbours_closes (years : List (NbYear × (Cell → CellIn))) (g : Cell → ℝ) (lat0 : Cell → CellIn)
    (hr : r.Good lat0) (hcorr : ∀ x ∈ r.order.map Prod.fst, 0 < (lat0 x).corr)
    (hsink : ∀ x ∈ r.order.map Prod.fst, (lat0 x).sink = true → (lat0 x).corr = 1)
    (days : List NbWgDay) (s : NbSim) (hs : s.Ok (G.par g) lat0 r) (hst : NbStarted r g s)
    (ho : NbSpanOk G r g lat0 days s years) (hn : G.cells.Nodup)
    (hcells : ∀ x ∈ G.cells, x ∈ r.order.map Prod.fst ∧ NbAllYears G Closing g lat0 years x)
    (he : NbSpanExact G r g days s (years.map Prod.fst)) (n : ℕ) (recs : Cell → List (List DayRec))
    (hrec : ∀ x ∈ G.cells, (recs x).flatten = nbSpanSeries G r g days s (years.map Prod.fst) x ∧ (recs x).length = n) :
    |balanceError G.cells (fun x => (lat0 x).corr) (fun x => twsBefore (G.par g x) (s.full x)) n recs|
      ≤ (G.cells.map (nbSpanTol G g lat0 days years)).sum / n := by
  have hk := C71_neighbours G r years g lat0 hr hcorr hsink days s hs hst ho G.cells hcells n recs hrec
  rwa [C71_neighbours_exact G r hn g days s _ he, zero_div, add_zero] at hk

end span

/-! ### The hypotheses are met -/

/-- The two cells of `askRun`, each other's neighbour and on the shore of one reservoir, and a third one. -/
def farRun : NbRun := { askRun with order := dryOrder ++ [((2, 2), (0, 0))] }

theorem farRun_good : farRun.Good dryBase where
  sound := by
    constructor
    · simp [farRun, dryOrder]
    · simp [farRun, dryOrder, drains]
    · simp [farRun, dryOrder, drains]
  units :=
    { here := by intro x hx; rw [dryBase_lake] at hx; subst hx; simp [farRun, dryOrder]
      pos := dryUnits_ok.pos
      unique := dryUnits_ok.unique }
  nbs := askRun_good.nbs

theorem farCarry_good : waitCarry.Good dryBase farRun where
  state := by
    intro x _
    constructor <;> (try simp only [waitCarry, dryBase]) <;> (try split_ifs) <;> simp [dryRes, exCell]
  lake := waitCarry_good.lake
  waits := by intro x _ _; simp only [waitCarry]; split_ifs <;> simp
  rip := by
    intro x hx
    by_cases h : x = (1, 1)
    · refine absurd ?_ (hx (1, 2) (by simp [farRun, dryOrder]))
      subst h
      exact ⟨by rw [dryBase_lake], by simp [farRun, askRun, dryUnit], by decide⟩
    · simp [waitCarry, h]
  sent := waitCarry_good.sent
  real := by
    intro x _ h
    by_cases hx : x = (1, 2)
    · subst hx; simp [waitCarry, realCell, farRun, dryOrder]
    · simp [waitCarry, hx] at h
  self := by
    intro x _ h
    by_cases hx : x = (1, 2)
    · subst hx; simp [waitCarry]
    · simp [waitCarry, hx, realCell] at h
  pend := by
    intro s hs
    simp only [farRun, dryOrder, List.map_cons, List.map_nil, List.cons_append, List.nil_append, List.mem_cons,
      List.not_mem_nil, or_false] at hs
    rcases hs with rfl | rfl | rfl
    · have : ((farRun.order.map Prod.fst).filter fun x => waitCarry.nbMap x = (1, 1) ∧
          (farRun.order.map Prod.fst).idxOf (1, 1) < (farRun.order.map Prod.fst).idxOf x) = [(1, 2)] := by
        simp only [waitCarry, farRun, dryOrder]; decide
      rw [this]; simp [waitCarry]
    · simp [waitCarry, farRun, dryOrder, List.filter, List.idxOf_cons]
    · simp [waitCarry, farRun, dryOrder, List.filter, List.idxOf_cons]

theorem farSim_ok : waitSim.Ok (fun _ => exFull) dryBase farRun := by
  refine ⟨farCarry_good, fun x hx => ?_⟩
  have hok := farCarry_good.state x hx
  refine ⟨sampleVertState_ok, hok, ?_, ?_, ?_, ?_, ?_, ?_⟩
  · obtain ⟨a, ha⟩ := dryBase_cases x
    rw [ha]
    norm_num [waitSim, NbSim.full, openFrac, dryRes, exCell]
  · norm_num [waitSim, NbSim.full, exFull]
  · norm_num [waitSim, NbSim.full]
  · norm_num [waitSim, NbSim.full, exFull]
  · norm_num [waitSim, NbSim.full]
  · intro _; left; norm_num [waitSim, NbSim.full]

theorem far_cons : ∀ x, (dryBase x).hasLake → waitDay.pot x = min (waitDay.unagg x) 0 + (max (waitDay.unagg x) 0 +
    (((farRun.order.map Prod.fst).filter fun y => farRun.unit x = farRun.unit y ∧ x ≠ y).map
      fun y => max (waitDay.unagg y) 0).sum) := by
  intro x hx
  rw [dryBase_lake] at hx
  subst hx
  simp [waitDay, farRun, askRun, dryOrder, dryUnit, List.filter]

theorem farDay_ok : waitDay.Ok (fun _ => exFull) dryBase farRun waitSim where
  same := waitDay_ok.same
  cells := by
    intro x _
    refine ⟨dryBase_good x, ⟨sampleVertForcing_ok.temp, by norm_num [waitDay, exWeather], sampleVertForcing_ok.petMax⟩, ?_⟩
    intro hf
    exfalso
    change 0 < (dryBase x).gloWet.frac at hf
    obtain ⟨a, ha⟩ := dryBase_cases x
    rw [ha] at hf
    norm_num [dryRes] at hf
  use := waitDay_ok.use
  sign := waitDay_ok.sign
  cons := far_cons

/-- The cells from the second year on, with reservoirs of capacity `cap`. -/
noncomputable def askBase (cap : Cell → ℝ) (x : Cell) : CellIn := { dryBase x with han := { (dryBase x).han with cap := cap x } }

/-- A second year with one dark day, in which a new reservoir takes 3 % of the second cell. -/
noncomputable def askYear (cap : Cell → ℝ) : NbYear :=
  { glores := fun x => if x = (1, 2) then 3 else 0
    resArea := fun _ => 50
    days := [{ waitDay with weather := fun _ => darkWeather
                            lateral := askBase cap }] }

theorem askBase_lake (cap : Cell → ℝ) (x : Cell) : (askBase cap x).hasLake ↔ x = (1, 2) := dryBase_lake x

theorem askSpan_start : waitSim.Ok (exGrid.par fun _ => 0) dryBase farRun ∧ NbStarted farRun (fun _ => 0) waitSim := by
  rw [exGrid_par]
  exact ⟨farSim_ok, fun _ _ => ⟨rfl, rfl⟩⟩

/-- The hypotheses of `C71_neighbours` are met by two years of the basin in which the two cells ask each other: the new
reservoir takes land from the second cell and has the capacity for the water it gets. -/
theorem askSpan_ok : ∃ cap : Cell → ℝ, NbSpanOk exGrid farRun (fun _ => 0) dryBase [waitDay] waitSim
    [(askYear cap, askBase cap)] := by
  have hcorr : ∀ x ∈ farRun.order.map Prod.fst, 0 < (dryBase x).corr := fun x _ => by rw [dryBase_corr]; norm_num
  have hsink : ∀ x ∈ farRun.order.map Prod.fst, (dryBase x).sink = true → (dryBase x).corr = 1 := fun x _ _ => dryBase_corr x
  have hd : NbWgDaysOk (exGrid.par fun _ => 0) dryBase farRun waitSim [waitDay] := by
    rw [exGrid_par]; exact ⟨farDay_ok, trivial⟩
  have hs := askSpan_start.1
  set r := (nbSimRun (exGrid.par fun _ => 0) farRun waitSim [waitDay]).1 with hr
  have hrok : r.Ok (exGrid.par fun _ => 0) dryBase farRun := nbDay_ok farRun_good hcorr hsink hs hd.1
  set res : Cell → ℝ := fun x => ((nbYearStart exGrid (askYear fun _ => 0) r).carry.state x).res with hres
  have hgl : ∀ x, (askYear fun x => |res x| + 1).glores x = 0 ∨ (askYear fun x => |res x| + 1).glores x = 3 := by
    intro x
    unfold askYear
    simp only
    split_ifs
    · exact .inr rfl
    · exact .inl rfl
  have hgood : ∀ x, GoodCell (exGrid.par (askYear fun x => |res x| + 1).glores x) (askBase (fun x => |res x| + 1) x) := by
    intro x
    have hg := hgl x
    have hlw : resLandWater (exGrid.frac x) ((askYear fun x => |res x| + 1).glores x) = 0.9 ∨
        resLandWater (exGrid.frac x) ((askYear fun x => |res x| + 1).glores x) = 0.87 := by
      rcases hg with h | h <;> rw [h] <;> unfold resLandWater clampNeg exGrid <;> norm_num
    have hx := dryBase_good x
    exact
      { vert := sampleVert_ok
        soil := by norm_num [Grid.par, exGrid, sampleVert]
        area := by norm_num [Grid.par, exGrid]
        lat := { hx.lat with cap := fun _ => by change 0 < |res x| + 1; positivity }
        locLake := hx.locLake
        locWet := hx.locWet
        gloWet := hx.gloWet
        fit := by
          change (dryBase x).locLake.frac + (dryBase x).locWet.frac + (dryBase x).gloWet.frac ≤ resLandWater _ _
          obtain ⟨a, ha⟩ := dryBase_cases x
          rw [ha]
          rcases hlw with h | h <;> rw [h] <;> norm_num [dryRes, exCell] }
  refine ⟨fun x => |res x| + 1, by simp, hd, ?_, by simp [askYear], ?_, trivial⟩
  · refine ⟨?_, ⟨farRun_good.sound, ⟨farRun_good.units.here, farRun_good.units.pos, farRun_good.units.unique⟩, farRun_good.nbs⟩, fun _ h => h, fun x h1 h2 => absurd h1 h2⟩
    intro x hx
    have hf := hrok.2 x hx
    rw [exGrid_par] at hf
    obtain ⟨a, ha⟩ := dryBase_cases x
    have hopen := hf.swb
    have hcov := hf.cover
    have hlw : exFull.landWater = 0.9 := rfl
    have hprev : ((nbSimRun (exGrid.par fun _ => 0) farRun waitSim [waitDay]).1.full x).land.prev = 0.9 := by
      obtain ⟨rec, -, c, w, up, dem, keep, -, -, -, -, -, -, hn, -⟩ := nbDay_cell farRun_good hcorr hs hd.1 x hx
      simp only [nbSimRun]
      rw [hn]
      rfl
    have hcur : 0.8 ≤ (r.full x).land.cur ∧ (r.full x).land.cur ≤ 0.9 := by
      obtain ⟨o1, o2⟩ := openFrac_bounds _ (dryBase_physical x) (r.full x).lat
      have o3 : (dryBase x).locLake.frac + (dryBase x).locWet.frac + (dryBase x).gloWet.frac ≤ 0.02 := by
        rw [ha]; norm_num [dryRes, exCell]
      constructor <;> linarith
    have hg := hgl x
    have hpos : 0 < (dryBase x).resArea → (0 : ℝ) ≤ ((nbYearStart exGrid (askYear fun _ => 0) r).carry.state x).res := by
      intro h0
      refine le_trans (hf.lat.res h0).1 (C70_mono exGrid.cells exGrid.assign _ _ (fun z => (r.carry.state z).res) ?_ x)
      intro z hz
      have hz' : z ∈ farRun.order.map Prod.fst := by
        have : z ∈ exGrid.cells := hz
        simp only [exGrid, List.mem_cons, List.not_mem_nil, or_false] at this
        rcases this with rfl | rfl | rfl <;> decide
      exact yearLost_nonneg _ _ _ _ _ (hrok.2 z hz').vert
        (nbRun_end _ _ _ farRun_good hcorr hsink [waitDay] (by simp) waitSim hs hd z hz' 0).2
        (by norm_num [exGrid])
    refine ⟨⟨le_rfl, ?_, ?_, ?_, ?_⟩, ⟨rfl, rfl, rfl, rfl, rfl, rfl⟩, hgood x, ?_⟩
    · rcases hg with h | h
      · rw [h]
      · rw [h]; norm_num
    · rcases hg with h | h <;> rw [h] <;> norm_num [exGrid]
    · intro _
      change _ < (r.full x).land.cur
      rcases hg with h | h <;> rw [h] <;> linarith [hcur.1]
    · intro h0
      change (r.full x).land.cur - _ < (r.full x).land.prev
      rcases hg with h | h
      · rw [h] at h0; exact absurd h0 (lt_irrefl _)
      · rw [h, hprev]; linarith [hcur.2]
    · exact { hf.lat with
        res := fun h0 => ⟨hpos h0, by
          change res x ≤ |res x| + 1
          linarith [le_abs_self (res x)]⟩ }
  · exact
      { same := fun _ => ⟨⟨rfl, rfl, rfl, rfl, rfl, rfl, rfl⟩, rfl, rfl, rfl, rfl⟩
        cells := fun x hx => ⟨hgood x, darkWeather_ok _ rfl _, fun hf => by
          exfalso
          change 0 < (dryBase x).gloWet.frac at hf
          obtain ⟨a, ha⟩ := dryBase_cases x
          rw [ha] at hf
          norm_num [dryRes] at hf⟩
        use := (dryDay_good false).use
        sign := (dryDay_good false).sign
        cons := far_cons }

theorem ask_corr : ∀ x ∈ farRun.order.map Prod.fst, 0 < (dryBase x).corr := fun x _ => by rw [dryBase_corr]; norm_num

example : ∃ years : List (NbYear × (Cell → CellIn)), years ≠ [] ∧ ∀ (n : ℕ) (recs : Cell → List (List DayRec)),
    (∀ x ∈ exGrid.cells, (recs x).flatten = nbSpanSeries exGrid farRun (fun _ => 0) [waitDay] waitSim (years.map Prod.fst) x ∧
      (recs x).length = n) →
    |balanceError exGrid.cells (fun x => (dryBase x).corr) (fun x => twsBefore (exGrid.par (fun _ => 0) x) (waitSim.full x)) n recs
      + (exGrid.cells.map (nbSpanGap exGrid farRun (fun _ => 0) [waitDay] waitSim (years.map Prod.fst))).sum / n|
      ≤ (exGrid.cells.map (nbSpanTol exGrid (fun _ => 0) dryBase [waitDay] years)).sum / n := by
  obtain ⟨cap, h⟩ := askSpan_ok
  exact ⟨_, by simp, fun n recs hrec => C71_neighbours exGrid farRun _ _ dryBase farRun_good ask_corr
    (fun x _ _ => dryBase_corr x) _ _ askSpan_start.1 askSpan_start.2 h exGrid.cells
    (fun x hx => ⟨by
      simp only [exGrid, List.mem_cons, List.not_mem_nil, or_false] at hx
      rcases hx with rfl | rfl | rfl <;> decide, closing_one rfl _, fun _ _ => closing_one rfl _⟩) n recs hrec⟩

example := fun x hx => askSpan_ok.imp fun _ h => C71_neighbours_cell exGrid farRun _ _ dryBase farRun_good ask_corr
  (fun x _ _ => dryBase_corr x) _ _ askSpan_start.1 askSpan_start.2 h x hx
  ⟨closing_one rfl _, fun _ _ => closing_one rfl _⟩

example := fun x hx => askSpan_ok.imp fun _ h => C71_neighbours_no_gain exGrid farRun _ _ dryBase farRun_good ask_corr
  (fun x _ _ => dryBase_corr x) _ _ askSpan_start.1 askSpan_start.2 h x hx
  ⟨(closing_one rfl _).stays, fun _ _ => (closing_one rfl _).stays⟩

/-- The water of the lost land of the second cell goes to its new reservoir, and its land fraction has not changed. -/
theorem askSpan_exact (cap : Cell → ℝ) : NbSpanExact exGrid farRun (fun _ => 0) [waitDay] waitSim [askYear cap] := by
  have hsink : ∀ x ∈ farRun.order.map Prod.fst, (dryBase x).sink = true → (dryBase x).corr = 1 := fun x _ _ => dryBase_corr x
  have hd : NbWgDaysOk (exGrid.par fun _ => 0) dryBase farRun waitSim [waitDay] := by
    rw [exGrid_par]; exact ⟨farDay_ok, trivial⟩
  have hs := askSpan_start.1
  have hrok : (nbSimRun (exGrid.par fun _ => 0) farRun waitSim [waitDay]).1.Ok (exGrid.par fun _ => 0) dryBase farRun :=
    nbDay_ok farRun_good ask_corr hsink hs hd.1
  refine ⟨fun x hx hl => ?_, fun x hx _ => ?_, trivial⟩
  · by_cases hx2 : x = (1, 2)
    · subst hx2
      refine ⟨⟨(1, 1), by simp [exGrid], ?_⟩, ⟨(2, 2), by simp [exGrid], ?_⟩, (1, 2), by simp [exGrid], rfl,
        by norm_num [askYear]⟩
      · simp only [exGrid, if_true]
        exact WithTop.coe_lt_coe.mpr (by norm_num)
      · exact WithTop.coe_lt_top _
    · exfalso
      apply hl
      obtain ⟨q1, q2⟩ := nbRun_land (exGrid.par fun _ => 0) farRun [waitDay] waitSim x
      have q3 : (askYear cap).glores x = 0 := if_neg hx2
      have : (yearLand (exGrid.frac x) 0 ((nbSimRun (exGrid.par fun _ => 0) farRun waitSim [waitDay]).1.full x).land).2 = 0 := by
        unfold yearLand landAdapt landYear landFracYear NbSim.full
        rw [q1, q2]
        simp [waitSim]
      unfold yearLost
      rw [q3, this]
      ring
  · have hx' : x ∈ farRun.order.map Prod.fst := by
      simp only [exGrid, List.mem_cons, List.not_mem_nil, or_false] at hx
      rcases hx with rfl | rfl | rfl <;> decide
    have hf := hrok.2 x hx'
    rw [exGrid_par] at hf
    have h1 := hf.cover
    have h2 := hf.swb
    have h3 : openFrac (dryBase x) ((nbSimRun (fun _ => exFull) farRun waitSim [waitDay]).1.full x).lat = 0 := by
      obtain ⟨a, ha⟩ := dryBase_cases x
      rw [ha]
      norm_num [openFrac, dryRes, exCell]
    have h4 : exFull.landWater = 0.9 := rfl
    have hprev : ((nbSimRun (exGrid.par fun _ => 0) farRun waitSim [waitDay]).1.full x).land.prev = 0.9 := by
      obtain ⟨rec, -, c, w, up, dem, keep, -, -, -, -, -, -, hn, -⟩ := nbDay_cell farRun_good ask_corr hs hd.1 x hx'
      simp only [nbSimRun]
      rw [hn]
      rfl
    rw [exGrid_par] at *
    have hcur : ((nbSimRun (fun _ => exFull) farRun waitSim [waitDay]).1.full x).land.cur = 0.9 := by
      linarith
    rcases hf.ratio (by rw [hcur]; norm_num) with h | h
    · left
      rw [hcur, hprev] at h
      change ((nbSimRun (fun _ => exFull) farRun waitSim [waitDay]).1.full x).land.ratio = 1
      linarith
    · exact .inr h

theorem exGrid_nodup : exGrid.cells.Nodup := by simp [exGrid]

example (cap : Cell → ℝ) := C71_neighbours_exact exGrid farRun exGrid_nodup _ _ _ _ (askSpan_exact cap)

example : ∃ years : List (NbYear × (Cell → CellIn)), years ≠ [] ∧ ∀ (n : ℕ) (recs : Cell → List (List DayRec)),
    (∀ x ∈ exGrid.cells, (recs x).flatten = nbSpanSeries exGrid farRun (fun _ => 0) [waitDay] waitSim (years.map Prod.fst) x ∧
      (recs x).length = n) →
    |balanceError exGrid.cells (fun x => (dryBase x).corr) (fun x => twsBefore (exGrid.par (fun _ => 0) x) (waitSim.full x)) n recs|
      ≤ (exGrid.cells.map (nbSpanTol exGrid (fun _ => 0) dryBase [waitDay] years)).sum / n := by
  obtain ⟨cap, h⟩ := askSpan_ok
  refine ⟨_, by simp, fun n recs hrec => C71_neighbours_closes exGrid farRun _ _ dryBase farRun_good ask_corr
    (fun x _ _ => dryBase_corr x) _ _ askSpan_start.1 askSpan_start.2 h exGrid_nodup
    (fun x hx => ⟨?_, closing_one rfl _, fun _ _ => closing_one rfl _⟩) (askSpan_exact cap) n recs hrec⟩
  simp only [exGrid, List.mem_cons, List.not_mem_nil, or_false] at hx
  rcases hx with rfl | rfl | rfl <;> decide

example := C71_neighbours_new_year (fun _ => exFull) dryBase farRun farRun_good ask_corr (fun x _ _ => dryBase_corr x) rfl []
  { waitDay with month := 12, day := 31 } ⟨rfl, rfl⟩ waitSim farSim_ok
  ⟨⟨farDay_ok.same, farDay_ok.cells, farDay_ok.use, farDay_ok.sign, farDay_ok.cons⟩, trivial⟩

example := C71_neighbours_year_total exGrid exGrid_nodup (askYear fun _ => 1) waitSim

end WG
