import Verif.Model.CheckedYears
import Verif.Props.CheckedNb
import Verif.Props.NbYears

/-!
# C78 over years in which reservoirs start to operate
-/

namespace WG

section run
variable {δ : Type} (G : Grid) (order : List (Cell × Cell)) (I : δ → Prop) (par : Cell → FullPar) (lat0 : Cell → CellIn)

theorem simRunC_eff (h : Sound order) (hcorr : ∀ x ∈ order.map Prod.fst, 0 < (lat0 x).corr) (days : List (SimDay δ)) (s : Sim δ)
    (hs : (effSim order s).Ok par lat0 order I) (hd : SimDaysOk par lat0 order I s days) (hv : DivDays par order s days) :
    simRunC par order s days = some (simRun par order s days).1 := by
  cases days with
  | nil => rfl
  | cons d ds =>
    have e := simDay_eff order I par lat0 h hcorr d s hs hd.1
    have hde := dayOk_eff order I par lat0 d s hd.1
    have hok : (simDay par order d s).1.Ok par lat0 order I := by
      rw [← e]
      exact simDay_ok par lat0 order I h hcorr d _ hs hde
    have hc : ∀ x ∈ order.map Prod.fst, (simIn par d s x).Physical ∧ (s.state x).lat.Ok (simIn par d s x) ∧
        0 ≤ (simIn par d s x).corr := by
      intro x hx
      obtain ⟨g1, g2, g3, -⟩ := hde.cells x hx
      have hf := FullOk_same g2 (hs.2 x hx)
      have hp := fullIn_physical _ _ _ _ g1 hf g3
      rw [effSim_of_mem order s hx] at hp hf
      rw [fullIn_eff] at hp
      refine ⟨hp, ⟨hf.lat.locLake, hf.lat.locWet, hf.lat.gloLake, hf.lat.res, hf.lat.gloWet, hf.lat.river⟩, ?_⟩
      change 0 ≤ (d.lateral s.demand x).corr
      rw [← hd.1.cells x hx |>.2.1.corr]; exact (hcorr x hx).le
    have hday := simDayC_today par lat0 order I h d s hs.1 hc (fun x hx => by
      have hf := hs.2 x hx
      rw [effSim_of_mem order s hx] at hf
      exact ⟨hf.vert, hf.ratio0⟩) hd.1 hv.1
    have hrest := C78_simulation par lat0 order I h hcorr ds _ hok hd.2 hv.2
    unfold simRunC at hrest ⊢
    rw [List.foldlM_cons, hday]
    exact hrest

/-- The data of all days of all years are divisible in all cells. -/
def DivSpan : (Cell → ℝ) → List (SimDay δ) → Sim δ → List (ResYear δ) → Prop
  | g, days, s, [] => DivDays (G.par g) order s days
  | g, days, s, y :: ys => DivDays (G.par g) order s days ∧
      DivSpan y.glores y.days (yearStart G y (simRun (G.par g) order s days).1) ys

theorem started_eff (g : Cell → ℝ) (s : Sim δ) (hs : Started order g (effSim order s)) : Started order g s := by
  intro x hx
  have := hs x hx
  rw [effSim_of_mem order s hx] at this
  exact this

theorem spanC_ok (h : Sound order) (years : List (ResYear δ × (Cell → CellIn))) (g : Cell → ℝ) (lat0 : Cell → CellIn)
    (hcorr : ∀ x ∈ order.map Prod.fst, 0 < (lat0 x).corr) (days : List (SimDay δ)) (s : Sim δ)
    (hs : s.Ok (G.par g) lat0 order I ∨ (effSim order s).Ok (G.par g) lat0 order I) (hst : Started order g s)
    (ho : SpanOk G order I g lat0 days s years) (hv : DivSpan G order g days s (years.map Prod.fst)) :
    simSpanC G order g days s (years.map Prod.fst) = some (simSpan G order g days s (years.map Prod.fst)).1 := by
  have hrun : days ≠ [] → SimDaysOk (G.par g) lat0 order I s days → DivDays (G.par g) order s days →
      simRunC (G.par g) order s days = some (simRun (G.par g) order s days).1 ∧
      (simRun (G.par g) order s days).1.Ok (G.par g) lat0 order I := by
    intro hne hd hv
    rcases hs with hs | hs
    · exact ⟨C78_simulation _ lat0 order I h hcorr days s hs hd hv, C54_simulation_states _ lat0 order I h hcorr days s hs hd⟩
    · refine ⟨simRunC_eff order I _ lat0 h hcorr days s hs hd hv, ?_⟩
      rw [← simRun_eff order I _ lat0 h hcorr days hne s hs hd]
      exact C54_simulation_states _ lat0 order I h hcorr days _ hs (daysOk_eff order I _ lat0 h hcorr days s hs hd)
  induction years generalizing g lat0 days s with
  | nil => exact (hrun ho.1 ho.2 hv).1
  | cons y ys ih =>
    obtain ⟨h1, h2, h3, h4⟩ := ho
    obtain ⟨v1, v2⟩ := hv
    obtain ⟨r1, hrok⟩ := hrun h1 h2 v1
    simp only [List.map_cons, simSpanC, simSpan]
    rw [r1]
    have hrst : Started order g (simRun (G.par g) order s days).1 := by
      intro z hz
      obtain ⟨q1, q2⟩ := run_land order (G.par g) days s z
      exact ⟨q1.trans (hst z hz).1, q2.trans (hst z hz).2⟩
    obtain ⟨hok', hst'⟩ := yearStart_ok G order I g lat0 y.2 y.1 _ hrok hrst h3
    have hcorr' : ∀ z ∈ order.map Prod.fst, 0 < (y.2 z).corr := fun z hz => by
      rw [← (h3 z hz).2.1.corr]; exact hcorr z hz
    refine ih y.1.glores y.2 hcorr' y.1.days _ (.inr hok') (started_eff order _ _ hst') h4 v2 ?_
    intro hne hd hv
    refine ⟨simRunC_eff order I _ y.2 h hcorr' y.1.days _ hok' hd hv, ?_⟩
    rw [← simRun_eff order I _ y.2 h hcorr' y.1.days hne _ hok' hd]
    exact C54_simulation_states _ y.2 order I h hcorr' y.1.days _ hok' (daysOk_eff order I _ y.2 h hcorr' y.1.days _ hok' hd)

/-- **C78.** Over any number of years in which reservoirs start to operate, every division, every power and every root of the
water balances of every cell has a result on every day, and the results are those of the model used for C71. -/
theorem C78_years (h : Sound order) (years : List (ResYear δ × (Cell → CellIn))) (g : Cell → ℝ) (lat0 : Cell → CellIn)
    (hcorr : ∀ x ∈ order.map Prod.fst, 0 < (lat0 x).corr) (days : List (SimDay δ)) (s : Sim δ)
    (hs : s.Ok (G.par g) lat0 order I) (hst : Started order g s)
    (ho : SpanOk G order I g lat0 days s years) (hv : DivSpan G order g days s (years.map Prod.fst)) :
    simSpanC G order g days s (years.map Prod.fst) = some (simSpan G order g days s (years.map Prod.fst)).1 :=
  spanC_ok G order I h years g lat0 hcorr days s (.inl hs) hst ho hv

end run

section nb
variable (G : Grid) (par : Cell → FullPar) (lat0 : Cell → CellIn) (r : NbRun)

theorem nbSimRunC_eff (hr : r.Good lat0) (hcorr : ∀ x ∈ r.order.map Prod.fst, 0 < (lat0 x).corr)
    (hsink : ∀ x ∈ r.order.map Prod.fst, (lat0 x).sink = true → (lat0 x).corr = 1) (days : List NbWgDay) (s : NbSim)
    (hs : (nbEff r s).Ok par lat0 r) (hd : NbWgDaysOk par lat0 r s days) (hv : ∀ d ∈ days, d.Divisible r) :
    nbSimRunC par r s days = some (nbSimRun par r s days).1 := by
  cases days with
  | nil => rfl
  | cons d ds =>
    have e := (nbDay_eff par lat0 r hr hcorr d s hs hd.1).1
    have hde := nbDayOk_eff par lat0 r d s hd.1
    have hok : (d.next par r s).Ok par lat0 r := by
      rw [← e]
      exact nbDay_ok hr hcorr hsink hs hde
    have hg := nbLat_good hcorr hs hde
    rw [nbLat_eff] at hg
    have hday := nextC_today par lat0 r hr d s hg hs.1 (fun x hx => by
      have hf := hs.2 x hx
      rw [nbEff_full r s hx] at hf
      exact ⟨hf.vert, hf.ratio0⟩) hd.1 (hv d (by simp))
    have hrest := C78_neighbours par lat0 r hr hcorr hsink ds _ hok hd.2 fun e he => hv e (by simp [he])
    unfold nbSimRunC at hrest ⊢
    rw [List.foldlM_cons, hday]
    exact hrest

theorem nbStarted_eff (g : Cell → ℝ) (s : NbSim) (hs : NbStarted r g (nbEff r s)) : NbStarted r g s := by
  intro x hx
  have := hs x hx
  have e : (nbEff r s).land x = (eff (s.full x)).land := congrArg FullState.land (nbEff_full r s hx)
  rw [e] at this
  exact this

theorem nbSpanC_ok (years : List (NbYear × (Cell → CellIn))) (g : Cell → ℝ) (lat0 : Cell → CellIn) (hr : r.Good lat0)
    (hcorr : ∀ x ∈ r.order.map Prod.fst, 0 < (lat0 x).corr)
    (hsink : ∀ x ∈ r.order.map Prod.fst, (lat0 x).sink = true → (lat0 x).corr = 1) (days : List NbWgDay) (s : NbSim)
    (hs : s.Ok (G.par g) lat0 r ∨ (nbEff r s).Ok (G.par g) lat0 r) (hst : NbStarted r g s)
    (ho : NbSpanOk G r g lat0 days s years) (hv : ∀ d ∈ days, d.Divisible r)
    (hvy : ∀ y ∈ years, ∀ d ∈ y.1.days, d.Divisible r) :
    nbSpanC G r g days s (years.map Prod.fst) = some (nbSpan G r g days s (years.map Prod.fst)).1 := by
  induction years generalizing g lat0 days s with
  | nil =>
    rcases hs with hs | hs
    · exact C78_neighbours _ lat0 r hr hcorr hsink days s hs ho.2 hv
    · exact nbSimRunC_eff _ lat0 r hr hcorr hsink days s hs ho.2 hv
  | cons y ys ih =>
    obtain ⟨h1, h2, h3, h4⟩ := ho
    have hrun : nbSimRunC (G.par g) r s days = some (nbSimRun (G.par g) r s days).1 ∧
        (nbSimRun (G.par g) r s days).1.Ok (G.par g) lat0 r := by
      rcases hs with hs | hs
      · exact ⟨C78_neighbours _ lat0 r hr hcorr hsink days s hs h2 hv, C54_neighbours _ lat0 r hr hcorr hsink days s hs h2⟩
      · refine ⟨nbSimRunC_eff _ lat0 r hr hcorr hsink days s hs h2 hv, ?_⟩
        rw [← nbSimRun_eff _ lat0 r hr hcorr days h1 s hs h2]
        exact C54_neighbours _ lat0 r hr hcorr hsink days _ hs (nbDaysOk_eff _ lat0 r hr hcorr days s hs h2)
    simp only [List.map_cons, nbSpanC, nbSpan]
    rw [hrun.1]
    have hrst : NbStarted r g (nbSimRun (G.par g) r s days).1 := by
      intro z hz
      obtain ⟨q1, q2⟩ := nbRun_land (G.par g) r days s z
      exact ⟨q1.trans (hst z hz).1, q2.trans (hst z hz).2⟩
    obtain ⟨hok', hst'⟩ := nbYearStart_ok G r g lat0 y.2 y.1 _ hrun.2 hrst h3
    have hcorr' : ∀ z ∈ r.order.map Prod.fst, 0 < (y.2 z).corr := fun z hz => by
      rw [← (h3.cells z hz).2.1.corr]; exact hcorr z hz
    have hsink' : ∀ z ∈ r.order.map Prod.fst, (y.2 z).sink = true → (y.2 z).corr = 1 := fun z hz => by
      rw [← (h3.cells z hz).2.1.corr, ← (h3.cells z hz).2.1.sink]; exact hsink z hz
    exact ih y.1.glores y.2 h3.good hcorr' hsink' y.1.days _ (.inr hok') (nbStarted_eff r _ _ hst') h4
      (hvy y (by simp)) fun z hz => hvy z (by simp [hz])

/-- **C78.** The same with water supply from neighbouring cells. -/
theorem C78_neighbour_years (years : List (NbYear × (Cell → CellIn))) (g : Cell → ℝ) (lat0 : Cell → CellIn) (hr : r.Good lat0)
    (hcorr : ∀ x ∈ r.order.map Prod.fst, 0 < (lat0 x).corr)
    (hsink : ∀ x ∈ r.order.map Prod.fst, (lat0 x).sink = true → (lat0 x).corr = 1) (days : List NbWgDay) (s : NbSim)
    (hs : s.Ok (G.par g) lat0 r) (hst : NbStarted r g s)
    (ho : NbSpanOk G r g lat0 days s years) (hv : ∀ d ∈ days, d.Divisible r)
    (hvy : ∀ y ∈ years, ∀ d ∈ y.1.days, d.Divisible r) :
    nbSpanC G r g days s (years.map Prod.fst) = some (nbSpan G r g days s (years.map Prod.fst)).1 :=
  nbSpanC_ok G r years g lat0 hr hcorr hsink days s (.inl hs) hst ho hv hvy

end nb

/-! ### The hypotheses are met -/

example : ∃ years : List (ResYear Unit × (Cell → CellIn)), years ≠ [] ∧
    simSpanC exGrid exO (fun _ => 0) [exDayOf exLat] (exSimOf exFullState) (years.map Prod.fst)
      = some (simSpan exGrid exO (fun _ => 0) [exDayOf exLat] (exSimOf exFullState) (years.map Prod.fst)).1 := by
  obtain ⟨cap, h⟩ := exSpan_ok exCell_lake
  refine ⟨_, by simp, C78_years exGrid exO (fun _ => True) exOrder_sound _ _ (fun _ => exLat)
    (by intro x _; norm_num [exLat, exCell]) _ _ (exSpan_start exCell_lake).1 (exSpan_start exCell_lake).2 h ?_⟩
  have hd := exLat_divisible
  exact ⟨⟨fun _ _ => hd, trivial⟩, ⟨fun _ _ => ⟨hd.gwK, hd.irrigation, hd.resExp, hd.days, hd.inflow, hd.width, hd.rough, hd.slope⟩,
    trivial⟩⟩

example : ∃ years : List (NbYear × (Cell → CellIn)), years ≠ [] ∧
    nbSpanC exGrid farRun (fun _ => 0) [waitDay] waitSim (years.map Prod.fst)
      = some (nbSpan exGrid farRun (fun _ => 0) [waitDay] waitSim (years.map Prod.fst)).1 := by
  obtain ⟨cap, h⟩ := askSpan_ok
  have hdiv : ∀ x u, ({ dryBase x with unsatNas := u } : CellIn).Divisible := by
    intro x u
    obtain ⟨a, ha⟩ := dryBase_cases x
    rw [ha]
    constructor <;> norm_num [dryRes, exCell]
  refine ⟨_, by simp, C78_neighbour_years exGrid farRun _ _ dryBase farRun_good ask_corr (fun x _ _ => dryBase_corr x) _ _
    askSpan_start.1 askSpan_start.2 h ?_ ?_⟩
  · intro d hd x _ u
    rw [List.mem_singleton.1 hd]
    exact hdiv x u
  · intro y hy d hd x _ u
    rw [List.mem_singleton.1 hy] at hd
    rw [List.mem_singleton.1 hd]
    have := hdiv x u
    exact ⟨this.gwK, this.irrigation, this.resExp, this.days, this.inflow, this.width, this.rough, this.slope⟩

end WG
