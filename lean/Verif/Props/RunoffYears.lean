import Verif.Model.RunoffYears
import Verif.Props.Runoff
import Verif.Props.NbRunoff
import Verif.Props.OrderYears

/-!
# C80 over several years
-/

namespace WG

section
variable {δ : Type} (G : Grid) (order : List (Cell × Cell)) (cf : Cell → ℝ)

/-- Inland sinks have no outflow cell on every day of the years. -/
def SinksEndYears : (Cell → ℝ) → List (SimDay δ) → Sim δ → List (ResYear δ) → Prop
  | g, days, s, [] => SinksEndRun (G.par g) order s days
  | g, days, s, y :: ys => SinksEndRun (G.par g) order s days ∧
      SinksEndYears y.glores y.days (yearStart G y (simRun (G.par g) order s days).1) ys

/-- **C80.**  Over years in which reservoirs start to operate: on every day the net cell runoff written for the cells of a
region that includes everything upstream of it adds up to the discharge written for the cells where water leaves it. -/
theorem C80_years (h : Sound order) (B : Cell → Bool) (hB : UpstreamClosed order B) (g : Cell → ℝ) (days : List (SimDay δ))
    (s : Sim δ) (years : List (ResYear δ)) (hs : SinksEndYears G order g days s years)
    (ha : ∀ x ∈ order.map Prod.fst, G.area x ≠ 0) (hc : ∀ x ∈ order.map Prod.fst, cf x ≠ 0) :
    ∀ q ∈ runoffSpan G order cf g days s years, regionRunoff (G.par g) order cf B q = regionOutflow order B q := by
  induction years generalizing g days s with
  | nil => exact C80_runoff_is_discharge (G.par g) order cf h B hB s days hs ha hc
  | cons y ys ih =>
    intro q hq
    simp only [runoffSpan, List.mem_append] at hq
    rcases hq with hq | hq
    · exact C80_runoff_is_discharge (G.par g) order cf h B hB s days hs.1 ha hc q hq
    · exact ih y.glores y.days _ hs.2 q hq

/-- **C80.**  The outputs of every day of the years are those of its water balance, see `C80_records`. -/
theorem C80_records_years (h : Sound order) (g : Cell → ℝ) (days : List (SimDay δ)) (s : Sim δ) (years : List (ResYear δ)) :
    List.Forall₂ (fun (q : Cell → Option RunoffRec) (recs : Cell → Option DayRec) => ∀ x ∈ order.map Prod.fst, ∃ rec,
        recs x = some rec ∧ q x = some
          { ncrun := baseUnits .lbFlux "ncrun" (G.area x) (cf x) (rec.dis.getD 0 - rec.up)
            dis := rec.dis.map (baseUnits .lbFlux "dis" (G.area x) (cf x)) })
      (runoffSpan G order cf g days s years) (simSpan G order g days s years).2 := by
  induction years generalizing g days s with
  | nil => exact C80_records (G.par g) order cf h s days
  | cons y ys ih => exact List.rel_append (C80_records (G.par g) order cf h s days) (ih y.glores y.days _)

end

section
variable (G : Grid) (r : NbRun) (cf : Cell → ℝ)

/-- **C80.**  The same with water supply from neighbouring cells. -/
theorem C80_neighbour_years (h : Sound r.order) (B : Cell → Bool) (hB : UpstreamClosed r.order B) (g : Cell → ℝ)
    (days : List NbWgDay) (s : NbSim) (years : List NbYear) (hs : NbSinksEnd r days) (hy : ∀ y ∈ years, NbSinksEnd r y.days)
    (ha : ∀ x ∈ r.order.map Prod.fst, G.area x ≠ 0) (hc : ∀ x ∈ r.order.map Prod.fst, cf x ≠ 0) :
    ∀ q ∈ nbRunoffSpan G r cf g days s years, regionRunoff (G.par g) r.order cf B q = regionOutflow r.order B q := by
  induction years generalizing g days s with
  | nil => exact C80_neighbours (G.par g) r cf h B hB s days hs ha hc
  | cons y ys ih =>
    intro q hq
    simp only [nbRunoffSpan, List.mem_append] at hq
    rcases hq with hq | hq
    · exact C80_neighbours (G.par g) r cf h B hB s days hs ha hc q hq
    · exact ih y.glores y.days _ (hy y List.mem_cons_self) (fun z hz => hy z (List.mem_cons_of_mem _ hz)) q hq

/-- **C80.**  And its outputs are those of the water balance, see `C80_neighbours_records`. -/
theorem C80_neighbour_records_years (h : Sound r.order) (g : Cell → ℝ) (days : List NbWgDay) (s : NbSim)
    (years : List NbYear) :
    List.Forall₂ (fun (q : Cell → Option RunoffRec) (recs : Cell → Option DayRec) => ∀ x ∈ r.order.map Prod.fst, ∃ rec,
        recs x = some rec ∧ q x = some
          { ncrun := baseUnits .lbFlux "ncrun" (G.area x) (cf x) (rec.dis.getD 0 - rec.up)
            dis := rec.dis.map (baseUnits .lbFlux "dis" (G.area x) (cf x)) })
      (nbRunoffSpan G r cf g days s years) (nbSpan G r g days s years).2 := by
  induction years generalizing g days s with
  | nil => exact C80_neighbours_records (G.par g) r cf h s days
  | cons y ys ih => exact List.rel_append (C80_neighbours_records (G.par g) r cf h s days) (ih y.glores y.days _)

end

/-! ### The hypotheses are met -/

theorem waitDay_sinks : NbSinksEnd askRun [waitDay] := by
  intro d hd e _ hk
  exfalso
  simp only [List.mem_cons, List.not_mem_nil, or_false] at hd
  subst hd
  simp only [waitDay] at hk
  obtain ⟨a, ha⟩ := dryBase_cases e.1
  rw [ha] at hk
  simp [dryRes, exCell] at hk

example := C80_neighbour_years exGrid askRun (fun _ => 80) askRun_good.sound (fun _ => true) (fun _ _ _ _ => rfl) (fun _ => 0)
  [waitDay] waitSim [damYear] waitDay_sinks
  (by intro y hy; simp only [List.mem_singleton] at hy; subst hy; exact waitDay_sinks)
  (fun x _ => by simp [exGrid]) (fun x _ => by norm_num)

example := C80_neighbour_records_years exGrid askRun (fun _ => 80) askRun_good.sound (fun _ => 0) [waitDay] waitSim [damYear]

example (s : Sim Unit) := C80_years exGrid shoreOrder (fun _ => 80) exOrder_sound (fun x => x = (2, 2))
  (by
    intro e he hd hb
    simp only [shoreOrder, List.mem_cons, List.not_mem_nil, or_false] at he
    rcases he with rfl | rfl | rfl <;> simp_all [drains])
  (fun _ => 0) [plainDay] s [⟨fun _ => 3, fun _ => 50, [plainDay]⟩]
  (by
    have k : ∀ t, SinksEnd shoreOrder plainDay t := by
      intro t e _ hk
      exfalso
      simp only [plainDay, shoreLat] at hk
      split_ifs at hk <;> simp [exLat, exCell] at hk
    exact ⟨⟨k _, trivial⟩, k _, trivial⟩)
  (fun x _ => by simp [exGrid]) (fun x _ => by norm_num)

example (s : Sim Unit) := C80_records_years exGrid shoreOrder (fun _ => 80) exOrder_sound (fun _ => 0) [plainDay] s
  [⟨fun _ => 3, fun _ => 50, [plainDay]⟩]

end WG
