import Verif.Model.Runoff
import Verif.Props.Whole

/-!
# C80: the net cell runoff of a basin adds up to the discharge at its outlet
-/

namespace WG

/-! ## Specification -/

/-- The discharge (m³/s) that a net cell runoff of `r` (kg m⁻² s⁻¹, that is litres per second on every square metre)
makes in a cell of `area` km², `cf` per cent of which are on the continent. -/
noncomputable def asDischarge (area cf r : ℝ) : ℝ := r / 1000 * (area * 1e6 * (cf / 100))

/-- The water of the cell `e.1` stays in the region: its outflow cell is simulated and in the region. -/
def StaysIn (order : List (Cell × Cell)) (B : Cell → Bool) (e : Cell × Cell) : Prop :=
  drains e.2 ∧ e.2 ∈ order.map Prod.fst ∧ B e.2 = true

instance (order : List (Cell × Cell)) (B : Cell → Bool) (e : Cell × Cell) : Decidable (StaysIn order B e) :=
  inferInstanceAs (Decidable (_ ∧ _ ∧ _))

/-- Net cell runoff of the region of a day, as discharge. -/
noncomputable def regionRunoff (par : Cell → FullPar) (order : List (Cell × Cell)) (cf : Cell → ℝ) (B : Cell → Bool) (r : Cell → Option RunoffRec) : ℝ :=
  (((order.map Prod.fst).filter B).map fun x =>
    ((r x).map fun q => asDischarge (par x).area (cf x) q.ncrun).getD 0).sum

/-- The discharge written for a cell (0 where it is missing). -/
def disAt (r : Cell → Option RunoffRec) (x : Cell) : ℝ := ((r x).bind fun q => q.dis).getD 0

/-- Discharge of the cells of the region whose water does not stay in it. -/
noncomputable def regionOutflow (order : List (Cell × Cell)) (B : Cell → Bool) (r : Cell → Option RunoffRec) : ℝ :=
  ((order.filter fun e => B e.1 ∧ ¬ StaysIn order B e).map fun e => disAt r e.1).sum

/-! ## The routing loop remembers what every cell did -/

section
variable {δ : Type} (cin : Cell → CellIn) (get : δ → Cell → ℝ × (ℝ → ℝ)) (upd : δ → Cell → CellOut → δ)

theorem basinDay_out (order : List (Cell × Cell)) (h : Sound order) (d : δ) (state : Cell → CellState) :
    let s := basinDay cin get upd order d state
    ∀ x ∈ order.map Prod.fst, ∃ o, s.ledger.out x = some o ∧ s.flow x = o.streamflow ∧
      o.cellRunoff = if (cin x).sink then - s.up x else o.streamflow - s.up x := by
  induction order using List.reverseRecOn with
  | nil => simp
  | append_singleton p e ih =>
    obtain ⟨hp, hn, -⟩ := h.prefix
    have ih := ih hp
    unfold basinDay at ih ⊢
    simp only at ih ⊢
    rw [route_append]
    generalize route (basinNode cin get upd) p ⟨d, state, fun _ => none⟩ = s at *
    intro x hx
    by_cases hxe : x = e.1
    · subst hxe
      simp only [routeStep, basinNode, Function.update_self]
      refine ⟨_, rfl, rfl, ?_⟩
      simp only [cellDay]
      split_ifs <;> ring
    · have hxp : x ∈ p.map Prod.fst := by
        rw [List.map_append, List.mem_append] at hx
        rcases hx with hx | hx
        · exact hx
        · exact absurd (by simpa using hx) hxe
      simp only [routeStep, basinNode, Function.update_of_ne hxe]
      exact ih x hxp

end

theorem units_ncrun (area cf x : ℝ) (ha : area ≠ 0) (hc : cf ≠ 0) :
    asDischarge area cf (baseUnits .lbFlux "ncrun" area cf x) = x * (1e9 / 86400) := by
  simp [asDischarge, baseUnits]; field_simp; norm_num; ring

theorem units_dis (area cf x : ℝ) : baseUnits .lbFlux "dis" area cf x = x * (1e9 / 86400) := by
  simp [baseUnits]; ring

/-- The balance of a region, whatever the loop: every cell knows its streamflow, its inflow and its runoff. -/
theorem region_balance (par : Cell → FullPar) (order : List (Cell × Cell)) (cf : Cell → ℝ) (h : Sound order)
    (B : Cell → Bool) (hB : UpstreamClosed order B) (out : Cell → Option CellOut) (flow up : Cell → ℝ) (sink : Cell → Bool)
    (hout : ∀ x ∈ order.map Prod.fst, ∃ o, out x = some o ∧ flow x = o.streamflow ∧
      o.cellRunoff = if sink x then - up x else o.streamflow - up x)
    (hup : ∀ x, x ∈ order.map Prod.fst → up x = ((upstreamOf order x).map flow).sum)
    (hs : ∀ e ∈ order, sink e.1 = true → ¬ drains e.2) (ha : ∀ x ∈ order.map Prod.fst, (par x).area ≠ 0)
    (hc : ∀ x ∈ order.map Prod.fst, cf x ≠ 0) (rec : Cell → Option RunoffRec)
    (hrec : ∀ x, rec x = (out x).map (runoffRec (par x).area (cf x) (sink x))) :
    regionRunoff par order cf B rec = regionOutflow order B rec := by
  set c : ℝ := 1e9 / 86400 with hcc
  set g : Cell → ℝ := fun x => if sink x then 0 else flow x with hg
  -- what is written
  have hdis : ∀ x ∈ order.map Prod.fst, disAt rec x = g x * c := by
    intro x hx
    obtain ⟨o, h1, h2, h3⟩ := hout x hx
    simp only [disAt]
    rw [hrec, h1]
    simp only [Option.map_some, Option.bind_some, runoffRec, hg, h2]
    split_ifs with hk
    · simp
    · simp [units_dis, hcc]
  have hrun : ∀ x ∈ order.map Prod.fst,
      ((rec x).map fun q => asDischarge (par x).area (cf x) q.ncrun).getD 0 = g x * c - up x * c := by
    intro x hx
    obtain ⟨o, h1, h2, h3⟩ := hout x hx
    rw [hrec, h1]
    simp only [Option.map_some, Option.getD_some, runoffRec]
    rw [units_ncrun _ _ _ (ha x hx) (hc x hx), h3, ← hcc, h2.symm]
    simp only [hg]
    split_ifs <;> ring
  -- sums
  set L := (order.map Prod.fst).filter B with hL
  have hLn : L.Nodup := h.nodup.filter _
  have hLm : ∀ x ∈ L, x ∈ order.map Prod.fst := fun x hx => (List.mem_filter.1 hx).1
  have hsum : regionRunoff par order cf B rec
      = (L.map g).sum * c - (L.map up).sum * c := by
    unfold regionRunoff
    rw [← List.sum_map_mul_right, ← List.sum_map_mul_right, ← list_sum_sub]
    congr 1
    exact List.map_congr_left fun x hx => hrun x (hLm x hx)
  have hU : (L.map up).sum = ((order.filter fun e => drains e.2 ∧ e.2 ∈ L).map fun e => flow e.1).sum := by
    rw [← sum_fibres order L hLn flow]
    congr 1
    exact List.map_congr_left fun x hx => hup x (hLm x hx)
  have hU' : (L.map up).sum = ((order.filter fun e => drains e.2 ∧ e.2 ∈ L).map fun e => g e.1).sum := by
    rw [hU]
    congr 1
    refine List.map_congr_left fun e he => ?_
    obtain ⟨he1, he2⟩ := List.mem_filter.1 he
    have hdr := (of_decide_eq_true he2).1
    have hk : sink e.1 ≠ true := fun hk => hs e he1 hk hdr
    simp only [hg]
    rw [if_neg hk]
  have hG : (L.map g).sum = ((order.filter fun e => B e.1).map fun e => g e.1).sum := by
    rw [hL, List.filter_map, List.map_map]; rfl
  rw [hsum, hU', hG, sum_filter_split (order.filter fun e => B e.1) (StaysIn order B)]
  have e1 : (order.filter fun e => B e.1).filter (fun e => decide (StaysIn order B e))
      = order.filter fun e => drains e.2 ∧ e.2 ∈ L := by
    rw [List.filter_filter]
    apply List.filter_congr
    intro e he
    rw [Bool.eq_iff_iff, Bool.and_eq_true, decide_eq_true_eq, decide_eq_true_eq]
    unfold StaysIn
    rw [hL, List.mem_filter]
    exact ⟨fun k => k.1, fun k => ⟨k, hB e he k.1 k.2.2⟩⟩
  have e2 : (order.filter fun e => B e.1).filter (fun e => decide (¬ StaysIn order B e))
      = order.filter fun e => B e.1 ∧ ¬ StaysIn order B e := by
    rw [List.filter_filter]
    apply List.filter_congr
    intro e he
    rw [Bool.eq_iff_iff, Bool.and_eq_true, decide_eq_true_eq, decide_eq_true_eq]
    exact and_comm
  rw [e1, e2]
  unfold regionOutflow
  have e3 : ((order.filter fun e => B e.1 ∧ ¬ StaysIn order B e).map fun e => disAt rec e.1).sum
      = ((order.filter fun e => B e.1 ∧ ¬ StaysIn order B e).map fun e => g e.1).sum * c := by
    rw [← List.sum_map_mul_right]
    congr 1
    exact List.map_congr_left fun e he => hdis e.1 (List.mem_map_of_mem (List.mem_of_mem_filter he))
  rw [e3]
  ring

section
variable {δ : Type} (par : Cell → FullPar) (order : List (Cell × Cell)) (cf : Cell → ℝ)

/-- Inland sinks have no outflow cell. -/
def SinksEnd (d : SimDay δ) (s : Sim δ) : Prop :=
  ∀ e ∈ order, (d.lateral s.demand e.1).sink = true → ¬ drains e.2

/-- C80, one day. -/
theorem C80_day (h : Sound order) (B : Cell → Bool) (hB : UpstreamClosed order B) (d : SimDay δ) (s : Sim δ)
    (hs : SinksEnd order d s) (ha : ∀ x ∈ order.map Prod.fst, (par x).area ≠ 0) (hc : ∀ x ∈ order.map Prod.fst, cf x ≠ 0) :
    regionRunoff par order cf B (runoffDay par order cf d s) = regionOutflow order B (runoffDay par order cf d s) :=
  region_balance par order cf h B hB (simNet par order d s).ledger.out (simNet par order d s).flow (simNet par order d s).up
    (fun x => (d.lateral s.demand x).sink)
    (basinDay_out (simIn par d s) d.get d.upd order h (d.start s.demand) fun x => (s.state x).lat)
    (C26_upstream (basinNode (simIn par d s) d.get d.upd) order h
      ⟨d.start s.demand, fun x => (s.state x).lat, fun _ => none⟩)
    hs ha hc _ (fun _ => rfl)

/-- Inland sinks have no outflow cell, on every day of the simulation. -/
def SinksEndRun : Sim δ → List (SimDay δ) → Prop
  | _, [] => True
  | s, d :: ds => SinksEnd order d s ∧ SinksEndRun (simDay par order d s).1 ds

/-- C80: on every day of a simulation the net cell runoff written for the cells of a region that includes everything
upstream of it adds up to the discharge written for the cells where water leaves the region. -/
theorem C80_runoff_is_discharge (h : Sound order) (B : Cell → Bool) (hB : UpstreamClosed order B) (s : Sim δ)
    (days : List (SimDay δ)) (hs : SinksEndRun par order s days) (ha : ∀ x ∈ order.map Prod.fst, (par x).area ≠ 0)
    (hc : ∀ x ∈ order.map Prod.fst, cf x ≠ 0) :
    ∀ r ∈ runoffRun par order cf s days, regionRunoff par order cf B r = regionOutflow order B r := by
  induction days generalizing s with
  | nil => simp [runoffRun]
  | cons d ds ih =>
    intro r hr
    rw [runoffRun, List.mem_cons] at hr
    rcases hr with rfl | hr
    · exact C80_day par order cf h B hB d s hs.1 ha hc
    · exact ih _ hs.2 r hr

/-- C80: the two outputs are those of the water balance: on every day of a simulation, for every cell, the discharge written
is that of the day's record, and the net cell runoff is that discharge (0 in an inland sink, for which none is written) minus
the inflow from upstream, both converted to the unit of the output. -/
theorem C80_records (h : Sound order) (s : Sim δ) (days : List (SimDay δ)) :
    List.Forall₂ (fun (q : Cell → Option RunoffRec) (recs : Cell → Option DayRec) => ∀ x ∈ order.map Prod.fst, ∃ rec,
        recs x = some rec ∧ q x = some
          { ncrun := baseUnits .lbFlux "ncrun" (par x).area (cf x) (rec.dis.getD 0 - rec.up)
            dis := rec.dis.map (baseUnits .lbFlux "dis" (par x).area (cf x)) })
      (runoffRun par order cf s days) (simRun par order s days).2 := by
  induction days generalizing s with
  | nil => exact .nil
  | cons d ds ih =>
    refine .cons (fun x hx => ?_) (ih _)
    obtain ⟨o, h1, -, h3⟩ := basinDay_out (simIn par d s) d.get d.upd order h (d.start s.demand) (fun x => (s.state x).lat) x hx
    have h1' : (simNet par order d s).ledger.out x = some o := h1
    have h4 : o.cellRunoff = if (d.lateral s.demand x).sink then - (simNet par order d s).up x
        else o.streamflow - (simNet par order d s).up x := h3
    refine ⟨fullRec (par x) (d.lateral s.demand x) (d.weather x) (s.state x) ((simNet par order d s).up x) o, ?_, ?_⟩
    · simp only [simDay, h1']; rfl
    · have e1 : (fullRec (par x) (d.lateral s.demand x) (d.weather x) (s.state x) ((simNet par order d s).up x) o).dis
          = if (d.lateral s.demand x).sink then none else some o.streamflow := rfl
      have e2 : (fullRec (par x) (d.lateral s.demand x) (d.weather x) (s.state x) ((simNet par order d s).up x) o).up
          = (simNet par order d s).up x := rfl
      rw [e1, e2]
      simp only [runoffDay, h1', Option.map_some, runoffRec, h4]
      cases (d.lateral s.demand x).sink <;> simp

theorem filter_unique {α : Type} [DecidableEq α] (l : List α) (hl : l.Nodup) (a : α) (ha : a ∈ l) :
    (l.filter fun b => decide (b = a)) = [a] := by
  induction l with
  | nil => simp at ha
  | cons b l ih =>
    rw [List.nodup_cons] at hl
    rw [List.filter_cons]
    by_cases h : b = a
    · subst h
      simp only [decide_true, if_true, List.cons.injEq, true_and]
      rw [List.filter_eq_nil_iff]
      intro c hc hcb
      exact hl.1 (of_decide_eq_true hcb ▸ hc)
    · simp only [h, decide_false]
      exact ih hl.2 (by simpa [Ne.symm h] using ha)

/-- C80: if water leaves the region at one station only (a gauging station and everything upstream of it), the net cell
runoff of the region is the discharge at the station, on every day, and so are the sums over any period. -/
theorem C80_station (h : Sound order) (B : Cell → Bool) (hB : UpstreamClosed order B) (s : Sim δ)
    (days : List (SimDay δ)) (hs : SinksEndRun par order s days) (ha : ∀ x ∈ order.map Prod.fst, (par x).area ≠ 0)
    (hc : ∀ x ∈ order.map Prod.fst, cf x ≠ 0) (e0 : Cell × Cell) (he0 : e0 ∈ order) (hB0 : B e0.1)
    (hleave : ¬ StaysIn order B e0) (honly : ∀ e ∈ order, B e.1 → ¬ StaysIn order B e → e = e0) :
    (∀ r ∈ runoffRun par order cf s days, regionRunoff par order cf B r = disAt r e0.1) ∧
    ∀ m n, (((runoffRun par order cf s days).drop m).take n |>.map fun r => regionRunoff par order cf B r).sum
      = (((runoffRun par order cf s days).drop m).take n |>.map fun r => disAt r e0.1).sum := by
  have key : ∀ r ∈ runoffRun par order cf s days, regionRunoff par order cf B r = disAt r e0.1 := by
    intro r hr
    rw [C80_runoff_is_discharge par order cf h B hB s days hs ha hc r hr]
    unfold regionOutflow
    have e : (order.filter fun e => B e.1 ∧ ¬ StaysIn order B e) = order.filter fun e => decide (e = e0) := by
      apply List.filter_congr
      intro e he
      rw [decide_eq_decide]
      exact ⟨fun k => honly e he k.1 k.2, fun k => by rw [k]; exact ⟨hB0, hleave⟩⟩
    rw [e, filter_unique order (List.Nodup.of_map _ h.nodup) e0 he0]
    simp
  refine ⟨key, fun m n => ?_⟩
  congr 1
  exact List.map_congr_left fun r hr => key r (List.mem_of_mem_drop (List.mem_of_mem_take hr))

end

/-! ## Non-vacuity -/

/-- Water use off, one day repeated. -/
noncomputable def plainDay : SimDay Unit :=
  { weather := fun _ => exWeather, lateral := fun _ => shoreLat, start := id, get := fun _ _ => (0, id)
    upd := fun u _ _ => u, close := id }

/-- The whole world of three cells with its outlet. -/
example (s : Sim Unit) := C80_station (fun _ => exFull) shoreOrder (fun _ => 80) exOrder_sound (fun _ => true)
  (fun _ _ _ _ => rfl) s [plainDay, plainDay, plainDay]
  (by
    have k : ∀ t, SinksEnd shoreOrder plainDay t := by
      intro t e _ hk
      exfalso
      simp only [plainDay, shoreLat] at hk
      split_ifs at hk <;> simp [exLat, exCell] at hk
    exact ⟨k _, k _, k _, trivial⟩)
  (fun x _ => by simp [exFull]) (fun x _ => by norm_num) ((1, 2), (0, 0)) (by simp [shoreOrder]) rfl
  (by simp [StaysIn, drains])
  (by
    intro e he _ hl
    simp only [shoreOrder, List.mem_cons, List.not_mem_nil, or_false] at he
    rcases he with rfl | rfl | rfl
    · exact absurd ⟨by simp [drains], by simp [shoreOrder], rfl⟩ hl
    · exact absurd ⟨by simp [drains], by simp [shoreOrder], rfl⟩ hl
    · rfl)

/-- The cell `(2, 2)` alone. -/
example (s : Sim Unit) := C80_runoff_is_discharge (fun _ => exFull) shoreOrder (fun _ => 80) exOrder_sound
  (fun x => x = (2, 2))
  (by
    intro e he hd hb
    simp only [shoreOrder, List.mem_cons, List.not_mem_nil, or_false] at he
    rcases he with rfl | rfl | rfl <;> simp_all [drains])
  s [plainDay]
  (by
    refine ⟨?_, trivial⟩
    intro e _ hk
    exfalso
    simp only [plainDay, shoreLat] at hk
    split_ifs at hk <;> simp [exLat, exCell] at hk)
  (fun x _ => by simp [exFull]) (fun x _ => by norm_num)

example (s : Sim Unit) := C80_records (fun _ => exFull) shoreOrder (fun _ => 80) exOrder_sound s [plainDay, plainDay]

end WG
