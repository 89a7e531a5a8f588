import Verif.Model.NbFloat
import Verif.Props.SameBitsYears
import Verif.Props.NbBasin

/-!
# C96 with water supply from neighbouring cells

Bit for bit the same results with the demand that cells pass on to their neighbours
(`/repo/model/lateralwaterbalance/neighbouring_cell.py`, `routing.py:210-876`).
-/

namespace WG

variable (A : Arith) (rule : HanIn → ℝ → ℝ × ℝ) (kRiver : CellIn → ℝ → ℝ)

theorem cellDayR_keep (c : CellIn) (st : CellState) (up d : ℝ) (k k' : ℝ → ℝ)
    (h : c.useOpt = true → c.hasLake → k = k') : cellDayR A rule kRiver c st up d k = cellDayR A rule kRiver c st up d k' := by
  by_cases hc : c.useOpt = true ∧ c.hasLake
  · rw [h hc.1 hc.2]
  · have h2 : ∀ r, cellUnsat2R A c st up d k r = cellUnsat2R A c st up d k' r := by
      intro r
      unfold cellUnsat2R
      have hc' : ¬ (c.useOpt = true ∧ (c.resArea > 0 ∨ c.glolakeArea > 0)) := hc
      rw [if_neg hc', if_neg hc']
    have h3 : ∀ r kr, cellRiverR A c st up d k r kr = cellRiverR A c st up d k' r kr := by
      intro r kr; unfold cellRiverR; rw [h2]
    have h4 : ∀ r kr, cellTapR A c st up d k r kr = cellTapR A c st up d k' r kr := by
      intro r kr; unfold cellTapR; rw [h3]
    have h5 : ∀ r kr, cellTappedR A c st up d k r kr = cellTappedR A c st up d k' r kr := by
      intro r kr; unfold cellTappedR; simp only [h3]; classical exact if_congr (by rw [h4]) rfl rfl
    have h6 : ∀ r kr, cellEvapR A c st up d k r kr = cellEvapR A c st up d k' r kr := by
      intro r kr; unfold cellEvapR; simp only [h3]
    have h7 : ∀ r kr, cellNasR A c st up d k r kr = cellNasR A c st up d k' r kr := by
      intro r kr; unfold cellNasR riverUseR; simp only [h2, h3, h5]; classical exact if_congr (by rw [h4]) rfl rfl
    unfold cellDayR cellStateR cellRunoffR cellEvapTotalR
    simp only [h2, h3, h5, h6, h7]

theorem redistributeR_filter (i : RedistIn Cell) (B : Cell → Bool) (o : List Cell)
    (h : ∀ c ∈ o, i.unit i.x = i.unit c → B c = true) (rip : Cell → ℝ) :
    redistributeR A { i with order := o.filter B } rip = redistributeR A { i with order := o } rip := by
  unfold redistributeR
  change (o.filter B).foldl (redistStepR A i) (i.acc, rip) = o.foldl (redistStepR A i) (i.acc, rip)
  generalize (i.acc, rip) = st
  induction o generalizing st with
  | nil => rfl
  | cons c o ih =>
    have h' : ∀ c ∈ o, i.unit i.x = i.unit c → B c = true := fun c hc => h c (by simp [hc])
    by_cases hb : B c
    · rw [List.filter_cons_of_pos hb, List.foldl_cons, List.foldl_cons, ih h']
    · rw [List.filter_cons_of_neg hb, List.foldl_cons, ih h']
      congr 1
      unfold redistStepR
      rw [if_neg (fun k => hb (h c (by simp) k.1))]

theorem redistR_other (i : RedistIn Cell) (rip : Cell → ℝ) (c : Cell) (hc : c ∉ i.riparian) (hcx : c ≠ i.x) :
    (redistributeR A i rip).2 c = rip c := by
  unfold redistributeR
  have hc' : ∀ l : List Cell, (∀ r ∈ l, r ∈ i.order) → ∀ st : ℝ × (Cell → ℝ),
      (l.foldl (redistStepR A i) st).2 c = st.2 c := by
    intro l
    induction l with
    | nil => intros; rfl
    | cons r l ih =>
      intro hl st
      rw [List.foldl_cons, ih (fun a ha => hl a (by simp [ha]))]
      unfold redistStepR
      by_cases hr : i.unit i.x = i.unit r ∧ i.x ≠ r
      · have hrc : c ≠ r := by
          rintro rfl
          exact hc (List.mem_filter.mpr ⟨hl c (by simp), by simpa using hr⟩)
        rw [if_pos hr]
        split_ifs <;> simp only [Function.update_of_ne hrc, Function.update_of_ne hcx]
      · rw [if_neg hr]
  exact hc' i.order (fun _ h => h) _

theorem allocR_fold (i : AllocIn) (v : ℝ) (l : List Cell) : ∀ r : Cell → Option ℝ, ∀ c,
    l.foldl (fun r c => if (i.nbMap c).1 = i.x.1 ∧ (i.nbMap c).2 = i.x.2 then
        Function.update r c (some (A.mul (A.mul v (i.fromDemand c)) (A.div 1 i.toSupply))) else r) r c =
      if c ∈ l ∧ i.nbMap c = i.x then some (A.mul (A.mul v (i.fromDemand c)) (A.div 1 i.toSupply)) else r c := by
  induction l with
  | nil => intro r c; simp
  | cons y ys ih =>
    intro r c
    rw [List.foldl_cons, ih]
    have hiff : ((i.nbMap y).1 = i.x.1 ∧ (i.nbMap y).2 = i.x.2) ↔ i.nbMap y = i.x := Prod.ext_iff.symm
    by_cases hc : c ∈ ys ∧ i.nbMap c = i.x
    · rw [if_pos hc, if_pos ⟨List.mem_cons_of_mem _ hc.1, hc.2⟩]
    · rw [if_neg hc]
      by_cases hy : i.nbMap y = i.x
      · rw [if_pos (hiff.mpr hy)]
        by_cases hcy : c = y
        · subst hcy; simp [hy]
        · rw [Function.update_of_ne hcy, if_neg]
          rintro ⟨h1, h2⟩
          rcases List.mem_cons.mp h1 with h | h
          · exact hcy h
          · exact hc ⟨h, h2⟩
      · rw [if_neg (fun h => hy (hiff.mp h)), if_neg]
        rintro ⟨h1, h2⟩
        rcases List.mem_cons.mp h1 with h | h
        · exact hy (h ▸ h2)
        · exact hc ⟨h, h2⟩

section
variable {B : Cell → Bool} {cin cin' : Cell → CellIn} {q q' : NbDay}

theorem nbOwnR_agree (hc : ∀ x, B x → cin x = cin' x) (hq : q.Agree B q') {l l' : NbLedger} (hl : l.Agree B l') {x : Cell}
    (hx : B x) : nbOwnR A cin q l x = nbOwnR A cin' q' l' x := by
  obtain ⟨h1, h2, h3, h4, h5, h6, h7, h8, h9⟩ := hl x hx
  unfold nbOwnR
  rw [h1, h2, hc x hx, hq.unit, hq.delayed, takenUp_agree hl hx]

theorem nbDailyR_agree (hq : q.Agree B q') {l l' : NbLedger} (hl : l.Agree B l') {x : Cell}
    (hx : B x) : nbDailyR A q l x = nbDailyR A q' l' x := by
  obtain ⟨h1, h2, h3, h4, h5, h6, h7, h8, h9⟩ := hl x hx
  unfold nbDailyR
  rw [takenUp_agree hl hx, h7, (hq.data x hx).1]

theorem nbInR_agree (hc : ∀ x, B x → cin x = cin' x) (hq : q.Agree B q') {l l' : NbLedger} (hl : l.Agree B l') {x : Cell}
    (hx : B x) : nbInR A cin q l x = nbInR A cin' q' l' x := by
  unfold nbInR
  rw [hc x hx, nbDailyR_agree A hq hl hx]

theorem nbDemandR_agree (hc : ∀ x, B x → cin x = cin' x) (hq : q.Agree B q') {l l' : NbLedger} (hl : l.Agree B l') {x : Cell}
    (hx : B x) : nbDemandR A cin q l x = nbDemandR A cin' q' l' x := by
  obtain ⟨h1, h2, h3, h4, h5, h6, h7, h8, h9⟩ := hl x hx
  unfold nbDemandR
  rw [nbOwnR_agree A hc hq hl hx, h4]

theorem nbRedistR_agree (hq : q.Agree B q') {l l' : NbLedger} (hl : l.Agree B l') {x : Cell}
    (hx : B x) (hu : ∀ c ∈ q.order, q.unit x = q.unit c → B c = true) (u : ℝ) :
    (redistributeR A (nbRedist q l x u) l.rip).1 = (redistributeR A (nbRedist q' l' x u) l'.rip).1 ∧
      ∀ c, B c → (redistributeR A (nbRedist q l x u) l.rip).2 c = (redistributeR A (nbRedist q' l' x u) l'.rip).2 c := by
  obtain ⟨h1, h2, h3, h4, h5, h6, h7, h8, h9⟩ := hl x hx
  have e : redistributeR A (nbRedist q l x u) l.rip
      = redistributeR A { nbRedist q l x u with order := q.order.filter B } l.rip :=
    (redistributeR_filter A (nbRedist q l x u) B q.order hu l.rip).symm
  rw [e]
  exact redistR_agree A B { nbRedist q l x u with order := q.order.filter B } (nbRedist q' l' x u) (hq.data x hx).1.symm h4 rfl (hq.data x hx).2.1.symm hq.unit.symm hq.order.symm
    (nbRetNext_agree hl hx) rfl hx (fun c hc => (hq.data c hc).2.2.symm) _ _ fun c hc => (hl c hc).2.1

theorem nbTurnR_agree (hc : ∀ x, B x → cin x = cin' x) (hq : q.Agree B q') {l l' : NbLedger} (hl : l.Agree B l') {x : Cell}
    (hx : B x) (hu : (cin x).useOpt = true → (cin x).hasLake → ∀ c ∈ q.order, q.unit x = q.unit c → B c = true)
    (st : CellState) (up : ℝ) : nbTurnR A rule kRiver cin q l x st up = nbTurnR A rule kRiver cin' q' l' x st up := by
  unfold nbTurnR
  rw [← nbInR_agree A hc hq hl hx, ← nbDemandR_agree A hc hq hl hx]
  apply cellDayR_keep A
  intro h1 h2
  funext u
  exact (nbRedistR_agree A hq hl hx (hu h1 h2) u).1

theorem nbUpdR_agree (hc : ∀ x, B x → cin x = cin' x) (hq : q.Agree B q')
    (hnb : ∀ x, ∀ p ∈ q.nbs x, p.1 ≠ (0, 0) → B p.1 = B x) {l l' : NbLedger} (hl : l.Agree B l') {x : Cell}
    (hx : B x) (hu : (cin x).useOpt = true → (cin x).hasLake → ∀ c ∈ q.order, q.unit x = q.unit c → B c = true)
    (o : CellOut) (st st' : Cell → CellState) (hst : ∀ x, B x → st x = st' x) :
    (nbUpdR A cin q l x o st).Agree B (nbUpdR A cin' q' l' x o st') := by
  obtain ⟨h1, h2, h3, h4, h5, h6, h7, h8, h9⟩ := hl x hx
  have hal : ∀ ret ret' : Cell → Option ℝ, (∀ c, B c → ret c = ret' c) →
      (allocateR A (nbAllocR A cin q l x o) ret).1 = (allocateR A (nbAllocR A cin' q' l' x o) ret').1 ∧
      ∀ c, B c → (allocateR A (nbAllocR A cin q l x o) ret).2.1 c = (allocateR A (nbAllocR A cin' q' l' x o) ret').2.1 c := by
    intro ret ret' hret
    have hsp : allocSplitR A (nbAllocR A cin q l x o) = allocSplitR A (nbAllocR A cin' q' l' x o) := by
      unfold allocSplitR nbAllocR
      simp only
      rw [h4, nbOwnR_agree A hc hq hl hx]
    refine ⟨show (allocSplitR A _).1 = (allocSplitR A _).1 by rw [hsp], fun c hcB => ?_⟩
    obtain ⟨c1, c2, c3, c4, c5, c6, c7, c8, c9⟩ := hl c hcB
    simp only [allocateR]
    rw [hsp]
    have ht : (nbAllocR A cin q l x o).toSupply = (nbAllocR A cin' q' l' x o).toSupply := h4
    by_cases hp : (nbAllocR A cin q l x o).toSupply > 0
    · rw [if_pos hp, if_pos (ht ▸ hp), allocR_fold A, allocR_fold A, hret c hcB, ← ht]
      have e1 : (nbAllocR A cin q l x o).fromDemand c = (nbAllocR A cin' q' l' x o).fromDemand c := c3
      have e2 : (nbAllocR A cin q l x o).nbMap c = (nbAllocR A cin' q' l' x o).nbMap c := c8
      have e3 : c ∈ (nbAllocR A cin q l x o).order ↔ c ∈ (nbAllocR A cin' q' l' x o).order := by
        change c ∈ q.order ↔ c ∈ q'.order
        rw [hq.order, List.mem_filter, and_iff_left hcB]
      rw [e1, e2]
      exact if_congr (and_congr_left' e3) rfl rfl
    · rw [if_neg hp, if_neg (ht ▸ hp), hret c hcB]
  have hret0 : ∀ c, B c → (if (l.takenUp x).isSome then Function.update l.ret x none else l.ret) c
      = (if (l'.takenUp x).isSome then Function.update l'.ret x none else l'.ret) c := by
    intro c hcB
    rw [takenUp_agree hl hx]
    by_cases ht : (l'.takenUp x).isSome
    · rw [if_pos ht, if_pos ht]
      by_cases hcx : c = x
      · subst hcx; rw [Function.update_self, Function.update_self]
      · rw [Function.update_of_ne hcx, Function.update_of_ne hcx, (hl c hcB).2.2.2.2.1]
    · rw [if_neg ht, if_neg ht, (hl c hcB).2.2.2.2.1]
  obtain ⟨ha, har⟩ := hal _ _ hret0
  -- the neighbour
  have hin : ∀ p ∈ q.nbs x, p.1 ≠ (0, 0) → B p.1 := fun p hp h0 => (hnb x p hp h0).trans hx
  have hav : ∀ p ∈ q.nbs x, p.1 ≠ (0, 0) → nbAvailR A cin q st p.1 = nbAvailR A cin' q' st' p.1 := by
    intro p hp h0
    have hb := hin p hp h0
    unfold nbAvailR
    have e3 : p.1 ∈ q.order ↔ p.1 ∈ q'.order := by
      rw [hq.order, List.mem_filter, and_iff_left hb]
    simp only [e3, cellStorageR, hst _ hb, hc _ hb, hq.resOpt]
  have hnbeq : ∀ d, getNeighbour (nbAvailR A cin q st) (q.nbs x) d x q.month q.day l.turned
      = getNeighbour (nbAvailR A cin' q' st') (q'.nbs x) d x q'.month q'.day l'.turned := by
    intro d
    rw [hq.nbs, hq.month, hq.day]
    unfold getNeighbour
    rw [neighbour_congr B _ _ x _ hav]
    by_cases hd : d > 0
    · simp only [if_pos hd]
      by_cases hdate : q.month = 12 ∧ q.day = 31
      · simp only [if_pos hdate]
        obtain ⟨-, -, hf⟩ := neighbour_fold (nbAvailR A cin' q' st') x (q.nbs x) ((0, 0), 0) le_rfl
        by_cases h0 : ((q.nbs x).foldl (neighbourStep (nbAvailR A cin' q' st') x) ((0, 0), 0)).1 = (0, 0)
        · rw [h0]; simp only [ite_self]
        · rcases hf with hf | ⟨p, hp, -, hf⟩
          · rw [hf] at h0; exact absurd rfl h0
          · rw [hf] at h0 ⊢
            have hb := hin p hp h0
            rw [(hl _ hb).2.2.2.2.2.2.2.2, h9]
      · simp only [if_neg hdate]
    · simp only [if_neg hd]
  have hnbB : ∀ d, realCell (getNeighbour (nbAvailR A cin' q' st') (q'.nbs x) d x q'.month q'.day l'.turned) →
      B (getNeighbour (nbAvailR A cin' q' st') (q'.nbs x) d x q'.month q'.day l'.turned) := by
    intro d hre
    rcases neighbour_cases (nbAvailR A cin' q' st') (q'.nbs x) d x q'.month q'.day l'.turned with h0 | ⟨-, p, hp, he, -⟩
    · rw [h0] at hre; exact absurd hre.1 (by simp)
    · rw [he] at hre ⊢
      rw [hq.nbs] at hp
      exact hin p hp fun h => by rw [h] at hre; exact absurd hre.1 (by simp)
  have upd : ∀ {β : Type} (f f' : Cell → β) (v v' : β), (∀ c, B c → f c = f' c) → v = v' →
      ∀ c, B c → ∀ z, Function.update f z v c = Function.update f' z v' c := by
    intro β f f' v v' hf hv c hcB z
    by_cases hcz : c = z
    · subst hcz; rw [Function.update_self, Function.update_self, hv]
    · rw [Function.update_of_ne hcz, Function.update_of_ne hcz, hf c hcB]
  intro c hcB
  unfold nbUpdR
  simp only
  rw [ha, hnbeq, nbRetNext_agree hl hx, nbDailyR_agree A hq hl hx, h4]
  generalize (allocateR A (nbAllocR A cin' q' l' x o) _).1 = a
  have hB' := hnbB a
  generalize getNeighbour (nbAvailR A cin' q' st') (q'.nbs x) a x q'.month q'.day l'.turned = nb at hB'
  refine ⟨?_, ?_, ?_, ?_, ?_, ?_, ?_, ?_, ?_⟩
  · exact upd _ _ _ _ (fun c hc => (hl c hc).1) rfl c hcB x
  · rw [← hc x hx]
    by_cases hlake : (cin x).useOpt = true ∧ (cin x).hasLake
    · rw [if_pos hlake, if_pos hlake]
      exact (nbRedistR_agree A hq hl hx (hu hlake.1 hlake.2) _).2 c hcB
    · rw [if_neg hlake, if_neg hlake]; exact (hl c hcB).2.1
  · exact upd _ _ _ _ (fun c hc => (hl c hc).2.2.1) rfl c hcB x
  · have h0 : ∀ c, B c → (if l'.toSupply x > 0 then Function.update l.toSupply x 0 else l.toSupply) c
        = (if l'.toSupply x > 0 then Function.update l'.toSupply x 0 else l'.toSupply) c := by
      intro c hcB
      by_cases ht : l'.toSupply x > 0
      · rw [if_pos ht, if_pos ht]; exact upd _ _ _ _ (fun c hc => (hl c hc).2.2.2.1) rfl c hcB x
      · rw [if_neg ht, if_neg ht]; exact (hl c hcB).2.2.2.1
    by_cases hre : realCell nb
    · rw [if_pos hre, if_pos hre]
      exact upd _ _ _ _ h0 (by rw [h0 nb (hB' hre)]) c hcB nb
    · rw [if_neg hre, if_neg hre]; exact h0 c hcB
  · exact har c hcB
  · exact upd _ _ _ _ (fun c hc => (hl c hc).2.2.2.2.2.1) rfl c hcB x
  · have hd0 := fun c hcB => upd l.daily l'.daily (nbDailyR A q' l' x) _ (fun c hc => (hl c hc).2.2.2.2.2.2.1) rfl c hcB x
    by_cases hre : realCell nb
    · rw [h9, (hl nb (hB' hre)).2.2.2.2.2.2.2.2]
      by_cases ht : realCell nb ∧ l'.turned nb > l'.turned x
      · rw [if_pos ht, if_pos ht]; exact upd _ _ _ _ hd0 rfl c hcB x
      · rw [if_neg ht, if_neg ht]; exact hd0 c hcB
    · rw [if_neg (fun h => hre h.1), if_neg (fun h => hre h.1)]; exact hd0 c hcB
  · exact upd _ _ _ _ (fun c hc => (hl c hc).2.2.2.2.2.2.2.1) rfl c hcB x
  · exact upd _ _ _ _ (fun c hc => (hl c hc).2.2.2.2.2.2.2.2) rfl c hcB x

/-- The turn of a cell outside leaves the ledger inside as it is. -/
theorem nbUpdR_outside (hnb : ∀ x, ∀ p ∈ q.nbs x, p.1 ≠ (0, 0) → B p.1 = B x) {l l' : NbLedger} (hl : l.Agree B l')
    (hm : NbClosed B l.nbMap) {x : Cell} (hx : ¬ B x) (hx0 : x ≠ (0, 0))
    (hu : (cin x).useOpt = true → (cin x).hasLake → ∀ c ∈ q.order, q.unit x = q.unit c → ¬ B c)
    (o : CellOut) (st : Cell → CellState) : (nbUpdR A cin q l x o st).Agree B l' := by
  have hnbB : ∀ d, realCell (getNeighbour (nbAvailR A cin q st) (q.nbs x) d x q.month q.day l.turned) →
      ¬ B (getNeighbour (nbAvailR A cin q st) (q.nbs x) d x q.month q.day l.turned) := by
    intro d hre
    rcases neighbour_cases (nbAvailR A cin q st) (q.nbs x) d x q.month q.day l.turned with h0 | ⟨-, p, hp, he, -⟩
    · rw [h0] at hre; exact absurd hre.1 (by simp)
    · rw [he] at hre ⊢
      rw [hnb x p hp fun h => by rw [h] at hre; exact absurd hre.1 (by simp)]
      exact hx
  intro c hcB
  have hcx : c ≠ x := fun e => hx (e ▸ hcB)
  obtain ⟨c1, c2, c3, c4, c5, c6, c7, c8, c9⟩ := hl c hcB
  have hret : ∀ ret : Cell → Option ℝ, (allocateR A (nbAllocR A cin q l x o) ret).2.1 c = ret c := by
    intro ret
    simp only [allocateR]
    by_cases hp : (nbAllocR A cin q l x o).toSupply > 0
    · rw [if_pos hp, allocR_fold A, if_neg]
      rintro ⟨-, he⟩
      have he' : l.nbMap c = x := he
      rcases hm c with h0 | h0
      · exact hx0 (he' ▸ h0)
      · rw [he'] at h0; exact hx (h0.trans hcB)
    · rw [if_neg hp]
  unfold nbUpdR
  simp only
  generalize ha : (allocateR A (nbAllocR A cin q l x o) _).1 = a
  have hB' := hnbB a
  generalize getNeighbour (nbAvailR A cin q st) (q.nbs x) a x q.month q.day l.turned = nb at hB'
  refine ⟨?_, ?_, ?_, ?_, ?_, ?_, ?_, ?_, ?_⟩
  · rw [Function.update_of_ne hcx, c1]
  · by_cases hlake : (cin x).useOpt = true ∧ (cin x).hasLake
    · rw [if_pos hlake, redistR_other A _ _ c ?_ hcx, c2]
      intro hmem
      rw [RedistIn.riparian, List.mem_filter] at hmem
      exact hu hlake.1 hlake.2 c hmem.1 (of_decide_eq_true hmem.2).1 hcB
    · rw [if_neg hlake, c2]
  · rw [Function.update_of_ne hcx, c3]
  · have h0 : (if l.toSupply x > 0 then Function.update l.toSupply x 0 else l.toSupply) c = l.toSupply c := by
      by_cases ht : l.toSupply x > 0
      · rw [if_pos ht, Function.update_of_ne hcx]
      · rw [if_neg ht]
    by_cases hre : realCell nb
    · rw [if_pos hre, Function.update_of_ne (fun e : c = nb => hB' hre (e ▸ hcB)), h0, c4]
    · rw [if_neg hre, h0, c4]
  · rw [hret]
    by_cases ht : (l.takenUp x).isSome
    · rw [if_pos ht, Function.update_of_ne hcx, c5]
    · rw [if_neg ht, c5]
  · rw [Function.update_of_ne hcx, c6]
  · by_cases hre : realCell nb ∧ l.turned nb > l.turned x
    · rw [if_pos hre, Function.update_of_ne hcx, Function.update_of_ne hcx, c7]
    · rw [if_neg hre, Function.update_of_ne hcx, c7]
  · rw [Function.update_of_ne hcx, c8]
  · rw [Function.update_of_ne hcx, c9]

theorem nbUpdR_closed (hnb : ∀ x, ∀ p ∈ q.nbs x, p.1 ≠ (0, 0) → B p.1 = B x) {l : NbLedger} (hm : NbClosed B l.nbMap)
    (x : Cell) (o : CellOut) (st : Cell → CellState) : NbClosed B (nbUpdR A cin q l x o st).nbMap := by
  intro c
  unfold nbUpdR
  simp only
  by_cases hcx : c = x
  · subst hcx
    rw [Function.update_self]
    generalize (allocateR A _ _).1 = a
    by_cases h0 : getNeighbour (nbAvailR A cin q st) (q.nbs c) a c q.month q.day l.turned = (0, 0)
    · exact Or.inl h0
    · rcases neighbour_cases (nbAvailR A cin q st) (q.nbs c) a c q.month q.day l.turned with h | ⟨-, p, hp, he, -⟩
      · exact Or.inl h
      · right
        rw [he] at h0 ⊢
        exact hnb c p hp h0
  · rw [Function.update_of_ne hcx]
    exact hm c

/-- A day of the routing loop. -/
theorem nbDayRunR_agree {world : List (Cell × Cell)} (hup : UpstreamClosed world B) (hc : ∀ x, B x → cin x = cin' x)
    (hq : q.Agree B q') (hnb : ∀ x, ∀ p ∈ q.nbs x, p.1 ≠ (0, 0) → B p.1 = B x)
    (hu : ∀ x, (cin x).useOpt = true → (cin x).hasLake → ∀ c ∈ q.order, q.unit x = q.unit c → B c = B x)
    (h0 : (0, 0) ∉ world.map Prod.fst) {l l' : NbLedger} (hl : l.Agree B l') (hm : NbClosed B l.nbMap)
    {st st' : Cell → CellState} (hst : ∀ x, B x → st x = st' x) :
    NetAgree B (NbAgree B) (nbDayRunR A rule kRiver cin q world l st) (nbDayRunR A rule kRiver cin' q' (masked world B) l' st') := by
  unfold nbDayRunR routeR
  apply routeR_masked A B (NbAgree B) _ _ world hup
  · rintro b b' x up hx ⟨hb1, hb2, hb3⟩
    have hu' := fun h1 h2 c hc e => (hu x h1 h2 c hc e).trans hx
    have ho := nbTurnR_agree A rule kRiver hc hq hb1 hx hu' (b.state x) up
    rw [show nbTurnR A rule kRiver cin' q' b'.demand x (b.state x) up = nbTurnR A rule kRiver cin' q' b'.demand x (b'.state x) up by
      rw [(hb3 x hx).1]] at ho
    constructor
    · simp only [nbNodeR]
      rw [ho]
      refine ⟨nbUpdR_agree A hc hq hnb hb1 hx hu' _ _ _ ?_, nbUpdR_closed A hnb hb2 x _ _, fun c hcB => ?_⟩
      · intro c hcB
        by_cases hcx : c = x
        · subst hcx; simp only [Function.update_self]
        · simp only [Function.update_of_ne hcx]; exact (hb3 c hcB).1
      · by_cases hcx : c = x
        · subst hcx; simp only [Function.update_self, and_self]
        · simp only [Function.update_of_ne hcx]; exact hb3 c hcB
    · simp only [nbNodeR]
      rw [ho, nbInR_agree A hc hq hb1 hx, nbDemandR_agree A hc hq hb1 hx, (hb3 x hx).1]
  · rintro b b' x hxw up hx ⟨hb1, hb2, hb3⟩
    simp only [nbNodeR]
    refine ⟨nbUpdR_outside A hnb hb1 hb2 hx (fun e => h0 (e ▸ hxw)) (fun h1 h2 c hc e k => hx ((hu x h1 h2 c hc e) ▸ k)) _ _,
      nbUpdR_closed A hnb hb2 x _ _, fun c hcB => ?_⟩
    have hcx : c ≠ x := fun e => hx (e ▸ hcB)
    simp only [Function.update_of_ne hcx]
    exact hb3 c hcB
  · exact ⟨⟨hl, hm, fun x hx => ⟨hst x hx, rfl⟩⟩, fun _ _ => rfl, fun _ _ => rfl, fun _ _ => rfl⟩

end

/-! ## The claim -/

/-- Two days of runs with neighbours are the same in the region: the states they started with, the outputs of the cells, the
water between the cells and the states they left. -/
structure NbSameDay (B : Cell → Bool) (t t' : NbSim × NbWgDay × NetState (Basin NbLedger) × NbSim) : Prop where
  start : t.1.Agree B t'.1
  out : ∀ x, B x → t.2.2.1.ledger.out x = t'.2.2.1.ledger.out x
  flows : ∀ x, B x → t.2.2.1.up x = t'.2.2.1.up x ∧ t.2.2.1.inflow x = t'.2.2.1.inflow x ∧ t.2.2.1.flow x = t'.2.2.1.flow x
  close : t.2.2.2.Agree B t'.2.2.2

section
variable (par : Cell → FullPar) (r : NbRun) (B : Cell → Bool)

theorem nbWgDayR_agree (hr : r.Cut B) (d d' : NbWgDay) (hd : d.Agree B d') (hs : d.ShoresWhole B r) (s s' : NbSim)
    (h : s.Agree B s') (hm : NbClosed B s.carry.nbMap) :
    let r' : NbRun := { r with order := masked r.order B }
    NbSameDay B (s, d, d.netR A rule kRiver par r s, d.nextR A rule kRiver par r s)
        (s', d', d'.netR A rule kRiver par r' s', d'.nextR A rule kRiver par r' s') ∧
      NbClosed B (d.nextR A rule kRiver par r s).carry.nbMap := by
  intro r'
  have hfull : ∀ x, B x → s.full x = s'.full x := fun x hx => (h x hx).2.2.2.2.2
  have hstate : ∀ x, B x → s.carry.state x = s'.carry.state x := fun x hx => congrArg FullState.lat (hfull x hx)
  have hcin : ∀ x, B x → (d.latR A par s).cin x = (d'.latR A par s').cin x := by
    intro x hx
    obtain ⟨w, l, -, -⟩ := hd.2.2 x hx
    simp only [NbWgDay.latR]
    rw [w, l, hfull x hx]
  have hq : ((d.latR A par s).nbDay r s.carry).Agree B ((d'.latR A par s').nbDay r' s'.carry) :=
    ⟨masked_cells B _, rfl, rfl, rfl, hd.1.symm, hd.2.1.symm, rfl, fun x hx =>
      ⟨congrArg Unsat.prev (h x hx).1.symm, (hd.2.2 x hx).2.2.1.symm, (hd.2.2 x hx).2.2.2.symm⟩⟩
  have hl : ((d.latR A par s).ledgerR A r s.carry).Agree B ((d'.latR A par s').ledgerR A r' s'.carry) := by
    intro x hx
    obtain ⟨h1, h2, h3, h4, h5, -⟩ := h x hx
    refine ⟨?_, h2, h3, h4, rfl, rfl, ?_, h5, rfl⟩
    · simp only [NbDayIn.ledgerR]
      rw [hcin x hx, h1]
      simp only [NbWgDay.latR]
      rw [(hd.2.2 x hx).2.2.1]
    · simp only [NbDayIn.ledgerR]; rw [h1]
  have hu : ∀ x, ((d.latR A par s).cin x).useOpt = true → ((d.latR A par s).cin x).hasLake →
      ∀ c ∈ ((d.latR A par s).nbDay r s.carry).order, r.unit x = r.unit c → B c = B x := by
    intro x h1 h2
    exact hs x h1 h2
  have key := nbDayRunR_agree A rule kRiver (world := r.order) hr.upstream hcin hq hr.neighbours hu hr.cells hl hm hstate
  have hn : d.netR A rule kRiver par r s = nbDayRunR A rule kRiver (d.latR A par s).cin ((d.latR A par s).nbDay r s.carry)
    r.order ((d.latR A par s).ledgerR A r s.carry) s.carry.state := rfl
  have hn' : d'.netR A rule kRiver par r' s' = nbDayRunR A rule kRiver (d'.latR A par s').cin
    ((d'.latR A par s').nbDay r' s'.carry) (masked r.order B) ((d'.latR A par s').ledgerR A r' s'.carry) s'.carry.state := rfl
  rw [← hn, ← hn'] at key
  obtain ⟨⟨k1, k2, k3⟩, kin, kup, kflow⟩ := key
  refine ⟨⟨h, fun x hx => (k3 x hx).2, fun x hx => ⟨kup x hx, kin x hx, kflow x hx⟩, fun x hx => ?_⟩, k2⟩
  obtain ⟨e1, e2, e3, e4, e5, e6, e7, e8, e9⟩ := k1 x hx
  refine ⟨?_, e2, e3, e4, e8, ?_⟩
  · have hdate : decide ((d.latR A par s).month = 12 ∧ (d.latR A par s).day = 31)
        = decide ((d'.latR A par s').month = 12 ∧ (d'.latR A par s').day = 31) := by
      apply decide_eq_decide.mpr
      change d.month = 12 ∧ d.day = 31 ↔ d'.month = 12 ∧ d'.day = 31
      rw [hd.1, hd.2.1]
    change nbEndOfDayR A ((d.latR A par s).cin x).useOpt r.delayed _ ((d.netR A rule kRiver par r s).ledger.demand.acc x)
        ((d.netR A rule kRiver par r s).ledger.demand.ret x) ((d.netR A rule kRiver par r s).ledger.demand.retNext x)
        ((d.netR A rule kRiver par r s).ledger.demand.daily x) (s.carry.unsat x)
      = nbEndOfDayR A ((d'.latR A par s').cin x).useOpt r.delayed _ ((d'.netR A rule kRiver par r' s').ledger.demand.acc x)
        ((d'.netR A rule kRiver par r' s').ledger.demand.ret x) ((d'.netR A rule kRiver par r' s').ledger.demand.retNext x)
        ((d'.netR A rule kRiver par r' s').ledger.demand.daily x) (s'.carry.unsat x)
    rw [e1, e5, e6, e7, hcin x hx, (h x hx).1, hdate]
  · have hw := (hd.2.2 x hx).1
    have hv : s.vert x = s'.vert x := congrArg FullState.vert (hfull x hx)
    have hla : s.land x = s'.land x := congrArg FullState.land (hfull x hx)
    have k4 := (k3 x hx).1
    have k5 := (k3 x hx).2
    change (⟨_, _, (d.netR A rule kRiver par r s).ledger.state x⟩ : FullState)
      = ⟨_, _, (d'.netR A rule kRiver par r' s').ledger.state x⟩
    simp only [NbWgDay.nextR]
    rw [k4, k5, hw, hv, hla, hfull x hx]

/-- **C96.**  With water supply from neighbouring cells a run of a basin that contains everything upstream of it, and with
every cell its neighbours and the shores of its lake or reservoir, computes in its cells what the simulation of the world
computes there, to the last bit, whatever the data outside are. -/
theorem C96_neighbour_basin_run (hr : r.Cut B) (days days' : List NbWgDay)
    (hdays : List.Forall₂ (fun d d' => d.Agree B d' ∧ d.ShoresWhole B r) days days') (s s' : NbSim)
    (h : s.Agree B s') (hm : NbClosed B s.carry.nbMap) :
    List.Forall₂ (NbSameDay B) (nbRunR A rule kRiver par r s days)
      (nbRunR A rule kRiver par { r with order := masked r.order B } s' days') := by
  induction hdays generalizing s s' with
  | nil => exact .nil
  | cons hd _ ih =>
    obtain ⟨k1, k2⟩ := nbWgDayR_agree A rule kRiver par r B hr _ _ hd.1 hd.2 s s' h hm
    exact .cons k1 (ih _ _ k1.close k2)

theorem NbSim.Agree.symm_trans {B : Cell → Bool} {a b m : NbSim} (h : a.Agree B m) (k : b.Agree B m) : a.Agree B b := by
  intro x hx
  obtain ⟨a1, a2, a3, a4, a5, a6⟩ := h x hx
  obtain ⟨b1, b2, b3, b4, b5, b6⟩ := k x hx
  exact ⟨a1.trans b1.symm, a2.trans b2.symm, a3.trans b3.symm, a4.trans b4.symm, a5.trans b5.symm, a6.trans b6.symm⟩

/-- **C96.**  With water supply from neighbouring cells nothing that happens outside such a region changes a bit inside. -/
theorem C96_neighbour_upstream_only (hr : r.Cut B) (days days' : List NbWgDay)
    (hdays : List.Forall₂ (fun d d' => d.Agree B d' ∧ d.ShoresWhole B r ∧ d'.ShoresWhole B r) days days') (s s' : NbSim)
    (h : s.Agree B s') (hm : NbClosed B s.carry.nbMap) (hm' : NbClosed B s'.carry.nbMap) :
    List.Forall₂ (NbSameDay B) (nbRunR A rule kRiver par r s days) (nbRunR A rule kRiver par r s' days') := by
  have h1 := C96_neighbour_basin_run A rule kRiver par r B hr days days' (hdays.imp fun _ _ k => ⟨k.1, k.2.1⟩) s s' h hm
  have h2 := C96_neighbour_basin_run A rule kRiver par r B hr days' days'
    (forall₂_self (Q := fun d => d.ShoresWhole B r) (fun d k => ⟨⟨rfl, rfl, fun _ _ => ⟨rfl, rfl, rfl, rfl⟩⟩, k⟩)
      (fun _ _ k => k.2.2) hdays) s' s' (fun _ _ => ⟨rfl, rfl, rfl, rfl, rfl, rfl⟩) hm'
  revert h1 h2
  generalize nbRunR A rule kRiver par { r with order := masked r.order B } s' days' = m
  generalize nbRunR A rule kRiver par r s days = a
  generalize nbRunR A rule kRiver par r s' days' = b
  intro h1 h2
  induction h1 generalizing b with
  | nil => cases h2; exact .nil
  | cons k _ ih =>
    cases h2 with
    | cons l h2 =>
      exact .cons ⟨k.start.symm_trans l.start, fun x hx => (k.out x hx).trans (l.out x hx).symm,
        fun x hx => ⟨(k.flows x hx).1.trans (l.flows x hx).1.symm, (k.flows x hx).2.1.trans (l.flows x hx).2.1.symm,
          (k.flows x hx).2.2.trans (l.flows x hx).2.2.symm⟩, k.close.symm_trans l.close⟩ (ih _ h2)

/-- The state after the days of a run with neighbours that started in `s`. -/
noncomputable def nbLastState (s : NbSim) (run : List (NbSim × NbWgDay × NetState (Basin NbLedger) × NbSim)) : NbSim :=
  (run.getLast?.map fun t => t.2.2.2).getD s

/-- **C96.**  With water supply from neighbouring cells a run that continues from the state of another computes the days the
uninterrupted run would have computed, to the last bit. -/
theorem C96_neighbour_continued (s : NbSim) (days days' : List NbWgDay) :
    nbRunR A rule kRiver par r s (days ++ days')
      = nbRunR A rule kRiver par r s days
        ++ nbRunR A rule kRiver par r (nbLastState s (nbRunR A rule kRiver par r s days)) days' := by
  induction days generalizing s with
  | nil => rfl
  | cons d ds ih =>
    simp only [List.cons_append, nbRunR]
    rw [ih]
    congr 3
    cases ds with
    | nil => rfl
    | cons d' ds => simp only [nbLastState, nbRunR, List.getLast?_cons, Option.map_some, Option.getD_some]

end

/-! ## Years in which reservoirs start to operate -/

section
variable (tot : List ℝ → ℝ) (G : Grid) (r : NbRun) (B : Cell → Bool)

theorem nbYearStartR_agree (hu : G.UnitsWhole B) (y y' : NbYear) (hg : y.glores = y'.glores)
    (ha : ∀ x, B x → y.resArea x = y'.resArea x) (s s' : NbSim) (h : s.Agree B s') :
    (nbYearStartR A tot G y s).Agree B (nbYearStartR A tot G y' s') := by
  have hf : ∀ x, B x → s.full x = s'.full x := fun x hx => (h x hx).2.2.2.2.2
  intro x hx
  obtain ⟨h1, h2, h3, h4, h5, h6⟩ := h x hx
  have k := handLostR_agree A tot G.cells G.assign y.resArea y'.resArea
    (fun z => yearLostR A (G.area z) (G.frac z) (y.glores z) (s.full z))
    (fun z => yearLostR A (G.area z) (G.frac z) (y'.glores z) (s'.full z))
    (fun z => (s.carry.state z).res) (fun z => (s'.carry.state z).res) B hu ha
    (fun z hz => by rw [hg, hf z hz]) (fun z hz => congrArg (fun f : FullState => f.lat.res) (hf z hz)) x hx
  refine ⟨h1, h2, h3, h4, h5, ?_⟩
  have e1 : s.carry.state x = s'.carry.state x := congrArg FullState.lat h6
  have e2 : s.land x = s'.land x := congrArg FullState.land h6
  have e3 : s.vert x = s'.vert x := congrArg FullState.vert h6
  simp only [hg] at k
  simp only [NbSim.full] at k
  simp only [NbSim.full, nbYearStartR, e1, e2, e3, hg, k]

theorem nbLastState_agree (s s' : NbSim) (h : s.Agree B s')
    {a b : List (NbSim × NbWgDay × NetState (Basin NbLedger) × NbSim)} (hab : List.Forall₂ (NbSameDay B) a b) :
    (nbLastState s a).Agree B (nbLastState s' b) := by
  induction hab generalizing s s' with
  | nil => exact h
  | @cons t t' l l' k hl ih =>
    have e : ∀ z u m, nbLastState z (u :: m) = nbLastState u.2.2.2 m := by
      intro z u m
      unfold nbLastState
      cases m <;> simp [List.getLast?_cons]
    rw [e, e]
    exact ih _ _ k.close

theorem nbLastState_closed (par : Cell → FullPar) (hr : r.Cut B) (days : List NbWgDay)
    (hd : ∀ d ∈ days, d.ShoresWhole B r) (s : NbSim) (hm : NbClosed B s.carry.nbMap) :
    NbClosed B (nbLastState s (nbRunR A rule kRiver par r s days)).carry.nbMap := by
  induction days generalizing s with
  | nil => exact hm
  | cons d ds ih =>
    have e : ∀ z u m, nbLastState z (u :: m) = nbLastState u.2.2.2 m := by
      intro z u m
      unfold nbLastState
      cases m <;> simp [List.getLast?_cons]
    simp only [nbRunR]
    rw [e]
    exact ih (fun e he => hd e (List.mem_cons_of_mem _ he)) _
      (nbWgDayR_agree A rule kRiver par r B hr d d ⟨rfl, rfl, fun _ _ => ⟨rfl, rfl, rfl, rfl⟩⟩ (hd d List.mem_cons_self) s s
        (fun _ _ => ⟨rfl, rfl, rfl, rfl, rfl, rfl⟩) hm).2

/-- **C96.**  So does a run of such a basin over years in which reservoirs start to operate, if each lake or reservoir lies
with all its cells on one side of the boundary. -/
theorem C96_neighbour_years_basin_run (hr : r.Cut B) (hu : G.UnitsWhole B) (g : Cell → ℝ)
    (days days' : List NbWgDay) (hdays : List.Forall₂ (fun d d' => d.Agree B d' ∧ d.ShoresWhole B r) days days')
    (years years' : List NbYear) (hy : List.Forall₂ (NbYear.Agree r B) years years') (s s' : NbSim) (h : s.Agree B s')
    (hm : NbClosed B s.carry.nbMap) :
    List.Forall₂ (fun t t' => t.1 = t'.1 ∧ NbSameDay B t.2 t'.2)
      (nbSpanR A rule kRiver r tot G g days s years)
      (nbSpanR A rule kRiver { r with order := masked r.order B } tot G g days' s' years') := by
  induction hy generalizing g days days' s s' with
  | nil =>
    have k := C96_neighbour_basin_run A rule kRiver (G.parR A g) r B hr days days' hdays s s' h hm
    exact List.forall₂_map_left_iff.2 (List.forall₂_map_right_iff.2 (k.imp fun _ _ k => ⟨rfl, k⟩))
  | @cons y y' ys ys' hyy _ ih =>
    have k := C96_neighbour_basin_run A rule kRiver (G.parR A g) r B hr days days' hdays s s' h hm
    obtain ⟨hg, ha, hd⟩ := hyy
    have hsh : ∀ d ∈ days, d.ShoresWhole B r := by
      have hds := hdays
      clear h hm k hdays
      induction hds with
      | nil => intro d hd; cases hd
      | cons k _ ihd =>
        intro d hd
        rcases List.mem_cons.1 hd with rfl | hd
        · exact k.2
        · exact ihd d hd
    have i := ih y.glores y.days y'.days hd _ _
      (nbYearStartR_agree A tot G B hu y y' hg ha _ _ (nbLastState_agree B s s' h k))
      (nbLastState_closed A rule kRiver r B (G.parR A g) hr days hsh s hm)
    simp only [nbSpanR]
    rw [← hg]
    exact List.rel_append (List.forall₂_map_left_iff.2 (List.forall₂_map_right_iff.2 (k.imp fun _ _ k => ⟨rfl, k⟩))) i

end

/-! ## The hypotheses are met -/

/-- The island does not notice the demand of the far cell, in binary64. -/
example (rule : HanIn → ℝ → ℝ × ℝ) (kRiver : CellIn → ℝ → ℝ) :=
  C96_neighbour_basin_run binary64 rule kRiver (fun _ => exFull) islandRun island islandRun_cut [waitDay, waitDay]
  [{ waitDay with pot := fun x => if x = (1, 2) then 1 else if x = (5, 5) then 77 else 0 },
   { waitDay with unagg := fun x => if x = (1, 1) then 1 else if x = (5, 5) then 77 else 0 }]
  (by
    have key : ∀ x : Cell, island x → x ≠ (5, 5) := by rintro x hx rfl; revert hx; decide
    refine .cons ⟨⟨rfl, rfl, fun x hx => ⟨rfl, rfl, ?_, rfl⟩⟩, waitDay_shores⟩
      (.cons ⟨⟨rfl, rfl, fun x hx => ⟨rfl, rfl, rfl, ?_⟩⟩, waitDay_shores⟩ .nil)
    · simp [waitDay, key x hx]
    · simp [waitDay, key x hx])
  waitSim waitSim (fun _ _ => ⟨rfl, rfl, rfl, rfl, rfl, rfl⟩) island_asked

example (rule : HanIn → ℝ → ℝ × ℝ) (kRiver : CellIn → ℝ → ℝ) :=
  C96_neighbour_continued binary64 rule kRiver (fun _ => exFull) islandRun waitSim [waitDay] [waitDay, waitDay]

/-- The island notices neither the demand nor the reservoir of the far cell. -/
example (rule : HanIn → ℝ → ℝ × ℝ) (kRiver : CellIn → ℝ → ℝ) (tot : List ℝ → ℝ) :=
  C96_neighbour_years_basin_run binary64 rule kRiver tot islandGrid islandRun island islandRun_cut islandGrid_whole
  (fun _ => 0) [waitDay]
  [{ waitDay with unagg := fun x => if x = (1, 1) then 1 else if x = (5, 5) then 77 else 0 }]
  (by
    have key : ∀ x : Cell, island x → x ≠ (5, 5) := by rintro x hx rfl; revert hx; decide
    refine .cons ⟨⟨rfl, rfl, fun x hx => ⟨rfl, rfl, rfl, ?_⟩⟩, waitDay_shores⟩ .nil
    simp [waitDay, key x hx])
  [damYear] [{ damYear with resArea := fun x => if x = (5, 5) then 0 else 50 }]
  (by
    have key : ∀ x : Cell, island x → x ≠ (5, 5) := by rintro x hx rfl; revert hx; decide
    exact .cons ⟨rfl, fun x hx => by simp [damYear, key x hx],
      .cons ⟨⟨rfl, rfl, fun x hx => ⟨rfl, rfl, rfl, rfl⟩⟩, waitDay_shores⟩ .nil⟩ .nil)
  waitSim waitSim (fun _ _ => ⟨rfl, rfl, rfl, rfl, rfl, rfl⟩) island_asked

/-- The island does not notice the demand of the far cell. -/
example (rule : HanIn → ℝ → ℝ × ℝ) (kRiver : CellIn → ℝ → ℝ) :=
  C96_neighbour_upstream_only binary64 rule kRiver (fun _ => exFull) islandRun island islandRun_cut [waitDay]
  [{ waitDay with unagg := fun x => if x = (1, 1) then 1 else if x = (5, 5) then 77 else 0 }]
  (by
    have key : ∀ x : Cell, island x → x ≠ (5, 5) := by rintro x hx rfl; revert hx; decide
    refine .cons ⟨⟨rfl, rfl, fun x hx => ⟨rfl, rfl, rfl, ?_⟩⟩, waitDay_shores, waitDay_shores⟩ .nil
    simp [waitDay, key x hx])
  waitSim waitSim (fun _ _ => ⟨rfl, rfl, rfl, rfl, rfl, rfl⟩) island_asked island_asked

end WG
