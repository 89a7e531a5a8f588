import Verif.Model.LakeWetland
import Verif.Props.Groundwater
import Verif.Lemmas.Exp
import Mathlib.Analysis.Convex.SpecificFunctions.Basic

/-! Properties C13, C14: lakes and wetlands. -/

namespace WG

/-- Sensible inputs of a day. -/
structure LakeIn.Physical (i : LakeIn) : Prop where
  precip : 0 ≤ i.precip
  openPet : 0 ≤ i.openPet
  inflow : 0 ≤ i.inflow
  k : 0 < i.k
  gw : 0 ≤ i.gwConst
  redExp : 0 < i.redExp
  maxStorage : 0 < i.maxStorage
  maxArea : 0 ≤ i.maxArea
  frac : 0 ≤ i.frac
  demand : 0 ≤ i.demand

/-- The lowest storage of the water body: minus the capacity for lakes, zero for wetlands. -/
def lowest (kind : LakeKind) (cap : ℝ) : ℝ :=
  match kind with
  | .localLake => -cap
  | .globalLake => -cap
  | .localWetland => 0
  | .globalWetland => 0

section
variable (kind : LakeKind) (i : LakeIn) (s : ℝ)

theorem lakeLimit_eq : lakeLimit kind i = lowest kind i.maxStorage := by
  cases kind <;> simp [lakeLimit, lowest]

theorem lakePetMax_eq : lakePetMax kind i s = s - lowest kind i.maxStorage + lakeTotalIn kind i s := by
  cases kind <;> simp [lakePetMax, lowest]

theorem lakeRed_bounds : 0 ≤ lakeRed kind i s ∧ lakeRed kind i s ≤ 1 := C12_fraction _ _ _ _

/-- The open-water area used for the day is between 0 and the maximum area. -/
theorem C13_area (ha : 0 ≤ i.maxArea) : 0 ≤ lakeArea kind i s ∧ lakeArea kind i s ≤ i.maxArea := by
  have h := lakeRed_bounds kind i s
  unfold lakeArea
  split_ifs
  · exact ⟨ha, le_rfl⟩
  · exact ⟨mul_nonneg h.1 ha, by nlinarith⟩

theorem lakeEvap_nonneg : 0 ≤ lakeEvap kind i s := by
  unfold lakeEvap
  simp only
  split_ifs <;> linarith

theorem lakeGwr_nonneg (h : i.Physical) : 0 ≤ lakeGwr kind i s := by
  have ha := (C13_area kind i s h.maxArea).1
  have hr := (lakeRed_bounds kind i s).1
  have hg := h.gw
  unfold lakeGwr
  split_ifs <;> positivity

theorem lakeTotalIn_nonneg (h : i.Physical) : 0 ≤ lakeTotalIn kind i s := by
  have ha := (C13_area kind i s h.maxArea).1
  have := h.inflow
  have := h.precip
  unfold lakeTotalIn
  positivity

theorem lakeDemand_bounds (h : i.Physical) : 0 ≤ lakeDemand kind i ∧ lakeDemand kind i ≤ i.demand := by
  have := h.demand
  unfold lakeDemand
  split_ifs <;> constructor <;> linarith

theorem lakePet_nonneg (h : i.Physical) : 0 ≤ lakePet kind i s := by
  have h1 := lakeEvap_nonneg kind i s
  have h2 := (C13_area kind i s h.maxArea).1
  have h3 := lakeGwr_nonneg kind i s h
  have h4 := (lakeDemand_bounds kind i h).1
  unfold lakePet
  positivity

/-- The losses that actually happen: the potential ones limited by the water that is there. -/
theorem lakeRatio_mul (h : i.Physical) (hs : lowest kind i.maxStorage ≤ s) :
    lakePet kind i s * lakeRatio kind i s = min (lakePet kind i s) (lakePetMax kind i s) ∧
    0 ≤ lakeRatio kind i s ∧ lakeRatio kind i s ≤ 1 := by
  have h1 := lakeTotalIn_nonneg kind i s h
  have h2 : 0 ≤ lakePetMax kind i s := by rw [lakePetMax_eq]; linarith
  have h3 := lakePet_nonneg kind i s h
  unfold lakeRatio
  split_ifs with hc
  · have hp : 0 < lakePet kind i s := lt_of_le_of_lt h2 hc
    refine ⟨?_, by positivity, (div_le_one hp).mpr hc.le⟩
    rw [min_eq_right hc.le]
    field_simp
  · exact ⟨by rw [mul_one, min_eq_left (not_lt.mp hc)], zero_le_one, le_rfl⟩

/-- Storage plus outflow is what was there plus what came in minus the losses that happened. -/
theorem lakeSO_sum (kind : LakeKind) (i : LakeIn) (s : ℝ) :
    (lakeSO kind i s).1 + (lakeSO kind i s).2 =
      s + lakeTotalIn kind i s - min (lakePet kind i s) (lakePetMax kind i s) := by
  have hM := lakePetMax_eq kind i s
  have hL := lakeLimit_eq kind i
  by_cases hc : lakePet kind i s > lakePetMax kind i s
  · rw [min_eq_right hc.le, hM]
    cases kind <;> simp only [lakeSO, globalLakeSO, globalWetlandSO, localSO, if_pos hc, hL] <;>
      (try split_ifs) <;> simp <;> ring
  · rw [min_eq_left (not_lt.mp hc)]
    cases kind <;> simp only [lakeSO, globalLakeSO, globalWetlandSO, localSO, if_neg hc, lakeNetIn] <;>
      (try split_ifs) <;> simp <;> ring

/-- C13: no kind of lake or wetland loses or creates water: storage before plus inflow plus precipitation on the
open-water area equals storage after plus outflow, groundwater recharge, evaporation and abstracted water. -/
theorem C13_lake_balance (h : i.Physical) (hs : lowest kind i.maxStorage ≤ s) :
    let o := lakeBalance kind i s
    s + i.inflow + i.precip * lakeArea kind i s = o.storage + o.outflow + o.gwr + o.evapKm3 + o.use := by
  obtain ⟨hr, -, -⟩ := lakeRatio_mul kind i s h hs
  have hsum := lakeSO_sum kind i s
  have huse : lakeDemand kind i - lakeUnsat kind i s = lakeDemand kind i * lakeRatio kind i s := by
    have hd := (lakeDemand_bounds kind i h).1
    by_cases hg : kind = .globalLake
    · unfold lakeUnsat lakeRatio
      simp only [if_pos hg]
      split_ifs with h1 h2
      · ring
      · have : lakeDemand kind i = 0 := le_antisymm (not_lt.mp h2) hd
        rw [this]; ring
      · ring
    · simp [lakeUnsat, lakeDemand, hg]
  simp only [lakeBalance, huse]
  have e : lakeGwr kind i s * lakeRatio kind i s + lakeEvap kind i s * lakeRatio kind i s * lakeArea kind i s +
      lakeDemand kind i * lakeRatio kind i s = lakePet kind i s * lakeRatio kind i s := by
    unfold lakePet; ring
  have e2 : s + i.inflow + i.precip * lakeArea kind i s = s + lakeTotalIn kind i s := by
    unfold lakeTotalIn; ring
  rw [e2]
  linarith

/-- C13: evaporation, recharge and use are physical: never negative, never above their potential values; only a
global lake serves demand, the satisfied part and the unsatisfied part are the demand it is asked for (half of
the cell's demand if a reservoir shares the cell). -/
theorem C13_lake_fluxes (h : i.Physical) (hs : lowest kind i.maxStorage ≤ s) :
    let o := lakeBalance kind i s
    0 ≤ o.gwr ∧ 0 ≤ o.evapKm3 ∧ 0 ≤ o.use ∧ 0 ≤ o.unsat ∧ 0 ≤ o.newFrac ∧ o.newFrac ≤ i.frac ∧
    o.use + o.unsat = (if kind = .globalLake then (if 0 < i.reservoirArea then i.demand / 2 else i.demand)
      else 0) ∧
    o.evapKm3 ≤ lakeEvap kind i s * lakeArea kind i s ∧
    ((i.arid = false ∨ i.drainageOk = false) → o.gwr = 0) := by
  obtain ⟨-, hr0, hr1⟩ := lakeRatio_mul kind i s h hs
  have he := lakeEvap_nonneg kind i s
  have ha := C13_area kind i s h.maxArea
  have hg := lakeGwr_nonneg kind i s h
  have hd := (lakeDemand_bounds kind i h).1
  have hfr := h.frac
  have hea : 0 ≤ lakeEvap kind i s * lakeArea kind i s := mul_nonneg he ha.1
  have hun : 0 ≤ lakeUnsat kind i s ∧ lakeUnsat kind i s ≤ lakeDemand kind i := by
    by_cases hk : kind = .globalLake
    · unfold lakeUnsat
      simp only [if_pos hk]
      split_ifs with h1 h2
      · have hz : lakeRatio kind i s = lakePetMax kind i s / lakePet kind i s := by
          unfold lakeRatio; rw [if_pos h1]
        rw [← hz]
        constructor <;> nlinarith
      · exact ⟨le_rfl, hd⟩
      · exact ⟨le_rfl, hd⟩
    · simp [lakeUnsat, lakeDemand, hk]
  have hred := lakeRed_bounds kind i (lakeSO kind i s).1
  simp only [lakeBalance]
  refine ⟨mul_nonneg hg hr0, ?_, by linarith, hun.1, ?_, ?_, ?_, ?_, ?_⟩
  · have := mul_nonneg he hr0
    exact mul_nonneg this ha.1
  · split_ifs
    · exact le_rfl
    · exact mul_nonneg hred.1 hfr
  · split_ifs
    · exact hfr
    · nlinarith
  · unfold lakeDemand
    simp only [gt_iff_lt]
    split_ifs <;> ring
  · nlinarith
  · intro hz
    have : (i.arid && i.drainageOk) = false := by
      rcases hz with hz | hz <;> simp [hz]
    unfold lakeGwr
    simp [this]

/-- The part of the area (wetlands, local lakes) or of the losses (global lakes) that is left at storage `s`
(Müller Schmied et al. 2021, Eq. 23-24; specification). -/
noncomputable def shrink (kind : LakeKind) (cap e s : ℝ) : ℝ :=
  let range := if kind = .localLake ∨ kind = .globalLake then 2 * cap else cap
  max 0 (1 - (|s - cap| / range) ^ e)

theorem lakeRed_eq_shrink (hm : 0 ≤ i.maxStorage) :
    lakeRed kind i s = shrink kind i.maxStorage i.redExp s := by
  have hd : 0 ≤ |s - i.maxStorage| / (nFactor kind.swb * i.maxStorage) := by
    apply div_nonneg (abs_nonneg _)
    cases kind <;> simp [LakeKind.swb, nFactor, hm]
  have he : (if kind = .localLake ∨ kind = .globalLake then 2 * i.maxStorage else i.maxStorage) =
      nFactor kind.swb * i.maxStorage := by
    cases kind <;> simp [LakeKind.swb, nFactor]
  have hp := Real.rpow_nonneg hd i.redExp
  unfold lakeRed swbRedfactor shrink
  simp only
  rw [he]
  generalize (|s - i.maxStorage| / (nFactor kind.swb * i.maxStorage)) ^ i.redExp = x at *
  by_cases h1 : 1 - x < 0
  · rw [if_pos h1, max_eq_left h1.le]
  · rw [if_neg h1, if_neg (by linarith), max_eq_right (not_lt.mp h1)]

/-- C13, the losses (Müller Schmied et al. 2021, section 4.6): the area shrinks with the storage except for a global
lake, whose evaporation, recharge shrink instead; open-water evaporation is corrected with the areal correction
factor; recharge happens in arid cells that drain to land; only global lakes serve demand.  All losses are reduced by
a common factor, which is 1 unless the water body runs empty; the area for the next day follows from the new
storage. -/
theorem C13_losses (h : i.Physical) (hs : lowest kind i.maxStorage ≤ s) :
    let o := lakeBalance kind i s
    let red := shrink kind i.maxStorage i.redExp s
    let glo : Prop := kind = .globalLake
    let area := if glo then i.maxArea else red * i.maxArea
    let evap := max 0 ((1 - i.cfa) * i.precip + i.cfa * (if glo then red * i.openPet else i.openPet))
    let gwr := if i.arid = true ∧ i.drainageOk = true then
      i.gwConst / 1000 * area * (if glo then red else 1) else 0
    let demand := if glo then (if 0 < i.reservoirArea then i.demand / 2 else i.demand) else 0
    (∃ r, 0 ≤ r ∧ r ≤ 1 ∧ o.evapKm3 = r * (evap * area) ∧ o.gwr = r * gwr ∧ o.use = r * demand ∧
      (r = 1 ∨ (o.storage = lowest kind i.maxStorage ∧ o.outflow = 0))) ∧
    o.newFrac = if glo then 0 else shrink kind i.maxStorage i.redExp o.storage * i.frac := by
  intro o red glo area evap gwr demand
  have hred : lakeRed kind i s = red := lakeRed_eq_shrink kind i s h.maxStorage.le
  have harea : lakeArea kind i s = area := by simp only [lakeArea, area, glo, hred]
  have hevap : lakeEvap kind i s = evap := by
    simp only [lakeEvap, evap, glo, hred]
    rw [show (if kind = .globalLake then i.openPet * red else i.openPet) =
      (if kind = .globalLake then red * i.openPet else i.openPet) by rw [mul_comm]]
    generalize (1 - i.cfa) * i.precip + i.cfa * (if kind = .globalLake then red * i.openPet else i.openPet) = x
    by_cases hx : x < 0
    · rw [if_pos hx, max_eq_left hx.le]
    · rw [if_neg hx, max_eq_right (not_lt.mp hx)]
  have hgwr : lakeGwr kind i s = gwr := by
    simp only [lakeGwr, gwr, glo, hred, harea, Bool.and_eq_true]
    by_cases hg : kind = .globalLake
    · simp only [if_pos hg]
      by_cases ha : i.arid = true ∧ i.drainageOk = true
      · rw [if_pos ha, if_pos ha]; ring
      · rw [if_neg ha, if_neg ha]
    · simp only [if_neg hg]
      by_cases ha : i.arid = true ∧ i.drainageOk = true
      · rw [if_pos ha, if_pos ha]; ring
      · rw [if_neg ha, if_neg ha]
  have hdem : lakeDemand kind i = demand := by
    simp only [lakeDemand, demand, glo, gt_iff_lt]
    by_cases hg : kind = .globalLake
    · simp only [if_pos hg]
      by_cases ha : 0 < i.reservoirArea
      · rw [if_pos ha, if_pos ha]; ring
      · rw [if_neg ha, if_neg ha]
    · simp only [if_neg hg]
  obtain ⟨-, hr0, hr1⟩ := lakeRatio_mul kind i s h hs
  refine ⟨⟨lakeRatio kind i s, hr0, hr1, ?_, ?_, ?_, ?_⟩, ?_⟩
  · simp only [o, lakeBalance, hevap, harea]; ring
  · simp only [o, lakeBalance, hgwr]; ring
  · have hd := (lakeDemand_bounds kind i h).1
    rw [← hdem]
    simp only [o, lakeBalance]
    by_cases hk : kind = .globalLake
    · unfold lakeUnsat lakeRatio
      simp only [if_pos hk]
      by_cases h1 : lakePet kind i s > lakePetMax kind i s
      · simp only [if_pos h1]
        by_cases h2 : lakeDemand kind i > 0
        · rw [if_pos h2]; ring
        · rw [if_neg h2, le_antisymm (not_lt.mp h2) hd]; ring
      · simp only [if_neg h1]; ring
    · simp [lakeUnsat, lakeDemand, hk]
  · by_cases hc : lakePet kind i s > lakePetMax kind i s
    · right
      have hL := lakeLimit_eq kind i
      have hm := h.maxStorage
      simp only [o, lakeBalance]
      cases kind
      · simp only [lakeSO, localSO, if_pos hc, hL, lowest]
        norm_num [hm.le, hm.not_ge, not_lt.mpr]
      · simp only [lakeSO, globalLakeSO, if_pos hc, hL, lowest, and_self]
      · simp only [lakeSO, localSO, if_pos hc, hL, lowest]
        norm_num [hm.le, hm.not_ge, not_lt.mpr]
      · simp only [lakeSO, globalWetlandSO, if_pos hc, hL, lowest]
        norm_num [hm.le, not_lt.mpr]
    · left
      unfold lakeRatio; rw [if_neg hc]
  · simp only [o, lakeBalance, glo]
    rw [lakeRed_eq_shrink kind i _ h.maxStorage.le]

/-- C13, outflow of local lakes and wetlands (Müller Schmied et al. 2021, Eq. 25-26): `k · w · (w / capacity) ^ x`
with `w` the storage of the evening before (lakes) or the water of the day (wetlands), limited by the water that is
there, plus what exceeds the capacity. -/
theorem C13_local_outflow (hk : kind = .localLake ∨ kind = .localWetland) :
    let o := lakeBalance kind i s
    let water := o.storage + o.outflow
    let w := if kind = .localLake then s else water
    let x := if kind = .localLake then i.lakeExp else i.wetlandExp
    let base := if 0 < w ∧ 0 < water then min (i.k * w * (w / i.maxStorage) ^ x) water else 0
    o.outflow = base + max 0 (water - base - i.maxStorage) := by
  obtain ⟨st0, hst⟩ : ∃ st0, st0 = (if lakePet kind i s > lakePetMax kind i s then lakeLimit kind i
      else s + lakeTotalIn kind i s - lakePet kind i s) := ⟨_, rfl⟩
  have hSO : lakeSO kind i s = localSO kind i s := by rcases hk with rfl | rfl <;> rfl
  have hwater : (lakeBalance kind i s).storage + (lakeBalance kind i s).outflow = st0 := by
    simp only [lakeBalance, hSO, localSO]
    rw [← hst]
    split_ifs <;> simp only <;> ring
  intro o water w x base
  have hw : water = st0 := hwater
  have hb : (if (if kind = .localLake then s else st0) > 0 then
      (if st0 ≤ 0 then 0 else
        if i.k * (if kind = .localLake then s else st0) * ((if kind = .localLake then s else st0) /
          i.maxStorage) ^ x > st0 then st0 else i.k * (if kind = .localLake then s else st0) *
            ((if kind = .localLake then s else st0) / i.maxStorage) ^ x) else 0) = base := by
    rw [← hw]
    change (if w > 0 then (if water ≤ 0 then 0 else if i.k * w * (w / i.maxStorage) ^ x > water then water
      else i.k * w * (w / i.maxStorage) ^ x) else 0) = base
    simp only [base]
    by_cases h1 : 0 < w
    · by_cases h2 : 0 < water
      · have h12 : 0 < w ∧ 0 < water := ⟨h1, h2⟩
        by_cases h3 : i.k * w * (w / i.maxStorage) ^ x > water
        · rw [if_pos h1, if_neg (not_le.mpr h2), if_pos h3, if_pos h12, min_eq_right h3.le]
        · rw [if_pos h1, if_neg (not_le.mpr h2), if_neg h3, if_pos h12, min_eq_left (not_lt.mp h3)]
      · rw [if_pos h1, if_pos (not_lt.mp h2), if_neg (fun hh => h2 hh.2)]
    · rw [if_neg h1, if_neg (fun hh => h1 hh.1)]
  have ho : o.outflow = (localSO kind i s).2 := by simp only [o, lakeBalance, hSO]
  rw [ho]
  simp only [localSO]
  rw [← hst]
  simp only [x] at hb
  rw [hb, hw]
  by_cases h1 : st0 - base > i.maxStorage
  · rw [if_pos h1, max_eq_right (by linarith)]
  · rw [if_neg h1, max_eq_left (by linarith [not_lt.mp h1])]; simp

/-- C13, global lakes and wetlands: when the water suffices for the losses, the storage is the value after one day of
the solution of `S' = (inflow + precipitation − losses) − k S`, cut at the capacity; for lakes as long as there is
outflow. -/
theorem C13_global_analytic (h : i.Physical) (hk : kind = .globalLake ∨ kind = .globalWetland)
    (henough : lowest kind i.maxStorage < (lakeBalance kind i s).storage) (hq : kind = .globalLake →
      0 < (lakeBalance kind i s).outflow) :
    let o := lakeBalance kind i s
    ∃ f : ℝ → ℝ, f 0 = s ∧ (∀ t, HasDerivAt f
        ((i.inflow + i.precip * lakeArea kind i s - o.gwr - o.evapKm3 - o.use) - i.k * f t) t) ∧
      o.storage = min (f 1) i.maxStorage := by
  have hm := h.maxStorage
  have hkk := h.k
  have hL := lakeLimit_eq kind i
  have hc : ¬ lakePet kind i s > lakePetMax kind i s := by
    intro hc
    have : (lakeBalance kind i s).storage = lowest kind i.maxStorage := by
      rcases hk with rfl | rfl
      · simp only [lakeBalance, lakeSO, globalLakeSO, if_pos hc, hL]
      · simp only [lakeBalance, lakeSO, globalWetlandSO, if_pos hc, hL, lowest]
        norm_num [hm.le, not_lt.mpr]
    linarith
  have hn : i.inflow + i.precip * lakeArea kind i s - (lakeBalance kind i s).gwr -
      (lakeBalance kind i s).evapKm3 - (lakeBalance kind i s).use = lakeNetIn kind i s := by
    have hr : lakeRatio kind i s = 1 := by unfold lakeRatio; rw [if_neg hc]
    have hu : lakeUnsat kind i s = 0 := by unfold lakeUnsat; rw [if_neg hc, ite_self]
    simp only [lakeBalance, hr, hu]
    unfold lakeNetIn lakeTotalIn lakePet
    ring
  intro o
  refine ⟨fun t => s * Real.exp (-i.k * t) + (lakeNetIn kind i s / i.k) * (1 - Real.exp (-i.k * t)), by simp,
    ?_, ?_⟩
  · intro t
    have hexp : HasDerivAt (fun t : ℝ => Real.exp (-i.k * t)) (Real.exp (-i.k * t) * -i.k) t := by
      have := ((hasDerivAt_id t).const_mul (-i.k)).exp
      simpa using this
    have h2 := (hexp.const_mul s).add (((hasDerivAt_const t (1 : ℝ)).sub hexp).const_mul
      (lakeNetIn kind i s / i.k))
    refine h2.congr_deriv ?_
    rw [hn]
    field_simp
    ring
  · have hA : s * Real.exp (-i.k * 1) + (lakeNetIn kind i s / i.k) * (1 - Real.exp (-i.k * 1)) =
        lakeAnalytic kind i s := by
      unfold lakeAnalytic
      rw [show -i.k * 1 = -1 * i.k by ring]
    simp only [o]
    rw [hA]
    rcases hk with rfl | rfl
    · have hq' := hq rfl
      revert hq'
      simp only [lakeBalance, lakeSO, globalLakeSO, if_neg hc]
      by_cases ha : lakeAnalytic .globalLake i s > i.maxStorage
      · simp only [if_pos ha]
        rw [min_eq_right ha.le]
        split_ifs <;> simp
      · simp only [if_neg ha]
        rw [min_eq_left (not_lt.mp ha)]
        split_ifs <;> simp
    · simp only [lakeBalance, lakeSO, globalWetlandSO, if_neg hc]
      by_cases ha : lakeAnalytic .globalWetland i s > i.maxStorage
      · rw [if_pos ha, min_eq_right ha.le]
      · rw [if_neg ha, min_eq_left (not_lt.mp ha)]

/-- C13 (areal correction): unless the correction would make evaporation negative, precipitation minus corrected
evaporation is the correction factor times precipitation minus (reduced) potential evaporation. -/
theorem C13_evap_correction (kind : LakeKind) (i : LakeIn) (s : ℝ) :
    let pet := if kind = .globalLake then i.openPet * lakeRed kind i s else i.openPet
    (i.precip - lakeEvap kind i s = i.cfa * (i.precip - pet) ∨
      (lakeEvap kind i s = 0 ∧ i.cfa * (i.precip - pet) > i.precip)) := by
  simp only
  unfold lakeEvap
  simp only
  by_cases h : (1 - i.cfa) * i.precip + i.cfa * (if kind = .globalLake then i.openPet * lakeRed kind i s
      else i.openPet) < 0
  · right
    rw [if_pos h]
    exact ⟨rfl, by linarith⟩
  · left
    rw [if_neg h]
    ring

/-! ### C14 -/

/-- C14 for lakes: the storage stays within minus and plus the capacity, the outflow is not negative. -/
theorem C14_lake_bounds (h : i.Physical) (hk : kind = .localLake ∨ kind = .globalLake)
    (h0 : -i.maxStorage ≤ s) (h1 : s ≤ i.maxStorage) :
    let o := lakeBalance kind i s;
    -i.maxStorage ≤ o.storage ∧ o.storage ≤ i.maxStorage ∧ 0 ≤ o.outflow := by
  have hm := h.maxStorage
  have hkk := h.k
  have hT := lakeTotalIn_nonneg kind i s h
  have hlow : lowest kind i.maxStorage = -i.maxStorage := by rcases hk with rfl | rfl <;> rfl
  have hM := lakePetMax_eq kind i s
  have hL := lakeLimit_eq kind i
  rw [hlow] at hM hL
  simp only [lakeBalance]
  rcases hk with hk | hk
  · have hSO : lakeSO kind i s = localSO kind i s := by rw [hk]; rfl
    rw [hSO]
    unfold localSO
    simp only [if_pos hk]
    obtain ⟨x, hx, hx0⟩ : ∃ x, x = (if lakePet kind i s > lakePetMax kind i s then lakeLimit kind i
        else s + lakeTotalIn kind i s - lakePet kind i s) ∧ -i.maxStorage ≤ x := by
      refine ⟨_, rfl, ?_⟩
      split_ifs with hc
      · rw [hL]
      · have := not_lt.mp hc; linarith
    rw [← hx]
    obtain ⟨y, hy, hy0, hy1⟩ : ∃ y, y = (if s > 0 then
        (if x ≤ 0 then 0 else if i.k * s * (s / i.maxStorage) ^ i.lakeExp > x then x
          else i.k * s * (s / i.maxStorage) ^ i.lakeExp) else 0) ∧ 0 ≤ y ∧
        (0 < x → y ≤ x) ∧ (x ≤ 0 → y = 0) := by
      refine ⟨_, rfl, ?_⟩
      split_ifs with a b c
      · exact ⟨le_rfl, fun h => absurd b (not_le.mpr h), fun _ => rfl⟩
      · exact ⟨(not_le.mp b).le, fun _ => le_rfl, fun h => absurd h b⟩
      · exact ⟨by positivity, fun _ => not_lt.mp c, fun h => absurd h b⟩
      · exact ⟨le_rfl, fun h => h.le, fun _ => rfl⟩
    rw [← hy]
    split_ifs with hc
    · exact ⟨by simp only; linarith, le_rfl, by simp only; linarith⟩
    · refine ⟨?_, not_lt.mp hc, hy0⟩
      simp only
      rcases le_or_gt x 0 with hx2 | hx2
      · rw [hy1.2 hx2]; linarith
      · have := hy1.1 hx2; linarith
  · have hSO : lakeSO kind i s = globalLakeSO kind i s := by rw [hk]; rfl
    rw [hSO]
    unfold globalLakeSO
    obtain ⟨e0, e1, e2, c0, c1, c2, c3⟩ := release_facts i.k hkk
    by_cases hc : lakePet kind i s > lakePetMax kind i s
    · simp only [if_pos hc]
      rw [hL]
      exact ⟨le_rfl, by linarith, le_rfl⟩
    · simp only [if_neg hc]
      have hn : -(s + i.maxStorage) ≤ lakeNetIn kind i s := by
        unfold lakeNetIn; have := not_lt.mp hc; linarith
      have hA : lakeAnalytic kind i s = s * Real.exp (-1 * i.k) +
          lakeNetIn kind i s * ((1 - Real.exp (-1 * i.k)) / i.k) := by unfold lakeAnalytic; ring
      have hlo : -i.maxStorage ≤ lakeAnalytic kind i s := by
        rw [hA]
        generalize (1 - Real.exp (-1 * i.k)) / i.k = c at *
        generalize Real.exp (-1 * i.k) = e at *
        generalize lakeNetIn kind i s = n at *
        have hu : 0 ≤ s + i.maxStorage := by linarith
        have a1 : -(s + i.maxStorage) * c ≤ n * c := mul_le_mul_of_nonneg_right hn c0.le
        have a2 : (s + i.maxStorage) * c ≤ (s + i.maxStorage) * ((1 + e) / 2) :=
          mul_le_mul_of_nonneg_left c3 hu
        have a3 : (s + i.maxStorage) * (1 - e) ≤ 2 * i.maxStorage * (1 - e) :=
          mul_le_mul_of_nonneg_right (by linarith) (by linarith)
        nlinarith
      generalize lakeAnalytic kind i s = A at *
      generalize lakeNetIn kind i s = n at *
      split_ifs with a b b
      · exact ⟨by simp only; linarith, by simp only; linarith, le_rfl⟩
      · exact ⟨by simp only; linarith, le_rfl, by simp only; linarith⟩
      · exact ⟨by simp only; linarith, by simp only; linarith, le_rfl⟩
      · exact ⟨by simp only; linarith, by simp only; linarith, by simp only; linarith⟩

/-- C14 for local wetlands: the storage stays within zero and the capacity, the outflow is not negative. -/
theorem C14_local_wetland_bounds (h : i.Physical) (_h0 : 0 ≤ s) :
    let o := lakeBalance .localWetland i s
    0 ≤ o.storage ∧ o.storage ≤ i.maxStorage ∧ 0 ≤ o.outflow := by
  have hm := h.maxStorage
  have hkk := h.k
  have hM := lakePetMax_eq .localWetland i s
  have hL := lakeLimit_eq .localWetland i
  have hlow : lowest .localWetland i.maxStorage = 0 := rfl
  rw [hlow] at hM hL
  have hkind : ¬ (LakeKind.localWetland = LakeKind.localLake) := by decide
  simp only [lakeBalance, lakeSO, localSO, if_neg hkind]
  obtain ⟨x, hx, hx0⟩ : ∃ x, x = (if lakePet .localWetland i s > lakePetMax .localWetland i s then
      lakeLimit .localWetland i
      else s + lakeTotalIn .localWetland i s - lakePet .localWetland i s) ∧ 0 ≤ x := by
    refine ⟨_, rfl, ?_⟩
    split_ifs with hc
    · rw [hL]
    · have := not_lt.mp hc; linarith
  rw [← hx]
  obtain ⟨y, hy, hy0, hy1⟩ : ∃ y, y = (if x > 0 then
      (if x ≤ 0 then 0 else if i.k * x * (x / i.maxStorage) ^ i.wetlandExp > x then x
        else i.k * x * (x / i.maxStorage) ^ i.wetlandExp) else 0) ∧ 0 ≤ y ∧ y ≤ x := by
    refine ⟨_, rfl, ?_⟩
    split_ifs with a b c
    · exact ⟨le_rfl, a.le⟩
    · exact ⟨hx0, le_rfl⟩
    · exact ⟨by positivity, not_lt.mp c⟩
    · exact ⟨le_rfl, hx0⟩
  rw [← hy]
  split_ifs with hc
  · exact ⟨hm.le, le_rfl, by simp only; linarith⟩
  · exact ⟨by simp only; linarith, not_lt.mp hc, hy0⟩

/-- C14 for global wetlands: the storage never exceeds the capacity and the outflow is not negative; the storage
stays non-negative provided that the losses of the day do not exceed the inflow by more than the storage times
`k / (exp k - 1)` (slightly less than 1). -/
theorem C14_global_wetland_bounds (h : i.Physical) (h0 : 0 ≤ s) :
    let o := lakeBalance .globalWetland i s
    o.storage ≤ i.maxStorage ∧ 0 ≤ o.outflow ∧
    (lakePet .globalWetland i s - lakeTotalIn .globalWetland i s ≤ s * (i.k / (Real.exp i.k - 1)) →
      0 ≤ o.storage) := by
  have hm := h.maxStorage
  have hkk := h.k
  have hM := lakePetMax_eq .globalWetland i s
  have hL := lakeLimit_eq .globalWetland i
  have hlow : lowest .globalWetland i.maxStorage = 0 := rfl
  rw [hlow] at hM hL
  obtain ⟨e0, e1, e2, c0, c1, c2, c3⟩ := release_facts i.k hkk
  simp only [lakeBalance, lakeSO, globalWetlandSO]
  by_cases hc : lakePet .globalWetland i s > lakePetMax .globalWetland i s
  · simp only [if_pos hc, hL, gt_iff_lt, if_neg (not_lt.mpr hm.le)]
    exact ⟨hm.le, le_rfl, fun _ => le_rfl⟩
  · have hn : -s ≤ lakeNetIn .globalWetland i s := by
      unfold lakeNetIn; have := not_lt.mp hc; linarith
    have hA : lakeAnalytic .globalWetland i s = s * Real.exp (-1 * i.k) +
        lakeNetIn .globalWetland i s * ((1 - Real.exp (-1 * i.k)) / i.k) := by unfold lakeAnalytic; ring
    have hout : 0 ≤ lakeNetIn .globalWetland i s + s - lakeAnalytic .globalWetland i s := by
      rw [hA]
      have hck : (1 - Real.exp (-1 * i.k)) / i.k * i.k = 1 - Real.exp (-1 * i.k) := by field_simp
      generalize (1 - Real.exp (-1 * i.k)) / i.k = c at *
      generalize Real.exp (-1 * i.k) = e at *
      generalize lakeNetIn .globalWetland i s = n at *
      have a1 : -s * (1 - c) ≤ n * (1 - c) := mul_le_mul_of_nonneg_right hn (by linarith)
      have a2 : 1 - c ≤ 1 - e := by linarith
      have a3 : s * (1 - c) ≤ s * (1 - e) := mul_le_mul_of_nonneg_left a2 h0
      nlinarith
    have hnn : lakePet .globalWetland i s - lakeTotalIn .globalWetland i s ≤ s * (i.k / (Real.exp i.k - 1)) →
        0 ≤ lakeAnalytic .globalWetland i s := by
      intro hcond
      rw [hA]
      have hn2 : -(s * (i.k / (Real.exp i.k - 1))) ≤ lakeNetIn .globalWetland i s := by
        unfold lakeNetIn; linarith
      have hE : 0 < Real.exp i.k - 1 := by
        have := Real.add_one_lt_exp hkk.ne'; linarith
      have hk1 : (i.k / (Real.exp i.k - 1)) * ((1 - Real.exp (-1 * i.k)) / i.k) = Real.exp (-1 * i.k) := by
        have h5 : Real.exp (-1 * i.k) * Real.exp i.k = 1 := by rw [← Real.exp_add]; simp
        have h6 : 1 - Real.exp (-1 * i.k) = Real.exp (-1 * i.k) * (Real.exp i.k - 1) := by
          rw [mul_sub, h5]; ring
        rw [h6]
        field_simp
      have := mul_le_mul_of_nonneg_right hn2 c0.le
      have h7 : -(s * (i.k / (Real.exp i.k - 1))) * ((1 - Real.exp (-1 * i.k)) / i.k) =
          -(s * Real.exp (-1 * i.k)) := by
        rw [neg_mul, mul_assoc, hk1]
      linarith
    simp only [if_neg hc]
    generalize lakeAnalytic .globalWetland i s = A at *
    generalize lakeNetIn .globalWetland i s = n at *
    split_ifs with a
    · exact ⟨le_rfl, by simp only; linarith, fun _ => hm.le⟩
    · exact ⟨not_lt.mp a, hout, hnn⟩

/-- How far below zero a global wetland can end a day, as a part of what it stored before:
`(1 - exp (-k)) / k - exp (-k)`, about half of the outflow coefficient `k`. -/
noncomputable def wetlandReach (k : ℝ) : ℝ := (1 - Real.exp (-1 * k)) / k - Real.exp (-1 * k)

theorem wetlandReach_bounds (k : ℝ) (hk : 0 < k) : 0 ≤ wetlandReach k ∧ wetlandReach k ≤ k ∧ wetlandReach k ≤ 1 := by
  obtain ⟨e0, e1, e2, c0, c1, c2, c3⟩ := release_facts k hk
  have h1 : 1 - k ≤ Real.exp (-1 * k) := by have := Real.add_one_le_exp (-1 * k); linarith
  unfold wetlandReach
  refine ⟨by linarith, ?_, by linarith⟩
  rw [sub_le_iff_le_add, div_le_iff₀ hk]
  nlinarith

/-- A wetland without water has no area, hence no losses. -/
theorem wetland_dry (h : i.Physical) (hs : s ≤ 0) :
    lakeArea .globalWetland i s = 0 ∧ lakePet .globalWetland i s = 0 ∧ lakeTotalIn .globalWetland i s = i.inflow := by
  have hm := h.maxStorage
  have hred : lakeRed .globalWetland i s = 0 := by
    unfold lakeRed swbRedfactor
    simp only [LakeKind.swb, nFactor, one_mul]
    have habs : |s - i.maxStorage| = i.maxStorage - s := by
      rw [abs_sub_comm]; exact abs_of_nonneg (by linarith)
    have h1 : 1 ≤ (i.maxStorage - s) / i.maxStorage := by rw [le_div_iff₀ hm]; linarith
    have h2 : 1 ≤ ((i.maxStorage - s) / i.maxStorage) ^ i.redExp := Real.one_le_rpow h1 h.redExp.le
    rw [habs]
    by_cases h3 : 1 - ((i.maxStorage - s) / i.maxStorage) ^ i.redExp < 0
    · rw [if_pos h3]
    · rw [if_neg h3, if_neg (by linarith)]; linarith [not_lt.mp h3]
  have ha : lakeArea .globalWetland i s = 0 := by simp [lakeArea, hred]
  refine ⟨ha, ?_, ?_⟩
  · simp [lakePet, lakeGwr, lakeDemand, ha]
  · simp [lakeTotalIn, ha]

/-- C14 for global wetlands, exactly when the storage ends the day below zero: iff the losses exceed the inflow by
more than the storage times `k / (exp k - 1)` (slightly less than 1) but by no more than the storage; and by how
much at most. -/
theorem C14_global_wetland_exact (h : i.Physical) (h0 : 0 ≤ s) :
    let o := lakeBalance .globalWetland i s
    let excess := lakePet .globalWetland i s - lakeTotalIn .globalWetland i s
    (o.storage < 0 ↔ s * (i.k / (Real.exp i.k - 1)) < excess ∧ excess ≤ s) ∧
    -(wetlandReach i.k * s) ≤ o.storage := by
  have hm := h.maxStorage
  have hkk := h.k
  have hM := lakePetMax_eq .globalWetland i s
  have hL := lakeLimit_eq .globalWetland i
  have hlow : lowest .globalWetland i.maxStorage = 0 := rfl
  rw [hlow] at hM hL
  obtain ⟨e0, e1, e2, c0, c1, c2, c3⟩ := release_facts i.k hkk
  have hr0 := (wetlandReach_bounds i.k hkk).1
  have hrs : 0 ≤ wetlandReach i.k * s := mul_nonneg hr0 h0
  simp only [lakeBalance, lakeSO, globalWetlandSO]
  by_cases hc : lakePet .globalWetland i s > lakePetMax .globalWetland i s
  · simp only [if_pos hc, hL, gt_iff_lt, if_neg (not_lt.mpr hm.le)]
    refine ⟨⟨fun hh => absurd hh (lt_irrefl _), fun hh => ?_⟩, by linarith⟩
    rw [hM] at hc
    have := hh.2
    linarith
  · have hn : -s ≤ lakeNetIn .globalWetland i s := by
      unfold lakeNetIn; have := not_lt.mp hc; linarith
    have hA : lakeAnalytic .globalWetland i s = s * Real.exp (-1 * i.k) +
        lakeNetIn .globalWetland i s * ((1 - Real.exp (-1 * i.k)) / i.k) := by unfold lakeAnalytic; ring
    have hE : 0 < Real.exp i.k - 1 := by
      have := Real.add_one_lt_exp hkk.ne'; linarith
    have hk1 : (i.k / (Real.exp i.k - 1)) * ((1 - Real.exp (-1 * i.k)) / i.k) = Real.exp (-1 * i.k) := by
      have h5 : Real.exp (-1 * i.k) * Real.exp i.k = 1 := by rw [← Real.exp_add]; simp
      have h6 : 1 - Real.exp (-1 * i.k) = Real.exp (-1 * i.k) * (Real.exp i.k - 1) := by
        rw [mul_sub, h5]; ring
      rw [h6]
      field_simp
    have hneg : lakeAnalytic .globalWetland i s < 0 ↔
        s * (i.k / (Real.exp i.k - 1)) < lakePet .globalWetland i s - lakeTotalIn .globalWetland i s := by
      have e : lakeAnalytic .globalWetland i s = (s * (i.k / (Real.exp i.k - 1)) -
          (lakePet .globalWetland i s - lakeTotalIn .globalWetland i s)) *
          ((1 - Real.exp (-1 * i.k)) / i.k) := by
        rw [hA, sub_mul, mul_assoc, hk1]
        unfold lakeNetIn
        ring
      rw [e]
      constructor
      · intro hh
        by_contra hcon
        have := mul_nonneg (sub_nonneg.mpr (not_lt.mp hcon)) c0.le
        linarith
      · intro hh
        exact mul_neg_of_neg_of_pos (by linarith) c0
    have hlow : -(wetlandReach i.k * s) ≤ lakeAnalytic .globalWetland i s := by
      rw [hA]
      unfold wetlandReach
      have := mul_le_mul_of_nonneg_right hn c0.le
      linarith
    have hex : lakePet .globalWetland i s - lakeTotalIn .globalWetland i s ≤ s := by
      have := not_lt.mp hc; linarith
    simp only [if_neg hc]
    by_cases ha : lakeAnalytic .globalWetland i s > i.maxStorage
    · simp only [if_pos ha]
      refine ⟨⟨fun hh => absurd hh (not_lt.mpr hm.le), fun hh => ?_⟩, by linarith⟩
      have := hneg.mpr hh.1
      linarith
    · simp only [if_neg ha]
      exact ⟨⟨fun hh => ⟨hneg.mp hh, hex⟩, fun hh => hneg.mpr hh.1⟩, hlow⟩

/-- C14 for global wetlands: after a day that ended below zero the next one ends at or above zero. -/
theorem C14_global_wetland_recovers (h : i.Physical) (h0 : s < 0) :
    0 ≤ (lakeBalance .globalWetland i s).storage ∧ (lakeBalance .globalWetland i s).storage ≤ i.maxStorage := by
  have hm := h.maxStorage
  have hkk := h.k
  have hM := lakePetMax_eq .globalWetland i s
  have hL := lakeLimit_eq .globalWetland i
  have hlow : lowest .globalWetland i.maxStorage = 0 := rfl
  rw [hlow] at hM hL
  obtain ⟨e0, e1, e2, c0, c1, c2, c3⟩ := release_facts i.k hkk
  simp only [lakeBalance, lakeSO, globalWetlandSO]
  by_cases hc : lakePet .globalWetland i s > lakePetMax .globalWetland i s
  · simp only [if_pos hc, hL, gt_iff_lt, if_neg (not_lt.mpr hm.le)]
    exact ⟨le_rfl, hm.le⟩
  · have hn : -s ≤ lakeNetIn .globalWetland i s := by
      unfold lakeNetIn; have := not_lt.mp hc; linarith
    have hA : 0 ≤ lakeAnalytic .globalWetland i s := by
      have e : lakeAnalytic .globalWetland i s = s * Real.exp (-1 * i.k) +
        lakeNetIn .globalWetland i s * ((1 - Real.exp (-1 * i.k)) / i.k) := by unfold lakeAnalytic; ring
      rw [e]
      have h1 := mul_le_mul_of_nonneg_right hn c0.le
      have h2 : s * ((1 - Real.exp (-1 * i.k)) / i.k) ≤ s * Real.exp (-1 * i.k) :=
        mul_le_mul_of_nonpos_left (by linarith) h0.le
      linarith
    simp only [if_neg hc]
    split_ifs with a
    · exact ⟨hm.le, le_rfl⟩
    · exact ⟨hA, not_lt.mp a⟩

/-- C14, all histories of global wetlands, deep or shallow, whatever the weather: the storage never exceeds the
capacity and is never below minus `wetlandReach k` (less than `k`) times the capacity. -/
theorem C14_global_wetland_every_history (cap k s : ℝ) (h0 : -(wetlandReach k * cap) ≤ s) (h1 : s ≤ cap)
    (days : List LakeIn) (hd : ∀ i ∈ days, i.Physical ∧ i.maxStorage = cap ∧ i.k = k) :
    -(wetlandReach k * cap) ≤ lakeRun .globalWetland s days ∧ lakeRun .globalWetland s days ≤ cap := by
  induction days generalizing s with
  | nil => exact ⟨h0, h1⟩
  | cons i is ih =>
    obtain ⟨hp, hc, hk⟩ := hd i (by simp)
    have hr := (wetlandReach_bounds i.k hp.k).1
    have hm := hp.maxStorage
    refine ih _ ?_ ?_ fun x hx => hd x (by simp [hx])
    · have h1' := h1
      rw [← hc] at h1'
      rw [← hc, ← hk]
      rcases lt_or_ge s 0 with hs | hs
      · exact (neg_nonpos.mpr (mul_nonneg hr hm.le)).trans (C14_global_wetland_recovers i s hp hs).1
      · have := (C14_global_wetland_exact i s hp hs).2
        have h2 := mul_le_mul_of_nonneg_left h1' hr
        linarith
    · rw [← hc]
      rcases lt_or_ge s 0 with hs | hs
      · exact (C14_global_wetland_recovers i s hp hs).2
      · exact (C14_global_wetland_bounds i s hp hs).1

/-- The function divides by the losses (`lakes_wetlands.py:310-312,342-343,355-356`) although they are zero. -/
def LakeDividesByZero (kind : LakeKind) (i : LakeIn) (s : ℝ) : Prop :=
  lakePet kind i s > lakePetMax kind i s ∧ lakePet kind i s = 0

/-- C14: as long as the storage is not below its lower limit no lake or wetland divides by zero. -/
theorem C14_no_division_by_zero (h : i.Physical) (hs : lowest kind i.maxStorage ≤ s) :
    ¬ LakeDividesByZero kind i s := by
  rintro ⟨h1, h2⟩
  have hM := lakePetMax_eq kind i s
  have hT := lakeTotalIn_nonneg kind i s h
  linarith

/-- C14: a global wetland with a negative storage divides by zero exactly when the inflow of the next day does not
fill it up. -/
theorem C14_division_by_zero_iff (h : i.Physical) :
    LakeDividesByZero .globalWetland i s ↔ s + i.inflow < 0 := by
  have hM := lakePetMax_eq .globalWetland i s
  have hlow : lowest .globalWetland i.maxStorage = 0 := rfl
  rw [hlow] at hM
  constructor
  · intro hd
    have hs : s < 0 := by
      by_contra hcon
      exact C14_no_division_by_zero .globalWetland i s h (not_lt.mp hcon) hd
    obtain ⟨-, hp, hT⟩ := wetland_dry i s h hs.le
    have := hd.1
    rw [hM, hp, hT] at this
    linarith
  · intro hs
    have hin := h.inflow
    obtain ⟨-, hp, hT⟩ := wetland_dry i s h (by linarith)
    refine ⟨?_, hp⟩
    rw [hM, hp, hT]
    linarith

/-- The area of a wetland shrinks fast enough with its storage (Bernoulli): the reduction factor is at most
`exponent * storage / capacity`. -/
theorem wetland_red_le (m e : ℝ) (kind : Swb) (hn : nFactor kind = 1) (hm : 0 < m) (he : 1 ≤ e) (h0 : 0 ≤ s)
    (h1 : s ≤ m) : swbRedfactor s m e kind ≤ e * (s / m) := by
  unfold swbRedfactor
  simp only
  rw [hn, one_mul]
  have habs : |s - m| = m - s := by rw [abs_sub_comm]; exact abs_of_nonneg (by linarith)
  rw [habs]
  have hx : (m - s) / m = 1 + -(s / m) := by field_simp; ring
  have hsm : s / m ≤ 1 := (div_le_one hm).mpr h1
  have hs0 : 0 ≤ s / m := by positivity
  have hb := one_add_mul_self_le_rpow_one_add (s := -(s / m)) (by linarith) he
  rw [hx]
  split_ifs with a b
  · positivity
  · exfalso
    have : 0 ≤ (1 + -(s / m)) ^ e := Real.rpow_nonneg (by linarith) e
    linarith
  · linarith

/-- C14: for a wetland whose depth is large compared with a day's evaporation and recharge (`hdeep`; with the
parameters of the model this means losses below about 0.6 m per day) the storage stays between zero and the
capacity. -/
theorem C14_global_wetland_deep (h : i.Physical) (hexp : 1 ≤ i.redExp) (h0 : 0 ≤ s) (h1 : s ≤ i.maxStorage)
    (hdeep : i.redExp * i.maxArea * (lakeEvap .globalWetland i s + i.gwConst * 0.001) ≤
      i.maxStorage * (i.k / (Real.exp i.k - 1))) :
    let o := lakeBalance .globalWetland i s
    0 ≤ o.storage ∧ o.storage ≤ i.maxStorage ∧ 0 ≤ o.outflow := by
  obtain ⟨a, b, c⟩ := C14_global_wetland_bounds i s h h0
  refine ⟨c ?_, a, b⟩
  have hm := h.maxStorage
  have hred : lakeRed .globalWetland i s ≤ i.redExp * (s / i.maxStorage) :=
    wetland_red_le s i.maxStorage i.redExp _ rfl hm hexp h0 h1
  have hr0 := (lakeRed_bounds .globalWetland i s).1
  have hT := lakeTotalIn_nonneg .globalWetland i s h
  have he := lakeEvap_nonneg .globalWetland i s
  have hg := h.gw
  have hA := h.maxArea
  have hpet : lakePet .globalWetland i s ≤
      lakeRed .globalWetland i s * (i.maxArea * (lakeEvap .globalWetland i s + i.gwConst * 0.001)) := by
    have h1 : lakeDemand .globalWetland i = 0 := by simp [lakeDemand]
    have h2 : lakeArea .globalWetland i s = lakeRed .globalWetland i s * i.maxArea := by simp [lakeArea]
    have h3 : lakeGwr .globalWetland i s ≤ i.gwConst * 0.001 * (lakeRed .globalWetland i s * i.maxArea) := by
      unfold lakeGwr
      rw [h2]
      have : 0 ≤ i.gwConst * 0.001 * (lakeRed .globalWetland i s * i.maxArea) := by positivity
      simp only [reduceCtorEq, if_false]
      split_ifs <;> linarith
    unfold lakePet
    rw [h1, h2]
    nlinarith
  have hE : 0 < Real.exp i.k - 1 := by
    have := Real.add_one_lt_exp h.k.ne'; have := h.k; linarith
  have hX : 0 ≤ i.maxArea * (lakeEvap .globalWetland i s + i.gwConst * 0.001) := by positivity
  calc lakePet .globalWetland i s - lakeTotalIn .globalWetland i s
      ≤ lakeRed .globalWetland i s * (i.maxArea * (lakeEvap .globalWetland i s + i.gwConst * 0.001)) := by
        linarith
    _ ≤ i.redExp * (s / i.maxStorage) *
        (i.maxArea * (lakeEvap .globalWetland i s + i.gwConst * 0.001)) :=
        mul_le_mul_of_nonneg_right hred hX
    _ = (s / i.maxStorage) *
        (i.redExp * i.maxArea * (lakeEvap .globalWetland i s + i.gwConst * 0.001)) := by ring
    _ ≤ (s / i.maxStorage) * (i.maxStorage * (i.k / (Real.exp i.k - 1))) :=
        mul_le_mul_of_nonneg_left hdeep (by positivity)
    _ = s * (i.k / (Real.exp i.k - 1)) := by field_simp

end

/-- C14, all histories of lakes and local wetlands: whatever the weather, inflow and demand, the storage never
leaves its physical range. -/
theorem C14_history (kind : LakeKind) (hk : kind ≠ .globalWetland) (cap s : ℝ)
    (h0 : lowest kind cap ≤ s) (h1 : s ≤ cap) (days : List LakeIn)
    (hd : ∀ i ∈ days, i.Physical ∧ i.maxStorage = cap) :
    lowest kind cap ≤ lakeRun kind s days ∧ lakeRun kind s days ≤ cap := by
  induction days generalizing s with
  | nil => exact ⟨h0, h1⟩
  | cons i is ih =>
    obtain ⟨hp, hc⟩ := hd i (by simp)
    have key : lowest kind cap ≤ (lakeBalance kind i s).storage ∧ (lakeBalance kind i s).storage ≤ cap := by
      subst hc
      cases kind with
      | localLake =>
        have := C14_lake_bounds .localLake i s hp (Or.inl rfl) h0 h1
        exact ⟨this.1, this.2.1⟩
      | globalLake =>
        have := C14_lake_bounds .globalLake i s hp (Or.inr rfl) h0 h1
        exact ⟨this.1, this.2.1⟩
      | localWetland =>
        have := C14_local_wetland_bounds i s hp h0
        exact ⟨this.1, this.2.1⟩
      | globalWetland => exact absurd rfl hk
    exact ih _ key.1 key.2 fun x hx => hd x (by simp [hx])

/-- C14, all histories of deep global wetlands. -/
theorem C14_global_wetland_history (cap s : ℝ) (h0 : 0 ≤ s) (h1 : s ≤ cap) (days : List LakeIn)
    (hd : ∀ i ∈ days, i.Physical ∧ i.maxStorage = cap ∧ 1 ≤ i.redExp ∧
      i.redExp * i.maxArea * (lakeEvap .globalWetland i 0 + i.gwConst * 0.001) ≤
        cap * (i.k / (Real.exp i.k - 1))) :
    0 ≤ lakeRun .globalWetland s days ∧ lakeRun .globalWetland s days ≤ cap := by
  induction days generalizing s with
  | nil => exact ⟨h0, h1⟩
  | cons i is ih =>
    obtain ⟨hp, hc, he, hdeep⟩ := hd i (by simp)
    have hev : lakeEvap .globalWetland i s = lakeEvap .globalWetland i 0 := by simp [lakeEvap]
    have := C14_global_wetland_deep i s hp he h0 (hc ▸ h1) (by rw [hev, hc]; exact hdeep)
    exact ih _ this.1 (hc ▸ this.2.1) fun x hx => hd x (by simp [hx])

/-! ### Concrete cases -/

noncomputable def sampleLake : LakeIn :=
  { precip := 5e-6, openPet := 3e-6, arid := true, drainageOk := true, inflow := 0.01, k := 0.01,
    gwConst := 0.01, redExp := 3.32, cfa := 1, maxStorage := 1, maxArea := 200, frac := 0.2, lakeExp := 1.5,
    wetlandExp := 2.5, reservoirArea := 0, demand := 0.02 }

theorem sampleLake_physical : sampleLake.Physical := by constructor <;> norm_num [sampleLake]

example := C13_lake_balance .globalLake sampleLake 0.5 sampleLake_physical (by norm_num [lowest, sampleLake])
example := C14_lake_bounds .localLake sampleLake (-0.5) sampleLake_physical (Or.inl rfl)
  (by norm_num [sampleLake]) (by norm_num [sampleLake])
example := C14_history .globalLake (by decide) 1 0.5 (by norm_num [lowest]) (by norm_num) [sampleLake, sampleLake]
  (by intro i hi; simp at hi; subst hi; exact ⟨sampleLake_physical, rfl⟩)

/-- Five metres of loss in one day from a shallow wetland. -/
noncomputable def hotWetland : LakeIn :=
  { sampleLake with precip := 0, openPet := 1, inflow := 0, arid := false, redExp := 1, maxArea := 1,
                    k := 1, demand := 0 }

/-- C14 is violated by global wetlands: the analytical solution is not cut at zero, so that a wetland that loses
as much as it stores within one day ends with a negative storage although all inputs are physical. -/
theorem C14_violated_global_wetland_negative :
    hotWetland.Physical ∧ (lakeBalance .globalWetland hotWetland (1/2)).storage < 0 := by
  refine ⟨by constructor <;> norm_num [hotWetland, sampleLake], ?_⟩
  have hred : lakeRed .globalWetland hotWetland (1/2) = 1/2 := by
    have : |(-2⁻¹ : ℝ)| = 1 / 2 := by norm_num [abs_of_neg]
    norm_num [lakeRed, swbRedfactor, hotWetland, sampleLake, LakeKind.swb, nFactor, this, abs_of_neg]
  have hpet : lakePet .globalWetland hotWetland (1/2) = 1/2 := by
    unfold lakePet lakeEvap lakeGwr lakeArea lakeDemand
    rw [hred]
    have hne : ¬ LakeKind.globalWetland = LakeKind.globalLake := by decide
    norm_num [hotWetland, sampleLake, hne]
  have htot : lakeTotalIn .globalWetland hotWetland (1/2) = 0 := by
    unfold lakeTotalIn lakeArea
    norm_num [hotWetland, sampleLake]
  have hmax : lakePetMax .globalWetland hotWetland (1/2) = 1/2 := by
    rw [lakePetMax_eq, htot]; norm_num [lowest]
  have hneg : lakeAnalytic .globalWetland hotWetland (1/2) < 0 := by
    unfold lakeAnalytic lakeNetIn
    rw [hpet, htot]
    obtain ⟨e0, e1, e2, -⟩ := release_facts 1 one_pos
    have hk : hotWetland.k = 1 := by norm_num [hotWetland]
    rw [hk]
    have h4 : (1:ℝ) + 1 < Real.exp 1 := Real.add_one_lt_exp one_ne_zero
    have h5 : Real.exp (-1 * 1) * Real.exp 1 = 1 := by rw [← Real.exp_add]; simp
    have h6 : Real.exp (-1 * 1) < 1 / 2 := by
      have e0 := Real.exp_pos (-1 * 1 : ℝ)
      have h7 := mul_lt_mul_of_pos_left h4 e0
      rw [h5] at h7
      clear e2 h5 e1
      generalize Real.exp (-1 * 1 : ℝ) = e at *
      linarith
    norm_num at h6 ⊢
    linarith
  have hgt : ¬ lakePet .globalWetland hotWetland (1/2) > lakePetMax .globalWetland hotWetland (1/2) := by
    rw [hpet, hmax]; exact lt_irrefl _
  have hcap : ¬ lakeAnalytic .globalWetland hotWetland (1/2) > hotWetland.maxStorage := by
    have : (0:ℝ) < hotWetland.maxStorage := by norm_num [hotWetland, sampleLake]
    exact not_lt.mpr (hneg.le.trans this.le)
  simp only [lakeBalance, lakeSO, globalWetlandSO, if_neg hgt, if_neg hcap]
  exact hneg

/-- The conditions of `C13_global_analytic` are met by an empty wetland that receives water. -/
example : let i : LakeIn := { hotWetland with inflow := 1 / 2 }
    i.Physical ∧ lowest .globalWetland i.maxStorage < (lakeBalance .globalWetland i 0).storage := by
  intro i
  have hp : i.Physical := by constructor <;> norm_num [i, hotWetland, sampleLake]
  refine ⟨hp, ?_⟩
  obtain ⟨-, h2, h3⟩ := wetland_dry i 0 hp le_rfl
  have hM := lakePetMax_eq .globalWetland i 0
  have hin : i.inflow = 1 / 2 := rfl
  rw [h3, hin] at hM
  have hc : ¬ lakePet .globalWetland i 0 > lakePetMax .globalWetland i 0 := by
    rw [h2, hM]; simp [lowest]
  have hA : 0 < lakeAnalytic .globalWetland i 0 := by
    unfold lakeAnalytic lakeNetIn
    rw [h2, h3, hin]
    change 0 < 0 * Real.exp (-1 * 1) + (1 / 2 - 0) / 1 * (1 - Real.exp (-1 * 1))
    have : Real.exp (-1 * 1) < 1 := by rw [Real.exp_lt_one_iff]; norm_num
    generalize Real.exp (-1 * 1 : ℝ) = e at *
    linarith
  change (0 : ℝ) < (lakeSO .globalWetland i 0).1
  simp only [lakeSO, globalWetlandSO, if_neg hc]
  split_ifs
  · exact hp.maxStorage
  · exact hA

/-- C14 is violated by a shallow global wetland over two days: the first day ends below zero, and if nothing flows in
on the second day the code divides by zero (the compiled code raises `ZeroDivisionError`). -/
theorem C14_violated_division_by_zero :
    hotWetland.Physical ∧ LakeDividesByZero .globalWetland hotWetland (lakeRun .globalWetland (1/2) [hotWetland]) := by
  obtain ⟨h1, h2⟩ := C14_violated_global_wetland_negative
  refine ⟨h1, (C14_division_by_zero_iff hotWetland _ h1).mpr ?_⟩
  have : hotWetland.inflow = 0 := rfl
  simp only [lakeRun]
  linarith

/-- C14 is violated on the second day also when just enough flows in: the outflow becomes negative. -/
theorem C14_violated_negative_outflow :
    ∃ i : LakeIn, i.Physical ∧ (lakeBalance .globalWetland i (lakeRun .globalWetland (1/2) [hotWetland])).outflow < 0 := by
  obtain ⟨h1, h2⟩ := C14_violated_global_wetland_negative
  obtain ⟨x, hx⟩ : ∃ x, x = (lakeBalance .globalWetland hotWetland (1/2)).storage := ⟨_, rfl⟩
  rw [← hx] at h2
  have hrun : lakeRun .globalWetland (1/2) [hotWetland] = x := by rw [hx]; rfl
  rw [hrun]
  have hphys : ({ hotWetland with inflow := -x } : LakeIn).Physical := by
    constructor <;> first | exact h1.1 | exact h1.2 | exact h1.k | exact h1.gw | exact h1.redExp |
      exact h1.maxStorage | exact h1.maxArea | exact h1.frac | exact h1.demand | (simp only; linarith)
  refine ⟨{ hotWetland with inflow := -x }, hphys, ?_⟩
  obtain ⟨-, hp, hT⟩ := wetland_dry _ x hphys h2.le
  have hM := lakePetMax_eq .globalWetland { hotWetland with inflow := -x } x
  rw [hT] at hM
  have hM0 : lakePetMax .globalWetland { hotWetland with inflow := -x } x = 0 := by
    rw [hM]; simp [lowest]
  have hN : lakeNetIn .globalWetland { hotWetland with inflow := -x } x = -x := by
    unfold lakeNetIn; rw [hT, hp]; simp
  have hrec := C14_global_wetland_recovers _ x hphys h2
  have hsum := lakeSO_sum .globalWetland { hotWetland with inflow := -x } x
  rw [hp, hM0, hT, min_self] at hsum
  have hpos : 0 < lakeAnalytic .globalWetland { hotWetland with inflow := -x } x := by
    unfold lakeAnalytic
    rw [hN]
    change 0 < x * Real.exp (-1 * 1) + -x / 1 * (1 - Real.exp (-1 * 1))
    have h4 : (1:ℝ) + 1 < Real.exp 1 := Real.add_one_lt_exp one_ne_zero
    have h5 : Real.exp (-1 * 1) * Real.exp 1 = 1 := by rw [← Real.exp_add]; simp
    have e0 := Real.exp_pos (-1 * 1 : ℝ)
    have h7 := mul_lt_mul_of_pos_left h4 e0
    rw [h5] at h7
    generalize Real.exp (-1 * 1 : ℝ) = e at *
    nlinarith
  have hst : 0 < (lakeSO .globalWetland { hotWetland with inflow := -x } x).1 := by
    simp only [lakeSO, globalWetlandSO]
    rw [hp, hM0]
    simp only [gt_iff_lt, lt_irrefl, if_false]
    split_ifs
    · exact h1.maxStorage
    · exact hpos
  change (lakeSO .globalWetland { hotWetland with inflow := -x } x).2 < 0
  simp only at hsum
  linarith

/-- A return flow (negative demand) into a nearly empty global lake. -/
noncomputable def returnLake : LakeIn :=
  { sampleLake with precip := 0, openPet := 8, inflow := 0, arid := false, redExp := 1, maxArea := 1,
                    demand := -1 / 2 }

/-- C13 is violated for negative demand (return flow) in a global lake that runs dry: the lake reports the full
return flow as received, but the losses were scaled with the ratio for the reduced sum, so that a third of a cubic
kilometre disappears. -/
theorem C13_violated_negative_demand :
    let o := lakeBalance .globalLake returnLake (-1/2)
    (-1/2 : ℝ) + returnLake.inflow + returnLake.precip * lakeArea .globalLake returnLake (-1/2) =
      o.storage + o.outflow + o.gwr + o.evapKm3 + o.use + 1 / 3 := by
  have hred : lakeRed .globalLake returnLake (-1/2) = 1/4 := by
    norm_num [lakeRed, swbRedfactor, returnLake, sampleLake, LakeKind.swb, nFactor, abs_of_neg]
  have hev : lakeEvap .globalLake returnLake (-1/2) = 2 := by
    unfold lakeEvap; rw [hred]; norm_num [returnLake, sampleLake]
  have har : lakeArea .globalLake returnLake (-1/2) = 1 := by
    norm_num [lakeArea, returnLake]
  have hgw : lakeGwr .globalLake returnLake (-1/2) = 0 := by
    norm_num [lakeGwr, returnLake]
  have hdm : lakeDemand .globalLake returnLake = -1/2 := by
    norm_num [lakeDemand, returnLake, sampleLake]
  have hpet : lakePet .globalLake returnLake (-1/2) = 3/2 := by
    unfold lakePet; rw [hev, har, hgw, hdm]; norm_num
  have htot : lakeTotalIn .globalLake returnLake (-1/2) = 0 := by
    unfold lakeTotalIn; rw [har]; norm_num [returnLake]
  have hmax : lakePetMax .globalLake returnLake (-1/2) = 1/2 := by
    rw [lakePetMax_eq, htot]; norm_num [lowest, returnLake, sampleLake]
  have hlim : lakeLimit .globalLake returnLake = -1 := by
    rw [lakeLimit_eq]; norm_num [lowest, returnLake, sampleLake]
  have hun : lakeUnsat .globalLake returnLake (-1/2) = 0 := by
    unfold lakeUnsat; rw [hdm]; norm_num
  have hra : lakeRatio .globalLake returnLake (-1/2) = 1/3 := by
    unfold lakeRatio; rw [hpet, hmax]; norm_num
  have hso : lakeSO .globalLake returnLake (-1/2) = (-1, 0) := by
    simp only [lakeSO, globalLakeSO]
    rw [hpet, hmax, hlim]
    norm_num
  simp only [lakeBalance, hso, hra, hun, hgw, hev, har, hdm]
  norm_num [returnLake]

end WG
