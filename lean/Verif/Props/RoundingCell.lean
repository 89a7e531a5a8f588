import Verif.Model.FloatBasin
import Verif.Props.Rounding
import Verif.Props.Routing

/-!
# C67, C78: a day of a whole cell in rounded arithmetic

The pieces of `Props/Rounding.lean` put together: bodies of a cell on any day (also days on which the water does not
suffice), and the whole day of a cell.
-/

namespace WG

open Arith

variable {A : Arith} {u η : ℝ}

/-! ### The rounded cell is the cell of the other properties when nothing is rounded -/

section
variable (c : CellIn) (st : CellState) (up demand : ℝ) (keep : ℝ → ℝ)

theorem lakeBalanceR_exact (kind : LakeKind) (i : LakeIn) (s : ℝ) : lakeBalanceR exact kind i s = lakeBalance kind i s := by
  have hp : lakePetR exact kind i s = lakePet kind i s := rfl
  have hm : lakePetMaxR exact kind i s = lakePetMax kind i s := by cases kind <;> rfl
  obtain ⟨h1, h2, h3⟩ := C65_exact_lake kind i s
  have hu : lakeUnsatR exact kind i s = lakeUnsat kind i s := by
    unfold lakeUnsatR lakeUnsat lakeRatioR
    rw [hp, hm]; rfl
  have hr : lakePetMax kind i s / lakePet kind i s = exact.div (lakePetMax kind i s) (lakePet kind i s) := rfl
  unfold lakeBalanceR lakeRatioR
  rw [h1, h2, h3, hu, hp, hm]
  unfold lakeBalance lakeRatio
  congr 1
  · by_cases h : lakePet kind i s > lakePetMax kind i s
    · rw [if_pos h, if_pos h]; rfl
    · rw [if_neg h, if_neg h, mul_one]; rfl
  · by_cases h : lakePet kind i s > lakePetMax kind i s
    · rw [if_pos h, if_pos h]; rfl
    · rw [if_neg h, if_neg h, mul_one]; rfl

theorem resBalanceR_exact (i : ResIn) (s : ℝ) : resBalanceR exact i s (hanasaki i.han) = resBalance i s := by
  unfold resBalanceR resBalance
  congr 1
  · unfold resCut
    by_cases h : resShortR exact i s
    · rw [if_pos h, if_pos (show resPet i s > 0 ∧ resPet i s > resPetMax i s from h)]; rfl
    · rw [if_neg h, if_neg (show ¬ (resPet i s > 0 ∧ resPet i s > resPetMax i s) from h), mul_one]; rfl
  · unfold resCut
    by_cases h : resShortR exact i s
    · rw [if_pos h, if_pos (show resPet i s > 0 ∧ resPet i s > resPetMax i s from h)]; rfl
    · rw [if_neg h, if_neg (show ¬ (resPet i s > 0 ∧ resPet i s > resPetMax i s) from h), mul_one]; rfl

theorem updateNetabsGwR_exact (p w c d f : ℝ) : updateNetabsGwR exact p w c d f = updateNetabsGw p w c d f := by
  change (if d ≠ 0 ∧ w > 0 then p - f * (1 - c / w) * ((if d > 0 ∧
      1 / (1 - (1 - f) * (1 - c / w)) * (w * (1 - (1 - f) * (1 - c / w)) - d) ≤ 0 then 0
        else 1 / (1 - (1 - f) * (1 - c / w)) * (w * (1 - (1 - f) * (1 - c / w)) - d)) - w) else p) = _
  unfold updateNetabsGw
  rcases lt_trichotomy d 0 with h | h | h
  · rw [if_neg (not_lt.mpr h.le), if_pos h]
    by_cases hw : w > 0
    · rw [if_pos ⟨h.ne, hw⟩, if_pos hw, if_neg (fun hh => absurd hh.1 (not_lt.mpr h.le))]
    · rw [if_neg (fun hh => hw hh.2), if_neg hw]
  · rw [if_neg (fun hh => hh.1 h), if_neg (by rw [h]; simp), if_neg (by rw [h]; simp)]
  · rw [if_pos h]
    by_cases hw : w > 0
    · rw [if_pos ⟨h.ne', hw⟩, if_pos hw]
      simp only [h, true_and]
    · rw [if_neg (fun hh => hw hh.2), if_neg hw]

theorem groundwaterBalanceR_exact (kind : GwKind) (s d p x k w c f pt : ℝ) :
    groundwaterBalanceR exact kind s d p x k w c f pt = groundwaterBalance kind s d p x k w c f pt := by
  unfold groundwaterBalanceR groundwaterBalance
  simp only [updateNetabsGwR_exact]
  rfl

theorem bodyDayR_exact (kind : LakeKind) (i : LakeIn) (s : ℝ) (q : Prop) [Decidable q] :
    bodyDayR exact kind i s q = bodyDay kind i s q := by
  unfold bodyDayR bodyDay
  rw [lakeBalanceR_exact]

theorem cellGwR_exact (pt : ℝ) : cellGwR exact c st pt = cellGw c st pt := groundwaterBalanceR_exact ..

theorem cellSplitR_exact : cellSplitR exact c st = cellSplit c st := by
  unfold cellSplitR cellSplit cellEarlyDischargeR cellEarlyDischarge
  rw [cellGwR_exact]; rfl

theorem cellLocLakeR_exact : cellLocLakeR exact c st = cellLocLake c st := by
  unfold cellLocLakeR cellLocLake locLakeInR
  rw [cellSplitR_exact, bodyDayR_exact]

theorem cellLocWetR_exact : cellLocWetR exact c st = cellLocWet c st := by
  unfold cellLocWetR cellLocWet locWetInR
  rw [cellLocLakeR_exact, bodyDayR_exact]

theorem cellGloLakeR_exact : cellGloLakeR exact c st up demand = cellGloLake c st up demand := by
  unfold cellGloLakeR cellGloLake gloLakeInR
  rw [cellLocWetR_exact, bodyDayR_exact]; rfl

theorem cellResR_exact :
    cellResR exact c st up demand (hanasaki (cellResIn c st up demand).han) = cellRes c st up demand := by
  unfold cellResR cellRes
  have : cellResInR exact c st up demand = cellResIn c st up demand := by
    unfold cellResInR cellResIn; rw [cellGloLakeR_exact]
  rw [this, resBalanceR_exact, cellGloLakeR_exact]

theorem cellGloWetR_exact : cellGloWetR exact c st up demand (hanasaki (cellResIn c st up demand).han)
    = cellGloWet c st up demand := by
  unfold cellGloWetR cellGloWet gloWetInR
  rw [cellResR_exact, bodyDayR_exact]

theorem cellGwFinalR_exact : cellGwFinalR exact c st up demand (hanasaki (cellResIn c st up demand).han)
    = cellGwFinal c st up demand := by
  unfold cellGwFinalR cellGwFinal cellPointR cellPoint
  rw [cellResR_exact, cellGloWetR_exact, cellGloLakeR_exact, cellLocWetR_exact, cellLocLakeR_exact, cellGwR_exact]; rfl

theorem cellRiverInR_exact : cellRiverInR exact c st up demand (hanasaki (cellResIn c st up demand).han)
    = cellRiverIn c st up demand := by
  unfold cellRiverInR cellRiverIn
  rw [cellGwFinalR_exact, cellGloWetR_exact, cellSplitR_exact]
  by_cases h : c.gwKind = .arid
  · simp only [if_pos h]; rfl
  · simp only [if_neg h, add_zero]; rfl

theorem cellUnsat1R_exact : cellUnsat1R exact c st up demand (hanasaki (cellResIn c st up demand).han)
    = cellUnsat1 c st up demand := by
  unfold cellUnsat1R cellUnsat1
  rw [cellResR_exact, cellGloLakeR_exact]

theorem cellUnsat2R_exact : cellUnsat2R exact c st up demand keep (hanasaki (cellResIn c st up demand).han)
    = cellUnsat2 c st up demand keep := by
  unfold cellUnsat2R cellUnsat2
  rw [cellUnsat1R_exact]

theorem cellRiverR_exact : cellRiverR exact c st up demand keep (hanasaki (cellResIn c st up demand).han)
      (fun s => outflowConstant s c.len c.width c.rough c.mult c.slope)
    = ((cellRiver c st up demand keep).storage, (cellRiver c st up demand keep).streamflow,
       (cellRiver c st up demand keep).unsat) := by
  unfold cellRiverR cellRiver
  rw [cellRiverInR_exact, cellUnsat2R_exact]
  exact C65_exact_river ..

theorem cellTapR_exact : cellTapR exact c st up demand keep (hanasaki (cellResIn c st up demand).han)
      (fun s => outflowConstant s c.len c.width c.rough c.mult c.slope) ↔ cellTap c st up demand keep := by
  unfold cellTapR cellTap; rw [cellRiverR_exact, cellLocLakeR_exact]

theorem cellTappedR_exact : cellTappedR exact c st up demand keep (hanasaki (cellResIn c st up demand).han)
      (fun s => outflowConstant s c.len c.width c.rough c.mult c.slope) = cellTapped c st up demand keep := by
  have ht := cellTapR_exact c st up demand keep
  unfold cellTappedR cellTapped
  rw [cellRiverR_exact, cellLocLakeR_exact]
  by_cases h : cellTap c st up demand keep
  · rw [if_pos h, if_pos (ht.mpr h)]; rfl
  · rw [if_neg h, if_neg (fun hh => h (ht.mp hh))]

theorem riverUseR_exact : riverUseR exact c st up demand keep (hanasaki (cellResIn c st up demand).han)
      (fun s => outflowConstant s c.len c.width c.rough c.mult c.slope) = (cellRiver c st up demand keep).use := by
  unfold riverUseR; rw [cellRiverR_exact, cellUnsat2R_exact]; rfl

theorem cellNasR_exact : cellNasR exact c st up demand keep (hanasaki (cellResIn c st up demand).han)
      (fun s => outflowConstant s c.len c.width c.rough c.mult c.slope) = (cellDay c st up demand keep).nas := by
  have ht := cellTapR_exact c st up demand keep
  unfold cellNasR cellDay
  rw [riverUseR_exact, cellTappedR_exact, cellResR_exact, cellGloLakeR_exact]
  have h0 : ¬ cellTap c st up demand keep → (cellTapped c st up demand keep).2.2.2 = 0 := by
    intro h; unfold cellTapped; rw [if_neg h]
  by_cases h : cellTap c st up demand keep
  · simp only [if_pos (ht.mpr h)]
    by_cases hr : c.resArea > 0
    · simp only [if_pos hr]; rfl
    · simp only [if_neg hr, add_zero]; rfl
  · simp only [if_neg (fun hh => h (ht.mp hh)), h0 h, add_zero]
    by_cases hr : c.resArea > 0
    · simp only [if_pos hr]; rfl
    · simp only [if_neg hr, add_zero]; rfl

theorem cellEvapR_exact : cellEvapR exact c st up demand keep (hanasaki (cellResIn c st up demand).han)
      (fun s => outflowConstant s c.len c.width c.rough c.mult c.slope) = (cellDay c st up demand keep).evap := by
  unfold cellEvapR cellDay
  rw [cellRiverR_exact, cellResR_exact, cellGloWetR_exact, cellGloLakeR_exact, cellLocWetR_exact, cellLocLakeR_exact]
  cases hs : c.sink
  · simp only [Bool.false_eq_true, if_false, add_zero]; rfl
  · simp only [if_true]; rfl

theorem cellStateR_exact : cellStateR exact c st up demand keep (hanasaki (cellResIn c st up demand).han)
      (fun s => outflowConstant s c.len c.width c.rough c.mult c.slope) = (cellDay c st up demand keep).state := by
  unfold cellStateR
  rw [cellRiverR_exact, cellTappedR_exact, cellResR_exact, cellGloWetR_exact, cellGloLakeR_exact, cellLocWetR_exact,
    cellGwFinalR_exact]
  rfl

theorem cellEvapTotalR_exact : cellEvapTotalR exact c st up demand keep (hanasaki (cellResIn c st up demand).han)
      (fun s => outflowConstant s c.len c.width c.rough c.mult c.slope) = (cellDay c st up demand keep).evapTotal := by
  unfold cellEvapTotalR; rw [cellNasR_exact, cellEvapR_exact, cellGwFinalR_exact]; rfl

theorem cellResInR_exact : cellResInR exact c st up demand = cellResIn c st up demand := by
  unfold cellResInR cellResIn
  rw [cellGloLakeR_exact]

/-- C67: without rounding, the rounded day of a cell is the day of the cell the other properties are about. -/
theorem C67_cell_exact : cellDayR exact hanasaki (fun c s => outflowConstant s c.len c.width c.rough c.mult c.slope)
    c st up demand keep = cellDay c st up demand keep := by
  unfold cellDayR
  simp only [cellResInR_exact, cellStateR_exact, cellRiverR_exact, cellEvapR_exact, cellGwFinalR_exact, cellNasR_exact,
    cellTappedR_exact, cellUnsat1R_exact, cellUnsat2R_exact, cellLocWetR_exact, cellGloWetR_exact, cellEvapTotalR_exact,
    cellRunoffR]
  rfl
end

/-! ### Lakes and wetlands on any day -/

section
variable (hA : A.Ok) (hn : A.Near u η)
include hA hn

/-- Losses reduced to the water there is: `P` water, `Q` the rounded losses (evaporation `e` of the area `a`, recharge `g`,
demand `d`). -/
theorem short_err (e a g d P Q x M : ℝ) (hM : A.F M) (hx : 0 ≤ x ∧ x ≤ 1) (hrx : |x * Q - P| ≤ 4 * (u * M) + 4 * (M * η))
    (heF : A.F e) (he : 0 ≤ e) (ha : 0 ≤ a ∧ a ≤ M) (hea : e * a ≤ M) (hg : 0 ≤ g ∧ g ≤ M) (hd : 0 ≤ d ∧ d ≤ M)
    (hQ : |Q - (e * a + g + d)| ≤ 6 * (u * M + η)) :
    |A.mul (A.mul e x) a + A.mul g x + A.sub d (if d > 0 then A.sub d (A.mul d x) else 0) - P|
      ≤ 17 * (u * M + η) + 5 * (M * η) := by
  have hM0 : 0 ≤ M := hg.1.trans hg.2
  have hE : 0 ≤ u * M := mul_nonneg hn.u0 hM0
  have hη := hn.η0
  have hMη : 0 ≤ M * η := mul_nonneg hM0 hη
  have h2 := hn.dbl M hM
  -- evaporation
  have hea0 : 0 ≤ e * a := mul_nonneg he ha.1
  have m1 : A.mul e x ≤ e := mul_le_left hA he heF hx.2
  have m0 : 0 ≤ A.mul e x := Arith.mul_nonneg hA he hx.1
  have e1 : |A.mul e x - e * x| ≤ u * (e * x) + η := by
    have := hn.near (e * x)
    rw [abs_of_nonneg (mul_nonneg he hx.1)] at this
    exact this
  have e1a : |A.mul e x * a - e * a * x| ≤ u * M + M * η := by
    have : A.mul e x * a - e * a * x = (A.mul e x - e * x) * a := by ring
    rw [this, abs_mul, abs_of_nonneg ha.1]
    have h1 := mul_le_mul_of_nonneg_right e1 ha.1
    have h3 : (u * (e * x) + η) * a = u * (e * a * x) + η * a := by ring
    have h4 : e * a * x ≤ M := by nlinarith
    have h5 := mul_le_mul_of_nonneg_left h4 hn.u0
    have h6 := mul_le_mul_of_nonneg_left ha.2 hη
    rw [h3] at h1
    linarith
  obtain ⟨-, e2⟩ := hn.op hA (x := A.mul e x * a) hM
    (by rw [abs_of_nonneg (mul_nonneg m0 ha.1)]; exact (mul_le_mul_of_nonneg_right m1 ha.1).trans hea)
  change |A.mul (A.mul e x) a - _| ≤ _ at e2
  -- recharge
  have gx : 0 ≤ g * x ∧ g * x ≤ M := ⟨mul_nonneg hg.1 hx.1, by nlinarith [hg.1, hg.2, hx.1, hx.2]⟩
  obtain ⟨-, e3⟩ := hn.op hA (x := g * x) hM (by rw [abs_of_nonneg gx.1]; exact gx.2)
  change |A.mul g x - _| ≤ _ at e3
  -- demand
  have dx : 0 ≤ d * x ∧ d * x ≤ M := ⟨mul_nonneg hd.1 hx.1, by nlinarith [hd.1, hd.2, hx.1, hx.2]⟩
  have e4 : |A.sub d (if d > 0 then A.sub d (A.mul d x) else 0) - d * x| ≤ 4 * (u * M + η) := by
    by_cases hd0 : d > 0
    · rw [if_pos hd0]
      obtain ⟨b5, e5⟩ := hn.op hA (x := d * x) hM (by rw [abs_of_nonneg dx.1]; exact dx.2)
      change |A.mul d x| ≤ _ at b5
      change |A.mul d x - _| ≤ _ at e5
      have n5 : 0 ≤ A.mul d x := Arith.mul_nonneg hA hd.1 hx.1
      rw [abs_of_nonneg n5] at b5
      generalize A.mul d x = y at *
      obtain ⟨b6, e6⟩ := hn.op hA (x := d - y) hM (abs_le.mpr ⟨by linarith, by linarith⟩)
      change |A.sub d y| ≤ _ at b6
      change |A.sub d y - _| ≤ _ at e6
      generalize A.sub d y = z at *
      have b6' := abs_le.mp b6
      have e7 := hn.err (K := 2 * M) (x := d - z) (abs_le.mpr ⟨by linarith, by linarith⟩)
      change |A.sub d z - _| ≤ _ at e7
      rw [abs_le] at *
      constructor <;> linarith
    · rw [if_neg hd0]
      have hd1 : d = 0 := le_antisymm (not_lt.mp hd0) hd.1
      have e7 := hn.err (K := M) (x := d - 0) (by rw [hd1]; simpa using hM0)
      change |A.sub d 0 - _| ≤ _ at e7
      rw [hd1] at e7 ⊢
      rw [abs_le] at *
      constructor <;> linarith
  -- together
  have hQx : |x * (e * a + g + d) - x * Q| ≤ 6 * (u * M + η) := by
    have : x * (e * a + g + d) - x * Q = -(x * (Q - (e * a + g + d))) := by ring
    rw [this, abs_neg, abs_mul, abs_of_nonneg hx.1]
    have := mul_le_mul_of_nonneg_right hx.2 (abs_nonneg (Q - (e * a + g + d)))
    linarith
  have hsplit : x * (e * a + g + d) = e * a * x + g * x + d * x := by ring
  rw [hsplit] at hQx
  generalize A.sub d (if d > 0 then A.sub d (A.mul d x) else 0) = U at *
  generalize A.mul (A.mul e x) a = V at *
  generalize A.mul g x = W at *
  rw [abs_le] at *
  constructor <;> linarith

/-- A quotient of `P` and a larger `Q`, rounded. -/
theorem ratio_err (P Q M : ℝ) (hP : 0 ≤ P) (hPQ : P < Q) (hPM : P ≤ 4 * M) (hQM : Q ≤ 4 * M) :
    (0 ≤ A.div P Q ∧ A.div P Q ≤ 1) ∧ |A.div P Q * Q - P| ≤ 4 * (u * M) + 4 * (M * η) := by
  have hQ : 0 < Q := lt_of_le_of_lt hP hPQ
  refine ⟨⟨div_nonneg hA hP hQ.le, div_le_one hA hQ hPQ.le⟩, ?_⟩
  have h := hn.near (P / Q)
  rw [abs_of_nonneg (_root_.div_nonneg hP hQ.le)] at h
  change |A.div P Q - _| ≤ _ at h
  have h1 : A.div P Q * Q - P = (A.div P Q - P / Q) * Q := by field_simp
  rw [h1, abs_mul, abs_of_pos hQ]
  have h2 := mul_le_mul_of_nonneg_right h hQ.le
  have h3 : (u * (P / Q) + η) * Q = u * P + η * Q := by field_simp
  rw [h3] at h2
  have h4 := mul_le_mul_of_nonneg_left hPM hn.u0
  have h5 := mul_le_mul_of_nonneg_left hQM hn.η0
  linarith

end

/-- The storage of a lake is not below minus its capacity, that of a wetland not below zero. -/
def AboveFloor (kind : LakeKind) (i : LakeIn) (s : ℝ) : Prop := lakeLimit kind i ≤ s

section
variable (hA : A.Ok) (hn : A.Near u η) (kind : LakeKind) (i : LakeIn) (s : ℝ)
include hA

theorem lakeEvapR_F : A.F (lakeEvapR A kind i s) ∧ 0 ≤ lakeEvapR A kind i s := by
  unfold lakeEvapR
  simp only
  split_ifs with h1 h2 h2
  · exact ⟨zero_F hA, le_rfl⟩
  · exact ⟨add_F hA _ _, not_lt.mp h2⟩
  · exact ⟨zero_F hA, le_rfl⟩
  · exact ⟨add_F hA _ _, not_lt.mp h2⟩

/-- The water at hand is not negative. -/
theorem lakePetMaxR_nonneg (hf : AboveFloor kind i s) (hin : 0 ≤ lakeTotalInR A kind i s) : 0 ≤ lakePetMaxR A kind i s := by
  unfold AboveFloor lakeLimit at hf
  cases kind <;> simp only [lakePetMaxR] at hf ⊢
  · exact add_nonneg hA (rnd_nonneg hA (by linarith)) hin
  · exact add_nonneg hA (rnd_nonneg hA (by linarith)) hin
  · exact add_nonneg hA hf hin
  · exact add_nonneg hA hf hin

/-- C78 under rounding: where the losses exceed the water at hand, a lake or wetland above its lower limit divides by losses
greater than zero. -/
theorem C78_rounded_lake (hf : AboveFloor kind i s) (hin : 0 ≤ lakeTotalInR A kind i s)
    (hshort : lakePetR A kind i s > lakePetMaxR A kind i s) : 0 < lakePetR A kind i s :=
  lt_of_le_of_lt (lakePetMaxR_nonneg hA kind i s hf hin) hshort

include hn
/-- C67, lakes and wetlands on any day, also when the losses exceed the water: what the balance reports as evaporation,
recharge and use is, with storage and outflow, the water of the day up to 52 roundings and the underflow of the reduction. -/
theorem C67_lake_day (M : ℝ) (hz : LakeSize A kind i s M) (hF : A.F i.maxStorage) (hf : AboveFloor kind i s) (hk : 0 ≤ i.k)
    (harea : 0 ≤ lakeAreaR A kind i s ∧ lakeAreaR A kind i s ≤ M)
    (han : kind = .globalLake ∨ kind = .globalWetland → |lakeAnalyticR A kind i s| ≤ M) :
    let o := lakeBalanceR A kind i s
    |s + i.inflow + i.precip * lakeAreaR A kind i s - (o.storage + o.outflow + o.evapKm3 + o.gwr + o.use)|
      ≤ 52 * (u * M + η) + 5 * (M * η) := by
  intro o
  have hM0 := lakeSize_nonneg kind i s M hz
  have hE : 0 ≤ u * M := mul_nonneg hn.u0 hM0
  have hη := hn.η0
  have hMη : 0 ≤ M * η := mul_nonneg hM0 hη
  have hmx := hz.max
  have h2 := hn.dbl M hz.machine
  have h4 : A.F (4 * M) := by have := hn.dbl _ h2; rwa [show 2 * (2 * M) = 4 * M by ring] at this
  obtain ⟨⟨t0, t1⟩, et⟩ := lakeTotalInR_err hA hn kind i s M hz
  obtain ⟨⟨p0, p1⟩, ep⟩ := lakePetR_err hA hn kind i s M hz
  obtain ⟨eF, e0⟩ := lakeEvapR_F hA kind i s
  have hs := abs_le.mp hz.storage
  by_cases hshort : lakePetR A kind i s > lakePetMaxR A kind i s
  · -- losses reduced to the water at hand
    have hP0 := lakePetMaxR_nonneg hA kind i s hf t0
    have hP : lakePetMaxR A kind i s ≤ 4 * M ∧ |lakePetMaxR A kind i s - (s + -lakeLimit kind i + lakeTotalInR A kind i s)|
        ≤ 6 * (u * M + η) := by
      have key : |A.add (A.add s i.maxStorage) (lakeTotalInR A kind i s) - (s + i.maxStorage + lakeTotalInR A kind i s)|
          ≤ 6 * (u * M + η) ∧ A.add (A.add s i.maxStorage) (lakeTotalInR A kind i s) ≤ 4 * M := by
        obtain ⟨b1, e1⟩ := hn.op hA (x := s + i.maxStorage) h2 (abs_le.mpr ⟨by linarith, by linarith⟩)
        change |A.add s i.maxStorage| ≤ _ at b1
        change |A.add s i.maxStorage - _| ≤ _ at e1
        generalize A.add s i.maxStorage = y at *
        have b1' := abs_le.mp b1
        obtain ⟨b2, e2⟩ := hn.op hA (x := y + lakeTotalInR A kind i s) h4 (abs_le.mpr ⟨by linarith, by linarith⟩)
        change |A.add y _| ≤ _ at b2
        change |A.add y _ - _| ≤ _ at e2
        refine ⟨?_, (le_abs_self _).trans b2⟩
        rw [abs_le] at *
        constructor <;> linarith
      have key2 : |A.add s (lakeTotalInR A kind i s) - (s + lakeTotalInR A kind i s)|
          ≤ 6 * (u * M + η) ∧ A.add s (lakeTotalInR A kind i s) ≤ 4 * M := by
        obtain ⟨b2, e2⟩ := hn.op hA (x := s + lakeTotalInR A kind i s) h4 (abs_le.mpr ⟨by linarith, by linarith⟩)
        change |A.add s _| ≤ _ at b2
        change |A.add s _ - _| ≤ _ at e2
        refine ⟨?_, (le_abs_self _).trans b2⟩
        rw [abs_le] at *
        constructor <;> linarith
      cases kind <;> simp only [lakePetMaxR, lakeLimit, neg_mul, one_mul, neg_neg, neg_zero, add_zero]
      · exact ⟨key.2, key.1⟩
      · exact ⟨key.2, key.1⟩
      · exact ⟨key2.2, key2.1⟩
      · exact ⟨key2.2, key2.1⟩
    have hr := ratio_err hA hn _ _ M hP0 hshort hP.1 p1
    have hse := short_err hA hn (lakeEvapR A kind i s) (lakeAreaR A kind i s) (lakeGwrR A kind i s) (lakeDemandR A kind i)
      (lakePetMaxR A kind i s) (lakePetR A kind i s) (lakeRatioR A kind i s) M hz.machine hr.1 hr.2 eF e0 harea hz.evap.2
      hz.gwr hz.demand ep
    have hst : o.storage = lakeLimit kind i ∧ o.outflow = 0 := by
      have hs0 : A.sub 0 0 = 0 := by unfold Arith.sub; rw [sub_zero]; exact zero_F hA
      have hsm : A.sub (-1 * i.maxStorage) 0 = -1 * i.maxStorage := by
        unfold Arith.sub; rw [sub_zero, neg_one_mul]; exact neg_F hA hF
      simp only [o, lakeBalanceR]
      cases kind
      · simp only [lakeSOR, localSOR, if_pos hshort, lakeLimit, if_true]
        have : -1 * i.maxStorage ≤ 0 := by linarith
        simp only [if_pos this, ite_self, hsm, if_neg (show ¬ (-1 * i.maxStorage > i.maxStorage) by linarith), and_self]
      · simp only [lakeSOR, globalLakeSOR, if_pos hshort, and_self]
      · simp only [lakeSOR, localSOR, if_pos hshort, lakeLimit, reduceCtorEq, if_false, gt_iff_lt, lt_self_iff_false, hs0,
          if_neg (show ¬ (i.maxStorage < 0) by linarith), and_self]
      · simp only [lakeSOR, globalWetlandSOR, if_pos hshort, lakeLimit, gt_iff_lt,
          if_neg (show ¬ (i.maxStorage < 0) by linarith), and_self]
    have hu : o.evapKm3 + o.gwr + o.use = A.mul (A.mul (lakeEvapR A kind i s) (lakeRatioR A kind i s)) (lakeAreaR A kind i s)
        + A.mul (lakeGwrR A kind i s) (lakeRatioR A kind i s)
        + A.sub (lakeDemandR A kind i) (if lakeDemandR A kind i > 0 then
            A.sub (lakeDemandR A kind i) (A.mul (lakeDemandR A kind i) (lakeRatioR A kind i s)) else 0) := by
      simp only [o, lakeBalanceR, if_pos hshort, lakeUnsatR]
      by_cases hg : kind = .globalLake
      · rw [if_pos hg]
      · rw [if_neg hg]
        have : lakeDemandR A kind i = 0 := by unfold lakeDemandR; rw [if_neg hg]
        rw [this, if_neg (lt_irrefl (0 : ℝ))]
    obtain ⟨hP1, hP2⟩ := hP
    rw [hst.1, hst.2]
    have hre : s + i.inflow + i.precip * lakeAreaR A kind i s - (lakeLimit kind i + 0 + o.evapKm3 + o.gwr + o.use)
        = s + i.inflow + i.precip * lakeAreaR A kind i s - lakeLimit kind i - (o.evapKm3 + o.gwr + o.use) := by ring
    rw [hre, hu]
    generalize A.mul (A.mul (lakeEvapR A kind i s) (lakeRatioR A kind i s)) (lakeAreaR A kind i s)
        + A.mul (lakeGwrR A kind i s) (lakeRatioR A kind i s)
        + A.sub (lakeDemandR A kind i) (if lakeDemandR A kind i > 0 then
            A.sub (lakeDemandR A kind i) (A.mul (lakeDemandR A kind i) (lakeRatioR A kind i s)) else 0) = L at *
    generalize lakePetMaxR A kind i s = P at *
    generalize lakeTotalInR A kind i s = T at *
    rw [abs_le] at *
    constructor <;> linarith
  · -- losses met
    have hb : |s + i.inflow + i.precip * lakeAreaR A kind i s
      - ((lakeSOR A kind i s).1 + (lakeSOR A kind i s).2 + lakeEvapR A kind i s * lakeAreaR A kind i s
        + lakeGwrR A kind i s + lakeDemandR A kind i)| ≤ 48 * (u * M + η) := by
      by_cases hl : kind = .localLake ∨ kind = .localWetland
      · have := C67_local_lake hA hn kind i s M hz hl hk hshort
        linarith
      · have hg : kind = .globalLake ∨ kind = .globalWetland := by cases kind <;> simp at hl ⊢
        exact C67_global_lake hA hn kind i s M hz hg hshort (han hg)
    obtain ⟨-, e1⟩ := hn.op hA (x := lakeEvapR A kind i s * lakeAreaR A kind i s) hz.machine
      (by rw [abs_of_nonneg hz.evap.1]; exact hz.evap.2)
    change |A.mul (lakeEvapR A kind i s) (lakeAreaR A kind i s) - _| ≤ _ at e1
    have hu0 : lakeUnsatR A kind i s = 0 := by
      unfold lakeUnsatR; rw [if_neg hshort]; simp
    have e2 := hn.err (K := M) (x := lakeDemandR A kind i - 0) (by rw [sub_zero, abs_of_nonneg hz.demand.1]; exact hz.demand.2)
    change |A.sub (lakeDemandR A kind i) 0 - _| ≤ _ at e2
    simp only [o, lakeBalanceR, if_neg hshort, hu0]
    generalize A.mul (lakeEvapR A kind i s) (lakeAreaR A kind i s) = V at *
    generalize A.sub (lakeDemandR A kind i) 0 = U at *
    rw [abs_le] at *
    constructor <;> linarith
end

/-! ### Reservoirs on any day -/

section
variable (hA : A.Ok) (hn : A.Near u η) (i : ResIn) (s : ℝ)
include hA

theorem resEvapR_F : A.F (resEvapR A i s) ∧ 0 ≤ resEvapR A i s := by
  unfold resEvapR
  simp only
  split_ifs with h2
  · exact ⟨zero_F hA, le_rfl⟩
  · exact ⟨add_F hA _ _, not_lt.mp h2⟩

theorem resAbstractR_unsat (d st cap M : ℝ) (hM : A.F M) (hM0 : 0 ≤ M) (hd : |d| ≤ M) :
    0 ≤ (resAbstractR A d st cap).2 ∧ (resAbstractR A d st cap).2 ≤ M := by
  have hd' := abs_le.mp hd
  unfold resAbstractR
  generalize A.mul (A.rnd 0.1) cap = c
  split_ifs with h1 h2 h3
  · exact ⟨le_rfl, hM0⟩
  · exact ⟨le_rfl, hM0⟩
  · have y0 : 0 ≤ A.sub st c := sub_nonneg hA h2.le
    exact ⟨sub_nonneg hA (not_lt.mp h3), rnd_le hA hM (by linarith)⟩
  · exact ⟨not_lt.mp h1, hd'.2⟩

include hn
/-- Abstraction and release from the storage left by evaporation and recharge. -/
theorem res_after_err (release : ℝ → ℝ) (M : ℝ) (hz : ResSize A i s release M)
    (h0 : 0 ≤ resStorage1R A i s) (h1 : resStorage1R A i s ≤ 4 * M) (hF : A.F (resStorage1R A i s)) :
    |resStorage1R A i s - ((resSOR A i s release).1 + (resSOR A i s release).2
      + A.sub (resDemandR A i) (resAbstractR A (resDemandR A i) (resStorage1R A i s) i.han.cap).2)|
      ≤ max i.minV 0 + 32 * (u * M + η) := by
  have hM0 : 0 ≤ M := hz.storage.1.trans hz.storage.2
  have hE : 0 ≤ u * M := mul_nonneg hn.u0 hM0
  have hη := hn.η0
  obtain ⟨⟨a0, a1⟩, a2⟩ := resAbstractR_err hA hn (resDemandR A i) (resStorage1R A i s) i.han.cap M hz.machine
    ⟨h0, h1⟩ hF hz.demand hz.cap
  have hus := resAbstractR_unsat hA (resDemandR A i) (resStorage1R A i s) i.han.cap M hz.machine hM0 hz.demand
  have f := flush_dist i.minV (resAbstractR A (resDemandR A i) (resStorage1R A i s) i.han.cap).1
  have fb : 0 ≤ resBeforeReleaseR A i s ∧ resBeforeReleaseR A i s ≤ 8 * M := by
    unfold resBeforeReleaseR flush
    split_ifs
    · exact ⟨le_rfl, by linarith⟩
    · exact ⟨a0, a1⟩
  have r := resReleaseR_err hA hn (resBeforeReleaseR A i s) (release (resBeforeReleaseR A i s)) i.han.cap M hz.machine fb
    hz.cap hz.release1 hz.release2
  change |resBeforeReleaseR A i s - (resSOR A i s release).2 - (resSOR A i s release).1| ≤ _ at r
  change |resBeforeReleaseR A i s - _| ≤ _ at f
  have hd' := abs_le.mp hz.demand
  have e := hn.err (K := 2 * M) (x := resDemandR A i - (resAbstractR A (resDemandR A i) (resStorage1R A i s) i.han.cap).2)
    (abs_le.mpr ⟨by linarith, by linarith⟩)
  change |A.sub _ _ - _| ≤ _ at e
  generalize A.sub (resDemandR A i) (resAbstractR A (resDemandR A i) (resStorage1R A i s) i.han.cap).2 = use at *
  generalize (resAbstractR A (resDemandR A i) (resStorage1R A i s) i.han.cap) = ab at *
  generalize resSOR A i s release = so at *
  generalize resBeforeReleaseR A i s = bf at *
  generalize resStorage1R A i s = s1 at *
  generalize max i.minV 0 = mv at *
  rw [abs_le] at *
  constructor <;> linarith

/-- C67, reservoirs and regulated lakes on any day, also when evaporation and recharge exceed the water: what the balance
reports is the water of the day up to 57 roundings, the underflow of the reduction and the volume below which the storage is
set to zero, whatever the release rule answers. -/
theorem C67_reservoir_day (rule : ℝ → ℝ × ℝ) (M : ℝ) (hz : ResSize A i s (fun x => (rule x).1) M)
    (harea : 0 ≤ i.area ∧ i.area ≤ M) :
    let o := resBalanceR A i s rule
    |s + i.han.inflow + i.precip * i.area - (o.storage + o.outflow + o.evapKm3 + o.gwr + o.use)|
      ≤ max i.minV 0 + (57 * (u * M + η) + 5 * (M * η)) := by
  intro o
  have hM0 : 0 ≤ M := hz.storage.1.trans hz.storage.2
  have hE : 0 ≤ u * M := mul_nonneg hn.u0 hM0
  have hη := hn.η0
  have hMη : 0 ≤ M * η := mul_nonneg hM0 hη
  have h2 := hn.dbl M hz.machine
  have h4 : A.F (4 * M) := by have := hn.dbl _ h2; rwa [show 2 * (2 * M) = 4 * M by ring] at this
  have hp := hz.precip
  have hi := hz.inflow
  obtain ⟨b1, e1⟩ := hn.op hA (x := i.precip * i.area) hz.machine (by rw [abs_of_nonneg hp.1]; exact hp.2)
  change |A.mul i.precip i.area| ≤ _ at b1
  change |A.mul i.precip i.area - _| ≤ _ at e1
  have n1 : 0 ≤ A.mul i.precip i.area := rnd_nonneg hA hp.1
  have b1' := (le_abs_self _).trans b1
  have e2 : |resTotalInR A i - (i.han.inflow + A.mul i.precip i.area)| ≤ u * (2 * M) + η :=
    hn.err (abs_le.mpr ⟨by linarith, by linarith⟩)
  have t0 : 0 ≤ resTotalInR A i := rnd_nonneg hA (by linarith)
  have t1 : resTotalInR A i ≤ 2 * M := rnd_le hA h2 (by linarith)
  have hev := hz.evap
  have hg := hz.gwr
  obtain ⟨b3, e3⟩ := hn.op hA (x := resEvapR A i s * i.area) hz.machine (by rw [abs_of_nonneg hev.1]; exact hev.2)
  change |A.mul (resEvapR A i s) i.area| ≤ _ at b3
  change |A.mul (resEvapR A i s) i.area - _| ≤ _ at e3
  have n3 : 0 ≤ A.mul (resEvapR A i s) i.area := rnd_nonneg hA hev.1
  have b3' := (le_abs_self _).trans b3
  have e4 : |resPetR A i s - (A.mul (resEvapR A i s) i.area + resGwrR A i s)| ≤ u * (2 * M) + η :=
    hn.err (abs_le.mpr ⟨by linarith, by linarith⟩)
  have p0 : 0 ≤ resPetR A i s := rnd_nonneg hA (by linarith)
  have p1 : resPetR A i s ≤ 2 * M := rnd_le hA h2 (by linarith)
  have hs := hz.storage
  have e5 : |A.add s (resTotalInR A i) - (s + resTotalInR A i)| ≤ u * (3 * M) + η :=
    hn.err (abs_le.mpr ⟨by linarith, by linarith⟩)
  have x0 : 0 ≤ A.add s (resTotalInR A i) := rnd_nonneg hA (by linarith)
  have x4 : A.add s (resTotalInR A i) ≤ 4 * M := rnd_le hA h4 (by linarith)
  by_cases hshort : resShortR A i s
  · have hs1 : resStorage1R A i s = 0 := by
      unfold resStorage1R
      rw [if_pos (show resPetR A i s > 0 ∧ resPetR A i s > A.add s (resTotalInR A i) from hshort)]
    have haf := res_after_err hA hn i s (fun x => (rule x).1) M hz (by rw [hs1]) (by rw [hs1]; linarith) (by rw [hs1]; exact zero_F hA)
    have hr := ratio_err hA hn _ _ M x0 hshort.2 x4 (by linarith : resPetR A i s ≤ 4 * M)
    obtain ⟨eF, e0⟩ := resEvapR_F hA i s
    have hse := short_err hA hn (resEvapR A i s) i.area (resGwrR A i s) 0 (A.add s (resTotalInR A i)) (resPetR A i s)
      (A.div (A.add s (resTotalInR A i)) (resPetR A i s)) M hz.machine hr.1 hr.2 eF e0 harea hev.2 hg ⟨le_rfl, hM0⟩
      (by rw [abs_le] at *; constructor <;> linarith)
    have hs0 : A.sub 0 0 = 0 := by unfold Arith.sub; rw [sub_zero]; exact zero_F hA
    rw [if_neg (lt_irrefl (0 : ℝ)), hs0, add_zero] at hse
    rw [hs1] at haf
    simp only [o, resBalanceR, if_pos hshort, hs1]
    generalize A.sub (resDemandR A i) (resAbstractR A (resDemandR A i) 0 i.han.cap).2 = use at *
    generalize (resSOR A i s fun x => (rule x).1) = so at *
    generalize A.mul (A.mul (resEvapR A i s) (A.div (A.add s (resTotalInR A i)) (resPetR A i s))) i.area = V at *
    generalize A.mul (resGwrR A i s) (A.div (A.add s (resTotalInR A i)) (resPetR A i s)) = W at *
    generalize A.add s (resTotalInR A i) = x at *
    generalize resTotalInR A i = tin at *
    generalize A.mul i.precip i.area = pa at *
    generalize max i.minV 0 = mv at *
    rw [abs_le] at *
    constructor <;> linarith
  · have hle : resPetR A i s ≤ A.add s (resTotalInR A i) := by
      by_contra hc
      have hc := not_le.mp hc
      exact hshort ⟨lt_of_le_of_lt x0 hc, hc⟩
    have hst1 : resStorage1R A i s = A.sub (A.add s (resTotalInR A i)) (resPetR A i s) := by
      unfold resStorage1R
      rw [if_neg (show ¬ (resPetR A i s > 0 ∧ resPetR A i s > A.add s (resTotalInR A i)) from hshort)]
    obtain ⟨b6, e6⟩ := hn.op hA (x := A.add s (resTotalInR A i) - resPetR A i s) h4
      (abs_le.mpr ⟨by linarith, by linarith⟩)
    change |A.sub _ _| ≤ _ at b6
    change |A.sub _ _ - _| ≤ _ at e6
    rw [← hst1] at b6 e6
    have haf := res_after_err hA hn i s (fun x => (rule x).1) M hz (by rw [hst1]; exact sub_nonneg hA hle)
      ((le_abs_self _).trans b6) (by rw [hst1]; exact sub_F hA _ _)
    simp only [o, resBalanceR, if_neg hshort]
    generalize A.sub (resDemandR A i) (resAbstractR A (resDemandR A i) (resStorage1R A i s) i.han.cap).2 = use at *
    generalize (resSOR A i s fun x => (rule x).1) = so at *
    generalize resStorage1R A i s = s1 at *
    generalize A.add s (resTotalInR A i) = x at *
    generalize resTotalInR A i = tin at *
    generalize resPetR A i s = pet at *
    generalize A.mul (resEvapR A i s) i.area = ea at *
    generalize A.mul i.precip i.area = pa at *
    generalize max i.minV 0 = mv at *
    rw [abs_le] at *
    constructor <;> linarith
end

/-! ### A body that may be absent, runoff, river, local lake -/

/-- The volumes of a day of a lake or wetland fit into `M`, and its storage is above its lower limit. -/
structure BodySize (A : Arith) (kind : LakeKind) (i : LakeIn) (s M : ℝ) : Prop where
  size : LakeSize A kind i s M
  capacity : A.F i.maxStorage
  floor : AboveFloor kind i s
  area : 0 ≤ lakeAreaR A kind i s ∧ lakeAreaR A kind i s ≤ M
  analytic : kind = .globalLake ∨ kind = .globalWetland → |lakeAnalyticR A kind i s| ≤ M

section
variable (hA : A.Ok) (hn : A.Near u η)
include hA

theorem body_gwr_zero (kind : LakeKind) (i : LakeIn) (s : ℝ) (q : Prop) [Decidable q] (h : (i.arid && i.drainageOk) = false) :
    (bodyDayR A kind i s q).gwr = 0 := by
  have h0 : lakeGwrR A kind i s = 0 := by
    unfold lakeGwrR; rw [h]; simp
  have hm : A.mul 0 (lakeRatioR A kind i s) = 0 := by unfold Arith.mul; rw [zero_mul]; exact zero_F hA
  unfold bodyDayR
  split_ifs
  · simp only [lakeBalanceR, h0, hm, ite_self]
  · rfl

theorem body_use_zero (kind : LakeKind) (i : LakeIn) (s : ℝ) (q : Prop) [Decidable q] (h : kind ≠ .globalLake) :
    (bodyDayR A kind i s q).use = 0 := by
  have h0 : lakeDemandR A kind i = 0 := by unfold lakeDemandR; rw [if_neg h]
  have h1 : lakeUnsatR A kind i s = 0 := by unfold lakeUnsatR; rw [if_neg h]
  unfold bodyDayR
  split_ifs
  · simp only [lakeBalanceR, h0, h1]
    unfold Arith.sub; rw [sub_zero]; exact zero_F hA
  · rfl

include hn
theorem body_err (kind : LakeKind) (i : LakeIn) (s M : ℝ) (q : Prop) [Decidable q] (hM : 0 ≤ M) (hk : 0 ≤ i.k)
    (hb : q → BodySize A kind i s M) :
    |s + i.inflow + i.precip * (if q then lakeAreaR A kind i s else 0)
      - ((bodyDayR A kind i s q).storage + (bodyDayR A kind i s q).outflow + (bodyDayR A kind i s q).evapKm3
        + (bodyDayR A kind i s q).gwr + (bodyDayR A kind i s q).use)| ≤ 52 * (u * M + η) + 5 * (M * η) := by
  have hE : 0 ≤ u * M := mul_nonneg hn.u0 hM
  have hη := hn.η0
  have hMη : 0 ≤ M * η := mul_nonneg hM hη
  by_cases hq : q
  · obtain ⟨h1, h2, h3, h4, h5⟩ := hb hq
    unfold bodyDayR
    rw [if_pos hq, if_pos hq]
    exact C67_lake_day hA hn kind i s M h1 h2 h3 hk h4 h5
  · unfold bodyDayR
    rw [if_neg hq, if_neg hq]
    rw [show s + i.inflow + i.precip * 0 - (s + i.inflow + 0 + 0 + 0) = 0 by ring, abs_zero]
    linarith

/-- Runoff and groundwater discharge are split without loss up to ten roundings. -/
theorem split_err (R D a b g f M : ℝ) (sink : Bool) (hM : A.F M) (hR : 0 ≤ R ∧ R ≤ M) (hD : 0 ≤ D ∧ D ≤ M)
    (ha : 0 ≤ a) (hb : 0 ≤ b) (hg : 0 ≤ g) (hf : 0 ≤ f) :
    |(fracRoutingR A R D a b g f sink).1 + (fracRoutingR A R D a b g f sink).2 - (R + D)| ≤ 10 * (u * M + η) + 2 * (M * η) ∧
    (sink = true → (fracRoutingR A R D a b g f sink).2 = 0) := by
  have hM0 : 0 ≤ M := hR.1.trans hR.2
  have hE : 0 ≤ u * M := mul_nonneg hn.u0 hM0
  have hη := hn.η0
  have hMη : 0 ≤ M * η := mul_nonneg hM0 hη
  have z : A.add 0 0 = 0 := by unfold Arith.add; rw [add_zero]; exact zero_F hA
  cases sink
  · refine ⟨?_, fun h => absurd h (by simp)⟩
    simp only [fracRoutingR, Bool.false_eq_true, if_false]
    have hx : 0 ≤ swbShareR A a b g f ∧ swbShareR A a b g f ≤ 1 := by
      have h0 : 0 ≤ A.mul (A.add (A.add a b) g) f :=
        Arith.mul_nonneg hA (add_nonneg hA (add_nonneg hA ha hb) hg) hf
      unfold swbShareR
      simp only
      split_ifs with h
      · exact ⟨zero_le_one, le_rfl⟩
      · exact ⟨h0, not_lt.mp h⟩
    generalize swbShareR A a b g f = x at *
    have y0 : 0 ≤ A.sub 1 x := sub_nonneg hA hx.2
    have y1 : A.sub 1 x ≤ 1 := rnd_le hA (one_F hA) (by linarith)
    have ey : |A.sub 1 x - (1 - x)| ≤ u + η := by
      have := hn.err (K := 1) (x := 1 - x) (abs_le.mpr ⟨by linarith, by linarith⟩)
      rwa [mul_one] at this
    generalize A.sub 1 x = y at *
    -- one of the two, split
    have one : ∀ v : ℝ, 0 ≤ v → v ≤ M → (0 ≤ A.mul x v ∧ A.mul x v ≤ M) ∧ (0 ≤ A.mul y v ∧ A.mul y v ≤ M) ∧
        |A.mul x v + A.mul y v - v| ≤ 3 * (u * M + η) + M * η := by
      intro v v0 vM
      have xv : 0 ≤ x * v ∧ x * v ≤ M := ⟨mul_nonneg hx.1 v0, by nlinarith [hx.1, hx.2]⟩
      have yv : 0 ≤ y * v ∧ y * v ≤ M := ⟨mul_nonneg y0 v0, by nlinarith⟩
      obtain ⟨b1, e1⟩ := hn.op hA (x := x * v) hM (by rw [abs_of_nonneg xv.1]; exact xv.2)
      obtain ⟨b2, e2⟩ := hn.op hA (x := y * v) hM (by rw [abs_of_nonneg yv.1]; exact yv.2)
      change |A.mul x v| ≤ _ at b1
      change |A.mul y v| ≤ _ at b2
      change |A.mul x v - _| ≤ _ at e1
      change |A.mul y v - _| ≤ _ at e2
      refine ⟨⟨rnd_nonneg hA xv.1, (le_abs_self _).trans b1⟩, ⟨rnd_nonneg hA yv.1, (le_abs_self _).trans b2⟩, ?_⟩
      have e3 : |y * v - (1 - x) * v| ≤ u * M + M * η := by
        rw [← sub_mul, abs_mul, abs_of_nonneg v0]
        have h1 := mul_le_mul_of_nonneg_right ey v0
        have h2 := mul_le_mul_of_nonneg_left vM hn.u0
        have h3 := mul_le_mul_of_nonneg_left vM hη
        linarith
      generalize A.mul x v = p at *
      generalize A.mul y v = q at *
      rw [abs_le] at *
      constructor <;> linarith
    obtain ⟨r1, r2, r3⟩ := one R hR.1 hR.2
    obtain ⟨d1, d2, d3⟩ := one D hD.1 hD.2
    generalize A.mul x R = xr at *
    generalize A.mul y R = yr at *
    generalize A.mul x D = xd at *
    generalize A.mul y D = yd at *
    have e1 := hn.err (K := 2 * M) (x := xr + xd) (abs_le.mpr ⟨by linarith, by linarith⟩)
    have e2 := hn.err (K := 2 * M) (x := yr + yd) (abs_le.mpr ⟨by linarith, by linarith⟩)
    change |A.add xr xd - _| ≤ _ at e1
    change |A.add yr yd - _| ≤ _ at e2
    rw [abs_le] at *
    constructor <;> linarith
  · simp only [fracRoutingR, if_true, z, add_zero, implies_true, and_true]
    have e1 := hn.err (K := 2 * M) (x := R + D) (abs_le.mpr ⟨by linarith, by linarith⟩)
    change |A.add R D - _| ≤ _ at e1
    rw [abs_le] at *
    constructor <;> linarith

/-- Abstraction from the local lake: what the storage loses is the use, up to eleven roundings. -/
theorem tap_err (s m frac r d M : ℝ) (hM : A.F M) (hs : |s| ≤ M) (hm : |m| ≤ M) (hd : |d| ≤ M) :
    |s - (localLakeAbstractR A s m frac r d).1 - (localLakeAbstractR A s m frac r d).2.2.2| ≤ 11 * (u * M + η) := by
  have hM0 : 0 ≤ M := (abs_nonneg _).trans hs
  have hE : 0 ≤ u * M := mul_nonneg hn.u0 hM0
  have hη := hn.η0
  have h2 := hn.dbl M hM
  have h4 : A.F (4 * M) := by have := hn.dbl _ h2; rwa [show 2 * (2 * M) = 4 * M by ring] at this
  have hs' := abs_le.mp hs
  have hm' := abs_le.mp hm
  have hd' := abs_le.mp hd
  unfold localLakeAbstractR
  simp only
  obtain ⟨b1, e1⟩ := hn.op hA (x := s + m) h2 (abs_le.mpr ⟨by linarith, by linarith⟩)
  change |A.add s m| ≤ _ at b1
  change |A.add s m - _| ≤ _ at e1
  generalize A.add s m = y at *
  have b1' := abs_le.mp b1
  by_cases h : d < y
  · simp only [if_pos h]
    have e2 := hn.err (K := 2 * M) (x := s - d) (abs_le.mpr ⟨by linarith, by linarith⟩)
    have e3 := hn.err (K := M) (x := d - 0) (by rw [sub_zero]; exact hd)
    change |A.sub s d - _| ≤ _ at e2
    change |A.sub d 0 - _| ≤ _ at e3
    rw [abs_le] at *
    constructor <;> linarith
  · simp only [if_neg h]
    obtain ⟨b2, e2⟩ := hn.op hA (x := d - y) h4 (abs_le.mpr ⟨by linarith, by linarith⟩)
    change |A.sub d y| ≤ _ at b2
    change |A.sub d y - _| ≤ _ at e2
    generalize A.sub d y = z at *
    have b2' := abs_le.mp b2
    have e3 := hn.err (K := 5 * M) (x := d - z) (abs_le.mpr ⟨by linarith, by linarith⟩)
    change |A.sub d z - _| ≤ _ at e3
    rw [abs_le] at *
    constructor <;> linarith

/-- A sum of five volumes. -/
theorem sum5_err (a b c d e M : ℝ) (hM : A.F M) (ha : |a| ≤ M) (hb : |b| ≤ M) (hc : |c| ≤ M) (hd : |d| ≤ M) (he : |e| ≤ M) :
    |A.add (A.add (A.add (A.add a b) c) d) e - (a + b + c + d + e)| ≤ 20 * (u * M + η) ∧
    |A.add (A.add (A.add (A.add a b) c) d) e| ≤ 16 * M := by
  have hM0 : 0 ≤ M := (abs_nonneg _).trans ha
  have hE : 0 ≤ u * M := mul_nonneg hn.u0 hM0
  have hη := hn.η0
  have h2 := hn.dbl M hM
  have h4 : A.F (4 * M) := by have := hn.dbl _ h2; rwa [show 2 * (2 * M) = 4 * M by ring] at this
  have h8 : A.F (8 * M) := by have := hn.dbl _ h4; rwa [show 2 * (4 * M) = 8 * M by ring] at this
  have h16 : A.F (16 * M) := by have := hn.dbl _ h8; rwa [show 2 * (8 * M) = 16 * M by ring] at this
  obtain ⟨b1, e1⟩ := hn.op hA (x := a + b) h2 ((abs_add_le _ _).trans (by linarith))
  change |A.add a b| ≤ _ at b1
  change |A.add a b - _| ≤ _ at e1
  generalize A.add a b = x1 at *
  have e2 := hn.err (K := 3 * M) (x := x1 + c) ((abs_add_le _ _).trans (by linarith))
  obtain ⟨b2, -⟩ := hn.op hA (x := x1 + c) h4 ((abs_add_le _ _).trans (by linarith))
  change |A.add x1 c| ≤ _ at b2
  change |A.add x1 c - _| ≤ _ at e2
  generalize A.add x1 c = x2 at *
  have e3 := hn.err (K := 5 * M) (x := x2 + d) ((abs_add_le _ _).trans (by linarith))
  obtain ⟨b3, -⟩ := hn.op hA (x := x2 + d) h8 ((abs_add_le _ _).trans (by linarith))
  change |A.add x2 d| ≤ _ at b3
  change |A.add x2 d - _| ≤ _ at e3
  generalize A.add x2 d = x3 at *
  have e4 := hn.err (K := 9 * M) (x := x3 + e) ((abs_add_le _ _).trans (by linarith))
  obtain ⟨b4, -⟩ := hn.op hA (x := x3 + e) h16 ((abs_add_le _ _).trans (by linarith))
  change |A.add x3 e| ≤ _ at b4
  change |A.add x3 e - _| ≤ _ at e4
  refine ⟨?_, b4⟩
  rw [abs_le] at *
  constructor <;> linarith
end

/-! ### The whole cell -/

section
variable (A) (c : CellIn) (st : CellState) (up demand : ℝ) (keep : ℝ → ℝ) (rule : ℝ → ℝ × ℝ) (kRiver : ℝ → ℝ)

/-- The net inflow of the groundwater of the day, `groundwater.py:99,115`. -/
noncomputable def cellNetInR : ℝ :=
  A.sub (A.add c.recharge (if c.gwKind = .arid then cellPointR A c st up demand rule else 0))
    (cellGwFinalR A c st up demand rule).nag

/-- The storages and fluxes of the day that the code stores or reports, besides those of `LakeSize` and `ResSize`. -/
noncomputable def cellVolumes : List ℝ :=
  [st.gw, c.recharge, cellPointR A c st up demand rule, (cellGwFinalR A c st up demand rule).nag,
   cellNetInR A c st up demand rule,
   (cellGwFinalR A c st up demand rule).storage, (cellGwFinalR A c st up demand rule).discharge, (cellSplitR A c st).2,
   (cellLocLakeR A c st).gwr, (cellLocWetR A c st).gwr, (cellGloLakeR A c st up demand).gwr,
   (cellGloWetR A c st up demand rule).gwr, (cellResR A c st up demand rule).gwr,
   (cellLocLakeR A c st).evapKm3, (cellLocWetR A c st).evapKm3, (cellGloLakeR A c st up demand).evapKm3,
   (cellResR A c st up demand rule).evapKm3, (cellGloWetR A c st up demand rule).evapKm3,
   (cellGloLakeR A c st up demand).use, (cellResR A c st up demand rule).use,
   riverUseR A c st up demand keep rule kRiver, (cellTappedR A c st up demand keep rule kRiver).2.2.2,
   (cellLocLakeR A c st).storage, (cellLocWetR A c st).outflow, (cellGloWetR A c st up demand rule).outflow,
   cellUnsat2R A c st up demand keep rule, (cellRiverR A c st up demand keep rule kRiver).1,
   (cellRiverR A c st up demand keep rule kRiver).2.1, (cellRiverR A c st up demand keep rule kRiver).2.2,
   cellNasR A c st up demand keep rule kRiver, cellEvapR A c st up demand keep rule kRiver, up]

/-- No volume of the day of a cell is larger than `M`; lakes and wetlands are above their lower limits, and inflows are not
negative. -/
structure CellSize (M : ℝ) : Prop where
  machine : A.F M
  share : (0 ≤ c.locLake.frac ∧ 0 ≤ c.locWet.frac) ∧ 0 ≤ c.gloWet.frac ∧ 0 ≤ c.factor
  k : 0 ≤ c.swbK
  locLake : c.locLake.frac > 0 → BodySize A .localLake (locLakeInR A c st) st.locLake M
  locWet : c.locWet.frac > 0 → BodySize A .localWetland (locWetInR A c st) st.locWet M
  gloLake : c.glolakeArea > 0 → BodySize A .globalLake (gloLakeInR A c st up demand) st.gloLake M
  gloWet : c.gloWet.frac > 0 → BodySize A .globalWetland (gloWetInR A c st up demand rule) st.gloWet M
  res : c.resArea > 0 → ResSize A (cellResInR A c st up demand) st.res (fun x => (rule x).1) M ∧ c.resArea ≤ M
  runoff : 0 ≤ c.runoff ∧ c.runoff ≤ M
  river : (0 ≤ st.river ∧ st.river ≤ M) ∧ 0 ≤ kRiver st.river
  riverIn : 0 ≤ cellRiverInR A c st up demand rule ∧ cellRiverInR A c st up demand rule ≤ M
  volumes : ∀ v ∈ cellVolumes A c st up demand keep rule kRiver, |v| ≤ M

open Classical in
/-- The precipitation on the open water of the cell, with the areas the code computes for the day. -/
noncomputable def cellPrecipR : ℝ := c.precip *
  ((if c.locLake.frac > 0 then lakeAreaR A .localLake (locLakeInR A c st) st.locLake else 0)
   + (if c.locWet.frac > 0 then lakeAreaR A .localWetland (locWetInR A c st) st.locWet else 0)
   + (if c.glolakeArea > 0 then lakeAreaR A .globalLake (gloLakeInR A c st up demand) st.gloLake else 0)
   + (if c.resArea > 0 then c.resArea else 0)
   + (if c.gloWet.frac > 0 then lakeAreaR A .globalWetland (gloWetInR A c st up demand rule) st.gloWet else 0))
end

section
variable (hA : A.Ok) (hn : A.Near u η) (c : CellIn) (st : CellState) (up demand : ℝ) (keep : ℝ → ℝ) (rule : ℝ → ℝ × ℝ)
  (kRiver : ℝ → ℝ)
include hA

omit hA in
theorem sink_not_arid (h : c.sink = true) : c.gwKind ≠ .arid := by
  unfold CellIn.gwKind; rw [if_pos h]; simp

theorem res_gwr_zero (h : (c.arid && !c.sink) = false) : (cellResR A c st up demand rule).gwr = 0 := by
  unfold cellResR
  split_ifs with hr
  · have h0 : resGwrR A (cellResInR A c st up demand) st.res = 0 := by
      unfold resGwrR
      rw [show ((cellResInR A c st up demand).arid && (cellResInR A c st up demand).drainageOk) = false from h]
      simp
    simp only [resBalanceR, h0]
    split_ifs
    · unfold Arith.mul; rw [zero_mul]; exact zero_F hA
    · rfl
  · rfl

omit hA in
theorem arid_gwKind : c.gwKind = .arid ↔ (c.arid && !c.sink) = true := by
  unfold CellIn.gwKind
  cases c.sink <;> cases c.arid <;> simp

/-- Where no recharge from water bodies is possible, there is none. -/
theorem gwr_zero (h : c.gwKind ≠ .arid) : (cellLocLakeR A c st).gwr = 0 ∧ (cellLocWetR A c st).gwr = 0 ∧
    (cellGloLakeR A c st up demand).gwr = 0 ∧ (cellGloWetR A c st up demand rule).gwr = 0 ∧
    (cellResR A c st up demand rule).gwr = 0 := by
  have h' : (c.arid && !c.sink) = false := by
    rw [Ne, arid_gwKind] at h; simpa using h
  exact ⟨body_gwr_zero hA _ _ _ _ h', body_gwr_zero hA _ _ _ _ h', body_gwr_zero hA _ _ _ _ h', body_gwr_zero hA _ _ _ _ h',
    res_gwr_zero hA c st up demand rule h'⟩

omit hA in
/-- Groundwater discharge before and after the recharge from water bodies is known. -/
theorem early_discharge : cellEarlyDischargeR A c st
    = if c.gwKind = .arid then 0 else (cellGwFinalR A c st up demand rule).discharge := by
  unfold cellEarlyDischargeR cellGwFinalR cellGwR groundwaterBalanceR
  cases h : c.gwKind <;> simp

omit hA in
theorem gw_eq : (cellGwFinalR A c st up demand rule).storage = (gwStorageR A st.gw (cellNetInR A c st up demand rule) c.gwK).1 ∧
    (cellGwFinalR A c st up demand rule).discharge = (gwStorageR A st.gw (cellNetInR A c st up demand rule) c.gwK).2 := by
  unfold cellNetInR cellGwFinalR cellGwR groundwaterBalanceR
  cases h : c.gwKind <;> simp

include hn
theorem gw_err (M : ℝ) (hz : CellSize A c st up demand keep rule kRiver M) (hu : u ≤ 1 / 4) (hη2 : η ≤ M / 2) :
    |st.gw + c.recharge + ((cellLocLakeR A c st).gwr + (cellLocWetR A c st).gwr + (cellGloLakeR A c st up demand).gwr
        + (cellGloWetR A c st up demand rule).gwr + (cellResR A c st up demand rule).gwr)
      - (cellGwFinalR A c st up demand rule).nag - (cellGwFinalR A c st up demand rule).discharge
      - (cellGwFinalR A c st up demand rule).storage| ≤ 31 * (u * M + η) := by
  have hv := hz.volumes
  simp only [cellVolumes, List.mem_cons, List.mem_nil_iff, or_false, forall_eq_or_imp, forall_eq] at hv
  obtain ⟨v1, v2, v3, v4, v5, v6, -, -, g1, g2, g3, g4, g5, -⟩ := hv
  have hM0 : 0 ≤ M := (abs_nonneg _).trans v1
  have hE : 0 ≤ u * M := mul_nonneg hn.u0 hM0
  have hη := hn.η0
  obtain ⟨w1, w2⟩ := gw_eq c st up demand rule (A := A)
  rw [w1] at v6
  have hg := C67_groundwater hn st.gw (cellNetInR A c st up demand rule) c.gwK M v1 v5 v6 hu hη2
  rw [← w1, ← w2] at hg
  have h2 := hn.dbl M hz.machine
  have hnet : |cellNetInR A c st up demand rule - (c.recharge + (if c.gwKind = .arid then cellPointR A c st up demand rule else 0)
      - (cellGwFinalR A c st up demand rule).nag)| ≤ 5 * (u * M + η) := by
    unfold cellNetInR
    have hp : |(if c.gwKind = .arid then cellPointR A c st up demand rule else 0)| ≤ M := by
      split_ifs
      · exact v3
      · rw [abs_zero]; exact hM0
    generalize (if c.gwKind = .arid then cellPointR A c st up demand rule else 0) = pt at *
    generalize (cellGwFinalR A c st up demand rule).nag = nag at *
    obtain ⟨b1, e1⟩ := hn.op hA (x := c.recharge + pt) h2 ((abs_add_le _ _).trans (by linarith))
    change |A.add c.recharge pt| ≤ _ at b1
    change |A.add c.recharge pt - _| ≤ _ at e1
    generalize A.add c.recharge pt = y at *
    have e2 := hn.err (K := 3 * M) (x := y - nag) ((abs_sub _ _).trans (by linarith))
    change |A.sub y nag - _| ≤ _ at e2
    rw [abs_le] at *
    constructor <;> linarith
  have hpt : |(if c.gwKind = .arid then cellPointR A c st up demand rule else 0) - ((cellLocLakeR A c st).gwr
      + (cellLocWetR A c st).gwr + (cellGloLakeR A c st up demand).gwr
        + (cellGloWetR A c st up demand rule).gwr + (cellResR A c st up demand rule).gwr)| ≤ 20 * (u * M + η) := by
    by_cases ha : c.gwKind = .arid
    · rw [if_pos ha]
      exact (sum5_err hA hn _ _ _ _ _ M hz.machine g1 g2 g3 g4 g5).1
    · rw [if_neg ha]
      obtain ⟨z1, z2, z3, z4, z5⟩ := gwr_zero hA c st up demand rule ha
      rw [z1, z2, z3, z4, z5]
      simp only [add_zero, sub_zero, abs_zero]
      linarith
  generalize (if c.gwKind = .arid then cellPointR A c st up demand rule else 0) = pt at *
  generalize cellNetInR A c st up demand rule = ni at *
  rw [abs_le] at *
  constructor <;> linarith

theorem riverIn_err (M : ℝ) (hz : CellSize A c st up demand keep rule kRiver M) :
    |cellRiverInR A c st up demand rule + cellEarlyDischargeR A c st - ((cellGloWetR A c st up demand rule).outflow
      + (cellSplitR A c st).2 + (cellGwFinalR A c st up demand rule).discharge)| ≤ 5 * (u * M + η) := by
  have hv := hz.volumes
  simp only [cellVolumes, List.mem_cons, List.mem_nil_iff, or_false, forall_eq_or_imp, forall_eq] at hv
  obtain ⟨v1, -, -, -, -, -, v7, v8, -, -, -, -, -, -, -, -, -, -, -, -, -, -, -, -, w1, -⟩ := hv
  have hM0 : 0 ≤ M := (abs_nonneg _).trans v1
  have hE : 0 ≤ u * M := mul_nonneg hn.u0 hM0
  have hη := hn.η0
  have h2 := hn.dbl M hz.machine
  rw [early_discharge c st up demand rule]
  unfold cellRiverInR
  simp only
  by_cases hs : c.sink = true
  · have hk := sink_not_arid c hs
    have h0 : (cellSplitR A c st).2 = 0 := by
      unfold cellSplitR fracRoutingR
      simp only [hs, if_true]
      unfold Arith.add; rw [add_zero]; exact zero_F hA
    rw [if_pos hs, if_neg hk, h0]
    rw [show ∀ a b : ℝ, a + b - (a + 0 + b) = 0 by intro a b; ring, abs_zero]
    linarith
  · rw [if_neg hs]
    by_cases hk : c.gwKind = .arid
    · rw [if_pos hk, if_pos hk]
      obtain ⟨b1, e1⟩ := hn.op hA (x := (cellSplitR A c st).2 + (cellGwFinalR A c st up demand rule).discharge) h2
        ((abs_add_le _ _).trans (by linarith))
      change |A.add _ _| ≤ _ at b1
      change |A.add _ _ - _| ≤ _ at e1
      generalize A.add (cellSplitR A c st).2 (cellGwFinalR A c st up demand rule).discharge = y at *
      have e2 := hn.err (K := 3 * M) (x := (cellGloWetR A c st up demand rule).outflow + y) ((abs_add_le _ _).trans (by linarith))
      change |A.add _ y - _| ≤ _ at e2
      rw [abs_le] at *
      constructor <;> linarith
    · rw [if_neg hk, if_neg hk]
      have e2 := hn.err (K := 2 * M) (x := (cellGloWetR A c st up demand rule).outflow + (cellSplitR A c st).2)
        ((abs_add_le _ _).trans (by linarith))
      change |A.add _ _ - _| ≤ _ at e2
      rw [abs_le] at *
      constructor <;> linarith

theorem nas_err (M : ℝ) (hz : CellSize A c st up demand keep rule kRiver M) :
    |cellNasR A c st up demand keep rule kRiver - ((cellGloLakeR A c st up demand).use + (cellResR A c st up demand rule).use
      + riverUseR A c st up demand keep rule kRiver + (cellTappedR A c st up demand keep rule kRiver).2.2.2)| ≤ 10 * (u * M + η) := by
  have hv := hz.volumes
  simp only [cellVolumes, List.mem_cons, List.mem_nil_iff, or_false, forall_eq_or_imp, forall_eq] at hv
  obtain ⟨v1, -, -, -, -, -, -, -, -, -, -, -, -, -, -, -, -, -, u1, u2, u3, u4, -⟩ := hv
  have hM0 : 0 ≤ M := (abs_nonneg _).trans v1
  have hE : 0 ≤ u * M := mul_nonneg hn.u0 hM0
  have hη := hn.η0
  have h2 := hn.dbl M hz.machine
  have h4 : A.F (4 * M) := by have := hn.dbl _ h2; rwa [show 2 * (2 * M) = 4 * M by ring] at this
  have hg : (if c.glolakeArea > 0 then (cellGloLakeR A c st up demand).use else 0) = (cellGloLakeR A c st up demand).use := by
    split_ifs with h
    · rfl
    · unfold cellGloLakeR bodyDayR; rw [if_neg h]
  have hr : ¬ c.resArea > 0 → (cellResR A c st up demand rule).use = 0 := by
    intro h; unfold cellResR; rw [if_neg h]
  have ht : ¬ cellTapR A c st up demand keep rule kRiver → (cellTappedR A c st up demand keep rule kRiver).2.2.2 = 0 := by
    intro h; unfold cellTappedR; rw [if_neg h]
  unfold cellNasR
  simp only
  rw [hg]
  generalize (cellGloLakeR A c st up demand).use = x at *
  generalize (cellTappedR A c st up demand keep rule kRiver).2.2.2 = t at *
  generalize riverUseR A c st up demand keep rule kRiver = r at *
  have e1 : |(if c.resArea > 0 then A.add x (cellResR A c st up demand rule).use else x)| ≤ 2 * M ∧
      |(if c.resArea > 0 then A.add x (cellResR A c st up demand rule).use else x) - (x + (cellResR A c st up demand rule).use)|
        ≤ 2 * (u * M + η) := by
    by_cases h : c.resArea > 0
    · rw [if_pos h]
      obtain ⟨b, e⟩ := hn.op hA (x := x + (cellResR A c st up demand rule).use) h2 ((abs_add_le _ _).trans (by linarith))
      change |A.add x _| ≤ _ at b
      change |A.add x _ - _| ≤ _ at e
      exact ⟨b, by linarith⟩
    · rw [if_neg h, hr h, add_zero, sub_self, abs_zero]
      exact ⟨by linarith, by linarith⟩
  generalize (if c.resArea > 0 then A.add x (cellResR A c st up demand rule).use else x) = y at *
  obtain ⟨b1, e1⟩ := e1
  have e2 := hn.err (K := 3 * M) (x := y + r) ((abs_add_le _ _).trans (by linarith))
  obtain ⟨b2, -⟩ := hn.op hA (x := y + r) h4 ((abs_add_le _ _).trans (by linarith))
  change |A.add y r| ≤ _ at b2
  change |A.add y r - _| ≤ _ at e2
  generalize A.add y r = w at *
  by_cases h : cellTapR A c st up demand keep rule kRiver
  · rw [if_pos h]
    have e3 := hn.err (K := 5 * M) (x := w + t) ((abs_add_le _ _).trans (by linarith))
    change |A.add w t - _| ≤ _ at e3
    rw [abs_le] at *
    constructor <;> linarith
  · rw [if_neg h, ht h]
    rw [abs_le] at *
    constructor <;> linarith

theorem evap_err (M : ℝ) (hz : CellSize A c st up demand keep rule kRiver M) :
    |cellEvapR A c st up demand keep rule kRiver - ((cellLocLakeR A c st).evapKm3 + (cellLocWetR A c st).evapKm3
      + (cellGloLakeR A c st up demand).evapKm3 + (cellResR A c st up demand rule).evapKm3
      + (cellGloWetR A c st up demand rule).evapKm3
      + if c.sink then (cellRiverR A c st up demand keep rule kRiver).2.1 else 0)| ≤ 37 * (u * M + η) := by
  have hv := hz.volumes
  simp only [cellVolumes, List.mem_cons, List.mem_nil_iff, or_false, forall_eq_or_imp, forall_eq] at hv
  obtain ⟨v1, -, -, -, -, -, -, -, -, -, -, -, -, e1, e2, e3, e4, e5, -, -, -, -, -, -, -, -, -, q, -⟩ := hv
  have hM0 : 0 ≤ M := (abs_nonneg _).trans v1
  have hE : 0 ≤ u * M := mul_nonneg hn.u0 hM0
  have hη := hn.η0
  obtain ⟨h1, h2⟩ := sum5_err hA hn _ _ _ _ _ M hz.machine e1 e2 e3 e4 e5
  unfold cellEvapR
  simp only
  generalize A.add (A.add (A.add (A.add (cellLocLakeR A c st).evapKm3 _) _) _) _ = x at *
  by_cases hs : c.sink = true
  · rw [if_pos hs, if_pos hs]
    have e6 := hn.err (K := 17 * M) (x := x + (cellRiverR A c st up demand keep rule kRiver).2.1)
      ((abs_add_le _ _).trans (by linarith))
    change |A.add x _ - _| ≤ _ at e6
    rw [abs_le] at *
    constructor <;> linarith
  · rw [if_neg hs, if_neg hs, add_zero]
    rw [abs_le] at *
    constructor <;> linarith

/-- C67, a whole cell: with every operation rounded, water from land, recharge and precipitation on water bodies is what the
storages of the cell gain, its net runoff and its evaporation and use, as the code reports them, up to 400 roundings of
the largest volume `M`, 30 underflows and the volume below which a reservoir's storage is set to zero. This bounds lost water on
every day, and created water on days with streamflow. -/
theorem C67_cell_day (M : ℝ) (hz : CellSize A c st up demand keep rule kRiver M) (hcorr : c.corr = 1) (hu : u ≤ 1 / 4)
    (hη2 : η ≤ M / 2) :
    let gain := c.runoff + c.recharge + cellPrecipR A c st up demand rule
    let spent := (cellStateR A c st up demand keep rule kRiver).total - st.total
      + cellRunoffR A c st up demand keep rule kRiver + cellEvapTotalR A c st up demand keep rule kRiver
    let bound := (if c.resArea > 0 then max c.minV 0 else 0) + (400 * (u * M + η) + 30 * (M * η))
    gain - spent ≤ bound ∧ (0 < (cellRiverR A c st up demand keep rule kRiver).2.1 → |gain - spent| ≤ bound) := by
  intro gain spent bound
  have hM0 : 0 ≤ M := hz.runoff.1.trans hz.runoff.2
  have hE : 0 ≤ u * M := mul_nonneg hn.u0 hM0
  have hη := hn.η0
  have hMη : 0 ≤ M * η := mul_nonneg hM0 hη
  have fgw := gw_err hA hn c st up demand keep rule kRiver M hz hu hη2
  have fq := riverIn_err hA hn c st up demand keep rule kRiver M hz
  have fnas := nas_err hA hn c st up demand keep rule kRiver M hz
  have fev := evap_err hA hn c st up demand keep rule kRiver M hz
  have hv := hz.volumes
  simp only [cellVolumes, List.mem_cons, List.mem_nil_iff, or_false, forall_eq_or_imp, forall_eq] at hv
  obtain ⟨-, -, -, vnag, -, -, vdis, -, -, -, -, -, -, -, -, -, -, -, -, -, -, -, vll, vlw, -, vd2, vr1, vr2, vr3, vnas, vev,
    vup⟩ := hv
  -- runoff
  have hd0 : 0 ≤ (cellGwFinalR A c st up demand rule).discharge := by
    rw [(gw_eq c st up demand rule).2]; exact C65_groundwater ..
  have hDe : 0 ≤ cellEarlyDischargeR A c st ∧ cellEarlyDischargeR A c st ≤ M := by
    rw [early_discharge c st up demand rule]
    split_ifs
    · exact ⟨le_rfl, hM0⟩
    · exact ⟨hd0, (le_abs_self _).trans vdis⟩
  have fsp : |(cellSplitR A c st).1 + (cellSplitR A c st).2 - (c.runoff + cellEarlyDischargeR A c st)|
      ≤ 10 * (u * M + η) + 2 * (M * η) :=
    (split_err hA hn _ _ _ _ _ _ M c.sink hz.machine hz.runoff hDe hz.share.1.1 hz.share.1.2 hz.share.2.1 hz.share.2.2).1
  -- water bodies
  have b1 := body_err hA hn .localLake (locLakeInR A c st) st.locLake M (c.locLake.frac > 0) hM0 hz.k hz.locLake
  have b2 := body_err hA hn .localWetland (locWetInR A c st) st.locWet M (c.locWet.frac > 0) hM0 hz.k hz.locWet
  have b3 := body_err hA hn .globalLake (gloLakeInR A c st up demand) st.gloLake M (c.glolakeArea > 0) hM0 hz.k hz.gloLake
  have b5 := body_err hA hn .globalWetland (gloWetInR A c st up demand rule) st.gloWet M (c.gloWet.frac > 0) hM0 hz.k hz.gloWet
  have u1 : (cellLocLakeR A c st).use = 0 := body_use_zero hA _ _ _ _ (by decide)
  have u2 : (cellLocWetR A c st).use = 0 := body_use_zero hA _ _ _ _ (by decide)
  have u5 : (cellGloWetR A c st up demand rule).use = 0 := body_use_zero hA _ _ _ _ (by decide)
  change |st.locLake + (cellSplitR A c st).1 + c.precip * _ - ((cellLocLakeR A c st).storage + (cellLocLakeR A c st).outflow
    + (cellLocLakeR A c st).evapKm3 + (cellLocLakeR A c st).gwr + (cellLocLakeR A c st).use)| ≤ _ at b1
  change |st.locWet + (cellLocLakeR A c st).outflow + c.precip * _ - ((cellLocWetR A c st).storage + (cellLocWetR A c st).outflow
    + (cellLocWetR A c st).evapKm3 + (cellLocWetR A c st).gwr + (cellLocWetR A c st).use)| ≤ _ at b2
  change |st.gloLake + A.add (cellLocWetR A c st).outflow up + c.precip * _ - ((cellGloLakeR A c st up demand).storage
    + (cellGloLakeR A c st up demand).outflow + (cellGloLakeR A c st up demand).evapKm3 + (cellGloLakeR A c st up demand).gwr
    + (cellGloLakeR A c st up demand).use)| ≤ _ at b3
  change |st.gloWet + (cellResR A c st up demand rule).outflow + c.precip * _ - ((cellGloWetR A c st up demand rule).storage
    + (cellGloWetR A c st up demand rule).outflow + (cellGloWetR A c st up demand rule).evapKm3
    + (cellGloWetR A c st up demand rule).gwr + (cellGloWetR A c st up demand rule).use)| ≤ _ at b5
  rw [u1] at b1
  rw [u2] at b2
  rw [u5] at b5
  have fup := hn.err (K := 2 * M) (x := (cellLocWetR A c st).outflow + up) ((abs_add_le _ _).trans (by linarith))
  change |A.add (cellLocWetR A c st).outflow up - _| ≤ _ at fup
  have b4 : |st.res + (cellGloLakeR A c st up demand).outflow + c.precip * (if c.resArea > 0 then c.resArea else 0)
      - ((cellResR A c st up demand rule).storage + (cellResR A c st up demand rule).outflow
        + (cellResR A c st up demand rule).evapKm3 + (cellResR A c st up demand rule).gwr
        + (cellResR A c st up demand rule).use)|
      ≤ (if c.resArea > 0 then max c.minV 0 else 0) + (57 * (u * M + η) + 5 * (M * η)) := by
    by_cases hr : c.resArea > 0
    · rw [if_pos hr, if_pos hr]
      have := C67_reservoir_day hA hn (cellResInR A c st up demand) st.res rule M (hz.res hr).1 ⟨hr.le, (hz.res hr).2⟩
      unfold cellResR
      rw [if_pos hr]
      exact this
    · rw [if_neg hr, if_neg hr]
      unfold cellResR
      rw [if_neg hr]
      simp only
      rw [show ∀ a b d : ℝ, a + b + d * 0 - (a + b + 0 + 0 + 0) = 0 by intro a b d; ring, abs_zero]
      linarith
  -- river
  obtain ⟨r1, r2⟩ := C67_river hA hn c.minV (kRiver st.river) st.river (cellRiverInR A c st up demand rule)
    (cellUnsat2R A c st up demand keep rule) M hz.machine hz.river.1 hz.riverIn vd2 hz.river.2
    (by have := vr1; unfold cellRiverR at this; rwa [hcorr] at this)
  have hrv : riverR A c.minV 1 (kRiver st.river) st.river (cellRiverInR A c st up demand rule)
    (cellUnsat2R A c st up demand keep rule) = cellRiverR A c st up demand keep rule kRiver := by
    unfold cellRiverR; rw [hcorr]
  rw [hrv] at r1 r2
  have fru : |riverUseR A c st up demand keep rule kRiver - (cellUnsat2R A c st up demand keep rule
      - (cellRiverR A c st up demand keep rule kRiver).2.2)| ≤ u * (2 * M) + η :=
    hn.err ((abs_sub _ _).trans (by linarith))
  -- local lake after the river
  have ftap : |(cellLocLakeR A c st).storage - (cellTappedR A c st up demand keep rule kRiver).1
      - (cellTappedR A c st up demand keep rule kRiver).2.2.2| ≤ 11 * (u * M + η) := by
    by_cases ht : cellTapR A c st up demand keep rule kRiver
    · have hm := (hz.locLake ht.2.1).size.max
      unfold cellTappedR
      rw [if_pos ht]
      exact tap_err hA hn _ _ _ _ _ M hz.machine vll (by rw [abs_of_nonneg (show 0 ≤ c.locLake.maxStorage from hm.1)]; exact hm.2) vr3
    · unfold cellTappedR
      rw [if_neg ht]
      simp only [sub_self, abs_zero]
      linarith
  -- reported sums
  have ftot : |cellEvapTotalR A c st up demand keep rule kRiver - ((cellGwFinalR A c st up demand rule).nag
      + cellNasR A c st up demand keep rule kRiver + cellEvapR A c st up demand keep rule kRiver)| ≤ 5 * (u * M + η) := by
    have h2 := hn.dbl M hz.machine
    unfold cellEvapTotalR
    obtain ⟨c1, c2⟩ := hn.op hA (x := (cellGwFinalR A c st up demand rule).nag + cellNasR A c st up demand keep rule kRiver) h2
      ((abs_add_le _ _).trans (by linarith))
    change |A.add _ _| ≤ _ at c1
    change |A.add _ _ - _| ≤ _ at c2
    generalize A.add (cellGwFinalR A c st up demand rule).nag (cellNasR A c st up demand keep rule kRiver) = x at *
    have c3 := hn.err (K := 3 * M) (x := x + cellEvapR A c st up demand keep rule kRiver) ((abs_add_le _ _).trans (by linarith))
    change |A.add x _ - _| ≤ _ at c3
    clear * - c2 c3 hE hη
    rw [abs_le] at *
    constructor <;> linarith
  have frun : |cellRunoffR A c st up demand keep rule kRiver
      - ((if c.sink then 0 else (cellRiverR A c st up demand keep rule kRiver).2.1) - up)| ≤ 2 * (u * M + η) := by
    unfold cellRunoffR
    by_cases hs : c.sink = true
    · rw [if_pos hs, if_pos hs, show -1 * up - (0 - up) = 0 by ring, abs_zero]; linarith
    · rw [if_neg hs, if_neg hs]
      have := hn.err (K := 2 * M) (x := (cellRiverR A c st up demand keep rule kRiver).2.1 - up) ((abs_sub _ _).trans (by linarith))
      change |A.sub _ up - _| ≤ _ at this
      linarith
  have fsink : (if c.sink then (cellRiverR A c st up demand keep rule kRiver).2.1 else 0)
      + (if c.sink then 0 else (cellRiverR A c st up demand keep rule kRiver).2.1)
      = (cellRiverR A c st up demand keep rule kRiver).2.1 := by cases c.sink <;> simp
  have hst : (cellStateR A c st up demand keep rule kRiver).total = (cellGwFinalR A c st up demand rule).storage
      + (cellTappedR A c st up demand keep rule kRiver).1 + (cellLocWetR A c st).storage
      + (cellGloLakeR A c st up demand).storage + (cellResR A c st up demand rule).storage
      + (cellGloWetR A c st up demand rule).storage + (cellRiverR A c st up demand keep rule kRiver).1 := rfl
  have hst0 : st.total = st.gw + st.locLake + st.locWet + st.gloLake + st.res + st.gloWet + st.river := rfl
  have hmv : 0 ≤ (if c.resArea > 0 then max c.minV 0 else 0) := by
    split_ifs
    · exact le_max_right _ _
    · exact le_rfl
  simp only [gain, spent, bound, cellPrecipR, hst, hst0, mul_add]
  clear gain spent bound hst hst0 hz hd0 hDe hrv vnag vdis vll vlw vd2 vr1 vr2 vr3 vnas vev vup u1 u2 u5
  generalize c.precip * _ = p1 at *
  generalize c.precip * _ = p2 at *
  generalize c.precip * _ = p3 at *
  generalize c.precip * _ = p4 at *
  generalize c.precip * _ = p5 at *
  rw [abs_le] at fgw fq fnas fev fsp b1 b2 b3 b4 b5 fup fru ftap ftot frun
  refine ⟨by linarith, fun hq => ?_⟩
  have r2 := abs_le.mp (r2 hq)
  exact abs_le.mpr ⟨by linarith, by linarith⟩
end

end WG
