import Verif.Props.RoundingCell

/-!
# C67: the hypotheses of `C67_cell_day` are met by every cell

`CellSize` asks for a number `M` above all volumes of the day, and for signs.  The signs follow from the inputs, so that every
physical cell has such an `M`.
-/

namespace WG

open Arith

variable {A : Arith} {u η : ℝ}

theorem list_bound (L : List ℝ) : ∃ B : ℝ, ∀ M, B ≤ M → ∀ v ∈ L, |v| ≤ M := by
  refine ⟨(L.map fun v => |v|).sum, fun M hM v hv => le_trans ?_ hM⟩
  refine List.single_le_sum ?_ _ (List.mem_map_of_mem hv)
  intro x hx
  obtain ⟨y, -, rfl⟩ := List.mem_map.mp hx
  exact abs_nonneg _

section
variable (hA : A.Ok)
include hA

theorem lakeAreaR_nonneg (kind : LakeKind) (i : LakeIn) (s : ℝ) (h : 0 ≤ i.maxArea) : 0 ≤ lakeAreaR A kind i s := by
  unfold lakeAreaR
  split_ifs
  · exact h
  · exact mul_nonneg hA (C65_redfactor hA _ _ _ _).1 h

theorem lakeGwrR_nonneg (kind : LakeKind) (i : LakeIn) (s : ℝ) (h : 0 ≤ i.maxArea) (hg : 0 ≤ i.gwConst) :
    0 ≤ lakeGwrR A kind i s := by
  have ha := lakeAreaR_nonneg hA kind i s h
  have h1 : 0 ≤ A.mul i.gwConst (A.rnd 0.001) := mul_nonneg hA hg (rnd_nonneg hA (by norm_num))
  unfold lakeGwrR
  split_ifs
  · exact mul_nonneg hA (mul_nonneg hA h1 ha) (C65_redfactor hA _ _ _ _).1
  · exact le_rfl
  · exact mul_nonneg hA h1 ha
  · exact le_rfl

/-- The volumes of a water body have a bound. -/
theorem body_fits (kind : LakeKind) (i : LakeIn) (s : ℝ) (hi : i.Physical) (hF : A.F i.maxStorage) (hf : AboveFloor kind i s) :
    ∃ B : ℝ, ∀ M, B ≤ M → A.F M → BodySize A kind i s M := by
  obtain ⟨B, hB⟩ := list_bound [s, i.maxStorage, i.inflow, i.precip * lakeAreaR A kind i s,
    lakeEvapR A kind i s * lakeAreaR A kind i s, lakeGwrR A kind i s, lakeDemandR A kind i, lakeAreaR A kind i s,
    lakeAnalyticR A kind i s]
  refine ⟨B, fun M hM hFM => ?_⟩
  have h := hB M hM
  simp only [List.mem_cons, List.mem_nil_iff, or_false, forall_eq_or_imp, forall_eq] at h
  obtain ⟨h1, h2, h3, h4, h5, h6, h7, h8, h9⟩ := h
  have ha := lakeAreaR_nonneg hA kind i s hi.maxArea
  have hd : 0 ≤ lakeDemandR A kind i := by
    unfold lakeDemandR
    split_ifs
    · exact mul_nonneg hA hi.demand (rnd_nonneg hA (by norm_num))
    · exact hi.demand
    · exact le_rfl
  exact ⟨⟨hFM, h1, ⟨hi.maxStorage.le, (le_abs_self _).trans h2⟩, ⟨hi.inflow, (le_abs_self _).trans h3⟩,
    ⟨_root_.mul_nonneg hi.precip ha, (le_abs_self _).trans h4⟩,
    ⟨_root_.mul_nonneg (lakeEvapR_F hA kind i s).2 ha, (le_abs_self _).trans h5⟩,
    ⟨lakeGwrR_nonneg hA kind i s hi.maxArea hi.gw, (le_abs_self _).trans h6⟩, ⟨hd, (le_abs_self _).trans h7⟩⟩,
    hF, hf, ⟨ha, (le_abs_self _).trans h8⟩, fun _ => h9⟩

/-- The volumes of a reservoir have a bound. -/
theorem res_fits (i : ResIn) (s : ℝ) (release : ℝ → ℝ) (hs : 0 ≤ s) (hcap : 0 ≤ i.han.cap) (hin : 0 ≤ i.han.inflow)
    (hp : 0 ≤ i.precip) (ha : 0 ≤ i.area) (hg : 0 ≤ i.gwConst) :
    ∃ B : ℝ, ∀ M, B ≤ M → A.F M → ResSize A i s release M ∧ i.area ≤ M := by
  obtain ⟨B, hB⟩ := list_bound [s, i.han.cap, i.han.inflow, i.precip * i.area, resEvapR A i s * i.area, resGwrR A i s,
    resDemandR A i, A.mul (release (resBeforeReleaseR A i s)) (A.div 86400 1e9),
    A.mul (A.mul (A.rnd 0.1) (release (resBeforeReleaseR A i s))) (A.div 86400 1e9), i.area]
  refine ⟨B, fun M hM hFM => ?_⟩
  have h := hB M hM
  simp only [List.mem_cons, List.mem_nil_iff, or_false, forall_eq_or_imp, forall_eq] at h
  obtain ⟨h1, h2, h3, h4, h5, h6, h7, h8, h9, h10⟩ := h
  have hr : 0 ≤ resRedR A i s := by
    unfold resRedR
    split_ifs
    · exact le_rfl
    · exact (C65_redfactor hA _ _ _ _).1
  have hgw : 0 ≤ resGwrR A i s := by
    unfold resGwrR
    split_ifs
    · exact mul_nonneg hA (mul_nonneg hA (mul_nonneg hA hg (rnd_nonneg hA (by norm_num))) ha) hr
    · exact le_rfl
  exact ⟨⟨hFM, ⟨hs, (le_abs_self _).trans h1⟩, ⟨hcap, (le_abs_self _).trans h2⟩, ⟨hin, (le_abs_self _).trans h3⟩,
    ⟨_root_.mul_nonneg hp ha, (le_abs_self _).trans h4⟩,
    ⟨_root_.mul_nonneg (resEvapR_F hA i s).2 ha, (le_abs_self _).trans h5⟩, ⟨hgw, (le_abs_self _).trans h6⟩, h7,
    (le_abs_self _).trans h8, (le_abs_self _).trans h9⟩, (le_abs_self _).trans h10⟩

variable (c : CellIn) (st : CellState) (up demand : ℝ) (keep : ℝ → ℝ) (rule : ℝ → ℝ × ℝ) (kRiver : ℝ → ℝ)

theorem splitR_nonneg (h : c.Physical) : 0 ≤ (cellSplitR A c st).1 ∧ 0 ≤ (cellSplitR A c st).2 := by
  have hd : 0 ≤ cellEarlyDischargeR A c st := by
    unfold cellEarlyDischargeR
    split_ifs
    · exact le_rfl
    · exact C65_groundwater ..
  have hf0 : 0 ≤ swbShareR A c.locLake.frac c.locWet.frac c.gloWet.frac c.factor := by
    unfold swbShareR
    simp only
    split_ifs
    · exact zero_le_one
    · exact mul_nonneg hA (add_nonneg hA (add_nonneg hA h.locLake.frac h.locWet.frac) h.gloWet.frac) h.factor
  have hf1 : swbShareR A c.locLake.frac c.locWet.frac c.gloWet.frac c.factor ≤ 1 := by
    unfold swbShareR
    simp only
    split_ifs with h
    · exact le_rfl
    · exact not_lt.mp h
  have hs : 0 ≤ A.sub 1 (swbShareR A c.locLake.frac c.locWet.frac c.gloWet.frac c.factor) :=
    rnd_nonneg hA (by linarith)
  have hru := h.runoff
  unfold cellSplitR fracRoutingR
  simp only
  split_ifs
  · exact ⟨add_nonneg hA hru hd, add_nonneg hA le_rfl le_rfl⟩
  · exact ⟨add_nonneg hA (mul_nonneg hA hf0 hru) (mul_nonneg hA hf0 hd),
      add_nonneg hA (mul_nonneg hA hs hru) (mul_nonneg hA hs hd)⟩

/-- The outflow of a body that may be absent is not negative. -/
theorem bodyOut_nonneg (kind : LakeKind) (hk : kind ≠ .globalWetland) (i : LakeIn) (s : ℝ) (q : Prop) [Decidable q]
    (hin : 0 ≤ i.inflow) (h : q → 0 ≤ i.maxStorage) (hkc : 0 ≤ i.k) : 0 ≤ (bodyDayR A kind i s q).outflow := by
  unfold bodyDayR
  split_ifs with hq
  · exact (C65_lake hA kind hk i s (h hq) hkc).2.1
  · exact hin

/-- C67: the hypotheses of `C67_cell_day` are met, for all `M` above some number, by every cell with sensible inputs whose
storages are within the limits of its water bodies, whose capacities and demand are machine numbers, and whose global
wetland, if it has one, does not discharge a negative volume. -/
theorem C67_cell_sizes (h : c.Physical) (hs : st.Ok c) (hup : 0 ≤ up) (hd : 0 ≤ demand) (hdF : A.F demand)
    (hk : 0 ≤ kRiver st.river) (hl : A.F c.locLake.maxStorage) (hw : A.F c.locWet.maxStorage) (hg : A.F c.maxGlolake)
    (hgw : A.F c.gloWet.maxStorage) (hout : 0 < c.gloWet.frac → 0 ≤ (cellGloWetR A c st up demand rule).outflow) :
    ∃ B : ℝ, ∀ M, B ≤ M → A.F M → CellSize A c st up demand keep rule kRiver M := by
  obtain ⟨s1, s2⟩ := splitR_nonneg hA c st h
  have o1 : 0 ≤ (cellLocLakeR A c st).outflow :=
    bodyOut_nonneg hA .localLake (by decide) _ _ _ s1 (fun q => (h.locLake.storage q).le) h.swbK.le
  have o2 : 0 ≤ (cellLocWetR A c st).outflow :=
    bodyOut_nonneg hA .localWetland (by decide) _ _ _ o1 (fun q => (h.locWet.storage q).le) h.swbK.le
  have i3 : 0 ≤ A.add (cellLocWetR A c st).outflow up := add_nonneg hA o2 hup
  have o3 : 0 ≤ (cellGloLakeR A c st up demand).outflow :=
    bodyOut_nonneg hA .globalLake (by decide) _ _ _ i3 (fun q => (h.maxGlolake q).le) h.swbK.le
  have o4 : 0 ≤ (cellResR A c st up demand rule).outflow := by
    unfold cellResR
    split_ifs with q
    · refine (C65_reservoir hA (cellResInR A c st up demand) st.res (fun x => (rule x).1) (hs.res q).1 (h.cap q).le o3
        h.precip (le_of_lt q) ?_).2.2.1
      unfold resDemandR
      split_ifs
      · exact add_F hA _ _
      · exact hdF
    · exact o3
  have o5 : 0 ≤ (cellGloWetR A c st up demand rule).outflow := by
    by_cases q : 0 < c.gloWet.frac
    · exact hout q
    · have e : (cellGloWetR A c st up demand rule).outflow = (cellResR A c st up demand rule).outflow := by
        unfold cellGloWetR bodyDayR
        rw [if_neg q]
        rfl
      rw [e]; exact o4
  have hr : 0 ≤ cellRiverInR A c st up demand rule := by
    unfold cellRiverInR
    simp only
    split_ifs
    · exact o5
    · exact Arith.add_nonneg hA o5 (Arith.add_nonneg hA s2 (C65_groundwater ..))
    · exact Arith.add_nonneg hA o5 s2
  have b1 : ∃ B : ℝ, ∀ M, B ≤ M → A.F M → c.locLake.frac > 0 → BodySize A .localLake (locLakeInR A c st) st.locLake M := by
    by_cases q : c.locLake.frac > 0
    · obtain ⟨B, hB⟩ := body_fits hA .localLake (locLakeInR A c st) st.locLake
        (lakeIn_physical c h _ h.locLake q _ 0 0 s1 le_rfl) hl (by simpa [AboveFloor, lakeLimit, locLakeInR, CellIn.lakeIn] using (hs.locLake q).1)
      exact ⟨B, fun M hM hF _ => hB M hM hF⟩
    · exact ⟨0, fun _ _ _ q' => absurd q' q⟩
  have b2 : ∃ B : ℝ, ∀ M, B ≤ M → A.F M → c.locWet.frac > 0 → BodySize A .localWetland (locWetInR A c st) st.locWet M := by
    by_cases q : c.locWet.frac > 0
    · obtain ⟨B, hB⟩ := body_fits hA .localWetland (locWetInR A c st) st.locWet
        (lakeIn_physical c h _ h.locWet q _ 0 0 o1 le_rfl) hw (hs.locWet q).1
      exact ⟨B, fun M hM hF _ => hB M hM hF⟩
    · exact ⟨0, fun _ _ _ q' => absurd q' q⟩
  have b3 : ∃ B : ℝ, ∀ M, B ≤ M → A.F M → c.glolakeArea > 0 →
      BodySize A .globalLake (gloLakeInR A c st up demand) st.gloLake M := by
    by_cases q : c.glolakeArea > 0
    · obtain ⟨B, hB⟩ := body_fits hA .globalLake (gloLakeInR A c st up demand) st.gloLake
        { precip := h.precip, openPet := h.openPet, inflow := i3, k := h.swbK, gw := h.gwConst, redExp := h.redExp,
          maxStorage := h.maxGlolake q, maxArea := le_of_lt q, frac := le_rfl, demand := hd } hg
        (by simpa [AboveFloor, lakeLimit, gloLakeInR, CellIn.lakeIn] using (hs.gloLake q).1)
      exact ⟨B, fun M hM hF _ => hB M hM hF⟩
    · exact ⟨0, fun _ _ _ q' => absurd q' q⟩
  have b4 : ∃ B : ℝ, ∀ M, B ≤ M → A.F M → c.gloWet.frac > 0 →
      BodySize A .globalWetland (gloWetInR A c st up demand rule) st.gloWet M := by
    by_cases q : c.gloWet.frac > 0
    · obtain ⟨B, hB⟩ := body_fits hA .globalWetland (gloWetInR A c st up demand rule) st.gloWet
        (lakeIn_physical c h _ h.gloWet q _ 0 0 o4 le_rfl) hgw (hs.gloWet q).1
      exact ⟨B, fun M hM hF _ => hB M hM hF⟩
    · exact ⟨0, fun _ _ _ q' => absurd q' q⟩
  have b5 : ∃ B : ℝ, ∀ M, B ≤ M → A.F M → c.resArea > 0 →
      ResSize A (cellResInR A c st up demand) st.res (fun x => (rule x).1) M ∧ c.resArea ≤ M := by
    by_cases q : c.resArea > 0
    · obtain ⟨B, hB⟩ := res_fits hA (cellResInR A c st up demand) st.res (fun x => (rule x).1) (hs.res q).1 (h.cap q).le o3
        h.precip (le_of_lt q) h.gwConst
      exact ⟨B, fun M hM hF _ => hB M hM hF⟩
    · exact ⟨0, fun _ _ _ q' => absurd q' q⟩
  obtain ⟨B1, b1⟩ := b1
  obtain ⟨B2, b2⟩ := b2
  obtain ⟨B3, b3⟩ := b3
  obtain ⟨B4, b4⟩ := b4
  obtain ⟨B5, b5⟩ := b5
  obtain ⟨B6, b6⟩ := list_bound (c.runoff :: st.river :: cellRiverInR A c st up demand rule ::
    cellVolumes A c st up demand keep rule kRiver)
  refine ⟨max B1 (max B2 (max B3 (max B4 (max B5 B6)))), fun M hM hF => ?_⟩
  simp only [max_le_iff] at hM
  obtain ⟨h1, h2, h3, h4, h5, h6⟩ := hM
  have b6 := b6 M h6
  simp only [List.mem_cons, forall_eq_or_imp] at b6
  exact { machine := hF, share := ⟨⟨h.locLake.frac, h.locWet.frac⟩, h.gloWet.frac, h.factor⟩, k := h.swbK.le,
          locLake := b1 M h1 hF, locWet := b2 M h2 hF, gloLake := b3 M h3 hF, gloWet := b4 M h4 hF, res := b5 M h5 hF,
          runoff := ⟨h.runoff, (le_abs_self _).trans b6.1⟩, river := ⟨⟨hs.river, (le_abs_self _).trans b6.2.1⟩, hk⟩,
          riverIn := ⟨hr, (le_abs_self _).trans b6.2.2.1⟩, volumes := b6.2.2.2 }
end

/-- C67, in numbers: a cell none of whose volumes of the day exceeds 131072 km³ (Lake Superior has 12 100, the Caspian Sea
78 200) loses less than 6 cubic metres of water a day to rounding, besides what it sets to zero in its reservoir. -/
theorem C67_cell_binary64 (c : CellIn) (st : CellState) (up demand : ℝ) (keep : ℝ → ℝ) (rule : ℝ → ℝ × ℝ) (kRiver : ℝ → ℝ)
    (hz : CellSize binary64 c st up demand keep rule kRiver (2 ^ 17)) (hcorr : c.corr = 1) :
    let gain := c.runoff + c.recharge + cellPrecipR binary64 c st up demand rule
    let spent := (cellStateR binary64 c st up demand keep rule kRiver).total - st.total
      + cellRunoffR binary64 c st up demand keep rule kRiver + cellEvapTotalR binary64 c st up demand keep rule kRiver
    let bound := (if c.resArea > 0 then max c.minV 0 else 0) + 6e-9
    gain - spent ≤ bound ∧ (0 < (cellRiverR binary64 c st up demand keep rule kRiver).2.1 → |gain - spent| ≤ bound) := by
  intro gain spent bound
  have h1 : (2 : ℝ) ^ (-1075 : ℤ) ≤ 2 ^ (-60 : ℤ) := zpow_le_zpow_right₀ (by norm_num) (by norm_num)
  obtain ⟨a, b⟩ := C67_cell_day binary64_ok binary64_near c st up demand keep rule kRiver (2 ^ 17) hz hcorr (by norm_num)
    (h1.trans (by norm_num))
  have h2 : 400 * ((2 : ℝ) ^ (-53 : ℤ) * 2 ^ 17 + 2 ^ (-1075 : ℤ)) + 30 * (2 ^ 17 * 2 ^ (-1075 : ℤ)) ≤ 6e-9 := by
    generalize (2 : ℝ) ^ (-1075 : ℤ) = t at *
    clear a b
    norm_num at h1 ⊢
    linarith
  refine ⟨a.trans ?_, fun q => (b q).trans ?_⟩ <;> exact add_le_add le_rfl h2

/-! ### A cell that meets the hypotheses -/

/-- The arid cell `exCell` with a local lake, a global lake and a reservoir, without its wetland. -/
noncomputable def roundCell : CellIn :=
  { exCell with
    gloWet := ⟨0, 0, 0⟩
    locLake := ⟨0.02, 40, 0.25⟩ }

theorem roundCell_physical : roundCell.Physical := by
  constructor <;> (try unfold roundCell exCell) <;> (try constructor) <;> norm_num

theorem roundState_ok : exState.Ok roundCell := by
  constructor <;> (try unfold roundCell exCell) <;> (try unfold exState) <;> norm_num

theorem half64 (n : ℤ) (k : ℕ) (hn : |n| ≤ 2 ^ 53) (hk : k ≤ 1074) : binary64.F ((n : ℝ) / 2 ^ k) := by
  have := fl64_fix n (-(k : ℤ)) hn (by omega)
  rw [zpow_neg, zpow_natCast, ← div_eq_mul_inv] at this
  exact this

theorem roundCell_fits (keep : ℝ → ℝ) (rule : ℝ → ℝ × ℝ) :
    ∃ B : ℝ, ∀ M, B ≤ M → binary64.F M → CellSize binary64 roundCell exState 0.5 2 keep rule (fun _ => 0.9) M :=
  C67_cell_sizes binary64_ok roundCell exState 0.5 2 keep rule (fun _ => 0.9) roundCell_physical roundState_ok (by norm_num)
    (by norm_num) (by exact_mod_cast nat64 2 (by norm_num)) (by norm_num)
    (by have := half64 1 2 (by norm_num) (by norm_num); norm_num at this; norm_num [roundCell]; exact this)
    (by have := nat64 0 (by norm_num); norm_num at this; norm_num [roundCell, exCell]; exact this)
    (by have := half64 1 1 (by norm_num) (by norm_num); norm_num at this; norm_num [roundCell, exCell]; exact this)
    (by have := nat64 0 (by norm_num); norm_num at this; norm_num [roundCell]; exact this)
    (by norm_num [roundCell])

/-- The whole day of that cell in binary64 arithmetic, with an inflow of 0.5 km³ and a demand of 2 km³ that it cannot meet,
whatever the release rule answers and the other cells take over. -/
example (keep : ℝ → ℝ) (rule : ℝ → ℝ × ℝ) : ∃ M : ℝ,
    roundCell.runoff + roundCell.recharge + cellPrecipR binary64 roundCell exState 0.5 2 rule
      - ((cellStateR binary64 roundCell exState 0.5 2 keep rule (fun _ => 0.9)).total - exState.total
        + cellRunoffR binary64 roundCell exState 0.5 2 keep rule (fun _ => 0.9)
        + cellEvapTotalR binary64 roundCell exState 0.5 2 keep rule (fun _ => 0.9))
      ≤ (if roundCell.resArea > 0 then max roundCell.minV 0 else 0)
        + (400 * (2 ^ (-53 : ℤ) * M + 2 ^ (-1075 : ℤ)) + 30 * (M * 2 ^ (-1075 : ℤ))) := by
  obtain ⟨B, hB⟩ := roundCell_fits keep rule
  obtain ⟨M, h4, hM, hF⟩ := machine_above B
  have := C67_cell_day binary64_ok binary64_near roundCell exState 0.5 2 keep rule (fun _ => 0.9) M (hB M hM hF)
    (by norm_num [roundCell, exCell]) (by norm_num) (eta14.trans (by linarith))
  exact ⟨M, this.1⟩

/-- Nothing is lost from a lake of volume 4 with an inflow of 3, up to rounding. -/
example : ∃ M : ℝ, let o := lakeBalanceR binary64 .localLake demoLake 4
    |4 + 3 + 0 * lakeAreaR binary64 .localLake demoLake 4 - (o.storage + o.outflow + o.evapKm3 + o.gwr + o.use)|
      ≤ 52 * (2 ^ (-53 : ℤ) * M + 2 ^ (-1075 : ℤ)) + 5 * (M * 2 ^ (-1075 : ℤ)) := by
  obtain ⟨B, hB⟩ := body_fits binary64_ok .localLake demoLake 4
    (by constructor <;> norm_num [demoLake]) (by exact_mod_cast nat64 5 (by norm_num))
    (by norm_num [AboveFloor, lakeLimit, demoLake])
  obtain ⟨M, h4, hM, hF⟩ := machine_above B
  have hz := hB M hM hF
  exact ⟨M, C67_lake_day binary64_ok binary64_near .localLake demoLake 4 M hz.size hz.capacity hz.floor
    (by norm_num [demoLake]) hz.area hz.analytic⟩

/-- A reservoir of volume 8, whatever the release rule answers. -/
example (rule : ℝ → ℝ × ℝ) : ∃ M : ℝ, let o := resBalanceR binary64 demoRes 8 rule
    |8 + demoRes.han.inflow + demoRes.precip * demoRes.area - (o.storage + o.outflow + o.evapKm3 + o.gwr + o.use)|
      ≤ max demoRes.minV 0 + (57 * (2 ^ (-53 : ℤ) * M + 2 ^ (-1075 : ℤ)) + 5 * (M * 2 ^ (-1075 : ℤ))) := by
  obtain ⟨B, hB⟩ := res_fits binary64_ok demoRes 8 (fun x => (rule x).1) (by norm_num) (by norm_num [demoRes])
    (by norm_num [demoRes]) (by norm_num [demoRes]) (by norm_num [demoRes]) (by norm_num [demoRes])
  obtain ⟨M, h4, hM, hF⟩ := machine_above B
  obtain ⟨hz, ha⟩ := hB M hM hF
  exact ⟨M, C67_reservoir_day binary64_ok binary64_near demoRes 8 rule M hz ⟨by norm_num [demoRes], ha⟩⟩

/-- A humid cell without lakes, wetlands and reservoirs. -/
noncomputable def landCell : CellIn :=
  { exCell with
    arid := false, useOpt := false, runoff := 3, recharge := 0, potNag := 0
    gloWet := ⟨0, 0, 0⟩
    locLake := ⟨0, 0, 0⟩
    glolakeArea := 0
    resArea := 0 }

/-- Two cubic kilometres of water in the river. -/
def landState : CellState := { gw := 0, locLake := 0, locWet := 0, gloLake := 0, res := 0, k := 0, gloWet := 0, river := 2 }

theorem landCell_sizes (keep : ℝ → ℝ) (rule : ℝ → ℝ × ℝ) :
    CellSize binary64 landCell landState 0 0 keep rule (fun _ => 1) (2 ^ 17) := by
  have hA := binary64_ok
  have F : ∀ n : ℕ, n ≤ 2 ^ 53 → binary64.rnd (n : ℝ) = n := fun n h => nat64 n h
  have f0 : binary64.rnd 0 = 0 := Arith.zero_F hA
  have f1 : binary64.rnd 1 = 1 := Arith.one_F hA
  have f2 : binary64.rnd 2 = 2 := by have := F 2 (by norm_num); exact_mod_cast this
  have f3 : binary64.rnd 3 = 3 := by have := F 3 (by norm_num); exact_mod_cast this
  have f5 : binary64.rnd 5 = 5 := by have := F 5 (by norm_num); exact_mod_cast this
  have hgw : ∀ p, cellGwR binary64 landCell landState p = ⟨0, 0, 0⟩ := by
    intro p
    simp [cellGwR, landCell, exCell, landState, groundwaterBalanceR, gwStorageR, CellIn.gwKind, Arith.add, Arith.sub,
      Arith.mul, Arith.div, f0]
  have hsp : cellSplitR binary64 landCell landState = (0, 3) := by
    have : cellEarlyDischargeR binary64 landCell landState = 0 := by
      unfold cellEarlyDischargeR; rw [hgw]; simp
    unfold cellSplitR
    rw [this]
    have n : ¬ (1 : ℝ) < 0 := by norm_num
    simp [landCell, exCell, fracRoutingR, swbShareR, Arith.add, Arith.sub, Arith.mul, f0, f1, f3, n]
  have h1 : cellLocLakeR binary64 landCell landState = ⟨0, 0, 0, 0, 0, 0, 0⟩ := by
    simp [cellLocLakeR, bodyDayR, landCell, locLakeInR, CellIn.lakeIn, landState]
    exact congrArg Prod.fst hsp
  have h2 : cellLocWetR binary64 landCell landState = ⟨0, 0, 0, 0, 0, 0, 0⟩ := by
    simp [cellLocWetR, bodyDayR, landCell, exCell, locWetInR, CellIn.lakeIn, landState]
    exact congrArg LakeOut.outflow h1
  have h3 : cellGloLakeR binary64 landCell landState 0 0 = ⟨0, 0, 0, 0, 0, 0, 0⟩ := by
    unfold cellGloLakeR bodyDayR gloLakeInR
    rw [h2]
    simp [landCell, exCell, CellIn.lakeIn, landState, Arith.add, f0]
  have h4 : cellResR binary64 landCell landState 0 0 rule = ⟨0, 0, 0, 0, 0, 0, 0⟩ := by
    unfold cellResR
    rw [h3]
    simp [landCell, landState]
  have h5 : cellGloWetR binary64 landCell landState 0 0 rule = ⟨0, 0, 0, 0, 0, 0, 0⟩ := by
    unfold cellGloWetR bodyDayR gloWetInR
    rw [h4]
    simp [landCell, CellIn.lakeIn, landState]
  have hp : cellPointR binary64 landCell landState 0 0 rule = 0 := by
    simp [cellPointR, h1, h2, h3, h4, h5, Arith.add, f0]
  have hg := hgw (cellPointR binary64 landCell landState 0 0 rule)
  change cellGwFinalR binary64 landCell landState 0 0 rule = _ at hg
  have hkind : landCell.gwKind ≠ .arid := by simp [landCell, exCell, CellIn.gwKind]
  have hri : cellRiverInR binary64 landCell landState 0 0 rule = 3 := by
    unfold cellRiverInR
    simp only [if_neg hkind, hsp, h5]
    simp [landCell, exCell, Arith.add, f3]
  have hu1 : cellUnsat1R binary64 landCell landState 0 0 rule = 0 := by simp [cellUnsat1R, landCell]
  have hu2 : cellUnsat2R binary64 landCell landState 0 0 keep rule = 0 := by
    unfold cellUnsat2R
    rw [hu1]
    simp [landCell]
  have he0 := hA.exp_nonneg (binary64.mul (-1) 1)
  have he1 : binary64.exp (binary64.mul (-1) 1) ≤ 1 := hA.exp_le_one _ (Arith.rnd_nonpos hA (by norm_num))
  have hr : (0 ≤ (cellRiverR binary64 landCell landState 0 0 keep rule fun _ => 1).1 ∧
      (cellRiverR binary64 landCell landState 0 0 keep rule fun _ => 1).1 ≤ 5) ∧
      (0 ≤ (cellRiverR binary64 landCell landState 0 0 keep rule fun _ => 1).2.1 ∧
      (cellRiverR binary64 landCell landState 0 0 keep rule fun _ => 1).2.1 ≤ 5) ∧
      (cellRiverR binary64 landCell landState 0 0 keep rule fun _ => 1).2.2 = 0 := by
    unfold cellRiverR
    rw [hri, hu2]
    have hc : landCell.corr = 1 := by norm_num [landCell, exCell]
    have hm : landCell.minV = 1e-12 := by norm_num [landCell, exCell]
    rw [hc, hm, show landState.river = 2 from rfl]
    simp only [riverR]
    generalize binary64.exp (binary64.mul (-1) 1) = e at *
    have m1 : 0 ≤ binary64.div (binary64.mul (binary64.mul 1 2) e) (binary64.sub 1 e) :=
      Arith.div_nonneg hA (Arith.mul_nonneg hA (Arith.mul_nonneg hA (by norm_num) (by norm_num)) he0)
        (Arith.sub_nonneg hA he1)
    rw [if_neg (not_lt.mpr (Arith.add_nonneg hA (by norm_num) m1))]
    have a1 : 0 ≤ binary64.mul 2 e := Arith.mul_nonneg hA (by norm_num) he0
    have a2 : binary64.mul 2 e ≤ 2 := Arith.mul_le_left hA (by norm_num) f2 he1
    have a3 : binary64.div (binary64.sub 3 0) 1 = 3 := by simp [Arith.div, Arith.sub, f3]
    have a4 : binary64.sub 1 e ≤ 1 := Arith.rnd_le_one hA (by linarith)
    have a5 : 0 ≤ binary64.mul 3 (binary64.sub 1 e) := Arith.mul_nonneg hA (by norm_num) (Arith.sub_nonneg hA he1)
    have a6 : binary64.mul 3 (binary64.sub 1 e) ≤ 3 := Arith.mul_le_left hA (by norm_num) f3 a4
    rw [a3]
    have b0 : 0 ≤ binary64.add (binary64.mul 2 e) (binary64.mul 3 (binary64.sub 1 e)) := Arith.add_nonneg hA a1 a5
    have b5 : binary64.add (binary64.mul 2 e) (binary64.mul 3 (binary64.sub 1 e)) ≤ 5 := Arith.rnd_le hA f5 (by linarith)
    generalize binary64.add (binary64.mul 2 e) (binary64.mul 3 (binary64.sub 1 e)) = w at *
    have c0 : 0 ≤ flush 1e-12 w := by unfold flush; split_ifs <;> linarith
    have c5 : flush 1e-12 w ≤ 5 := by unfold flush; split_ifs <;> linarith
    generalize flush 1e-12 w = v at *
    have d : binary64.add 3 2 = 5 := by
      change binary64.rnd (3 + 2) = 5
      norm_num [f5]
    rw [d]
    have g0 : 0 ≤ binary64.sub 5 v := Arith.sub_nonneg hA c5
    have g5 : binary64.sub 5 v ≤ 5 := Arith.rnd_le hA f5 (by linarith)
    have g : binary64.sub (binary64.sub 5 v) 0 = binary64.sub 5 v := by
      change binary64.rnd (_ - 0) = _
      rw [sub_zero]; exact Arith.sub_F hA _ _
    rw [g, if_neg (not_lt.mpr g0)]
    have k : binary64.mul (binary64.sub 5 v) 1 = binary64.sub 5 v := by
      change binary64.rnd (_ * 1) = _
      rw [mul_one]; exact Arith.sub_F hA _ _
    rw [k]
    exact ⟨⟨c0, c5⟩, ⟨g0, g5⟩, rfl⟩
  have hru : riverUseR binary64 landCell landState 0 0 keep rule (fun _ => 1) = 0 := by
    unfold riverUseR; rw [hu2, hr.2.2]; simp [Arith.sub, f0]
  have ht : cellTappedR binary64 landCell landState 0 0 keep rule (fun _ => 1)
      = (0, 0, 0, 0) := by
    unfold cellTappedR
    rw [if_neg (by simp [cellTapR, landCell]), h1, hr.2.2]
  have hn : cellNasR binary64 landCell landState 0 0 keep rule (fun _ => 1) = 0 := by
    unfold cellNasR
    rw [hru, ht, h3, h4]
    simp only [ite_self, Arith.add, f0, add_zero]
  have hev : cellEvapR binary64 landCell landState 0 0 keep rule (fun _ => 1) = 0 := by
    unfold cellEvapR
    rw [h1, h2, h3, h4, h5]
    simp [landCell, exCell, Arith.add, f0]
  have hne : cellNetInR binary64 landCell landState 0 0 rule = 0 := by
    unfold cellNetInR
    rw [if_neg hkind, hg]
    simp [landCell, Arith.add, Arith.sub, f0]
  refine { machine := ?_, share := by norm_num [landCell, exCell], k := by norm_num [landCell, exCell], locLake := ?_,
           locWet := ?_, gloLake := ?_, gloWet := ?_, res := ?_, runoff := by norm_num [landCell],
           river := by norm_num [landState], riverIn := by rw [hri]; norm_num, volumes := ?_ }
  · have := F 131072 (by norm_num); norm_num at this ⊢; exact this
  · intro h; norm_num [landCell] at h
  · intro h; norm_num [landCell, exCell] at h
  · intro h; norm_num [landCell] at h
  · intro h; norm_num [landCell] at h
  · intro h; norm_num [landCell] at h
  · have r1 := abs_of_nonneg hr.1.1
    have r2 := abs_of_nonneg hr.2.1.1
    simp only [cellVolumes, List.mem_cons, List.mem_nil_iff, or_false, forall_eq_or_imp, forall_eq, h1, h2, h3, h4, h5, hp, hg,
      hsp, hu2, hr.2.2, hru, ht, hn, hev, hne, r1, r2]
    norm_num [landState, landCell]
    exact ⟨hr.1.2.trans (by norm_num), hr.2.1.2.trans (by norm_num)⟩

example (keep : ℝ → ℝ) (rule : ℝ → ℝ × ℝ) :
    3 + 0 + cellPrecipR binary64 landCell landState 0 0 rule
      - ((cellStateR binary64 landCell landState 0 0 keep rule (fun _ => 1)).total - landState.total
        + cellRunoffR binary64 landCell landState 0 0 keep rule (fun _ => 1)
        + cellEvapTotalR binary64 landCell landState 0 0 keep rule (fun _ => 1))
      ≤ (if landCell.resArea > 0 then max landCell.minV 0 else 0) + 6e-9 :=
  (C67_cell_binary64 landCell landState 0 0 keep rule (fun _ => 1) (landCell_sizes keep rule)
    (by norm_num [landCell, exCell])).1

/-! ### A division by zero -/

/-- C78 (finding): a local lake that rounding has put below its lower limit (`C65_violated_lake_floor` shows that this
happens) divides by zero on the next day without inflow, whatever the weather: its area is zero, so that precipitation,
evaporation and recharge are, and the losses, zero, exceed the water at hand, which is negative.  In exact arithmetic
this is impossible (`C78_simulation`). -/
theorem C78_violated_rounded_lake (i : LakeIn) (s : ℝ) (hm : 0 < i.maxStorage) (hF : binary64.F i.maxStorage)
    (hs : binary64.F s) (hlow : s < -i.maxStorage) (he : 0 ≤ i.redExp) (hin : i.inflow = 0) :
    lakePetR binary64 .localLake i s = 0 ∧ lakePetR binary64 .localLake i s > lakePetMaxR binary64 .localLake i s := by
  have hA := binary64_ok
  have f0 : binary64.rnd 0 = 0 := Arith.zero_F hA
  have h2 := binary64_near.dbl _ hF
  have hred : lakeRedR binary64 .localLake i s = 0 := by
    have a1 : 2 * i.maxStorage ≤ |binary64.sub s i.maxStorage| := by
      have : binary64.sub s i.maxStorage ≤ -(2 * i.maxStorage) :=
        Arith.rnd_le hA (Arith.neg_F hA h2) (by linarith)
      exact le_trans (by linarith) (neg_le_abs _)
    have a2 : binary64.mul 2 i.maxStorage = 2 * i.maxStorage := h2
    have a3 : 1 ≤ binary64.div |binary64.sub s i.maxStorage| (2 * i.maxStorage) :=
      Arith.le_rnd hA (Arith.one_F hA) ((one_le_div (by linarith)).mpr a1)
    have a4 : 1 ≤ binary64.pow (binary64.div |binary64.sub s i.maxStorage| (2 * i.maxStorage)) i.redExp :=
      Arith.le_rnd hA (Arith.one_F hA) (Real.one_le_rpow a3 he)
    have a5 : binary64.sub 1 (binary64.pow (binary64.div |binary64.sub s i.maxStorage| (2 * i.maxStorage)) i.redExp) ≤ 0 :=
      Arith.rnd_nonpos hA (by linarith)
    simp only [lakeRedR, redfactorR, LakeKind.swb, nFactor, a2]
    generalize binary64.sub 1 _ = r at *
    split_ifs <;> linarith
  have harea : lakeAreaR binary64 .localLake i s = 0 := by
    simp [lakeAreaR, hred, Arith.mul, f0]
  have hpet : lakePetR binary64 .localLake i s = 0 := by
    simp [lakePetR, lakeGwrR, lakeDemandR, harea, Arith.mul, Arith.add, f0]
  refine ⟨hpet, ?_⟩
  have hti : lakeTotalInR binary64 .localLake i s = 0 := by
    simp [lakeTotalInR, harea, hin, Arith.mul, Arith.add, f0]
  have hneg : binary64.add s i.maxStorage < 0 := by
    have h := hA.under s (-i.maxStorage) hs (Arith.neg_F hA hF) hlow
    have e : binary64.add s i.maxStorage = -binary64.rnd (-i.maxStorage - s) := by
      rw [← hA.neg]; unfold Arith.add; congr 1; ring
    rw [e]; linarith
  have hmx : lakePetMaxR binary64 .localLake i s = binary64.add s i.maxStorage := by
    simp only [lakePetMaxR, hti]
    change binary64.rnd (_ + 0) = _
    rw [add_zero]; exact Arith.add_F hA _ _
  rw [hpet, hmx]; exact hneg

/-- The lake of `C65_violated_lake_floor` on the following day, without inflow, with any rain and potential evaporation:
the code divides by losses of zero, and the run ends. -/
theorem C78_violated_rounded_lake_day (p e : ℝ) :
    let s := (lakeSOR binary64 .localLake floorLake 1).1
    let i := { floorLake with inflow := 0, precip := p, openPet := e }
    lakePetR binary64 .localLake i s = 0 ∧ lakePetR binary64 .localLake i s > lakePetMaxR binary64 .localLake i s := by
  intro s i
  have h1 : binary64.F 1 := by exact_mod_cast nat64 1 (by norm_num)
  refine C78_violated_rounded_lake i s (by norm_num [i, floorLake]) h1 ?_ C65_violated_lake_floor
    (by norm_num [i, floorLake]) rfl
  have key : ∀ a : ℝ, binary64.F a → ∀ b d : ℝ,
      binary64.F (if a > floorLake.maxStorage then (floorLake.maxStorage, b) else (a, d)).1 := by
    intro a ha b d
    split_ifs
    · exact h1
    · exact ha
  exact key _ (Arith.sub_F binary64_ok _ _) _ _

/-- A full lake of volume 1 with potential evaporation of 4 and no inflow: the losses, reduced to the water at hand, are greater
than zero. -/
example : 0 < lakePetR binary64 .localLake { floorLake with openPet := 4, inflow := 0 } 1 := by
  have hA := binary64_ok
  have f0 : binary64.rnd 0 = 0 := Arith.zero_F hA
  have f1 : binary64.rnd 1 = 1 := Arith.one_F hA
  have f2 : binary64.rnd 2 = 2 := by have := nat64 2 (by norm_num); exact_mod_cast this
  have f4 : binary64.rnd 4 = 4 := by have := nat64 4 (by norm_num); exact_mod_cast this
  have hp0 : binary64.pow 0 3.3 = 0 := by
    change binary64.rnd ((0 : ℝ) ^ (3.3 : ℝ)) = 0
    rw [Real.zero_rpow (by norm_num), f0]
  generalize hi : ({ floorLake with openPet := 4, inflow := 0 } : LakeIn) = i
  have hred : lakeRedR binary64 .localLake i 1 = 1 := by
    subst hi
    simp [lakeRedR, redfactorR, floorLake, Arith.sub, Arith.div, f0, f1, hp0]
  have harea : lakeAreaR binary64 .localLake i 1 = 1 := by
    have : i.maxArea = 1 := by subst hi; rfl
    simp [lakeAreaR, hred, this, Arith.mul, f1]
  have hti : lakeTotalInR binary64 .localLake i 1 = 0 := by
    have h1 : i.precip = 0 := by subst hi; rfl
    have h2 : i.inflow = 0 := by subst hi; rfl
    simp [lakeTotalInR, harea, h1, h2, Arith.mul, Arith.add, f0]
  have hm : i.maxStorage = 1 := by subst hi; rfl
  have hmx : lakePetMaxR binary64 .localLake i 1 = 2 := by
    simp only [lakePetMaxR, hti, hm]
    change binary64.rnd (binary64.rnd (1 + 1) + 0) = 2
    norm_num [f2]
  have hpet : lakePetR binary64 .localLake i 1 = 4 := by
    have h3 : ¬ (4 : ℝ) < 0 := by norm_num
    subst hi
    simp only [lakePetR, harea, lakeGwrR, lakeDemandR, lakeEvapR]
    simp [floorLake, Arith.mul, Arith.add, Arith.sub, f0, f4, h3]
  exact C78_rounded_lake hA .localLake i 1 (by simp only [AboveFloor, lakeLimit, hm]; norm_num) hti.ge (by
    rw [hpet, hmx]; norm_num)

end WG
