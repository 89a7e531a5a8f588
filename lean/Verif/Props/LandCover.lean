import Verif.Model.LandCover
import Verif.Props.Lai
import Verif.Props.Vertical

/-! # C76: every cell gets the parameters of its own land cover class -/

namespace WG

theorem distribute_append (rows : List LandCoverRow) (r : LandCoverRow) (col : LandCoverRow → ℝ) (cover : Option ℝ) :
    distribute (rows ++ [r]) col cover = if cover = some (r.number : ℝ) then some (col r) else distribute rows col cover := by
  simp [distribute, List.foldl_append]

theorem distribute_none (rows : List LandCoverRow) (col : LandCoverRow → ℝ) (cover : Option ℝ)
    (h : ∀ r ∈ rows, cover ≠ some (r.number : ℝ)) : distribute rows col cover = none := by
  induction rows using List.reverseRecOn with
  | nil => rfl
  | append_singleton rows r ih =>
    rw [distribute_append, if_neg (h r (by simp)), ih fun x hx => h x (by simp [hx])]

theorem distribute_own (rows : List LandCoverRow) (hn : (rows.map (·.number)).Nodup) (col : LandCoverRow → ℝ) (r : LandCoverRow)
    (hr : r ∈ rows) : distribute rows col (some (r.number : ℝ)) = some (col r) := by
  induction rows using List.reverseRecOn with
  | nil => simp at hr
  | append_singleton rows x ih =>
    rw [List.map_append, List.nodup_append] at hn
    rw [distribute_append]
    rcases List.mem_append.1 hr with h | h
    · have : (some (r.number : ℝ)) ≠ some (x.number : ℝ) := by
        rw [Ne, Option.some.injEq, Nat.cast_inj]
        exact hn.2.2 _ (List.mem_map.2 ⟨r, h, rfl⟩) _ (by simp)
      rw [if_neg this, ih hn.1 h]
    · rw [List.mem_singleton] at h
      rw [h, if_pos rfl]

/-- **C76.**  In a table that gives every class once, a cell of a class of the table has the parameters of that class and of
no other; its soil holds the available water capacity times the rooting depth of the class (and has no capacity where none is
available). -/
theorem C76_own_class (rows : List LandCoverRow) (hn : (rows.map (·.number)).Nodup) (r : LandCoverRow) (hr : r ∈ rows)
    (tawc : Option ℝ) : coverPar rows (some (r.number : ℝ)) tawc =
      { albedo := some r.albedo, snowAlbedo := some r.snowAlbedo, emissivity := some r.emissivity,
        initialDays := some r.initialDays, maxLai := some r.maxLai,
        minLai := some (0.1 * r.fracDecid + (1 - r.fracDecid) * r.redEvergreen * r.maxLai),
        degreeday := some r.degreeDay, rootingDepth := some r.rootingDepth,
        maxSoil := tawc.bind fun w => if 0 < w then some (w * r.rootingDepth) else none } := by
  unfold coverPar
  simp only [distribute_own rows hn _ r hr]
  cases tawc <;> rfl

/-- **C76.**  A cell without land cover, or of a class that is not in the table, has no parameters (NaN), not those of another
class. -/
theorem C76_unknown_class (rows : List LandCoverRow) (cover : Option ℝ) (h : ∀ r ∈ rows, cover ≠ some (r.number : ℝ))
    (tawc : Option ℝ) : coverPar rows cover tawc = ⟨none, none, none, none, none, none, none, none, none⟩ := by
  unfold coverPar
  simp only [distribute_none rows _ cover h]
  cases tawc <;> rfl

/-- Specification: the parameters of the land column of a cell that depend on its land cover are those of its class. -/
structure VertPar.FromCover (p : VertPar) (rows : List LandCoverRow) (tawc : ℝ) : Prop where
  albedo : some p.rad.albedo = (coverPar rows p.lai.landCover (some tawc)).albedo
  snowAlbedo : some p.rad.snowAlbedo = (coverPar rows p.lai.landCover (some tawc)).snowAlbedo
  emissivity : some p.rad.emissivity = (coverPar rows p.lai.landCover (some tawc)).emissivity
  initialDays : some (p.lai.initialDays : ℝ) = (coverPar rows p.lai.landCover (some tawc)).initialDays
  maxLai : some p.lai.maxLai = (coverPar rows p.lai.landCover (some tawc)).maxLai
  minLai : some p.lai.minLai = (coverPar rows p.lai.landCover (some tawc)).minLai
  degreeday : some p.degreeday = (coverPar rows p.lai.landCover (some tawc)).degreeday
  maxSoil : some p.maxSoil = (coverPar rows p.lai.landCover (some tawc)).maxSoil

/-- Specification: ranges of the parameters that do not depend on the land cover. -/
structure VertPar.OtherOk (p : VertPar) : Prop where
  alpha : 0 < p.alpha
  coef : 0 ≤ p.coef
  fracBuiltup0 : 0 ≤ p.fracBuiltup
  fracBuiltup1 : p.fracBuiltup ≤ 1
  builtup : p.builtup ≤ 1
  gamma : 0 ≤ p.gamma
  maxRecharge : 0 ≤ p.maxRecharge
  factor0 : 0 ≤ p.rechargeFactor
  factor1 : p.rechargeFactor ≤ 1
  cfa : 0 < p.cfa
  lapse : 0 ≤ p.lapse
  freeze : p.freezeTemp ≤ p.meltTemp
  lowest : ∃ e es, p.elevs = e :: es ∧ ∀ x ∈ es, e ≤ x

/-- The shipped table gives every class once; all depths and degree-day factors are positive, albedo is 1 at most. -/
theorem shipped_classes : (landCoverTable.map (·.number)).Nodup ∧ ∀ r ∈ landCoverTable,
    0 < r.rootingDepth ∧ 0 < r.degreeDay ∧ 0 ≤ r.albedo ∧ r.albedo < 1 ∧ 0 ≤ r.snowAlbedo ∧ r.snowAlbedo < 1 ∧
    0 < r.emissivity ∧ r.emissivity ≤ 1 := by
  refine ⟨by decide, fun r hr => ?_⟩
  simp only [landCoverTable, List.mem_cons, List.not_mem_nil, or_false] at hr
  rcases hr with rfl | rfl | rfl | rfl | rfl | rfl | rfl | rfl | rfl | rfl | rfl | rfl | rfl | rfl <;> norm_num

/-- **C76.**  With the shipped table every cell whose parameters exist (not NaN) is of one of its 14 classes, has a soil
that can store water, an albedo between 0 and 1 and an emissivity above 0 up to 1, and, if the parameters that do not depend on
the land cover are in their ranges, satisfies everything the theorems on the land column (C53, C54, C55) ask of
its parameters. -/
theorem C76_shipped (p : VertPar) (tawc : ℝ) (h : p.FromCover landCoverTable tawc) (ho : p.OtherOk) :
    (∃ r ∈ landCoverTable, p.lai.landCover = some (r.number : ℝ) ∧ p.maxSoil = tawc * r.rootingDepth) ∧
    p.Ok ∧ 0 < p.maxSoil ∧ 0 < p.degreeday ∧ 0 ≤ p.rad.albedo ∧ p.rad.albedo < 1 ∧ 0 ≤ p.rad.snowAlbedo ∧ p.rad.snowAlbedo < 1 ∧
    0 < p.rad.emissivity ∧ p.rad.emissivity ≤ 1 := by
  have hr : ∃ r ∈ landCoverTable, p.lai.landCover = some (r.number : ℝ) := by
    by_contra hcon
    push Not at hcon
    have := h.albedo
    rw [C76_unknown_class _ _ (fun r hr => hcon r hr)] at this
    cases this
  obtain ⟨r, hr, hc⟩ := hr
  obtain ⟨hn, hb⟩ := shipped_classes
  obtain ⟨b1, b2, b3, b4, b5, b6, b7, b8⟩ := hb r hr
  obtain ⟨t1, t2, t3, -⟩ := C08_shipped_table r hr
  have own := C76_own_class landCoverTable hn r hr (some tawc)
  obtain ⟨h1, h2, h3, h4, h5, h6, h7, h8⟩ := h
  rw [hc, own] at h1 h2 h3 h4 h5 h6 h7 h8
  simp only [Option.some.injEq, Option.bind_some] at h1 h2 h3 h4 h5 h6 h7 h8
  have ht : 0 < tawc := by
    by_contra hneg
    rw [if_neg hneg] at h8
    cases h8
  rw [if_pos ht, Option.some.injEq] at h8
  have e4 : p.lai.initialDays = r.initialDays := by exact_mod_cast h4
  have r1 : (0 : ℝ) < r.rootingDepth := by exact_mod_cast b1
  have r2 : (0 : ℝ) < r.degreeDay := by exact_mod_cast b2
  have t1' : (0 : ℝ) ≤ 0.1 * r.fracDecid + (1 - r.fracDecid) * r.redEvergreen * r.maxLai := by
    have := (Rat.cast_le (K := ℝ)).2 t1
    push_cast at this
    norm_num at this ⊢
    exact this
  have t2' : (0.1 * r.fracDecid + (1 - r.fracDecid) * r.redEvergreen * r.maxLai : ℝ) ≤ r.maxLai := by
    have := (Rat.cast_le (K := ℝ)).2 t2
    push_cast at this
    norm_num at this ⊢
    exact this
  have hpos : 0 < p.maxSoil := by rw [h8]; positivity
  refine ⟨⟨r, hr, hc, h8⟩, ?_, hpos, by rw [h7]; exact r2, ?_, ?_, ?_, ?_, ?_, ?_⟩
  · exact
      { alpha := ho.alpha, lai := ⟨by rw [h5, h6]; exact t2', by rw [e4]; exact t3, by rw [hc]; simp⟩,
        minLai := by rw [h6]; exact t1',
        coef := ho.coef, degreeday := by rw [h7]; exact r2.le, fracBuiltup0 := ho.fracBuiltup0, fracBuiltup1 := ho.fracBuiltup1,
        builtup := ho.builtup, gamma := ho.gamma, maxRecharge := ho.maxRecharge, factor0 := ho.factor0, factor1 := ho.factor1,
        maxSoil := hpos.le, cfa := ho.cfa, lapse := ho.lapse, freeze := ho.freeze, lowest := ho.lowest }
  · rw [h1]; exact_mod_cast b3
  · rw [h1]; exact_mod_cast b4
  · rw [h2]; exact_mod_cast b5
  · rw [h2]; exact_mod_cast b6
  · rw [h3]; exact_mod_cast b7
  · rw [h3]; exact_mod_cast b8

/-- A cell of class 12, cropland, with 150 mm per m available. -/
example : coverPar landCoverTable (some 12) (some 150) =
    ⟨some (0.23 : ℚ), some (0.376 : ℚ), some (0.9813 : ℚ), some (10 : ℤ), some (3.62 : ℚ),
      some (0.1 * (0 : ℚ) + (1 - (0 : ℚ)) * (0.1 : ℚ) * (3.62 : ℚ)), some (4 : ℚ), some (1 : ℚ), some (150 * (1 : ℚ))⟩ := by
  have h := C76_own_class landCoverTable shipped_classes.1 ⟨12, 3.62, 0, 0.1, 10, 0.23, 0.376, 0.9813, 4, 1⟩ (by simp [landCoverTable])
    (some 150)
  norm_num at h ⊢
  exact h

/-- Urban areas (class 13) have no row. -/
example : coverPar landCoverTable (some 13) (some 150) = ⟨none, none, none, none, none, none, none, none, none⟩ :=
  C76_unknown_class _ _ (by
    intro r hr
    simp only [landCoverTable, List.mem_cons, List.not_mem_nil, or_false] at hr
    rcases hr with rfl | rfl | rfl | rfl | rfl | rfl | rfl | rfl | rfl | rfl | rfl | rfl | rfl | rfl <;> norm_num) _

/-- A cell of class 16, bare ground, with plausible other parameters. -/
noncomputable def barePar : VertPar where
  rad := { snowAlbedoThresh := 3, openwaterAlbedo := 0.08, snowAlbedo := (0.7 : ℚ), albedo := (0.35 : ℚ), emissivity := (0.9412 : ℚ) }
  alpha := 1.26
  lai := { initialDays := 10, minLai := 0.1 * (0 : ℚ) + (1 - (0 : ℚ)) * (1 : ℚ) * (1.31 : ℚ), maxLai := (1.31 : ℚ), landCover := some (16 : ℕ),
           humidArid := 0 }
  coef := 0.3
  minV := 1e-15
  degreeday := (6 : ℚ)
  meanElev := 100
  elevs := [50, 100]
  lapse := 0.006
  freezeTemp := 273.15
  meltTemp := 273.15
  fracBuiltup := 0.5
  builtup := 0
  gamma := 2
  maxDailyPet := 15
  texture := 20
  drainage := 1
  maxRecharge := 5
  rechargeFactor := 0.5
  critPrecip := 12.5
  maxSoil := 120 * (0.1 : ℚ)
  cfa := 1

/-- The hypotheses of `C76_shipped` are met. -/
example : barePar.Ok ∧ 0 < barePar.maxSoil := by
  have own := C76_own_class landCoverTable shipped_classes.1 ⟨16, 1.31, 0, 1, 10, 0.35, 0.7, 0.9412, 6, 0.1⟩
    (by simp [landCoverTable]) (some 120)
  have hf : barePar.FromCover landCoverTable 120 := by
    constructor <;> (simp only [barePar, own, Option.bind_some] <;> norm_num)
  have ho : barePar.OtherOk := by
    refine ⟨?_, ?_, ?_, ?_, ?_, ?_, ?_, ?_, ?_, ?_, ?_, ?_, 50, [100], rfl, by norm_num⟩ <;> simp only [barePar] <;> norm_num
  obtain ⟨-, h1, h2, -⟩ := C76_shipped barePar 120 hf ho
  exact ⟨h1, h2⟩

end WG
