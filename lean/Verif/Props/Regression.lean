import Verif.Model.Regression
import Verif.Props.CalibData
import Mathlib.Analysis.InnerProductSpace.Projection.Minimal
import Mathlib.Analysis.InnerProductSpace.PiL2
import Mathlib.LinearAlgebra.Basis.VectorSpace
import Mathlib.Topology.Algebra.Module.FiniteDimension

/-! # The regression of the regionalisation (C88) -/

namespace WG

theorem quad_zero (a c : ℝ) (hc : 0 ≤ c) (h : ∀ t : ℝ, 0 ≤ 2 * t * a + t ^ 2 * c) : a = 0 := by
  by_contra ha
  have h1 := h (-a / (c + 1))
  have hp : 0 < c + 1 := by linarith
  have e : 2 * (-a / (c + 1)) * a + (-a / (c + 1)) ^ 2 * c = -(a ^ 2 * (c + 2)) / (c + 1) ^ 2 := by
    field_simp; ring
  rw [e] at h1
  have : 0 < a ^ 2 * (c + 2) / (c + 1) ^ 2 := by positivity
  rw [neg_div] at h1
  linarith

theorem predict_add (w w' : Fin nDesc → ℝ) (b b' t : ℝ) (x : Fin nDesc → ℝ) :
    predict (fun j => w j + t * w' j) (b + t * b') x = predict w b x + t * predict w' b' x := by
  unfold predict
  have : ∑ j, (w j + t * w' j) * x j = ∑ j, w j * x j + t * ∑ j, w' j * x j := by
    rw [Finset.mul_sum, ← Finset.sum_add_distrib]
    exact Finset.sum_congr rfl fun j _ => by ring
  rw [this]; ring

theorem sse_add (G : Finset Group) (x : Group → Fin nDesc → ℝ) (y : Group → ℝ) (w w' : Fin nDesc → ℝ) (b b' t : ℝ) :
    sse G x y (fun j => w j + t * w' j) (b + t * b') = sse G x y w b +
      (2 * t * ∑ g ∈ G, (predict w b (x g) - y g) * predict w' b' (x g) + t ^ 2 * ∑ g ∈ G, predict w' b' (x g) ^ 2) := by
  unfold sse
  rw [Finset.mul_sum, Finset.mul_sum, ← Finset.sum_add_distrib, ← Finset.sum_add_distrib]
  refine Finset.sum_congr rfl fun g _ => ?_
  rw [predict_add]; ring

/-- The errors of a fit are orthogonal to every affine function of the descriptors. -/
theorem fit_orthogonal {G : Finset Group} {x : Group → Fin nDesc → ℝ} {y : Group → ℝ} {w : Fin nDesc → ℝ} {b : ℝ}
    (h : IsFit G x y w b) (w' : Fin nDesc → ℝ) (b' : ℝ) :
    ∑ g ∈ G, (predict w b (x g) - y g) * predict w' b' (x g) = 0 := by
  refine quad_zero _ (∑ g ∈ G, predict w' b' (x g) ^ 2) (Finset.sum_nonneg fun g _ => sq_nonneg _) fun t => ?_
  have := h (fun j => w j + t * w' j) (b + t * b')
  rw [sse_add] at this
  linarith

/-- **C88 (mean).**  Over the calibrated basins the logarithms of the estimated coefficients add up to those of the calibrated
ones: their geometric mean is the same, and no descriptor is correlated with the errors. -/
theorem C88_mean (groups : Finset Group) (gamma : Group → Option ℝ) (x : Group → Fin nDesc → ℝ) (w : Fin nDesc → ℝ) (b : ℝ)
    (h : IsFit (fitGroups groups gamma) x (lnGamma gamma) w b) :
    ∏ g ∈ fitGroups groups gamma, Real.exp (predict w b (x g)) = ∏ g ∈ fitGroups groups gamma, (gamma g).getD 1 ∧
    ∀ j, ∑ g ∈ fitGroups groups gamma, (predict w b (x g) - lnGamma gamma g) * x g j = 0 := by
  classical
  constructor
  · have h1 := fit_orthogonal h (fun _ => 0) 1
    have e : ∀ g, predict (fun _ => 0) 1 (x g) = 1 := fun g => by unfold predict; simp
    simp only [e, mul_one, Finset.sum_sub_distrib] at h1
    rw [← Real.exp_sum, sub_eq_zero.1 h1, Real.exp_sum]
    refine Finset.prod_congr rfl fun g hg => ?_
    unfold fitGroups at hg
    obtain ⟨v, hv, hp⟩ := (Finset.mem_filter.1 hg).2
    rw [lnGamma, hv]
    exact Real.exp_log hp
  · intro j
    have h1 := fit_orthogonal h (fun k => if k = j then 1 else 0) 0
    have e : ∀ g, predict (fun k => if k = j then 1 else 0) 0 (x g) = x g j := fun g => by unfold predict; simp
    simpa only [e] using h1

/-- What a fit leaves is what any other affine function leaves, less its distance. -/
theorem sse_fit {G : Finset Group} {x : Group → Fin nDesc → ℝ} {y : Group → ℝ} {w : Fin nDesc → ℝ} {b : ℝ}
    (h : IsFit G x y w b) (w' : Fin nDesc → ℝ) (b' : ℝ) :
    sse G x y w' b' = sse G x y w b + ∑ g ∈ G, (predict w' b' (x g) - predict w b (x g)) ^ 2 := by
  have e : (fun j => w j + 1 * (w' j - w j)) = w' ∧ b + 1 * (b' - b) = b' := by
    constructor
    · funext j; ring
    · ring
  have h1 := sse_add G x y w (fun j => w' j - w j) b (b' - b) 1
  rw [e.1, e.2, fit_orthogonal h] at h1
  rw [h1]
  have hd : ∀ g, predict (fun j => w' j - w j) (b' - b) (x g) = predict w' b' (x g) - predict w b (x g) := by
    intro g
    unfold predict
    have : ∑ j, (w' j - w j) * x g j = ∑ j, w' j * x g j - ∑ j, w j * x g j := by
      rw [← Finset.sum_sub_distrib]; exact Finset.sum_congr rfl fun j _ => by ring
    rw [this]; ring
  simp only [hd]
  ring

/-- Two fits agree on the calibrated basins. -/
theorem fit_agree {G : Finset Group} {x : Group → Fin nDesc → ℝ} {y : Group → ℝ} {w w' : Fin nDesc → ℝ} {b b' : ℝ}
    (h : IsFit G x y w b) (h' : IsFit G x y w' b') : ∀ g ∈ G, predict w' b' (x g) = predict w b (x g) := by
  have h1 := sse_fit h w' b'
  have h2 := h' w b
  have h0 : ∑ g ∈ G, (predict w' b' (x g) - predict w b (x g)) ^ 2 = 0 :=
    le_antisymm (by linarith) (Finset.sum_nonneg fun g _ => sq_nonneg _)
  intro g hg
  have := (Finset.sum_eq_zero_iff_of_nonneg fun g _ => sq_nonneg (predict w' b' (x g) - predict w b (x g))).1 h0 g hg
  have := pow_eq_zero_iff (two_ne_zero) |>.1 this
  linarith

/-- The descriptors `z` of a basin are a weighted mean (weights of any sign, adding to one) of those of the basins `G`. -/
def Spanned (G : Finset Group) (x : Group → Fin nDesc → ℝ) (z : Fin nDesc → ℝ) : Prop :=
  ∃ c : Group → ℝ, ∑ g ∈ G, c g = 1 ∧ ∀ j, ∑ g ∈ G, c g * x g j = z j

theorem predict_spanned (G : Finset Group) (x : Group → Fin nDesc → ℝ) (z : Fin nDesc → ℝ) (w : Fin nDesc → ℝ) (b : ℝ)
    (c : Group → ℝ) (h1 : ∑ g ∈ G, c g = 1) (h2 : ∀ j, ∑ g ∈ G, c g * x g j = z j) :
    predict w b z = ∑ g ∈ G, c g * predict w b (x g) := by
  unfold predict
  have : ∑ g ∈ G, c g * (∑ j, w j * x g j + b) = ∑ j, w j * (∑ g ∈ G, c g * x g j) + (∑ g ∈ G, c g) * b := by
    simp only [mul_add, Finset.sum_add_distrib, Finset.mul_sum, Finset.sum_mul]
    rw [Finset.sum_comm]
    congr 1
    exact Finset.sum_congr rfl fun j _ => Finset.sum_congr rfl fun g _ => by ring
  rw [this, h1, one_mul]
  simp only [h2]

variable {ι : Type}

/-- The coefficient of a cell in a basin that is not calibrated, with the descriptors `x` of the basins and the result `w`, `b`
of the regression. -/
noncomputable def regionalGamma (cells : List ι) (regions : List (ι → Option (String × ℝ))) (superBasin : ι → ℕ)
    (x : Group → Fin nDesc → ℝ) (w : Fin nDesc → ℝ) (b : ℝ) (i : ι) : ℝ :=
  gammaFinal cells regions superBasin (fun g => predict w b (x g)) i

/-- **C88 (determined).**  The coefficient of every cell in a calibrated basin, and in every basin whose descriptors are a
weighted mean of those of calibrated basins, follows from the data alone: whichever of the least-squares solutions the
library returns, the value written is the same. -/
theorem C88_determined (cells : List ι) (regions : List (ι → Option (String × ℝ))) (superBasin : ι → ℕ)
    (G : Finset Group) (x : Group → Fin nDesc → ℝ) (y : Group → ℝ) (w w' : Fin nDesc → ℝ) (b b' : ℝ)
    (h : IsFit G x y w b) (h' : IsFit G x y w' b') (i : ι)
    (hi : (groupMean cells regions superBasin (groupOf regions superBasin i)).isSome ∨
      Spanned G x (x (groupOf regions superBasin i))) :
    regionalGamma cells regions superBasin x w b i = regionalGamma cells regions superBasin x w' b' i := by
  unfold regionalGamma gammaFinal
  cases hm : groupMean cells regions superBasin (groupOf regions superBasin i) with
  | some v => simp only [hm]
  | none =>
    rw [hm] at hi
    obtain hi | ⟨c, h1, h2⟩ := hi
    · cases hi
    · simp only [hm]
      rw [predict_spanned G x _ w b c h1 h2, predict_spanned G x _ w' b' c h1 h2]
      congr 2
      exact Finset.sum_congr rfl fun g hg => by rw [fit_agree h h' g hg]

/-- **C88 (recovered).**  If the logarithms of the calibrated coefficients are an affine function of the descriptors, the
coefficient estimated for a basin whose descriptors are a weighted mean of calibrated ones is that function's value,
limited to 0.1 to 5. -/
theorem C88_recovered (cells : List ι) (regions : List (ι → Option (String × ℝ))) (superBasin : ι → ℕ)
    (G : Finset Group) (x : Group → Fin nDesc → ℝ) (y : Group → ℝ) (w : Fin nDesc → ℝ) (b : ℝ) (h : IsFit G x y w b)
    (a : Fin nDesc → ℝ) (k : ℝ) (hy : ∀ g ∈ G, y g = ∑ j, a j * x g j + k) (i : ι)
    (hn : groupMean cells regions superBasin (groupOf regions superBasin i) = none)
    (hs : Spanned G x (x (groupOf regions superBasin i))) :
    regionalGamma cells regions superBasin x w b i =
      min 5 (max 0.1 (Real.exp (∑ j, a j * x (groupOf regions superBasin i) j + k))) := by
  have hfit : IsFit G x y a k := by
    intro w' b'
    have : sse G x y a k = 0 := by
      unfold sse
      refine Finset.sum_eq_zero fun g hg => ?_
      rw [hy g hg]; unfold predict; ring
    rw [this]
    exact Finset.sum_nonneg fun g _ => sq_nonneg _
  rw [C88_determined cells regions superBasin G x y w a b k h hfit i (Or.inr hs)]
  unfold regionalGamma gammaFinal
  simp only [hn]
  rfl

/-- **C88 (existence).**  There always is a least-squares solution: whatever the basins and their descriptors. -/
theorem C88_exists (G : Finset Group) (x : Group → Fin nDesc → ℝ) (y : Group → ℝ) : ∃ w b, IsFit G x y w b := by
  let L : ((Fin nDesc → ℝ) × ℝ) →ₗ[ℝ] EuclideanSpace ℝ G :=
    { toFun := fun p => WithLp.toLp 2 fun g => predict p.1 p.2 (x g)
      map_add' := fun p q => by
        ext g
        have := predict_add p.1 q.1 p.2 q.2 1 (x g)
        simp only [one_mul] at this
        exact this
      map_smul' := fun t p => by
        ext g
        have := predict_add 0 p.1 0 p.2 t (x g)
        simp [predict] at this ⊢
        exact this }
  have hu : ∀ p : (Fin nDesc → ℝ) × ℝ, ‖WithLp.toLp 2 (fun g : G => y g) - L p‖ ^ 2 = sse G x y p.1 p.2 := by
    intro p
    rw [EuclideanSpace.norm_sq_eq]
    unfold sse
    rw [← Finset.sum_coe_sort G fun g => (predict p.1 p.2 (x g) - y g) ^ 2]
    refine Finset.sum_congr rfl fun g _ => ?_
    simp only [PiLp.sub_apply, Real.norm_eq_abs, sq_abs]
    change (y g - predict p.1 p.2 (x g)) ^ 2 = _
    ring
  obtain ⟨v, hv, hmin⟩ := (LinearMap.range L).exists_norm_eq_iInf_of_complete_subspace
    (LinearMap.range L).complete_of_finiteDimensional (WithLp.toLp 2 (fun g : G => y g))
  obtain ⟨p, rfl⟩ := hv
  refine ⟨p.1, p.2, fun w' b' => ?_⟩
  rw [← hu p, ← hu (w', b')]
  refine pow_le_pow_left₀ (norm_nonneg _) ?_ 2
  rw [hmin]
  exact ciInf_le ⟨0, by rintro _ ⟨z, rfl⟩; exact norm_nonneg _⟩
    (⟨L (w', b'), LinearMap.mem_range_self _ _⟩ : ((LinearMap.range L : Submodule ℝ _) : Set (EuclideanSpace ℝ G)))

/-- **C88 violated.**  For a basin whose descriptors are not a weighted mean of those of the calibrated basins (because there are
fewer than eight calibrated basins, say, or a descriptor is the same in all of them), every coefficient from 0.1 to 5 comes from
some least-squares solution: the data do not determine it. -/
theorem C88_violated_span (cells : List ι) (regions : List (ι → Option (String × ℝ))) (superBasin : ι → ℕ)
    (G : Finset Group) (x : Group → Fin nDesc → ℝ) (y : Group → ℝ) (i : ι)
    (hn : groupMean cells regions superBasin (groupOf regions superBasin i) = none)
    (hs : ¬ Spanned G x (x (groupOf regions superBasin i))) (v : ℝ) (hv : 0.1 ≤ v ∧ v ≤ 5) :
    ∃ w b, IsFit G x y w b ∧ regionalGamma cells regions superBasin x w b i = v := by
  classical
  obtain ⟨w, b, h⟩ := C88_exists G x y
  set z := x (groupOf regions superBasin i) with hz
  let e : Group → (Fin nDesc → ℝ) × ℝ := fun g => (x g, 1)
  have hnot : (z, (1 : ℝ)) ∉ Submodule.span ℝ (e '' (G : Set Group)) := by
    intro hm
    obtain ⟨c, hc⟩ := (Submodule.mem_span_image_finset_iff_exists_fun' ℝ).1 hm
    refine hs ⟨c, ?_, fun j => ?_⟩
    · have := congrArg Prod.snd hc
      rw [Prod.snd_sum] at this
      simpa [e] using this
    · have := congrArg (fun p => p.1 j) hc
      simp only [Prod.fst_sum, Finset.sum_apply] at this
      simpa [e] using this
  obtain ⟨f, hf, hker⟩ := Submodule.exists_le_ker_of_notMem hnot
  let w1 : Fin nDesc → ℝ := fun j => f (Pi.single j 1, 0)
  let b1 : ℝ := f (0, 1)
  have hp : ∀ u : Fin nDesc → ℝ, predict w1 b1 u = f (u, 1) := by
    intro u
    have : ((u, 1) : (Fin nDesc → ℝ) × ℝ) = ∑ j, u j • ((Pi.single j 1, 0) : (Fin nDesc → ℝ) × ℝ) + (0, 1) := by
      refine Prod.ext ?_ ?_
      · rw [Prod.fst_add, Prod.fst_sum]
        funext k
        simp [Finset.sum_apply, Pi.single_apply]
      · rw [Prod.snd_add, Prod.snd_sum]
        simp
    rw [this, map_add, map_sum]
    unfold predict
    congr 1
    exact Finset.sum_congr rfl fun j _ => by rw [map_smul, smul_eq_mul, mul_comm]
  have h0 : ∀ g ∈ G, predict w1 b1 (x g) = 0 := by
    intro g hg
    rw [hp]
    exact LinearMap.mem_ker.1 (hker (Submodule.subset_span ⟨g, hg, rfl⟩))
  set t := (Real.log v - predict w b z) / predict w1 b1 z with ht
  refine ⟨fun j => w j + t * w1 j, b + t * b1, ?_, ?_⟩
  · intro w' b'
    refine le_trans (le_of_eq ?_) (h w' b')
    unfold sse
    refine Finset.sum_congr rfl fun g hg => ?_
    rw [predict_add, h0 g hg, mul_zero, add_zero]
  · unfold regionalGamma gammaFinal
    simp only [hn]
    rw [predict_add, ← hz]
    have hne : predict w1 b1 z ≠ 0 := by rw [hp]; exact hf
    rw [ht, div_mul_cancel₀ _ hne, add_sub_cancel, Real.exp_log (by linarith [hv.1])]
    unfold clipGamma
    rw [max_eq_right hv.1, min_eq_right hv.2]

/-- **C88 (units).**  Whatever the units of the descriptors, the estimates are the same: multiplying a descriptor by factors other
than zero turns every solution into one with the same estimate for every basin. -/
theorem C88_units (G : Finset Group) (x : Group → Fin nDesc → ℝ) (y : Group → ℝ) (s : Fin nDesc → ℝ) (hs : ∀ j, s j ≠ 0)
    (w : Fin nDesc → ℝ) (b : ℝ) :
    (IsFit G x y w b ↔ IsFit G (fun g j => s j * x g j) y (fun j => w j / s j) b) ∧
    ∀ z : Fin nDesc → ℝ, predict (fun j => w j / s j) b (fun j => s j * z j) = predict w b z := by
  have hp : ∀ (w : Fin nDesc → ℝ) (b : ℝ) (z : Fin nDesc → ℝ),
      predict (fun j => w j / s j) b (fun j => s j * z j) = predict w b z := by
    intro w b z
    unfold predict
    congr 1
    exact Finset.sum_congr rfl fun j _ => by have := hs j; field_simp
  have hsse : ∀ w b, sse G (fun g j => s j * x g j) y (fun j => w j / s j) b = sse G x y w b := by
    intro w b
    unfold sse
    exact Finset.sum_congr rfl fun g _ => by rw [hp]
  refine ⟨⟨fun h w' b' => ?_, fun h w' b' => ?_⟩, hp w b⟩
  · rw [hsse]
    have := h (fun j => w' j * s j) b'
    rw [← hsse (fun j => w' j * s j) b'] at this
    have e : (fun j => w' j * s j / s j) = w' := by funext j; have := hs j; field_simp
    rwa [e] at this
  · have := h (fun j => w' j / s j) b'
    rwa [hsse, hsse] at this

/-- Two calibrated basins that differ in the first descriptor, and two basins without station: one with a descriptor between,
one that differs from them in another descriptor. -/
noncomputable def exDesc (g : Group) (j : Fin nDesc) : ℝ :=
  if j = 0 then (if g = .inl "a" then 1 else if g = .inl "b" then 3 else if g = .inr 0 then 2 else 0)
  else if j = 1 ∧ g = .inr 1 then 1 else 0

theorem exDesc_span : Spanned {.inl "a", .inl "b"} exDesc (exDesc (.inr 0)) ∧ ¬ Spanned {.inl "a", .inl "b"} exDesc (exDesc (.inr 1)) := by
  constructor
  · refine ⟨fun _ => 1 / 2, ?_, fun j => ?_⟩
    · rw [Finset.sum_pair (by decide)]; norm_num
    · rw [Finset.sum_pair (by decide)]
      by_cases hj : j = 0 <;> simp [exDesc, hj]
      norm_num
  · rintro ⟨c, h1, h2⟩
    have := h2 1
    rw [Finset.sum_pair (by decide)] at this
    simp [exDesc] at this

/-- The stations' units: cell 0 and cell 1. -/
def exRegion : ℕ → Option (String × ℝ) := fun i => if i = 0 then some ("a", 1) else if i = 1 then some ("b", 2) else none

theorem exMean (k : ℕ) : groupMean [0, 1, 2, 3] [exRegion] (fun i => i - 2) (.inr k) = none := by
  unfold groupMean groupGammas
  simp [groupOf, firstRegion, exRegion]

example (y : Group → ℝ) : ∃ w b, IsFit {.inl "a", .inl "b"} exDesc y w b ∧
    regionalGamma [0, 1, 2, 3] [exRegion] (fun i => i - 2) exDesc w b 3 = 4 :=
  C88_violated_span _ _ _ _ _ y 3 (exMean 1) exDesc_span.2 4 (by norm_num)

example (w : Fin nDesc → ℝ) (b : ℝ) (h : IsFit {.inl "a", .inl "b"} exDesc (fun g => exDesc g 0 / 3) w b) :
    regionalGamma [0, 1, 2, 3] [exRegion] (fun i => i - 2) exDesc w b 2 = min 5 (max 0.1 (Real.exp (2 / 3))) := by
  have := C88_recovered [0, 1, 2, 3] [exRegion] (fun i => i - 2) _ exDesc _ w b h (fun j => if j = 0 then 1 / 3 else 0) 0
    (fun g _ => by simp; ring) 2 (exMean 0) exDesc_span.1
  rw [this]
  congr 3
  have : groupOf [exRegion] (fun i => i - 2) 2 = .inr 0 := rfl
  rw [this]
  simp [exDesc]
  ring

example : ∃ w b, IsFit (fitGroups {.inl "a", .inl "b", .inr 0} fun g => if g = .inr 0 then none else some 2) exDesc
      (lnGamma fun g => if g = .inr 0 then none else some 2) w b ∧
    ∏ g ∈ fitGroups {.inl "a", .inl "b", .inr 0} (fun g => if g = .inr 0 then none else some 2), Real.exp (predict w b (exDesc g)) =
      ∏ g ∈ fitGroups {.inl "a", .inl "b", .inr 0} (fun g => if g = .inr 0 then none else some 2),
        (if g = .inr 0 then none else some (2 : ℝ)).getD 1 := by
  obtain ⟨w, b, h⟩ := C88_exists (fitGroups {.inl "a", .inl "b", .inr 0} fun g => if g = .inr 0 then none else some 2) exDesc
    (lnGamma fun g => if g = .inr 0 then none else some 2)
  exact ⟨w, b, h, (C88_mean _ _ _ _ _ h).1⟩

end WG
