import Verif.Prelude
import Mathlib.Analysis.SpecialFunctions.ExpDeriv
import Mathlib.Analysis.Calculus.Deriv.MeanValue

/-! Facts about the one-day release fraction of a linear reservoir. -/

namespace WG

/-- Trapezoidal bound: `2 (1 - e^{-k}) ≤ k (1 + e^{-k})`. -/
theorem two_one_sub_exp_le (k : ℝ) (hk : 0 ≤ k) :
    2 * (1 - Real.exp (-1 * k)) ≤ k * (1 + Real.exp (-1 * k)) := by
  have hd : ∀ x : ℝ, HasDerivAt (fun x : ℝ => x * (1 + Real.exp (-1 * x)) - 2 * (1 - Real.exp (-1 * x)))
      (1 - Real.exp (-1 * x) * (1 + x)) x := by
    intro x
    have h1 : HasDerivAt (fun t : ℝ => Real.exp (-1 * t)) (Real.exp (-1 * x) * -1) x := by
      have := ((hasDerivAt_id x).const_mul (-1 : ℝ)).exp
      simpa using this
    have h2 := ((hasDerivAt_id x).mul ((hasDerivAt_const x (1 : ℝ)).add h1)).sub
      (((hasDerivAt_const x (1 : ℝ)).sub h1).const_mul 2)
    refine h2.congr_deriv ?_
    simp
    ring
  have hmono : MonotoneOn (fun x : ℝ => x * (1 + Real.exp (-1 * x)) - 2 * (1 - Real.exp (-1 * x)))
      (Set.Ici 0) := by
    apply monotoneOn_of_deriv_nonneg (convex_Ici 0)
    · exact fun x _ => (hd x).continuousAt.continuousWithinAt
    · exact fun x _ => (hd x).differentiableAt.differentiableWithinAt
    · intro x hx
      rw [(hd x).deriv]
      have h1 : x + 1 ≤ Real.exp x := Real.add_one_le_exp x
      have h2 : Real.exp (-1 * x) * Real.exp x = 1 := by
        rw [← Real.exp_add]; simp
      have h3 : 0 < Real.exp (-1 * x) := Real.exp_pos _
      nlinarith
  have := hmono (Set.mem_Ici.mpr le_rfl) (Set.mem_Ici.mpr hk) hk
  simp at this
  simp
  linarith

/-- The facts about `e = exp(-k)` and `c = (1-e)/k` used for the analytical storage. -/
theorem release_facts (k : ℝ) (hk : 0 < k) :
    0 < Real.exp (-1 * k) ∧ Real.exp (-1 * k) < 1 ∧ Real.exp (-1 * k) * (1 + k) ≤ 1 ∧
    0 < (1 - Real.exp (-1 * k)) / k ∧ (1 - Real.exp (-1 * k)) / k < 1 ∧
    Real.exp (-1 * k) < (1 - Real.exp (-1 * k)) / k ∧
    (1 - Real.exp (-1 * k)) / k ≤ (1 + Real.exp (-1 * k)) / 2 := by
  have h1 : Real.exp (-1 * k) < 1 := Real.exp_lt_one_iff.mpr (by linarith)
  have h2 : 0 < Real.exp (-1 * k) := Real.exp_pos _
  have h3 : -1 * k + 1 < Real.exp (-1 * k) := Real.add_one_lt_exp (by linarith)
  have h4 : k + 1 < Real.exp k := Real.add_one_lt_exp hk.ne'
  have h5 : Real.exp (-1 * k) * Real.exp k = 1 := by rw [← Real.exp_add]; simp
  have h6 : Real.exp (-1 * k) * (1 + k) < 1 := by nlinarith
  refine ⟨h2, h1, h6.le, div_pos (by linarith) hk, ?_, ?_, ?_⟩
  · rw [div_lt_one hk]; linarith
  · rw [lt_div_iff₀ hk]; nlinarith
  · have := two_one_sub_exp_le k hk.le
    rw [div_le_div_iff₀ hk (by norm_num)]
    linarith

end WG
