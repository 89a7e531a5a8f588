import Verif.Model.Regional

/-!
# The regression of the regionalisation

Models `/repo/calibration/regionalization.py:164-213`.  The linear regression itself is a library routine
(`sklearn.linear_model.LinearRegression`); it is modelled by what its documentation promises, least squares: *any*
coefficients and intercept that make the sum of squares smallest.
-/

namespace WG

/-- The number of descriptors: `regionalization.py:145-147`. -/
abbrev nDesc : ℕ := 7

/-- `model.predict` for one basin: `regionalization.py:190`. -/
def predict (w : Fin nDesc → ℝ) (b : ℝ) (x : Fin nDesc → ℝ) : ℝ := ∑ j, w j * x j + b

/-- The sum of the squared errors that `model.fit` makes smallest; `regionalization.py:175-180`. -/
def sse (G : Finset Group) (x : Group → Fin nDesc → ℝ) (y : Group → ℝ) (w : Fin nDesc → ℝ) (b : ℝ) : ℝ :=
  ∑ g ∈ G, (predict w b (x g) - y g) ^ 2

/-- The result of `model.fit`: least squares; `regionalization.py:175-184`. -/
def IsFit (G : Finset Group) (x : Group → Fin nDesc → ℝ) (y : Group → ℝ) (w : Fin nDesc → ℝ) (b : ℝ) : Prop :=
  ∀ w' b', sse G x y w b ≤ sse G x y w' b'

open Classical in
/-- `calib_regression.dropna()`: the basins with a positive calibrated coefficient, the others have no `ln_gamma`;
`regionalization.py:166-173`. -/
noncomputable def fitGroups (groups : Finset Group) (gamma : Group → Option ℝ) : Finset Group :=
  groups.filter fun g => ∃ v, gamma g = some v ∧ 0 < v

/-- `ln_gamma`: `regionalization.py:166-167`; `none` (NaN) is no member of `fitGroups`. -/
noncomputable def lnGamma (gamma : Group → Option ℝ) (g : Group) : ℝ := Real.log ((gamma g).getD 1)

end WG
