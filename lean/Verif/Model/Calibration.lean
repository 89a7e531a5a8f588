import Verif.Prelude

/-!
# Calibration of a station

Model of `/repo/calibration/find_gamma_cfa_cfs.py`.  A run of the model for the station is an arbitrary function: `sim g`
is the mean simulated discharge (over the years with observations) with runoff coefficient `g`.  scipy's Powell search
is the list of the coefficients it tries.
-/

namespace WG

/-- What the calibration changes: attributes of `OptimizationState` and the entries of the parameter file of the
calibration unit; `find_gamma_cfa_cfs.py:36-50`. -/
structure CalState where
  /-- `calibration_status` -/
  status : ℕ
  /-- `currrent_gamma`, also the `gamma` written to the parameter file for the unit -/
  gamma : ℝ
  /-- `mean_sim_dis` -/
  sim : ℝ

/-- `calib_cs1` up to the check of the threshold: run with `g`, status 1 if the bias is below 1 %;
`find_gamma_cfa_cfs.py:99-190`. -/
noncomputable def cs1 (sim : ℝ → ℝ) (obs g : ℝ) (s : CalState) : CalState :=
  { status := if |(sim g - obs) / obs| < 0.01 then 1 else s.status, gamma := g, sim := sim g }

/-- The result of `check_gamma_bounds`: a value or an interval. -/
inductive Bounds
  | at (g : ℝ)
  | within (lo hi : ℝ)

/-- `check_gamma_bounds`: `find_gamma_cfa_cfs.py:192-262`. -/
noncomputable def checkBounds (sim : ℝ → ℝ) (obs g0 : ℝ) (s : CalState) : CalState × Bounds :=
  let s1 := cs1 sim obs g0 s
  if s1.sim - obs > 0 then
    let s2 := cs1 sim obs 5 s1
    if s2.sim - obs > 0 then ({ s2 with status := 2 }, .at 5) else (s2, .within g0 5)
  else
    let s2 := cs1 sim obs 0.1 s1
    if s2.sim - obs < 0 then ({ s2 with status := 2 }, .at 0.1) else (s2, .within 0.1 g0)

/-- The optimiser calls `calib_cs1` for one coefficient after the other; an exception ends it as soon as the bias is
below 1 %; `find_gamma_cfa_cfs.py:183-188, 529-535`. -/
noncomputable def optimise (sim : ℝ → ℝ) (obs : ℝ) : List ℝ → CalState → CalState
  | [], s => s
  | g :: rest, s =>
    let s1 := cs1 sim obs g s
    if |(sim g - obs) / obs| < 0.01 then s1 else optimise sim obs rest s1

/-- `calib_cs2`: `find_gamma_cfa_cfs.py:264-288`. -/
noncomputable def cs2 (obs : ℝ) (s : CalState) : CalState :=
  if s.status = 2 then
    if obs * 0.9 ≤ s.sim ∧ s.sim ≤ obs * 1.1 then s else { s with status := 3 }
  else s

/-- The discharge aimed at: `find_gamma_cfa_cfs.py:326-329, 406-409`. -/
noncomputable def adapted (obs gamma : ℝ) : ℝ := if gamma = 0.1 then obs * 0.9 else obs * 1.1

/-- `np.where(runoff > 0, 1, np.where(runoff < 0, -1, 0))`; comparisons with a missing value are false;
`find_gamma_cfa_cfs.py:331-333`. -/
noncomputable def signOf : Option ℝ → ℝ
  | none => 0
  | some r => if r > 0 then 1 else if r < 0 then -1 else 0

/-- `np.nansum(np.abs(runoff))` over the cells of the unit; `find_gamma_cfa_cfs.py:322-324`. -/
noncomputable def absSum {ι : Type} (unit : List ι) (runoff : ι → Option ℝ) : ℝ :=
  (unit.map fun i => |(runoff i).getD 0|).sum

/-- `compute_cfa`; `none` is the NaN of `0 / 0`; `find_gamma_cfa_cfs.py:335-336`. -/
noncomputable def rawCfa {ι : Type} (unit : List ι) (runoff : ι → Option ℝ) (simDis aim : ℝ) (i : ι) : Option ℝ :=
  if absSum unit runoff = 0 then none
  else some (1 - signOf (runoff i) * (simDis - aim) / absSum unit runoff)

/-- The limits 0.5 and 1.5; NaN passes; `find_gamma_cfa_cfs.py:341`. -/
noncomputable def limitCfa : Option ℝ → Option ℝ
  | none => none
  | some c => some (if c > 1.5 then 1.5 else if c < 0.5 then 0.5 else c)

open Classical in
/-- The areal correction factors after `calib_cs3` in status 3: new values in the cells of the unit
(`calib_unit_cfa > 0`), the old ones elsewhere; `find_gamma_cfa_cfs.py:290-368`. -/
noncomputable def cs3 {ι : Type} (unit : List ι) (runoff : ι → Option ℝ) (simDis aim : ℝ) (old : ι → Option ℝ) (i : ι) :
    Option ℝ :=
  if i ∈ unit then limitCfa (rawCfa unit runoff simDis aim i) else old i

/-- `calib_cs4` with the mean simulated discharge `sim4` of the run with the new areal factors: status and the station
correction factor if one is written; `find_gamma_cfa_cfs.py:370-444`. -/
noncomputable def cs4 (obs sim4 : ℝ) (s : CalState) : CalState × Option ℝ :=
  let c := adapted obs s.gamma / sim4
  let cfs := if (1 < c ∧ c < 1.01) ∨ (0.99 < c ∧ c < 1) then 1 else c
  let status := if cfs > 1 ∨ cfs < 1 then 4 else s.status
  ({ s with status := status, sim := sim4 }, if status = 4 then some cfs else none)

/-- What a calibration leaves behind. -/
structure CalResult where
  state : CalState
  /-- `calib_cs3` wrote areal factors -/
  cfaWritten : Bool
  /-- the station factor written -/
  cfs : Option ℝ

/-- `calibrate_parameters`: `find_gamma_cfa_cfs.py:447-549`, with the coefficients `tries` of the optimiser and the
discharge `sim4` of the run in `calib_cs4`. -/
noncomputable def calibrate (sim : ℝ → ℝ) (obs g0 : ℝ) (tries : List ℝ) (sim4 : ℝ) : CalResult :=
  let b := checkBounds sim obs g0 { status := 0, gamma := 0, sim := 0 }
  if b.1.status ≠ 2 then { state := optimise sim obs tries b.1, cfaWritten := false, cfs := none }
  else
    let s2 := cs2 obs b.1
    if s2.status = 3 then
      let r := cs4 obs sim4 s2
      { state := r.1, cfaWritten := true, cfs := r.2 }
    else { state := s2, cfaWritten := false, cfs := none }

/-! ## Calibration units -/

open Classical in
/-- `arrays[i][np.isin(arrays[i], arrays[j])] = nan`; `find_gamma_cfa_cfs.py:73`. -/
noncomputable def removeCommon {ι : Type} (a b : ι → Option ℤ) : ι → Option ℤ :=
  fun p => match a p with
    | none => none
    | some v => if ∃ q, b q = some v then none else some v

/-- `get_direct_upstreamcells`: the arrays in order, each without the ids of the (already reduced) earlier ones;
`find_gamma_cfa_cfs.py:52-75`. -/
noncomputable def reduceAll {ι : Type} (done : List (ι → Option ℤ)) : List (ι → Option ℤ) → List (ι → Option ℤ)
  | [] => done
  | a :: rest => reduceAll (done ++ [done.foldl removeCommon a]) rest

/-- The file of the cells of earlier stations: a dictionary in the order of insertion, in which the entry of an existing
key is replaced in place; `find_gamma_cfa_cfs.py:490-503`. -/
def insertStation {α : Type} (d : List (String × α)) (k : String) (v : α) : List (String × α) :=
  if d.any (fun e => e.1 == k) then d.map (fun e => if e.1 == k then (k, v) else e) else d ++ [(k, v)]

/-- The calibration unit of a station and the updated file; `find_gamma_cfa_cfs.py:487-506`. -/
noncomputable def calibUnit {ι : Type} (file : List (String × (ι → Option ℤ))) (station : String) (basin : ι → Option ℤ) :
    List (String × (ι → Option ℤ)) × Option (ι → Option ℤ) :=
  let d := insertStation file station basin
  (d, (reduceAll [] (d.map (·.2))).getLast?)

end WG
