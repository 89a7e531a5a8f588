import Verif.Prelude

/-! Model of `/repo/model/verticalwaterbalance/canopy.py`. -/

namespace WG

/-- The six values returned by `canopy_water_balance` (`canopy.py:150-151`). -/
structure CanopyOut where
  storage : ℝ
  throughfall : ℝ
  evap : ℝ
  petToSoil : ℝ
  landStorageChange : ℝ
  transfer : ℝ

/-- `canopy_water_balance` (`canopy.py:25-151`).
Simplifications: exact reals; the debugging coordinates `x, y` are dropped; variables that are not assigned
on the taken path (`daily_storage_transfer` with land, `throughfall`, `pet_to_soil`,
`land_storage_change_sum` without land) are read as zero, which is what the Numba-compiled code does. -/
noncomputable def canopyWaterBalance
    (storage lai pet precip frac ratio coef minV : ℝ) : CanopyOut :=
  if frac > 0 then
    -- lines 67-79
    let s0 := storage * ratio
    let s0 := if |s0| ≤ minV then 0 else s0
    let initial := s0
    if lai > 0 then
      -- lines 85-100
      let smax := coef * lai
      let diff := smax - s0
      let throughfall := if precip < diff then 0 else precip - diff
      let s1 := if precip < diff then s0 + precip else smax
      -- lines 107-111
      let evap0 := if smax > 0 then pet * (s1 / smax) ^ ((2 : ℝ) / 3) else 0
      -- lines 113-122
      let evap := if evap0 > s1 then s1 else evap0
      let petToSoil := if evap0 > s1 then pet - s1 else pet - evap0
      let s2 := if evap0 > s1 then 0 else s1 - evap0
      { storage := s2, throughfall := throughfall, evap := evap,
        petToSoil := if petToSoil < 0 then 0 else petToSoil,
        landStorageChange := s2 - initial, transfer := 0 }
    else
      -- lines 124-127
      { storage := s0, throughfall := precip, evap := 0,
        petToSoil := if pet < 0 then 0 else pet,
        landStorageChange := s0 - initial, transfer := 0 }
  else
    -- lines 137-148
    { storage := 0, throughfall := 0, evap := 0, petToSoil := 0,
      landStorageChange := 0, transfer := storage }

/-- One day of weather for the canopy component. -/
structure CanopyDay where
  lai : ℝ
  pet : ℝ
  precip : ℝ
  frac : ℝ
  ratio : ℝ

/-- The canopy storage after a sequence of days: the caller
(`waterbalance_vertical.py`) feeds the returned storage into the next day's call. -/
noncomputable def canopyRun (coef minV : ℝ) (s : ℝ) : List CanopyDay → ℝ
  | [] => s
  | d :: ds =>
    canopyRun coef minV
      (canopyWaterBalance s d.lai d.pet d.precip d.frac d.ratio coef minV).storage ds

end WG
