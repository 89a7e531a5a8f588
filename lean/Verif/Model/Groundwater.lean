import Verif.Prelude

/-! Models of `/repo/model/lateralwaterbalance/groundwater.py`,
`groundwater_adapt_net_abstraction.py` and `storage_reduction_factor.py`. -/

namespace WG

/-- `update_netabs_gw` (`groundwater_adapt_net_abstraction.py:72-204`); the two irrigation branches (lines
110-152 and 161-190) differ in the cut of the actual withdrawal at zero only.  The bookkeeping variables
`acc_unsat_*` are never used and left out. -/
noncomputable def updateNetabsGw (potNag withdrawal consumptive unsat fracReturn : ℝ) : ℝ :=
  if unsat > 0 then
    if withdrawal > 0 then
      let eff := consumptive / withdrawal
      let factor := 1 - ((1 - fracReturn) * (1 - eff))
      let actual := (1 / factor) * (withdrawal * factor - unsat)
      let actual := if actual ≤ 0 then 0 else actual
      potNag - fracReturn * (1 - eff) * (actual - withdrawal)
    else potNag
  else if unsat < 0 then
    if withdrawal > 0 then
      let eff := consumptive / withdrawal
      let factor := 1 - (1 - fracReturn) * (1 - eff)
      let actual := (1 / factor) * (withdrawal * factor - unsat)
      potNag - fracReturn * (1 - eff) * (actual - withdrawal)
    else potNag
  else potNag

/-- Kind of cell for `groundwater_balance` (`groundwater.py:95-96`, the strings "humid", "inland sink" and any
other, i.e. "arid"). -/
inductive GwKind | humid | inlandSink | arid
  deriving DecidableEq

/-- The values returned by `groundwater_balance` (`groundwater.py:139`). -/
structure GwOut where
  storage : ℝ
  discharge : ℝ
  nag : ℝ

/-- The storage and discharge part of `groundwater_balance` for a given net inflow (`groundwater.py:124-137`). -/
noncomputable def gwStorage (prev netIn k : ℝ) : ℝ × ℝ :=
  let cur := prev * Real.exp (-1 * k) + (netIn / k) * (1 - Real.exp (-1 * k))
  let q := prev - cur + netIn
  (if q ≤ 0 then prev + netIn else cur, if q ≤ 0 then 0 else q)

/-- `groundwater_balance` (`groundwater.py:31-139`). -/
noncomputable def groundwaterBalance (kind : GwKind)
    (storage diffuse potNag unsat k withdrawal consumptive fracReturn point : ℝ) : GwOut :=
  let point := match kind with
    | .humid => 0
    | .inlandSink => 0
    | .arid => point                                                          -- 95-97
  let nag := if unsat ≠ 0 then updateNetabsGw potNag withdrawal consumptive unsat fracReturn
             else potNag                                                      -- 103-112
  let netIn := diffuse + point - nag                                          -- 99, 115
  { storage := (gwStorage storage netIn k).1, discharge := (gwStorage storage netIn k).2, nag := nag }

/-- Kinds of surface water body (`storage_reduction_factor.py:57-60`). -/
inductive Swb | localLake | globalLake | localWetland | globalWetland | reservoir
  deriving DecidableEq

/-- `n_factor` (`storage_reduction_factor.py:57-60`). -/
noncomputable def nFactor : Swb → ℝ
  | .localLake => 2
  | .globalLake => 2
  | _ => 1

/-- `swb_redfactor` (`storage_reduction_factor.py:24-73`). -/
noncomputable def swbRedfactor (storage maxStorage exponent : ℝ) (kind : Swb) : ℝ :=
  let d := |storage - maxStorage| / (nFactor kind * maxStorage)
  let r := 1 - d ^ exponent
  if r < 0 then 0 else if r > 1 then 1 else r

end WG
