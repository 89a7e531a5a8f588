import Verif.Model.Groundwater

/-! Model of `/repo/model/lateralwaterbalance/lakes_wetlands.py`. -/

namespace WG

/-- The four values of `choose_swb` (`lakes_wetlands.py:27`). -/
inductive LakeKind | localLake | globalLake | localWetland | globalWetland
  deriving DecidableEq

/-- The same string as seen by `swb_redfactor`. -/
def LakeKind.swb : LakeKind → Swb
  | .localLake => .localLake
  | .globalLake => .globalLake
  | .localWetland => .localWetland
  | .globalWetland => .globalWetland

/-- Arguments of `lake_wetland_water_balance` (`lakes_wetlands.py:26-35`) except the storage; the two outflow
exponents are kept separate.  `drainageOk` is `drainage_direction >= 0`, `arid` is `aridity == 1`. -/
structure LakeIn where
  precip : ℝ
  openPet : ℝ
  arid : Bool
  drainageOk : Bool
  inflow : ℝ
  k : ℝ
  gwConst : ℝ
  redExp : ℝ
  cfa : ℝ
  maxStorage : ℝ
  maxArea : ℝ
  frac : ℝ
  lakeExp : ℝ
  wetlandExp : ℝ
  reservoirArea : ℝ
  demand : ℝ

/-- The values returned (`lakes_wetlands.py:410-412`). -/
structure LakeOut where
  storage : ℝ
  outflow : ℝ
  gwr : ℝ
  newFrac : ℝ
  unsat : ℝ
  use : ℝ
  evapKm3 : ℝ

section
variable (kind : LakeKind) (i : LakeIn) (s : ℝ)

/-- `redfactor` (`lakes_wetlands.py:145-147`). -/
noncomputable def lakeRed : ℝ := swbRedfactor s i.maxStorage i.redExp kind.swb

/-- `lake_wet_area` (`lakes_wetlands.py:153-159`). -/
noncomputable def lakeArea : ℝ :=
  if kind = .globalLake then i.maxArea else lakeRed kind i s * i.maxArea

/-- `openwater_evapo_cor` before any reduction (`lakes_wetlands.py:195-205`). -/
noncomputable def lakeEvap : ℝ :=
  let pet := if kind = .globalLake then i.openPet * lakeRed kind i s else i.openPet
  let e := (1 - i.cfa) * i.precip + i.cfa * pet
  if e < 0 then 0 else e

/-- `gwr_lakewet` before any reduction (`lakes_wetlands.py:214-225`). -/
noncomputable def lakeGwr : ℝ :=
  if kind = .globalLake then
    (if i.arid && i.drainageOk then i.gwConst * 0.001 * lakeArea kind i s * lakeRed kind i s else 0)
  else (if i.arid && i.drainageOk then i.gwConst * 0.001 * lakeArea kind i s else 0)

/-- `total_inflow` (`lakes_wetlands.py:230`). -/
noncomputable def lakeTotalIn : ℝ := i.inflow + i.precip * lakeArea kind i s

/-- `accumulated_unsatisfied_potential_netabs_glolake` at the start (`lakes_wetlands.py:239-251`). -/
noncomputable def lakeDemand : ℝ :=
  if kind = .globalLake then (if i.reservoirArea > 0 then i.demand * 0.5 else i.demand) else 0

/-- `petgwr_netabs_sw` (`lakes_wetlands.py:256-257`). -/
noncomputable def lakePet : ℝ := lakeEvap kind i s * lakeArea kind i s + lakeGwr kind i s + lakeDemand kind i

/-- `petgwr_netabs_sw_max` (`lakes_wetlands.py:264-267`). -/
noncomputable def lakePetMax : ℝ :=
  match kind with
  | .localLake => s + i.maxStorage + lakeTotalIn kind i s
  | .globalLake => s + i.maxStorage + lakeTotalIn kind i s
  | _ => s + lakeTotalIn kind i s

/-- `storage_limit` (`lakes_wetlands.py:300-303`). -/
def lakeLimit : ℝ :=
  match kind with
  | .localLake => -1 * i.maxStorage
  | .globalLake => -1 * i.maxStorage
  | _ => 0

/-- `net_in` (`lakes_wetlands.py:280`). -/
noncomputable def lakeNetIn : ℝ := lakeTotalIn kind i s - lakePet kind i s

/-- The analytical storage of the global kinds (`lakes_wetlands.py:282-284`). -/
noncomputable def lakeAnalytic : ℝ :=
  s * Real.exp (-1 * i.k) + (lakeNetIn kind i s / i.k) * (1 - Real.exp (-1 * i.k))

/-- The factor by which losses are reduced when the water does not suffice
(`lakes_wetlands.py:310-312,319,342-343,355-356`). -/
noncomputable def lakeRatio : ℝ :=
  if lakePet kind i s > lakePetMax kind i s then lakePetMax kind i s / lakePet kind i s else 1

/-- Storage and outflow of a global lake (`lakes_wetlands.py:305-334`). -/
noncomputable def globalLakeSO : ℝ × ℝ :=
  if lakePet kind i s > lakePetMax kind i s then (lakeLimit kind i, 0)
  else
    let st0 := lakeAnalytic kind i s
    let out0 := lakeNetIn kind i s + s - st0
    let out1 := if st0 > i.maxStorage then out0 + (st0 - i.maxStorage) else out0
    let st1 := if st0 > i.maxStorage then i.maxStorage else st0
    if out1 < 0 then (lakeNetIn kind i s + s, 0) else (st1, out1)

/-- Storage and outflow of a global wetland (`lakes_wetlands.py:338-349`). -/
noncomputable def globalWetlandSO : ℝ × ℝ :=
  let short : Prop := lakePet kind i s > lakePetMax kind i s
  let st0 := open Classical in if short then lakeLimit kind i else lakeAnalytic kind i s
  let out0 := open Classical in if short then 0 else lakeNetIn kind i s + s - lakeAnalytic kind i s
  if st0 > i.maxStorage then (i.maxStorage, out0 + (st0 - i.maxStorage)) else (st0, out0)

/-- Storage and outflow of local lakes and wetlands (`lakes_wetlands.py:351-389`). -/
noncomputable def localSO : ℝ × ℝ :=
  let st0 := if lakePet kind i s > lakePetMax kind i s then lakeLimit kind i
             else s + lakeTotalIn kind i s - lakePet kind i s                     -- 288, 353-354
  let which := if kind = .localLake then s else st0                               -- 360-363
  let ex := if kind = .localLake then i.lakeExp else i.wetlandExp                 -- 125-128
  let out0 := if which > 0 then
      (let o := i.k * which * (which / i.maxStorage) ^ ex
       if st0 ≤ 0 then 0 else if o > st0 then st0 else o)
    else 0                                                                        -- 370-381
  let st1 := st0 - out0                                                           -- 383
  if st1 > i.maxStorage then (i.maxStorage, out0 + (st1 - i.maxStorage)) else (st1, out0)

/-- Storage and outflow at the end of `lake_wetland_water_balance`. -/
noncomputable def lakeSO : ℝ × ℝ :=
  match kind with
  | .globalLake => globalLakeSO kind i s
  | .globalWetland => globalWetlandSO kind i s
  | _ => localSO kind i s

/-- Demand left after the global lake has served what it can (`lakes_wetlands.py:316-336`). -/
noncomputable def lakeUnsat : ℝ :=
  if kind = .globalLake then
    (if lakePet kind i s > lakePetMax kind i s then
      (if lakeDemand kind i > 0 then
        lakeDemand kind i - lakeDemand kind i * (lakePetMax kind i s / lakePet kind i s)
       else 0)
     else 0)
  else 0

/-- `lake_wetland_water_balance` (`lakes_wetlands.py:26-412`). -/
noncomputable def lakeBalance : LakeOut :=
  { storage := (lakeSO kind i s).1
    outflow := (lakeSO kind i s).2
    gwr := lakeGwr kind i s * lakeRatio kind i s
    newFrac := if kind = .globalLake then 0
               else lakeRed kind i (lakeSO kind i s).1 * i.frac                    -- 391-401
    unsat := lakeUnsat kind i s
    use := lakeDemand kind i - lakeUnsat kind i s                                  -- 404-405
    evapKm3 := lakeEvap kind i s * lakeRatio kind i s * lakeArea kind i s }        -- 408

end

/-- The storage after a sequence of days. -/
noncomputable def lakeRun (kind : LakeKind) (s : ℝ) : List LakeIn → ℝ
  | [] => s
  | i :: is => lakeRun kind (lakeBalance kind i s).storage is

end WG
