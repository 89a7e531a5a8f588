import Verif.Model.Groundwater

/-!
# Reservoirs and regulated lakes

Model of `/repo/model/lateralwaterbalance/reservoir_regulated_lakes.py` and
`/repo/model/lateralwaterbalance/reservoir_release_hanasaki.py`.
-/

namespace WG

/-- A grid cell, `(row, column)`; `(0, 0)` stands for "no downstream cell". -/
abbrev Cell := ℕ × ℕ

/-- The arrays read by the walk over the downstream cells. `down` composes the lookup of a cell in `rout_order`
with `outflow_cell` (`reservoir_release_hanasaki.py:136-140`); the code has no answer for a cell that is not in
`rout_order`. -/
structure DemandGrid where
  resArea : Cell → ℝ
  allResArea : Cell → ℝ
  monthly : Cell → ℝ
  annual : Cell → ℝ
  down : Cell → Cell
  alloc : Cell → ℕ → ℝ

/-- The body of the `while` loop over downstream cells, `reservoir_release_hanasaki.py:122-142`: `fuel` is
`5 - dsc`, `stop` is `stop_mean_annual_calculation`, the accumulators are the monthly and the mean annual demand. -/
noncomputable def demandWalk (g : DemandGrid) (x : Cell) : ℕ → ℕ → Cell → Bool → ℝ → ℝ → ℝ × ℝ
  | 0, _, _, _, mon, ann => (mon, ann)
  | fuel + 1, dsc, c, stop, mon, ann =>
    if g.resArea c ≤ 0 ∧ c.1 > 0 ∧ c.2 > 0 then
      let mon' := mon + g.monthly c * g.alloc x dsc
      let ann' := if !stop ∧ g.allResArea c ≤ 0 then ann + g.annual c * g.alloc x dsc else ann
      let stop' := stop || decide (¬ g.allResArea c ≤ 0)
      demandWalk g x fuel (dsc + 1) (g.down c) stop' mon' ann'
    else (mon, ann)

/-- The demand a reservoir in cell `x` serves: km³/month and m³/year, `reservoir_release_hanasaki.py:110-142`. -/
noncomputable def downstreamDemand (g : DemandGrid) (x : Cell) : ℝ × ℝ :=
  demandWalk g x 5 0 (g.down x) false (g.monthly x) (g.annual x)

/-- `reservoir_type`: 1 irrigation, 2 other; for other values the code prints a message and uses an unassigned
variable, which compiled code reads as zero. -/
inductive ResType | irrigation | nonIrrigation | unknown
  deriving DecidableEq

/-- Arguments of `hanasaki_res_reslease` that do not change with the storage. `monthlyDemand` (km³/month) and
`annualDemand` (m³/year) are the results of `downstreamDemand`; `meanInflow` in m³/s. -/
structure HanIn where
  cap : ℝ
  startMonth : ℕ
  month : ℕ
  day : ℕ
  kRelease : ℝ
  rtype : ResType
  monthlyDemand : ℝ
  annualDemand : ℝ
  meanInflow : ℝ
  inflow : ℝ
  daysInMonth : ℝ

/-- `k_release`, `reservoir_release_hanasaki.py:92-97`. -/
noncomputable def hanK (h : HanIn) (storage : ℝ) : ℝ :=
  if h.month = h.startMonth then
    if h.day = 1 then
      if storage < h.cap * 0.1 then 0.1 else storage / (h.cap * 0.85)
    else h.kRelease
  else h.kRelease

/-- `prov_rel` in m³/s, `reservoir_release_hanasaki.py:148-165`. -/
noncomputable def provRelease (h : HanIn) : ℝ :=
  match h.rtype with
  | .irrigation =>
    let m := h.monthlyDemand * (1e9 * 1 / (86400 * h.daysInMonth))
    let a := h.annualDemand / 31536000
    if a ≥ 0.5 * h.meanInflow then h.meanInflow / 2 * (1 + m / a)
    else h.meanInflow + m - a
  | .nonIrrigation => h.meanInflow
  | .unknown => 0

/-- `c_ratio < 0.5`, `reservoir_release_hanasaki.py:181-186`; with mean inflow zero the ratio is infinite. -/
noncomputable def smallRes (h : HanIn) : Prop :=
  h.meanInflow ≠ 0 ∧ h.cap / (h.meanInflow * (31536000 / 1e9)) < 0.5

open Classical in
/-- `hanasaki_res_reslease`, `reservoir_release_hanasaki.py:22-195`: release in m³/s and release coefficient. -/
noncomputable def hanasaki (h : HanIn) (storage : ℝ) : ℝ × ℝ :=
  let k := hanK h storage
  let c := h.cap / (h.meanInflow * (31536000 / 1e9))
  let release :=
    if smallRes h then
      (4 * c ^ 2) * k * provRelease h + (1 - 4 * c ^ 2) * (h.inflow * (1e9 / 86400))
    else k * provRelease h
  (release, k)

/-- Arguments of `reservoir_regulated_lake_water_balance` (`reservoir_regulated_lakes.py:27-44`) that the
Hanasaki rule does not take. -/
structure ResIn where
  precip : ℝ
  openPet : ℝ
  arid : Bool
  drainageOk : Bool
  gwConst : ℝ
  area : ℝ
  redExp : ℝ
  cfa : ℝ
  firstDay : Bool
  glolakeArea : ℝ
  demandSw : ℝ
  unsatGlolake : ℝ
  minV : ℝ
  han : HanIn

/-- The values returned (`reservoir_regulated_lakes.py:349-351`). -/
structure ResOut where
  storage : ℝ
  outflow : ℝ
  gwr : ℝ
  kRelease : ℝ
  unsat : ℝ
  use : ℝ
  evapKm3 : ℝ

section
variable (i : ResIn) (s : ℝ)

/-- `evapo_redfactor`, `reservoir_regulated_lakes.py:172-176`. -/
noncomputable def resRed : ℝ := if i.firstDay then 0 else swbRedfactor s i.han.cap i.redExp .reservoir

/-- `openwater_evapo_cor` in km/day before the reduction, `reservoir_regulated_lakes.py:214-221`. -/
noncomputable def resEvap : ℝ :=
  let e := (1 - i.cfa) * i.precip + i.cfa * (i.openPet * resRed i s)
  if e < 0 then 0 else e

/-- `gwr_reservior` before the reduction, `reservoir_regulated_lakes.py:230-232`. -/
noncomputable def resGwr : ℝ :=
  if i.arid && i.drainageOk then i.gwConst * 0.001 * i.area * resRed i s else 0

/-- `total_inflow`, `reservoir_regulated_lakes.py:238`. -/
noncomputable def resTotalIn : ℝ := i.han.inflow + i.precip * i.area

/-- The demand on the reservoir, `reservoir_regulated_lakes.py:246-252`. -/
noncomputable def resDemand : ℝ :=
  if i.glolakeArea > 0 then i.demandSw * 0.5 + i.unsatGlolake else i.demandSw

/-- `petgwr`, `reservoir_regulated_lakes.py:266`. -/
noncomputable def resPet : ℝ := resEvap i s * i.area + resGwr i s

/-- `petgwr_max`, `reservoir_regulated_lakes.py:271`. -/
noncomputable def resPetMax : ℝ := s + resTotalIn i

/-- The factor by which evaporation and recharge are reduced, `reservoir_regulated_lakes.py:275-280`. -/
noncomputable def resCut : ℝ :=
  if resPet i s > 0 ∧ resPet i s > resPetMax i s then resPetMax i s / resPet i s else 1

/-- Storage after evaporation and recharge, `reservoir_regulated_lakes.py:275-284`. -/
noncomputable def resStorage1 : ℝ :=
  if resPet i s > 0 ∧ resPet i s > resPetMax i s then 0 else s + resTotalIn i - resPet i s

/-- Storage and unsatisfied demand after the abstraction, `reservoir_regulated_lakes.py:287-301`. -/
noncomputable def resAbstract (d st cap : ℝ) : ℝ × ℝ :=
  if d < 0 then (st - d, 0)
  else if st > 0.1 * cap then
    if d < st - 0.1 * cap then (st - d, 0) else (0.1 * cap, d - (st - 0.1 * cap))
  else (st, d)

/-- The storage the release rule sees, `reservoir_regulated_lakes.py:303-304`. -/
noncomputable def resBeforeRelease : ℝ :=
  flush i.minV (resAbstract (resDemand i) (resStorage1 i s) i.han.cap).1

/-- Final storage and outflow from the storage before the release and the release in m³/s,
`reservoir_regulated_lakes.py:317-341`. -/
noncomputable def resRelease (st release cap : ℝ) : ℝ × ℝ :=
  let o := if st ≥ cap * 0.1 then release * (86400 / 1e9) else 0.1 * release * (86400 / 1e9)
  let o1 := if o < 0 then 0 else o
  let st1 := st - o1
  let o2 := if st1 > cap then o1 + (st1 - cap) else o1
  let st2 := if st1 > cap then cap else st1
  if st2 < 0 then (0, o2 + st2) else (st2, o2)

/-- `reservoir_regulated_lake_water_balance`, `reservoir_regulated_lakes.py:26-351`. -/
noncomputable def resBalance : ResOut :=
  let st := resBeforeRelease i s
  let hk := hanasaki i.han st
  let r := resRelease st hk.1 i.han.cap
  let unsat := (resAbstract (resDemand i) (resStorage1 i s) i.han.cap).2
  { storage := r.1
    outflow := r.2
    gwr := resGwr i s * resCut i s
    kRelease := hk.2
    unsat := unsat
    use := resDemand i - unsat
    evapKm3 := resEvap i s * resCut i s * i.area }

end

/-- Consecutive days of one reservoir: storage and release coefficient are handed on
(`/repo/model/lateralwaterbalance/waterbalance_lateral.py:708-767`); the inputs of the days may be anything. -/
noncomputable def resRun : ℝ → ℝ → List ResIn → ℝ × ℝ
  | s, k, [] => (s, k)
  | s, k, i :: is =>
    let o := resBalance { i with han := { i.han with kRelease := k } } s
    resRun o.storage o.kRelease is

end WG
