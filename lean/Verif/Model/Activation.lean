import Verif.Prelude
import Verif.Model.Calendar

/-!
# Activation of reservoirs and regulated lakes

Model of `activate_res_area_storage_capacity`,
/repo/model/lateralwaterbalance/waterbalance_lateral.py:388-505, for one grid cell.
-/

namespace WG

/-- The static data of a cell the activation reads:
/repo/model/lateralwaterbalance/waterbalance_lateral.py:91-98, 185-235. -/
structure ResStatic where
  /-- `glores_startyear` -/
  startYear : ℕ
  /-- `regulated_lake_status == 1` -/
  regulated : Bool
  /-- `res_reg_files.stor_cap` -/
  storCap : ℝ
  /-- `activelake_depth` -/
  depth : ℝ
  /-- `mean_annual_inflow_res` -/
  meanInflow : ℝ
  /-- `reservoir_and_regulated_lake_area` of the static data -/
  area : ℝ
  /-- `global_lake_area` handed to the constructor -/
  lake : ℝ

/-- The attributes of a cell that the activation changes and that are not saved for a restart:
/repo/model/lateralwaterbalance/waterbalance_lateral.py:94-99, 178-182, 229-242. -/
structure ResCell where
  /-- `glores_area` -/
  area : ℝ
  /-- `glores_capacity` -/
  cap : ℝ
  /-- `glolake_area` -/
  lake : ℝ
  /-- `all_reservoir_and_regulated_lake_area` -/
  all : ℝ
  /-- `max_glolake_storage` -/
  maxLake : ℝ
  /-- `reg_lake_redfactor_firstday` -/
  firstDay : ℝ

/-- Values after the constructor: /repo/model/lateralwaterbalance/waterbalance_lateral.py:94-99, 178-182,
229-242. -/
noncomputable def ResCell.fresh (s : ResStatic) : ResCell :=
  { area := 0, cap := 0, lake := s.lake, all := s.area, maxLake := s.lake * s.depth * 0.001, firstDay := 0 }

/-- `cm.RESERVOIR_OPT_YEARS`: 1 January of each year from `rs` to `re`
(/repo/controller/configuration_module.py:129-138), as a membership test
(`simulation_date in reservoir_opt_year`). -/
def inOptYears (rs re : ℕ) (t : Date) : Bool :=
  decide (t.m = 1 ∧ t.d = 1 ∧ rs ≤ t.y ∧ t.y ≤ re)

/-- Area and capacity: /repo/model/lateralwaterbalance/waterbalance_lateral.py:396-450. -/
noncomputable def activateArea (s : ResStatic) (year : ℕ) (c : ResCell) : ResCell :=
  let area1 := if s.regulated then c.all else c.area
  let cap1 := if s.regulated then s.storCap else c.cap
  let area2 := if s.startYear ≤ year then c.all else area1
  let cap2 := if s.startYear ≤ year then s.storCap else cap1
  let mask := area2 > 0 ∧ s.startYear ≤ year ∧ s.meanInflow = 0
  let lake := if mask then area2 + c.lake else c.lake
  { c with
    area := if mask then 0 else area2
    cap := cap2
    lake := lake
    all := if mask then 0 else c.all
    maxLake := lake * s.depth * 0.001 }

/-- Storages on the first day: /repo/model/lateralwaterbalance/waterbalance_lateral.py:457-502.  Returns
the cell, the reservoir storage and the global lake storage. -/
noncomputable def activateStorage (s : ResStatic) (simStart : ℕ) (c : ResCell) (glores : ℝ) : ResCell × ℝ × ℝ :=
  let st1 := if s.startYear ≤ simStart then s.storCap else glores
  let early := simStart < s.startYear ∧ s.regulated = true
  let st2 := if early then c.all * s.depth * 0.001 + st1 else st1
  let red1 : ℝ := if early then 1 else 0
  let red2 : ℝ := if st2 = s.storCap ∧ s.regulated = true then 0 else red1
  ({ c with firstDay := red2 }, st2, c.maxLake)

/-- The attributes of the lateral balance of one cell that the activation reads and writes. -/
structure ActState where
  cell : ResCell
  glores : ℝ
  glolake : ℝ

/-- Conditions of the two blocks, /repo/model/lateralwaterbalance/waterbalance_lateral.py:388-394,457:
`on` is `cm.ant and cm.RESERVOIR_OPT`, `opt` membership in the option years, `set` the flag
`set_res_storage_flag`, `chk` the flag `check_res_area_flag`. -/
noncomputable def activate (s : ResStatic) (on opt set chk : Bool) (year simStart : ℕ) (x : ActState) : ActState :=
  if on then
    let c1 := if opt || set || chk then activateArea s year x.cell else x.cell
    if set then
      let r := activateStorage s simStart c1 x.glores
      { cell := r.1, glores := r.2.1, glolake := r.2.2 }
    else { x with cell := c1 }
  else x

end WG
