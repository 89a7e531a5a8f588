import Verif.Prelude

/-!
# River routing

Model of `/repo/model/lateralwaterbalance/river.py` and `/repo/model/lateralwaterbalance/river_init.py`.
-/

namespace WG

/-! ### Geometry (`river_init.py`) -/

/-- `bankfull_flow[bankfull_flow < 0.05] = 0.05`, `/repo/model/lateralwaterbalance/river_init.py:48`. -/
noncomputable def bankfullFlow (q : ℝ) : ℝ := if q < 0.05 then 0.05 else q

/-- `river_top_width_bf` in km, `/repo/model/lateralwaterbalance/river_init.py:46,51`. -/
noncomputable def topWidth (q : ℝ) : ℝ := (2.71 * (bankfullFlow q) ^ (0.557 : ℝ)) * 0.001

/-- `river_depth_bf` in km, `/repo/model/lateralwaterbalance/river_init.py:54`. -/
noncomputable def bankDepth (q : ℝ) : ℝ := (0.349 * (bankfullFlow q) ^ (0.341 : ℝ)) * 0.001

/-- `river_bottom_width` in km, `/repo/model/lateralwaterbalance/river_init.py:58`. -/
noncomputable def bottomWidth (q : ℝ) : ℝ := topWidth q - 4 * bankDepth q

/-- `river_length` reduced in coastal cells, `/repo/model/lateralwaterbalance/river_init.py:39`; the continental
fraction is in percent. -/
noncomputable def riverLength (len contFrac : ℝ) : ℝ := len * (contFrac / 100)

/-- `max_river_storage` in km³, `/repo/model/lateralwaterbalance/river_init.py:63-64`. -/
noncomputable def maxRiverStorage (len contFrac q : ℝ) : ℝ :=
  0.5 * riverLength len contFrac * bankDepth q * (bottomWidth q + topWidth q)

/-! ### Velocity (`river.py:22-102`) -/

/-- `cross_sectional_area` in m², `/repo/model/lateralwaterbalance/river.py:68-69`. -/
noncomputable def crossSection (storage len : ℝ) : ℝ := (storage / len) * 1e6

/-- `river_depth` in m from the bottom width in km, `/repo/model/lateralwaterbalance/river.py:73-77`. -/
noncomputable def riverDepth (storage len width : ℝ) : ℝ :=
  (-1 / 4) * (width * 1000) + Real.sqrt ((width * 1000) ^ 2 / 16 + 0.5 * crossSection storage len)

/-- `wetted_perimeter` in m, `/repo/model/lateralwaterbalance/river.py:82`. -/
noncomputable def wettedPerimeter (storage len width : ℝ) : ℝ :=
  width * 1000 + 2 * riverDepth storage len width * Real.sqrt 5

/-- `hydraulic_radius` in m, `/repo/model/lateralwaterbalance/river.py:83`. -/
noncomputable def hydraulicRadius (storage len width : ℝ) : ℝ :=
  crossSection storage len / wettedPerimeter storage len width

/-- `river_velocity` in km/day, `/repo/model/lateralwaterbalance/river.py:87-95`. -/
noncomputable def riverVelocity (storage len width rough mult slope : ℝ) : ℝ :=
  let v := (1 / (mult * rough)) * (hydraulicRadius storage len width) ^ ((2 : ℝ) / 3) * Real.sqrt slope * 86.4
  if v < 0.00001 then 0.00001 else v

/-- `outflow_constant` in 1/day, `/repo/model/lateralwaterbalance/river.py:101`. -/
noncomputable def outflowConstant (storage len width rough mult slope : ℝ) : ℝ :=
  riverVelocity storage len width rough mult slope / len

/-! ### Water balance (`river.py:105-224`) -/

structure RiverOut where
  storage : ℝ
  streamflow : ℝ
  unsat : ℝ
  use : ℝ

/-- `riverevap_netabs_max`, `/repo/model/lateralwaterbalance/river.py:172-174`. -/
noncomputable def riverAvail (s q k : ℝ) : ℝ :=
  q + (k * s * Real.exp (-1 * k)) / (1 - Real.exp (-1 * k))

/-- The storage solved over one day and the guard on small volumes,
`/repo/model/lateralwaterbalance/river.py:196-203`. -/
noncomputable def riverNewStorage (minV s q k d : ℝ) : ℝ :=
  flush minV (s * Real.exp (-1 * k) + ((q - d) / k) * (1 - Real.exp (-1 * k)))

/-- `river_water_balance`, `/repo/model/lateralwaterbalance/river.py:105-224`: previous storage `s`, inflow `q`,
outflow constant `k`, station correction factor `corr`, demand on the river `d`. -/
noncomputable def riverBalance (minV corr k s q d : ℝ) : RiverOut :=
  let mx := riverAvail s q k
  let r : ℝ × ℝ × ℝ :=
    if d > mx then
      let f := q + s - mx
      (0, (if f < 0 then 0 else f), (if d > 0 then d - d * (mx / d) else 0))
    else
      let st := riverNewStorage minV s q k d
      let f := q + s - st - d
      (st, (if f < 0 then 0 else f), 0)
  { storage := r.1, streamflow := r.2.1 * corr, unsat := r.2.2, use := d - r.2.2 }

/-- A day of one river cell as seen by the balance. -/
structure RiverDay where
  k : ℝ
  inflow : ℝ
  demand : ℝ

/-- The river over consecutive days; the accumulated fluxes are streamflow and actual use. -/
noncomputable def riverRun (minV corr : ℝ) : ℝ → List RiverDay → ℝ × ℝ × ℝ
  | s, [] => (s, 0, 0)
  | s, x :: xs =>
    let o := riverBalance minV corr x.k s x.inflow x.demand
    let r := riverRun minV corr o.storage xs
    (r.1, o.streamflow + r.2.1, o.use + r.2.2)

end WG
