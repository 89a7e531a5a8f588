import Verif.Model.Whole

/-!
# Simulations with and without water use

The option `subtract_use` (`cm.SUBTRACT_USE`) of `/repo/model/lateralwaterbalance/waterbalance_lateral.py`: where the
water-use data enter a day, and what is remembered of them from day to day.  Extends `Whole.lean`, in which the withdrawal
and the consumptive use of the day before and the monthly demand of reservoirs are inputs.
-/

namespace WG

/-- The water-use data that hold on a day, in km³ per day (`monthly` in km³ per month): `pnag`, `pnas` after and before
aggregation, the monthly demand for reservoir releases, `pirrwwsw` and `pirrusesw`; `waterbalance_lateral.py:609-665`. -/
structure UseData where
  gw : Cell → ℝ
  sw : Cell → ℝ
  unagg : Cell → ℝ
  monthly : Cell → ℝ
  withdrawal : Cell → ℝ
  consumptive : Cell → ℝ

/-- The arrays as they are created, `waterbalance_lateral.py:214-217,272-280,304-320,334-335`. -/
def UseData.zero : UseData :=
  { gw := fun _ => 0, sw := fun _ => 0, unagg := fun _ => 0, monthly := fun _ => 0, withdrawal := fun _ => 0,
    consumptive := fun _ => 0 }

/-- The arrays as the routing sees them: the data are read only if water use is subtracted,
`waterbalance_lateral.py:609-665`. -/
def readUse (subtract : Bool) (u : UseData) : UseData := if subtract then u else UseData.zero

/-- What is remembered from day to day: the ledger of unsatisfied demand, and withdrawal and consumptive use for
irrigation of the day before, `waterbalance_lateral.py:892-896`. -/
structure UseCarry where
  ledger : DemandState
  prevW : Cell → ℝ
  prevC : Cell → ℝ

/-- The memory of a simulation that starts without saved states, `waterbalance_lateral.py:287-320`. -/
def UseCarry.zero : UseCarry :=
  { ledger := ⟨fun _ => 0, fun _ => 0, fun _ => 0, fun _ => 0⟩, prevW := fun _ => 0, prevC := fun _ => 0 }

/-- What a day brings: weather, the lateral inputs that have nothing to do with water use, water-use data, and whether it
is a 31 December. -/
structure NatDay where
  weather : Cell → Weather
  lateral : Cell → CellIn
  use : UseData
  dec31 : Bool

/-- The day for given data and memory: the arguments of `river_routing`, `waterbalance_lateral.py:738-748,754`. -/
def NatDay.wg (subtract : Bool) (d : NatDay) (c : UseCarry) : WgDay :=
  let u := readUse subtract d.use
  { weather := d.weather
    lateral := fun x =>
      { d.lateral x with
        useOpt := subtract, potNag := u.gw x, withdrawal := c.prevW x, consumptive := c.prevC x
        han := { (d.lateral x).han with monthlyDemand := u.monthly x } }
    pot := u.sw
    unagg := u.unagg
    dec31 := d.dec31 }

/-- The day as the simulation sees it; at its end withdrawal and consumptive use are remembered,
`waterbalance_lateral.py:892-896`. -/
noncomputable def NatDay.sim (subtract delayed : Bool) (unit : Cell → ℕ) (world : List (Cell × Cell)) (d : NatDay) :
    SimDay UseCarry :=
  let w := fun c => (d.wg subtract c).sim delayed unit world
  { weather := d.weather
    lateral := fun c => (w c).lateral c.ledger
    start := fun c => { c with ledger := (w c).start c.ledger }
    get := fun c x => (w c).get c.ledger x
    upd := fun c x o => { c with ledger := (w c).upd c.ledger x o }
    close := fun c =>
      { ledger := (w c).close c.ledger
        prevW := (readUse subtract d.use).withdrawal
        prevC := (readUse subtract d.use).consumptive } }

/-- A simulation over consecutive days of the world or of a basin. -/
noncomputable def natRun (par : Cell → FullPar) (subtract delayed : Bool) (unit : Cell → ℕ) (world : List (Cell × Cell))
    (basin : Cell → Bool) (s : Sim UseCarry) (days : List NatDay) : Sim UseCarry × List (Cell → Option DayRec) :=
  simRun par (masked world basin) s (days.map fun d => d.sim subtract delayed unit world)

/-- What the routing of a day does in every simulated cell after the days `days`: the outputs `atotusegw`, `atotusesw`,
`evap-total` and the others of `CellOut`. -/
noncomputable def natOut (par : Cell → FullPar) (subtract delayed : Bool) (unit : Cell → ℕ) (world : List (Cell × Cell))
    (basin : Cell → Bool) (s : Sim UseCarry) (days : List NatDay) (d : NatDay) : Cell → Option CellOut :=
  (simNet par (masked world basin) (d.sim subtract delayed unit world)
    (natRun par subtract delayed unit world basin s days).1).ledger.out

end WG
