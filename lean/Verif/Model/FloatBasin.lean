import Verif.Model.FloatCell
import Verif.Model.FloatNet

/-!
# A day of a river basin in rounded arithmetic

`cellDay`, `basinNode` and `basinDay` with the operations of `Model/FloatCell.lean`, and a run of several days.  What the
release rule of reservoirs answers, the outflow constant of the river and the demand ledger are any functions, as there.
-/

namespace WG

section
variable (A : Arith) (rule : HanIn → ℝ → ℝ × ℝ) (kRiver : CellIn → ℝ → ℝ)

open Classical in
/-- `cellDay` in rounded arithmetic: storages and outputs of a day of a cell (`routing.py:210-862`).  Precipitation on open water
is no variable of the code: it is the volume the code adds to the water bodies, with the areas the code computes. -/
noncomputable def cellDayR (c : CellIn) (st : CellState) (up demand : ℝ) (keep : ℝ → ℝ) : CellOut :=
  let r := rule (cellResInR A c st up demand).han
  { state := cellStateR A c st up demand keep r (kRiver c)
    streamflow := (cellRiverR A c st up demand keep r (kRiver c)).2.1
    evap := cellEvapR A c st up demand keep r (kRiver c)
    nag := (cellGwFinalR A c st up demand r).nag
    nas := cellNasR A c st up demand keep r (kRiver c)
    unsat := (cellTappedR A c st up demand keep r (kRiver c)).2.1
    handed := A.sub (cellUnsat1R A c st up demand r) (cellUnsat2R A c st up demand keep r)
    lakeUnsat := cellUnsat1R A c st up demand r
    precipSwb := c.precip *
      ((if c.locLake.frac > 0 then lakeAreaR A .localLake (c.lakeIn c.locLake 0 0 0) st.locLake else 0)
       + (if c.locWet.frac > 0 then lakeAreaR A .localWetland (c.lakeIn c.locWet 0 0 0) st.locWet else 0)
       + (if c.gloWet.frac > 0 then lakeAreaR A .globalWetland (c.lakeIn c.gloWet 0 0 0) st.gloWet else 0)
       + (if c.glolakeArea > 0 then c.glolakeArea else 0) + (if c.resArea > 0 then c.resArea else 0))
    locLakeFrac := (cellTappedR A c st up demand keep r (kRiver c)).2.2.1
    locWetFrac := (cellLocWetR A c st).newFrac
    gloWetFrac := (cellGloWetR A c st up demand r).newFrac
    cellRunoff := cellRunoffR A c st up demand keep r (kRiver c)
    evapTotal := cellEvapTotalR A c st up demand keep r (kRiver c) }

variable {δ : Type}

/-- See `basinNode` (`routing.py:230-862`). -/
noncomputable def basinNodeR (cin : Cell → CellIn) (get : δ → Cell → ℝ × (ℝ → ℝ)) (upd : δ → Cell → CellOut → δ)
    (b : Basin δ) (x : Cell) (up : ℝ) : Basin δ × ℝ × ℝ :=
  let g := get b.demand x
  let st := b.state x
  let o := cellDayR A rule kRiver (cin x) st up g.1 g.2
  ({ demand := upd b.demand x o
     state := Function.update b.state x o.state
     out := Function.update b.out x (some o) },
   cellRiverInR A (cin x) st up g.1 (rule (cellResInR A (cin x) st up g.1).han), o.streamflow)

/-- See `basinDay` (`routing.py:167-173,210-862`). -/
noncomputable def basinDayR (cin : Cell → CellIn) (get : δ → Cell → ℝ × (ℝ → ℝ)) (upd : δ → Cell → CellOut → δ)
    (order : List (Cell × Cell)) (d : δ) (state : Cell → CellState) : NetState (Basin δ) :=
  routeR A (basinNodeR A rule kRiver cin get upd) order ⟨d, state, fun _ => none⟩

/-- What a day of a basin is given: the inputs of the cells, and the demand ledger in the morning. -/
structure BasinInput (δ : Type) where
  cin : Cell → CellIn
  demand : δ

/-- Days of a basin, one after the other: the storages in the morning and what the day did
(`run_watergap.py:225-333`; storages alone are carried over here, and not adapted to reservoirs that start to operate). -/
noncomputable def basinRunR (get : δ → Cell → ℝ × (ℝ → ℝ)) (upd : δ → Cell → CellOut → δ) (order : List (Cell × Cell)) :
    (Cell → CellState) → List (BasinInput δ) → List ((Cell → CellState) × BasinInput δ × NetState (Basin δ))
  | _, [] => []
  | state, i :: is =>
    let s := basinDayR A rule kRiver i.cin get upd order i.demand state
    (state, i, s) :: basinRunR get upd order s.ledger.state is

end

end WG
