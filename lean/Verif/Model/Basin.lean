import Verif.Prelude
import Mathlib.Logic.Relation

/-!
# Selection of the upstream basin

Model of `/repo/model/utility/get_upstream_basin.py`.
-/

namespace WG

/-- How the selection fails. -/
inductive BasinError
  /-- `inflow_cell.loc[i]` of an id that is not in the table, also of the `None` of an unknown station -/
  | keyError
  /-- Python's recursion limit -/
  | recursion
deriving DecidableEq, Repr

/-- The table of upstream cells: for an id its row of up to nine ids, filled up with values not above 0. -/
abbrev InflowTable := ℤ → Option (List ℤ)

/-- The ids upstream of the cells of a list, row after row; `get_upstream_basin.py:92-95`. -/
def nextLevel (tab : InflowTable) : List ℤ → Option (List ℤ)
  | [] => some []
  | i :: rest =>
    match tab i, nextLevel tab rest with
    | some row, some r => some (row.filter (fun a => decide (0 < a)) ++ r)
    | _, _ => none

/-- `get_all_upstream_cells_arcid` with the recursion limit `fuel`; `get_upstream_basin.py:73-101`. -/
def allUpstream (tab : InflowTable) : ℕ → List ℤ → List ℤ → Except BasinError (List ℤ)
  | 0, _, _ => .error .recursion
  | fuel + 1, cells, acc =>
    match nextLevel tab cells with
    | none => .error .keyError
    | some next =>
      if next.length ≠ 0 then allUpstream tab fuel next (acc ++ next) else .ok (acc ++ next)

/-- The id of a station: the first row of the table of coordinates (rounded to two decimals, here in hundredths of a
degree) that matches; `get_upstream_basin.py:26-46`. -/
def stationId (coords : List ((ℤ × ℤ) × ℤ)) (st : ℤ × ℤ) : Option ℤ :=
  (coords.find? fun r => decide (r.1 = st)).map (·.2)

/-- The ids of all stations; a station without a row gives `None`, whose lookup fails; `get_upstream_basin.py:36-62`. -/
def stationIds (coords : List ((ℤ × ℤ) × ℤ)) : List (ℤ × ℤ) → Except BasinError (List ℤ)
  | [] => .ok []
  | st :: rest =>
    match stationId coords st, stationIds coords rest with
    | some i, .ok l => .ok (i :: l)
    | _, _ => .error .keyError

/-- The mask of a run on a grid of ids (`none` where the grid has no cell): `some 0` inside, `none` (NaN) outside;
`get_upstream_basin.py:22-69`. -/
def basinMask {ι : Type} (runBasin : Bool) (grid : ι → Option ℤ) (coords : List ((ℤ × ℤ) × ℤ)) (tab : InflowTable)
    (stations : List (ℤ × ℤ)) (limit : ℕ) : Except BasinError (ι → Option ℤ) :=
  if runBasin then
    match stationIds coords stations with
    | .error e => .error e
    | .ok ids =>
      match allUpstream tab limit ids ids with
      | .error e => .error e
      | .ok all => .ok fun i => match grid i with
        | some a => if a ∈ all then some 0 else none
        | none => none
  else .ok fun i => (grid i).map fun _ => 0

end WG
