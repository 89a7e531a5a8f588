import Verif.Prelude

/-!
# Which reservoir data a run uses

Model of the choice of the folder with reservoir start months and demands in
`/repo/controller/staticdata_handler.py:87-111` and of the name of the file the calibration writes
(`/repo/run_calibration.py:221-224,267`, `/repo/calibration/merge_parameters.py:83`).  Names are lists of characters.
-/

namespace WG

/-- `s.split(c)[-1]`: what follows the last `c`, or all of `s`.  staticdata_handler.py:87,92. -/
def afterLast (c : Char) (s : List Char) : List Char := (s.reverse.takeWhile (· != c)).reverse

/-- `s.split(c)[0]`: what precedes the first `c`, or all of `s`.  staticdata_handler.py:87. -/
def beforeFirst (c : Char) (s : List Char) : List Char := s.takeWhile (· != c)

/-- `forcing`, staticdata_handler.py:87,91-92: the last part of the name of the parameter file, or of `calib_forcing` in a
calibration. -/
def forcingName (runCalib : Bool) (paramPath calibForcing : List Char) : List Char :=
  let f := beforeFirst '.' (afterLast '_' paramPath)
  if f = "run-calib".toList ∨ runCalib = true then afterLast '-' calibForcing else f

/-- The folder whose files are read, staticdata_handler.py:87-102; `none`: the folder does not exist and the run ends.
`folders` are the forcings for which a folder `reservoir_routing_<forcing>` exists. -/
def reservoirFolder (folders : List (List Char)) (runCalib : Bool) (paramPath calibForcing : List Char) :
    Option (List Char) :=
  if forcingName runCalib paramPath calibForcing ∈ folders then some (forcingName runCalib paramPath calibForcing) else none

/-- `x.split("_global")[0]` for a name that contains `_global`: what precedes its first occurrence; all of the name
otherwise.  run_calibration.py:267. -/
def beforeGlobal : List Char → List Char
  | [] => []
  | c :: s => if "_global".toList <+: (c :: s) then [] else c :: beforeGlobal s

/-- The path of the parameter file the calibration writes: run_calibration.py:267, merge_parameters.py:83; `source` is the
name of the uncalibrated file in `misc`. -/
def calibratedPath (source : List Char) : List Char :=
  "./model/".toList ++ beforeGlobal source ++ "_global_parameters.nc".toList

end WG
