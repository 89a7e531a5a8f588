import Verif.Prelude

/-!
# The parameter files of a calibration

Model of the file operations of a calibration on parameter files:

* `/repo/run_calibration.py:214-224`: the files in `model` are removed, the uncalibrated file is copied from `misc`;
* `/repo/calibration/calibration_setup.py:249-252,270-281`: a copy for every basin;
* `/repo/calibration/find_gamma_cfa_cfs.py:134-154,347-369,425-446`: every change of a parameter rewrites the file of the basin;
* `/repo/calibration/merge_parameters.py:30-35,44-45`: all files of all basins are merged.

Every function gives the list of the states of a folder after its file operations, so that a run can be stopped after any of them.
Names are lists of characters; a folder is a list of names with contents, in the order in which `glob` lists them.
-/

namespace WG

/-- A folder: names and contents; `none` is a file that is not yet completely written. -/
abbrev Folder (P : Type) := List (List Char × Option P)

/-- A file is created or overwritten (`shutil.copy2`, `to_netcdf`). -/
def Folder.put {P : Type} (f : Folder P) (n : List Char) (c : Option P) : Folder P := (n, c) :: f.filter (·.1 ≠ n)

/-- `os.remove`. -/
def Folder.remove {P : Type} (f : Folder P) (n : List Char) : Folder P := f.filter (·.1 ≠ n)

/-- The content of a file; outer `none`: there is no such file. -/
def Folder.get {P : Type} (f : Folder P) (n : List Char) : Option (Option P) := (f.find? (·.1 = n)).map (·.2)

/-- `os.replace(a, b)`. -/
def Folder.rename {P : Type} (f : Folder P) (a b : List Char) : Folder P :=
  match f.get a with
  | some c => (f.remove a).put b c
  | none => f

/-- The name matches the pattern `pre*post` of `glob`. -/
def globMatch (pre post n : List Char) : Bool :=
  pre.isPrefixOf n && post.isSuffixOf n && decide (pre.length + post.length ≤ n.length)

/-- `s.replace(old, new)` for an `old` that is not empty; the number counts the characters of an occurrence still to be dropped. -/
def replaceFrom (old new : List Char) : ℕ → List Char → List Char
  | _, [] => []
  | k + 1, _ :: s => replaceFrom old new k s
  | 0, c :: s => if old.isPrefixOf (c :: s) then new ++ replaceFrom old new (old.length - 1) s else c :: replaceFrom old new 0 s

/-- `model/WaterGAP*.nc`, `misc/WaterGAP*.nc`: run_calibration.py:214-215, calibration_setup.py:249,276. -/
def isParamFile (n : List Char) : Bool := globMatch "WaterGAP".toList ".nc".toList n

/-- The files of `model` when calibration starts, after every file operation, run_calibration.py:214-224: all parameter files are removed,
then the first one of `misc` is copied; if there is none the run ends with an error. -/
def startTrace {P : Type} (misc model : Folder P) : List (Folder P) :=
  let doomed := (model.map (·.1)).filter isParamFile
  let removed := (List.range doomed.length).map fun i => (doomed.take (i + 1)).foldl (fun f n => f.remove n) model
  let left := doomed.foldl (fun f n => f.remove n) model
  match misc.find? fun e => isParamFile e.1 with
  | some e => removed ++ [left.put e.1 none, left.put e.1 e.2]
  | none => removed

/-- The name of the copy for basin `b`, calibration_setup.py:252,280 (file name without the folder). -/
def basinName (source : List Char) (b : ℕ) : List Char :=
  replaceFrom "_run-calib.nc".toList ("_basin_".toList ++ Nat.toDigits 10 b ++ ".nc".toList) 0 source

/-- The file of basin `b` is copied during set-up, calibration_setup.py:276-281: a file that exists is overwritten. -/
def setupTrace {P : Type} (source : List Char) (p : P) (b : ℕ) (f : Folder P) : List (Folder P) :=
  [f.put (basinName source b) none, f.put (basinName source b) (some p)]

/-- `temp_WaterGAP_cal_global_parameters.nc`, find_gamma_cfa_cfs.py:149,363,439. -/
def tempName : List Char := "temp_WaterGAP_cal_global_parameters.nc".toList

/-- `matching_files[0]` for `WaterGAP_*_<b>.nc` in the folder of basin `b`, find_gamma_cfa_cfs.py:136-139,349-352,427-430. -/
def updateFile {P : Type} (b : ℕ) (f : Folder P) : Option (List Char) :=
  (f.find? fun e => globMatch "WaterGAP_".toList ('_' :: Nat.toDigits 10 b ++ ".nc".toList) e.1).map (·.1)

/-- One change of parameters, find_gamma_cfa_cfs.py:136-154,349-369,427-446: the changed parameters are written to a temporary file, the old
file is removed, the temporary file takes its name.  Without a readable file there is an error, which
find_gamma_cfa_cfs.py:546-547 prints.  Simplified: the change may depend on the old parameters only (and on anything outside the folder). -/
def updateTrace {P : Type} (b : ℕ) (u : P → P) (f : Folder P) : List (Folder P) :=
  match updateFile b f with
  | none => []
  | some n =>
    match f.get n with
    | some (some p) =>
      let f1 := f.put tempName none
      let f2 := f.put tempName (some (u p))
      let f3 := f2.remove n
      [f1, f2, f3, f3.rename tempName n]
    | _ => []

/-- All changes of parameters during the calibration of the stations of a basin. -/
def changesTrace {P : Type} (b : ℕ) : List (P → P) → Folder P → List (Folder P)
  | [], _ => []
  | u :: us, f => updateTrace b u f ++ changesTrace b us ((updateTrace b u f).getLastD f)

/-- Set-up and calibration of a basin. -/
def basinTrace {P : Type} (source : List Char) (p : P) (b : ℕ) (us : List (P → P)) (f : Folder P) : List (Folder P) :=
  setupTrace source p b f ++ changesTrace b us ((setupTrace source p b f).getLastD f)

/-- An attempt that is stopped after `k` file operations (or completed, if there are not more). -/
def stoppedAt {P : Type} (t : List (Folder P)) (f : Folder P) (k : ℕ) : Folder P := (t.take k).getLastD f

/-- The files that are merged, `calib_out/**/*.nc`, merge_parameters.py:30-32,44-45. -/
def mergedInput {P : Type} (folders : List (Folder P)) : List (Option P) :=
  folders.flatMap fun f => (f.filter fun e => globMatch [] ".nc".toList e.1 && !("." : String).toList.isPrefixOf e.1).map (·.2)

end WG
