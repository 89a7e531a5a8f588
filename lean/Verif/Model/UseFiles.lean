import Verif.Model.CalibData

/-!
# The water-use files

Models which files of the water-use folder are read, `/repo/controller/wateruse_handler.py:73-111` (their time axis: `WaterUse`),
and the files that the preparation of the calibration removes and writes, `/repo/calibration/calibration_setup.py:49-56, 70-100`
(their contents: `Regional`).
-/

namespace WG

/-- A file of the computer: folder, name and contents. -/
structure UFile (α : Type) where
  /-- folder -/
  dir : String
  /-- `os.path.basename` -/
  name : String
  /-- what is in it -/
  content : α

/-- `'atotuse' in os.path.basename(fpath)`: `wateruse_handler.py:90, 108`, `calibration_setup.py:52-53`. -/
def isActual (name : String) : Bool := decide ("atotuse".toList <:+: name.toList)

/-- The files of potential water use that are read from the configured folder: `wateruse_handler.py:73-74, 88-90`. -/
def potFiles {α : Type} (cfg : String) (fs : List (UFile α)) : List (UFile α) :=
  fs.filter fun f => decide (f.dir = cfg) && !isActual f.name

/-- The files of actual water use that a calibration run reads from the configured folder: `wateruse_handler.py:105-108`. -/
def actFiles {α : Type} (cfg : String) (fs : List (UFile α)) : List (UFile α) :=
  fs.filter fun f => decide (f.dir = cfg) && isActual f.name

/-- `cleanup_simulation_files`: `calibration_setup.py:49-56`. -/
def cleanUse {α : Type} (cfg : String) (fs : List (UFile α)) : List (UFile α) :=
  fs.filter fun f => !(decide (f.dir = cfg) && isActual f.name)

/-- The folder the preparation of the calibration writes to: `calibration_setup.py:85`. -/
def writeDir : String := "input_data/water_use/"

/-- `to_netcdf`: a file of that folder and name is replaced. -/
def writeFile {α : Type} (fs : List (UFile α)) (f : UFile α) : List (UFile α) :=
  fs.filter (fun g => !(decide (g.dir = f.dir) && decide (g.name = f.name))) ++ [f]

/-- The two files of one stretch of years, `calibration_setup.py:95-100`. -/
def actPair {α : Type} (gw sw : ℕ → ℕ → α) (p : ℕ × ℕ) : List (UFile α) :=
  [⟨writeDir, "atotusegw_" ++ toString p.1 ++ "_" ++ toString p.2 ++ ".nc", gw p.1 p.2⟩,
   ⟨writeDir, "atotusesw_" ++ toString p.1 ++ "_" ++ toString p.2 ++ ".nc", sw p.1 p.2⟩]

/-- `copy_actual_net_abstraction`: the old files are removed, the new ones written, one pair for each stretch of at most ten
years of the period; `calibration_setup.py:70-100`.  `gw`, `sw`: what is written for the years from one to the other. -/
def handOver {α : Type} (cfg : String) (gw sw : ℕ → ℕ → α) (start fin : ℕ) (fs : List (UFile α)) :
    List (UFile α) :=
  ((tenYears start fin).flatMap (actPair gw sw)).foldl writeFile (cleanUse cfg fs)

end WG
