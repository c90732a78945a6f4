import Mathlib.Data.List.Basic

/-!
# Model of the names of the files of the search for orientations (`hexrd/hedm/config/findorientations.py`, `hexrd/core/config/root.py`)

Names and paths are lists of characters. Joining paths puts one slash between them: names of analyses that are absolute, or that have empty
parts, which `pathlib` treats specially, are not modelled.
-/
namespace Hexrd.OutFiles

abbrev Name := List Char

/-- `.strip()` (core/config/root.py:73-74): white space at both ends. -/
def strip (s : Name) : Name := ((s.dropWhile Char.isWhitespace).reverse.dropWhile Char.isWhitespace).reverse

/-- `.strip().replace(' ', '-')` (core/config/root.py:73-74, hedm/config/findorientations.py:34-35). -/
def clean (s : Name) : Name := (strip s).map fun c => if c = ' ' then '-' else c

/-- The settings the names depend on: `working_dir`, `analysis_name`, the active material and `new_file_placement`
(core/config/root.py:22-84). -/
structure Cfg where
  working : Name
  analysis : Name
  material : Name
  newPlacement : Bool

/-- `a / b` for paths. -/
def slash (a b : Name) : Name := a ++ '/' :: b

/-- `analysis_dir` (core/config/root.py:56-67). -/
def analysisDir (c : Cfg) : Name := slash c.working c.analysis

/-- `analysis_id` (core/config/root.py:69-76). -/
def analysisId (c : Cfg) : Name := clean c.analysis ++ '_' :: clean c.material

/-- The files: the log, the accepted orientations, the maps, the scored orientations and the grains. -/
inductive Kind
  | log | accepted | maps | scored | grains
  deriving DecidableEq

/-- `logfile` (hedm/config/findorientations.py:37-48). -/
def logFile (c : Cfg) : Name :=
  if c.newPlacement then slash (analysisDir c) ("find-orientations-".toList ++ clean c.material ++ ".log".toList)
  else slash c.working ("find-orientations_".toList ++ analysisId c ++ ".log".toList)

/-- `accepted_orientations_file` (hedm/config/findorientations.py:50-61). -/
def acceptedFile (c : Cfg) : Name :=
  if c.newPlacement then slash (analysisDir c) ("accepted-orientations-".toList ++ clean c.material ++ ".dat".toList)
  else slash c.working ("accepted_orientations_".toList ++ analysisId c ++ ".dat".toList)

/-- `grains_file` (hedm/config/findorientations.py:63-66). -/
def grainsFile (c : Cfg) : Name := slash (analysisDir c) "grains.out".toList

/-- `file` of the maps, without an entry in the configuration (hedm/config/findorientations.py:251-271). -/
def mapsFile (c : Cfg) : Name :=
  if c.newPlacement then slash (analysisDir c) ("eta-ome-maps-".toList ++ clean c.material ++ ".npz".toList)
  else slash c.working (analysisId c ++ '_' :: "eta-ome_maps.npz".toList)

/-- `scored_orientations_file` (hedm/config/findorientations.py:282-293). -/
def scoredFile (c : Cfg) : Name :=
  if c.newPlacement then slash (analysisDir c) ("scored-orientations-".toList ++ clean c.material ++ ".npz".toList)
  else slash c.working ("scored_orientations".toList ++ '_' :: analysisId c)

/-- The path of a file. -/
def path (c : Cfg) : Kind → Name
  | .log => logFile c
  | .accepted => acceptedFile c
  | .maps => mapsFile c
  | .scored => scoredFile c
  | .grains => grainsFile c

/-- `file` of the maps with an entry in the configuration (hedm/config/findorientations.py:268-278): `none` is null. -/
def mapsPath (c : Cfg) : Option Name → Name
  | none => mapsFile c
  | some [] => c.working
  | some ('/' :: t) => '/' :: t
  | some t => slash c.working t

end Hexrd.OutFiles
