import Mathlib.Data.List.Basic
import Mathlib.Data.List.Dedup

/-!
# Model of the old names of modules

`hexrd/module_map.py`: modules that were moved can be imported under their old names. Names of modules are lists of their
parts. Importing a module is a parameter; `__all__` and `__path__` are left out.
-/
namespace Hexrd.Aliases

/-- A part of a path or of the name of a module (module_map.py:12-26); the code joins them with `/` and `.`. -/
abbrev Name := String

/-- A path (module_map.py:20-25): its directories, and the name of the file without and its suffix (`none` for no suffix). -/
structure File where
  dirs : List Name
  stem : Name
  ext : Option Name
  deriving DecidableEq

/-- The test of `path.suffix` (module_map.py:20, 44, 137). -/
def isModule (f : File) : Bool := f.ext = none ∨ f.ext = some "py"

/-- `path.parts` (module_map.py:44, 50). -/
def parts (f : File) : List Name :=
  f.dirs ++ [match f.ext with | none => f.stem | some e => f.stem ++ "." ++ e]

/-- module_map.py:12-26 `path_to_module`; `none` is ValueError. -/
def toModule (f : File) : Option (List Name) :=
  if isModule f then some (if f.stem = "__init__" then f.dirs else f.dirs ++ [f.stem]) else none

/-- One line of the table (module_map.py:39): the new path is added to those of the old one. -/
def addLine (m : List (File × List File)) (l : File × File) : List (File × List File) :=
  if m.any (fun e => e.1 = l.1) then m.map fun e => if e.1 = l.1 then (e.1, e.2 ++ [l.2]) else e else m ++ [(l.1, [l.2])]

/-- `file_map` (module_map.py:30-39). -/
def fileMap (lines : List (File × File)) : List (File × List File) := lines.foldl addLine []

/-- Whether a line of the table is about a module of the package (module_map.py:44, 137). -/
def relevant (f : File) : Bool := isModule f && decide ("hexrd" ∈ parts f)

/-- The file that is chosen (module_map.py:47-52): the first in `core`, or else the first. -/
def selected (new : List File) : Option File :=
  match new.find? fun f => decide ("core" ∈ parts f) with
  | some f => some f
  | none => new.head?

/-- `d[k] = v` (module_map.py:53). -/
def put {K V : Type} [DecidableEq K] (d : List (K × V)) (k : K) (v : V) : List (K × V) :=
  if d.any (fun e => e.1 = k) then d.map fun e => if e.1 = k then (k, v) else e else d ++ [(k, v)]

/-- `d[k]`, if it is there (module_map.py:108-109). -/
def get {K V : Type} [DecidableEq K] (d : List (K × V)) (k : K) : Option V := (d.find? fun e => e.1 = k).map Prod.snd

/-- One turn of the loop (module_map.py:43-56), without the path of the module. -/
def mapStep (m : List (List Name × List Name)) (e : File × List File) : Option (List (List Name × List Name)) :=
  if relevant e.1 then do
    let old ← toModule e.1
    let s ← selected e.2
    let new ← toModule s
    some (put m old new)
  else some m

/-- `module_map` (module_map.py:41-56); `none` if the package cannot be imported. -/
def moduleMap (lines : List (File × File)) : Option (List (List Name × List Name)) := (fileMap lines).foldlM mapStep []

/-- Whether the importer takes care of a name (module_map.py:107-122 `find_spec`). -/
def findSpec (m : List (List Name × List Name)) (name : List Name) : Bool :=
  match get m name with
  | none => false
  | some new => name ≠ new

/-- The modules whose names are added (module_map.py:135-156): the other new modules of the name and of all modules below
it, each once. -/
def candidates (lines : List (File × File)) (name new : List Name) : Option (List (List Name)) := do
  let found ← ((fileMap lines).filter fun e => relevant e.1 && (toModule e.1).any fun o => decide (name <+: o)).mapM
    fun e => e.2.mapM toModule
  some (found.flatten.filter (· ≠ new)).reverse.dedup.reverse

/-- The names that are not added (module_map.py:183-190). -/
def reserved : List Name := ["__name__", "__file__", "__package__", "__path__", "__loader__", "__spec__"]

/-- The names of one module are added to those of another (module_map.py:182-193). -/
def addNames {V : Type} (base cand : List (Name × V)) : List (Name × V) :=
  cand.foldl (fun b e => if e.1 ∈ reserved then b else if b.any (fun x => x.1 = e.1) then b else b ++ [e]) base

/-- The names of the module a name is imported as (module_map.py:124-196 `load_module`): modules that cannot be imported are passed
over. -/
def load {V : Type} (imp : List Name → Option (List (Name × V))) (base : List (Name × V)) (cands : List (List Name)) :
    List (Name × V) :=
  cands.foldl (fun b c => match imp c with | some ns => addNames b ns | none => b) base

end Hexrd.Aliases
