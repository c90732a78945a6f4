import Mathlib.Data.Rat.Floor
import Mathlib.Tactic.Linarith

/-!
# Model of the configuration files

`hexrd/core/config/config.py`, `utils.py`, `root.py`, `__init__.py` and the derived values of
`hexrd/hedm/config/findorientations.py` and `fitgrains.py`.  A loaded document is a tree of sections; numbers, strings
and lists are leaves.
-/
namespace Hexrd.Config

/-- A loaded value: `None`, a number, string or list, or a section.  The keys of a section are in their order of
insertion. -/
inductive Tree (α : Type)
  | null
  | leaf (a : α)
  | dict (l : List (String × Tree α))

/-- The entries of a section. -/
abbrev Entries (α : Type) := List (String × Tree α)

variable {α : Type}

/-- `d.get(k)` of a dictionary; `none` is a key that is absent. -/
def lookup (l : Entries α) (k : String) : Option (Tree α) :=
  match l with
  | [] => none
  | (k', v) :: rest => if k' = k then some v else lookup rest k

/-- `d[k] = v` of a dictionary. -/
def put (l : Entries α) (k : String) (v : Tree α) : Entries α :=
  match l with
  | [] => [(k, v)]
  | (k', v') :: rest => if k' = k then (k, v) :: rest else (k', v') :: put rest k v

/-- `_merge_dicts` (hexrd/core/config/utils.py:34-47); `none` is the exception when a section is merged into a number,
string or list. -/
def mergeInto (a : Entries α) (b : Entries α) : Option (Entries α) :=
  match b with
  | [] => some a
  | (k, .dict es) :: rest =>
    match lookup a k with
    | none | some .null => do
      let m ← mergeInto [] es
      mergeInto (put a k (.dict m)) rest
    | some (.dict as) => do
      let m ← mergeInto as es
      mergeInto (put a k (.dict m)) rest
    | some (.leaf _) => if es.isEmpty then mergeInto a rest else none
  | (k, .null) :: rest =>
    match lookup a k with
    | none | some .null => mergeInto (put a k .null) rest
    | some _ => mergeInto a rest
  | (k, .leaf x) :: rest => mergeInto (put a k (.leaf x)) rest

/-- `open` (hexrd/core/config/__init__.py:29-40) on the documents of a file: each section is the previous one updated
with the next document.  A document that is not a dictionary raises, unless it is the first and only one, which is not
modelled. -/
def openDocs (docs : List (Entries α)) : Option (List (Entries α)) :=
  match docs with
  | [] => some []
  | d :: rest =>
    let rec go (prev : Entries α) : List (Entries α) → Option (List (Entries α))
      | [] => some []
      | e :: es => do
        let m ← mergeInto prev e
        let ms ← go m es
        pure (m :: ms)
    do
      let ms ← go d rest
      pure (d :: ms)

/-- What `save` writes (hexrd/core/config/__init__.py:43-50): several documents, or one document that is a list. -/
inductive Saved (α : Type)
  | docs (l : List (Entries α))
  | listDoc (l : List (Entries α))

/-- `save` (hexrd/core/config/__init__.py:43-50). -/
def save (cfgs : List (Entries α)) : Saved α :=
  if cfgs.length > 1 then .docs cfgs else .listDoc cfgs

/-- `Config.get` of the root (hexrd/core/config/config.py:34-50): `path` are the parts of the key before the last,
`item` is the last.  `none` is an exception: a missing value without a default, or a path through a number, string or
list. -/
def get (t : Tree α) (path : List String) (item : String) (dflt : Option (Tree α)) : Option (Tree α) :=
  match path, t with
  | p :: ps, .dict l =>
    match lookup l p with
    | none | some .null => get (.dict []) ps item dflt
    | some t' => get t' ps item dflt
  | _ :: _, _ => none
  | [], .dict l =>
    match lookup l item with
    | some v => some v
    | none => dflt
  | [], _ => none

/-- The setting of the `i`-th configuration after what `save` wrote is opened again.  A file whose only document is a
list gives one configuration (hexrd/core/config/__init__.py:37-40) that is a list: looking anything up in it raises. -/
def reopenGet (s : Saved α) (i : Nat) (path : List String) (item : String) (dflt : Option (Tree α)) :
    Option (Tree α) :=
  match s with
  | .docs l => do
    let cfgs ← openDocs l
    let c ← cfgs[i]?
    get (.dict c) path item dflt
  | .listDoc _ => none

/-- `Config.set` of the root (hexrd/core/config/config.py:52-62): the configuration afterwards; an intermediate section
that is missing or empty is replaced by a new dictionary that is not stored. -/
def set (l : Entries α) (path : List String) (item : String) (v : Tree α) : Option (Entries α) :=
  match path with
  | [] => some (put l item v)
  | p :: ps =>
    match lookup l p with
    | none | some .null => some l
    | some (.dict l') => do
      let m ← set l' ps item v
      pure (put l p (.dict m))
    | some (.leaf _) => none

/-! ### Derived values -/

/-- The value of `multiprocessing`: a number, one of two words, or something else. -/
inductive Multi
  | all | half | count (n : Int) | other

/-- `RootConfig.multiprocessing` (hexrd/core/config/root.py:126-162); `ncpus` is the number of processors. -/
def multiprocessing (ncpus : Nat) : Multi → Int
  | .all => ncpus
  | .half => let temp : Int := (ncpus / 2 : Nat); if temp ≠ 0 then temp else 1
  | .count n =>
    if n ≥ 0 then
      if n > ncpus then ncpus else if n ≠ 0 then n else 1
    else
      let temp := ncpus + n
      if temp < 1 then 1 else temp
  | .other => ncpus - 1

/-- `multiprocessing.setter` (hexrd/core/config/root.py:164-174): what is stored, or an exception. -/
def setMultiprocessing (ncpus : Nat) : Multi → Option Multi
  | .all => some .all
  | .half => some .half
  | .count n => if n = -1 then some (.count n) else if n ≥ 0 ∧ n ≤ ncpus then some (.count n) else none
  | .other => none

/-- `EtaConfig.range` (hexrd/hedm/config/findorientations.py:176-181), in degrees. -/
def etaRange (mask : ℚ) : List (ℚ × ℚ) := [(-90 + mask, 90 - mask), (90 + mask, 270 - mask)]

/-- `OmegaConfig.period` (hexrd/hedm/config/findorientations.py:145-157). -/
def omegaPeriod (a b : ℚ) : Option (ℚ × ℚ) := if |b - a| ≠ 360 then none else some (a, b)

/-- `fiber_ndiv` (hexrd/hedm/config/findorientations.py:222-224); `none` is a division by zero. -/
def fiberNdiv (step : ℚ) : Option Int :=
  if step = 0 then none else
    let q := 360 / step
    some (if 0 ≤ q then ⌊q⌋ else ⌈q⌉)

end Hexrd.Config
