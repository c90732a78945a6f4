import Mathlib.Data.List.Basic
/-!
# Model of `hexrd/core/config/dumper.py` and `hexrd/core/config/loader.py`

YAML documents holding numpy arrays: each array is saved in a file of its own next to the document, and the document
names the file.  The text of the document and of the `.npy` files is not modelled: PyYAML, `np.save` and `np.load` are
taken to give back what they were given.
-/
namespace Hexrd.Include

/-- A key of a dictionary, or the index of an element of a list written in digits. -/
abbrev Key := List Char

/-- A container of a document, in order, with its arrays described by `A` and its other values by numbers.  A list
(`isList`) is given with the indices `str(i)` of its elements as keys (dumper.py:14-18). -/
inductive Items (A : Type)
  | nil
  | leaf (k : Key) (v : Nat) (rest : Items A)
  | arr (k : Key) (a : A) (rest : Items A)
  | sub (k : Key) (isList : Bool) (d : Items A) (rest : Items A)
deriving DecidableEq

namespace Items
variable {A B : Type}

/-- The same document with other descriptions of its arrays; `none` if one of them cannot be made. -/
def mapM (f : A → Option B) : Items A → Option (Items B)
  | nil => some nil
  | leaf k v rest => (mapM f rest).map (leaf k v)
  | arr k a rest => do
    let b ← f a
    let r ← mapM f rest
    some (arr k b r)
  | sub k l d rest => do
    let d' ← mapM f d
    let r ← mapM f rest
    some (sub k l d' r)

/-- The arrays of a document, in order. -/
def arrays : Items A → List A
  | nil => []
  | leaf _ _ rest => arrays rest
  | arr _ a rest => a :: arrays rest
  | sub _ _ d rest => arrays d ++ arrays rest

end Items

open Items

/-- `_dict_path_by_id` (dumper.py:6-20): the path of the first array with identity `i`, going into each container
before what comes after it.  Containers have other identities than arrays. -/
def findPath (i : Nat) : Items Nat → Option (List Key)
  | nil => none
  | leaf _ _ rest => findPath i rest
  | arr k a rest => if a = i then some [k] else findPath i rest
  | sub k _ d rest =>
    match findPath i d with
    | some p => some (k :: p)
    | none => findPath i rest

/-- `PurePath.stem` of the last component: the name up to its last dot, unless that is its first or last character. -/
def stem (n : Key) : Key :=
  let r := n.reverse
  let ext := r.takeWhile (· ≠ '.')
  let rest := r.dropWhile (· ≠ '.')
  if ext = [] ∨ rest.length ≤ 1 then n else (rest.drop 1).reverse

/-- `Path(*path).with_suffix('.npy')` (dumper.py:44, 48), as its components; empty components and single dots are
dropped, and nothing left is an exception.  Keys with a slash in them are not modelled. -/
def fileOf (p : List Key) : Option (List Key) :=
  match (p.filter fun k => k ≠ [] ∧ k ≠ ['.']).reverse with
  | [] => none
  | last :: dirs => some (dirs.reverse ++ [stem last ++ ".npy".toList])

/-- The file an array is saved in (`ndarray_representer`, dumper.py:42-51). -/
def arrayFile (d : Items Nat) (i : Nat) : Option (List Key) := (findPath i d).bind fileOf

/-- The document written: each array is replaced by the name of its file (dumper.py:52-54, 57-59). -/
def dump (d : Items Nat) : Option (Items (List Key)) := d.mapM (arrayFile d)

/-- Files: what was saved last under a name. -/
def readFile {α : Type} (fs : List (List Key × α)) (p : List Key) : Option α :=
  (fs.reverse.find? (·.1 = p)).map (·.2)

/-- `NumPyIncludeLoader.include` (loader.py:17-22) on a document. -/
def load {α : Type} (fs : List (List Key × α)) (y : Items (List Key)) : Option (Items α) := y.mapM (readFile fs)

/-- What `np.save` is called with for an array, with the file system's `contents` of the arrays (dumper.py:51). -/
def saved {α : Type} (d : Items Nat) (contents : Nat → α) (i : Nat) : Option (List Key × α) :=
  (arrayFile d i).map fun p => (p, contents i)

end Hexrd.Include
