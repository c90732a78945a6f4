import Verif.Model.Chunks

/-!
# Model of the image series of a configuration (`hexrd/core/config/root.py`, `image_series`)

Files are opened elsewhere: an entry carries its images. Names are lists of characters.
-/
namespace Hexrd.ImsConfig
open Hexrd.Chunks (Name Images sharedKey)

/-- The value of `panel` in an entry (root.py:188-193): a name, a list of names, or `None`. -/
inductive PanelSpec
  | name (n : Name)
  | names (l : List Name)
  | null

/-- An entry of `image_series:data` (root.py:183-187): `panel` if the key is there, the panel in the metadata of the images, if any, and the
images. -/
structure Entry (α : Type) where
  panel : Option PanelSpec
  metadata : Option Name
  images : Images α

/-- `'_'.join(panel)` (root.py:191). -/
def join : List Name → Name
  | [] => []
  | [n] => n
  | n :: m :: l => n ++ '_' :: join (m :: l)

/-- The key of an entry (root.py:188-198). -/
def keyOf {α : Type} (e : Entry α) : Name :=
  match e.panel with
  | some (.name n) => n
  | some (.names l) => join l
  | some .null => sharedKey
  | none => match e.metadata with
    | some n => n
    | none => sharedKey

/-- Assignment to a key of a dictionary (root.py:199): a new key comes last, a known one keeps its place. -/
def assign {α : Type} (d : List (Name × α)) (k : Name) (v : α) : List (Name × α) :=
  if d.any fun e => e.1 == k then d.map fun e => if e.1 = k then (k, v) else e else d ++ [(k, v)]

/-- `image_series` (root.py:176-201) when it is first used. -/
def imageSeries {α : Type} (l : List (Entry α)) : List (Name × Images α) := l.foldl (fun d e => assign d (keyOf e) e.images) []

end Hexrd.ImsConfig
