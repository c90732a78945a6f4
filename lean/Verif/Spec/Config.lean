import Verif.Model.Config

/-!
# What a configuration file says
-/
namespace Hexrd.Config.Spec
open Hexrd.Config

variable {α : Type}

/-- The value found by following a path of keys. -/
def valueAt : Tree α → List String → Option (Tree α)
  | t, [] => some t
  | .dict l, k :: ks => (lookup l k).bind fun t => valueAt t ks
  | _, _ :: _ => none

/-- The document says nothing about the setting at `p`: it gives a value neither there nor in place of a section
containing it.  A section or value left empty says nothing. -/
def Silent (t : Tree α) (p : List String) : Prop :=
  ∀ q, q <+: p → ∀ v, valueAt t q ≠ some (.leaf v)

/-- Every key occurs once in every section. -/
def WellFormed (t : Tree α) : Prop :=
  ∀ p l, valueAt t p = some (.dict l) → (l.map Prod.fst).Nodup

/-- Two sections are in conflict: the second has a section, which is not empty, where the first has a value. -/
def Conflict (a b : Tree α) : Prop :=
  ∃ p v l, valueAt a p = some (.leaf v) ∧ valueAt b p = some (.dict l) ∧ l ≠ []

/-- What is at a place, apart from the contents of sections. -/
inductive Kind (α : Type)
  | absent | null | value (a : α) | section_

/-- What is at a place. -/
def kind : Option (Tree α) → Kind α
  | none => .absent
  | some .null => .null
  | some (.leaf a) => .value a
  | some (.dict _) => .section_

/-- Equality of dictionaries: the same things at the same places; the order of keys does not matter. -/
def Same (a b : Tree α) : Prop := ∀ p, kind (valueAt a p) = kind (valueAt b p)

/-- All the sections on the path exist. -/
def Sections (t : Tree α) (path : List String) : Prop :=
  ∀ q, q <+: path → ∃ l, valueAt t q = some (.dict l)

/-- The azimuth, in degrees, is at least `m` away from both ends of the vertical axis. -/
def ClearOfPoles (m η : ℚ) : Prop := ∀ k : ℤ, m ≤ |η - (90 + 180 * k)|

end Hexrd.Config.Spec
