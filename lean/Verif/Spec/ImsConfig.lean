import Verif.Model.ImsConfig

/-! # Specification for C179 -/
namespace Hexrd.ImsConfig.Spec
open Hexrd.Chunks (Name Images)

variable {α : Type}

/-- The last entry with a key. -/
def lastWith (l : List (Entry α)) (k : Name) : Option (Entry α) := l.reverse.find? fun e => keyOf e = k

/-- The entries have different keys. -/
def Distinct (l : List (Entry α)) : Prop := (l.map keyOf).Nodup

end Hexrd.ImsConfig.Spec
