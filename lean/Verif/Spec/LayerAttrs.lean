import Verif.Model.LayerAttrs

/-! # Specification for C178 -/
namespace Hexrd.LayerAttrs.Spec

variable {V : Type}

/-- The history of a package: constructed and changed by setting attributes. -/
def after (c : Cls V) (h : List (Key × V)) : Pkg V := h.foldl (fun p kv => set c p kv.1 kv.2) (fresh c)

/-- The attribute is a field of a layer. -/
def Field (c : Cls V) (k : Key) : Prop := k.1 ∈ c.layers ∧ k.2 ∈ c.fields k.1

/-- A class whose radius, if it has one, is derived from the diameter and no field of its own; halving undoes doubling. -/
structure Proper (c : Cls V) : Prop where
  noField : c.radius = true → ¬ Field c radiusKey
  pinhole : c.radius = true → "pinhole" ∈ c.layers
  half : ∀ v, c.half (c.double v) = v

end Hexrd.LayerAttrs.Spec
