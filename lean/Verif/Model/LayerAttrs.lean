import Mathlib.Data.List.Basic

/-!
# Model of the attributes of physics packages (`hexrd/core/instrument/physics_package.py`)

The layers of a package are reached by attributes `<layer>_<attribute>`. A name with one underscore is a pair; names with none or several
are plain attributes that never reach a layer and are not modelled. Values are of any type `V`.
-/
namespace Hexrd.LayerAttrs

variable {V : Type}

abbrev Key := String × String

/-- A class of packages: its layers in order and the fields of each (physics_package.py:10-27, 122-133, 199-204), and whether it has the
property `pinhole_radius` (physics_package.py:139-145), with the functions `0.5 *` and `2.0 *`. -/
structure Cls (V : Type) where
  layers : List String
  fields : String → List String
  default : String → String → V
  radius : Bool
  half : V → V
  double : V → V

/-- A package: the attributes of its layers and those in its own dictionary. -/
structure Pkg (V : Type) where
  val : Key → Option V
  dict : Key → Option V

/-- `_setup_layers` (physics_package.py:72-75): layers with the default values of their fields. -/
def fresh (c : Cls V) : Pkg V where
  val k := if k.1 ∈ c.layers ∧ k.2 ∈ c.fields k.1 then some (c.default k.1 k.2) else none
  dict _ := none

def radiusKey : Key := ("pinhole", "radius")
def diameterKey : Key := ("pinhole", "diameter")

/-- Looking up an attribute that is no property: the dictionary of the object first, then `__getattr__` (physics_package.py:77-83); `none` is
the exception. -/
def getPlain (c : Cls V) (p : Pkg V) (k : Key) : Option V :=
  match p.dict k with
  | some v => some v
  | none => if k.1 ∈ c.layers then p.val k else none

/-- `getattr` with the property `pinhole_radius` (physics_package.py:139-141), which comes before the dictionary. -/
def get (c : Cls V) (p : Pkg V) (k : Key) : Option V :=
  if c.radius = true ∧ k = radiusKey then (getPlain c p diameterKey).map c.half else getPlain c p k

/-- The first part of `__setattr__` (physics_package.py:85-89): the attribute of the layer. -/
def setLayer (c : Cls V) (p : Pkg V) (k : Key) (v : V) : Pkg V :=
  if k.1 ∈ c.layers then { p with val := fun q => if q = k then some v else p.val q } else p

/-- `__setattr__` of a name that is no property (physics_package.py:85-92): the layer and the dictionary. -/
def setPlain (c : Cls V) (p : Pkg V) (k : Key) (v : V) : Pkg V :=
  let p := setLayer c p k v
  { p with dict := fun q => if q = k then some v else p.dict q }

/-- `__setattr__` with the property `pinhole_radius` (physics_package.py:85-92, 143-145). -/
def set (c : Cls V) (p : Pkg V) (k : Key) (v : V) : Pkg V :=
  if c.radius = true ∧ k = radiusKey then setPlain c (setLayer c p k v) diameterKey (c.double v) else setPlain c p k v

/-- `deserialize`, and the constructor with keywords (physics_package.py:69-70, 109-111). -/
def deserialize (c : Cls V) (p : Pkg V) (l : List (Key × V)) : Pkg V := l.foldl (fun p kv => set c p kv.1 kv.2) p

/-- `attributes_to_serialize` (physics_package.py:94-100). -/
def names (c : Cls V) : List Key := c.layers.flatMap fun n => (c.fields n).map fun a => (n, a)

/-- `serialize` (physics_package.py:106-107). -/
def serialize (c : Cls V) (p : Pkg V) : List (Key × V) := (names c).filterMap fun k => (get c p k).map fun v => (k, v)

/-- `layer_thickness` and every other use of a layer (physics_package.py:178-179): the layer itself. -/
def layerValue (p : Pkg V) (k : Key) : Option V := p.val k

end Hexrd.LayerAttrs
