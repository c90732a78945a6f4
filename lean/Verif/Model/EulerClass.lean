import Mathlib.Analysis.SpecialFunctions.Trigonometric.Basic
import Mathlib.LinearAlgebra.Matrix.Determinant.Basic
import Mathlib.Data.Matrix.Mul

/-!
# Model of rotations given by Euler angles (`hexrd/core/rotations.py`)

Reals stand for floating point numbers. Of scipy, `from_euler` is written out and `as_euler` is a parameter.
-/
namespace Hexrd.EulerClass

abbrev M := Matrix (Fin 3) (Fin 3) ℝ

inductive Axis
  | x | y | z
  deriving DecidableEq

/-- A rotation about one of the axes of the frame (`R.from_euler` of scipy with one axis, rotations.py:729). -/
noncomputable def rot : Axis → ℝ → M
  | .x, t => !![1, 0, 0; 0, Real.cos t, -Real.sin t; 0, Real.sin t, Real.cos t]
  | .y, t => !![Real.cos t, 0, Real.sin t; 0, 1, 0; -Real.sin t, 0, Real.cos t]
  | .z, t => !![Real.cos t, -Real.sin t, 0; Real.sin t, Real.cos t, 0; 0, 0, 1]

abbrev Order := Axis × Axis × Axis

/-- `_check_axes_order` (rotations.py:63-76, 675-681): the twelve orders, in which no axis follows itself. Upper and lower case are not
modelled. -/
def orderOk (o : Order) : Bool := decide (o.1 ≠ o.2.1) && decide (o.2.1 ≠ o.2.2)

abbrev Angles := ℝ × ℝ × ℝ

/-- `make_rmat_euler` (rotations.py:696-729) for a valid order. Lower case letters, for `extrinsic`, are rotations about fixed axes in turn,
upper case ones about axes that move along. -/
noncomputable def makeRmat (a : Angles) (o : Order) (extrinsic : Bool) : M :=
  if extrinsic then rot o.2.2 a.2.2 * rot o.2.1 a.2.1 * rot o.1 a.1
  else rot o.1 a.1 * rot o.2.1 a.2.1 * rot o.2.2 a.2.2

/-- An object of `RotMatEuler` (rotations.py:816-825). `isArray` tells whether the angles are a numpy array or a list. -/
structure Euler where
  angles : Angles
  isArray : Bool
  order : Order
  extrinsic : Bool
  units : String

/-- `__init__` (rotations.py:785-825); `lower` is `str.lower`. The angles are kept as they are given. -/
def create (lower : String → String) (angles : Angles) (isArray : Bool) (order : Order) (extrinsic : Bool) (units : String) : Option Euler :=
  if orderOk order && (lower units == "degrees" || lower units == "radians") then some ⟨angles, isArray, order, extrinsic, units⟩ else none

/-- A factor times the angles. -/
noncomputable def scale (c : ℝ) (a : Angles) : Angles := (c * a.1, c * a.2.1, c * a.2.2)

/-- `conversion_to_dict` (rotations.py:58). -/
noncomputable def conversion (units : String) : ℝ := if units = "degrees" then 180 / Real.pi else Real.pi / 180

/-- `units.setter` (rotations.py:862-871): `none` is the exception. -/
noncomputable def setUnits (e : Euler) (u : String) : Option Euler :=
  if u = "degrees" ∨ u = "radians" then
    if e.units ≠ u then some { e with angles := scale (conversion u) e.angles, isArray := true, units := u }
    else some { e with units := u }
  else none

/-- `rmat` (rotations.py:873-890): `none` is the exception for a number times a list. -/
noncomputable def getRmat (e : Euler) : Option M :=
  if e.units = "degrees" then
    if e.isArray then some (makeRmat (scale (conversion "radians") e.angles) e.order e.extrinsic) else none
  else some (makeRmat e.angles e.order e.extrinsic)

/-- `rmat.setter` (rotations.py:892-915) for a matrix that passes `_check_is_rmat`; `asEuler` are the angles of scipy in radians, which
scipy returns in degrees on request. -/
noncomputable def setRmat (asEuler : M → Order → Bool → Angles) (e : Euler) (m : M) : Euler :=
  { e with angles := if e.units = "degrees" then scale (180 / Real.pi) (asEuler m e.order e.extrinsic) else asEuler m e.order e.extrinsic,
           isArray := true }

end Hexrd.EulerClass
