import Mathlib.Analysis.SpecialFunctions.Trigonometric.Basic

/-!
# Model of values with units (`hexrd/core/valunits.py`)

Floating-point numbers are real numbers.
-/
namespace Hexrd.Units

/-- The unit names the table knows; `other n` stands for any other string. -/
inductive U
  | degrees | radians | m | meter | mm | nm | angstrom | keV | J | other (n : Nat)
deriving DecidableEq, Repr

/-- `cv_dict` (valunits.py:59-80). -/
noncomputable def cvDict : U → U → Option ℝ
  | .degrees, .radians => some (Real.pi / 180)
  | .radians, .degrees => some (180 / Real.pi)
  | .m, .mm => some (10 ^ 3)
  | .m, .meter => some 1
  | .m, .nm => some (10 ^ 9)
  | .m, .angstrom => some (10 ^ 10)
  | .meter, .mm => some (10 ^ 3)
  | .meter, .m => some 1
  | .meter, .nm => some (10 ^ 9)
  | .meter, .angstrom => some (10 ^ 10)
  | .mm, .m => some (1 / 10 ^ 3)
  | .mm, .meter => some (1 / 10 ^ 3)
  | .mm, .nm => some (10 ^ 6)
  | .mm, .angstrom => some (10 ^ 7)
  | .angstrom, .m => some (1 / 10 ^ 10)
  | .angstrom, .meter => some (1 / 10 ^ 10)
  | .angstrom, .mm => some (1 / 10 ^ 7)
  | .angstrom, .nm => some (1 / 10)
  | .keV, .J => some (160217646 / 10 ^ 24)
  | .J, .keV => some (1 / (160217646 / 10 ^ 24))
  | _, _ => none

/-- `keVToAngstrom` (constants.py:307-308), with the exact SI values of the speed of light,
the Planck constant and the elementary charge. -/
noncomputable def keVToAngstrom (x : ℝ) : ℝ :=
  10 ^ 7 * 299792458 * (662607015 / 10 ^ 42) / (1602176634 / 10 ^ 28) / x

/-- `valWUnit` (valunits.py:84-107); the name is left out, a combined unit type is a list. -/
structure Val where
  uT : List String
  value : ℝ
  unit : U

/-- `_convert` / `getVal` (valunits.py:162-206, 220-241); `none` is the `RuntimeError`. -/
noncomputable def convert (v : Val) (toUnit : U) : Option ℝ :=
  if v.unit = toUnit then some v.value
  else match cvDict v.unit toUnit with
    | some f => some (f * v.value)
    | none =>
      if (v.unit = .keV ∧ toUnit = .angstrom) ∨ (v.unit = .angstrom ∧ toUnit = .keV) then some (keVToAngstrom v.value)
      else none

/-- `__add__` of two values (valunits.py:132-145). -/
noncomputable def add (a b : Val) : Option Val := do
  let x ← convert b a.unit
  return { a with value := a.value + x }

/-- `__sub__` of two values (valunits.py:148-160). -/
noncomputable def sub (a b : Val) : Option Val := do
  let x ← convert b a.unit
  return { a with value := a.value - x }

end Hexrd.Units
