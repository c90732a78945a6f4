import Mathlib.Analysis.SpecialFunctions.Trigonometric.Basic
import Mathlib.Algebra.Order.Floor.Ring

/-!
# Model of the angle helpers (`hexrd/core/rotations.py`:1108-1177, `hexrd/hedm/indexer.py`:970-988)

Floating-point numbers are real numbers. Arrays are treated entry by entry.
-/
namespace Hexrd.Angles

/-- Angular units; `other` stands for any other string. -/
inductive AngUnit
  | degrees | radians | other
deriving DecidableEq, Repr

/-- The period in a unit (rotations.py:57, 1114-1119, 1151-1158); `none` is the error. -/
noncomputable def period : AngUnit → Option ℝ
  | .degrees => some 360
  | .radians => some (2 * Real.pi)
  | .other => none

/-- `np.mod` for a positive divisor. -/
noncomputable def npMod (x p : ℝ) : ℝ := x - p * ⌊x / p⌋

/-- `np.allclose(a, b)` for scalars, with the default tolerances. -/
def allclose (a b : ℝ) : Prop := |a - b| ≤ 1 / 10 ^ 8 + 1 / 10 ^ 5 * |b|

noncomputable instance (a b : ℝ) : Decidable (allclose a b) := Classical.propDecidable _

/-- The body of `mapAngle` once the interval is known (rotations.py:1136-1140). -/
noncomputable def mapInto (ang lo hi : ℝ) : ℝ :=
  open Classical in
  let val := npMod (ang - lo) (hi - lo) + lo
  if val = lo ∧ lo < ang then hi else val

/-- `mapAngle` for one angle (rotations.py:1108-1140); `none` as angle is NaN, `none` as
result is an error (unknown units, incomplete range, empty range). -/
noncomputable def mapAngle (ang : Option ℝ) (range : Option (List ℝ)) (units : AngUnit) : Option ℝ := do
  let p ← period units
  let a := ang.getD 0
  match range with
  | none => return mapInto a (-p / 2) (p / 2)
  | some l =>
    let lo ← l.min?
    let hi ← l.max?
    if allclose (hi - lo) p then return mapInto a lo hi else none

/-- `angularDifference_orig` (rotations.py:1144-1163). -/
noncomputable def angularDifferenceOrig (a b : ℝ) (units : AngUnit) : Option ℝ := do
  let p ← period units
  return |npMod (a - b + 1 / 2 * p) p - 1 / 2 * p|

/-- `angularDifference_opt`, exported as `angularDifference` (rotations.py:1166-1177). -/
noncomputable def angularDifference (a b : ℝ) (units : AngUnit) : Option ℝ := do
  let p ← period units
  let d := |b - a|
  return min d (p - d)

/-- `_map_angle` of the indexer (indexer.py:970-988). -/
noncomputable def indexerMapAngle (angle offset : ℝ) : ℝ := npMod (angle - offset) (2 * Real.pi) + offset

end Hexrd.Angles
