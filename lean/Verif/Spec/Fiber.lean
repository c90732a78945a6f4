import Verif.Spec.Quat

/-!
# Directions carried to directions
-/
namespace Hexrd.Rotations.Spec

open Matrix Quat

/-- Squared length of a vector. -/
def sqLen (v : Fin 3 → ℝ) : ℝ := v 0 ^ 2 + v 1 ^ 2 + v 2 ^ 2

/-- `u` is the unit vector in the direction of `v`. -/
def UnitAlong (v u : Fin 3 → ℝ) : Prop := sqLen u = 1 ∧ ∃ r : ℝ, 0 < r ∧ v = r • u

/-- `h` is a rule that gives, for each unit vector, a unit vector at right angles to it. -/
def GivesPerp (h : (Fin 3 → ℝ) → Fin 3 → ℝ) : Prop :=
  ∀ c, sqLen c = 1 → sqLen (h c) = 1 ∧ c 0 * h c 0 + c 1 * h c 1 + c 2 * h c 2 = 0

/-- The rotation `q` carries the direction `c` to the direction `s`. -/
def Carries (q : Quat ℝ) (c s : Fin 3 → ℝ) : Prop := rotMat q *ᵥ c = s

end Hexrd.Rotations.Spec
