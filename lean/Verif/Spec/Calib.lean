import Verif.Spec.Transforms

/-!
What calibration must do to the detectors, in terms of Mathlib's matrices only.
-/

namespace Hexrd.Calib.Spec

open Matrix Hexrd.Transforms.Spec

/-- Orientation and position of a detector in the laboratory. -/
abbrev Pose := Matrix (Fin 3) (Fin 3) ℝ × (Fin 3 → ℝ)

/-- A rigid motion: first turn about the origin, then shift. -/
def moved (q : Matrix (Fin 3) (Fin 3) ℝ) (t : Fin 3 → ℝ) (x : Pose) : Pose := (q * x.1, q *ᵥ x.2 + t)

/-- All detectors took part in one rigid motion. -/
def RigidlyMoved (before after : List Pose) : Prop :=
  ∃ q t, IsRotation q ∧ after = before.map (moved q t)

/-- Orientation and position of the second detector as seen from the first. -/
def relative (a b : Pose) : Pose := (a.1ᵀ * b.1, a.1ᵀ *ᵥ (b.2 - a.2))

/-- Each detector is seen from each other one as before. -/
def SameArrangement (before after : List Pose) : Prop :=
  before.length = after.length ∧ ∀ (i j : Nat) (a b a' b' : Pose), before[i]? = some a → before[j]? = some b →
    after[i]? = some a' → after[j]? = some b' → relative a b = relative a' b'

end Hexrd.Calib.Spec
