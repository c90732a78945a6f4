import Mathlib.Data.Real.Basic
import Mathlib.Order.Bounds.Basic

/-!
# Specification of background estimation by clipping
-/
namespace Hexrd.Snip.Spec

/-- The pixel at distance `p` to the left of `i`, the first one if there is none. -/
def left (i p : Nat) : Nat := if p ≤ i then i - p else 0

/-- The pixel at distance `p` to the right of `i` in a row of `n`, the last one if there is none. -/
def right (n i p : Nat) : Nat := if i + p < n then i + p else n - 1

/-- `a` is the mean of those of the two pixels at distance `p` that have a value. -/
def IsMean (n : Nat) (z : Nat → Option ℝ) (i p : Nat) (a : ℝ) : Prop :=
  (∃ u v, z (left i p) = some u ∧ z (right n i p) = some v ∧ a = (u + v) / 2) ∨
  (z (left i p) = some a ∧ z (right n i p) = none) ∨
  (z (left i p) = none ∧ z (right n i p) = some a)

/-- One round of clipping with windows up to `w`: pixels without a value keep having none; a pixel with a value gets the
least of its value and the means for all windows. -/
def IsClipped (n w : Nat) (z z' : Nat → Option ℝ) : Prop :=
  ∀ i < n, (z i = none → z' i = none) ∧
    ∀ v, z i = some v → ∃ b, z' i = some b ∧ IsLeast ({v} ∪ {a | ∃ p, 1 ≤ p ∧ p ≤ w ∧ IsMean n z i p a}) b

end Hexrd.Snip.Spec
