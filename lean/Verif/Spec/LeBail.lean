import Mathlib.Data.Real.Basic

/-! Masked patterns and their regions, without reference to the model. -/

namespace Hexrd.LeBail.Spec

/-- The pattern with NaN (`none`) at the points that are not used. -/
def masked {α : Type} (values : List α) (used : List Bool) : List (Option α) :=
  List.zipWith (fun v u => if u then some v else none) values used

/-- The points from `a` to before `b` are used, and the region cannot be extended to either side. -/
def IsRegion (used : List Bool) (a b : Nat) : Prop :=
  a < b ∧ b ≤ used.length ∧ (∀ i, a ≤ i → i < b → used[i]? = some true) ∧ (∀ i, i + 1 = a → used[i]? = some false) ∧
    used[b]? ≠ some true

end Hexrd.LeBail.Spec
