import Mathlib.Data.Real.Basic
import Mathlib.Data.Nat.Notation

/-! What a near-field confidence matrix is. -/

namespace Hexrd.NearField.Spec

/-- The confidence of every grain at every coordinate, coordinate by coordinate. -/
def matrix {γ κ : Type} (conf : γ → κ → ℝ) (grains : List γ) (coords : List κ) : List (List ℝ) :=
  coords.map fun c => grains.map fun g => conf g c

/-- Rank `r` of `world` works on `n / world` coordinates, the last one also on those that are left over. -/
def share {κ : Type} (world r : ℕ) (coords : List κ) : List κ :=
  let per := coords.length / world
  if r + 1 = world then coords.drop (r * per) else (coords.drop (r * per)).take per

end Hexrd.NearField.Spec
