import Verif.Model.Spherical

/-! What the pairs of points of a spherical view should be (C164). -/

namespace Hexrd.Spherical.Spec

/-- The rows and columns that are used: every `skip`-th. -/
def Used (skip n i : ℕ) : Prop := i < n ∧ skip ∣ i

/-- The point lies inside the image with `dim` rows and columns. -/
def Inside (dim : ℕ) (p : ℝ × ℝ) : Prop := 0 < p.1 ∧ p.1 < dim ∧ 0 < p.2 ∧ p.2 < dim

end Hexrd.Spherical.Spec
