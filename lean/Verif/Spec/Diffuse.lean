import Verif.Model.Diffuse
import Mathlib.MeasureTheory.Integral.IntervalIntegral.Basic

/-!
# Specification: amorphous and thermal diffuse scattering
-/

namespace Hexrd.Diffuse.Spec

/-- The mean over the directions of a sphere of radius `x` around the origin of a function of the distance from a point at distance
`X` from the origin; `c` is the cosine of the angle between the directions. -/
noncomputable def sphereMean (f : ℝ → ℝ) (x X : ℝ) : ℝ := 1 / 2 * ∫ c in (-1 : ℝ)..1, f √(x ^ 2 + X ^ 2 - 2 * x * X * c)

open Classical in
/-- The strength of the scattering by lattice waves at the distance `r` from a reciprocal lattice point (Warren, chapter 11): inverse
square within the sphere that replaces the Brillouin zone, with the mean one over that sphere. -/
noncomputable def zone (am r : ℝ) : ℝ := if r < am then am ^ 2 / (3 * r ^ 2) else 0

/-- The diffuse scattering of independent elements: numbers of atoms times squared form factors times brackets, added up. -/
noncomputable def total (els : List ((StructFac.Site × ℕ) × ℝ)) (s c : ℝ) : ℝ :=
  (els.map fun e => (e.1.2 : ℝ) * ‖StructFac.formFactor e.1.1 (s ^ 2)‖ ^ 2 * bracket (mOf e.2 s) c).sum

end Hexrd.Diffuse.Spec
