import Verif.Model.PoleFigure

/-! Specification of pole figure data. -/
namespace Hexrd.PoleFigure.Spec

open Hexrd.PoleFigure

/-- The unit vector with a polar and an azimuthal angle. -/
noncomputable def direction (a : ℝ × ℝ) : V3 :=
  ![Real.sin a.1 * Real.cos a.2, Real.sin a.1 * Real.sin a.2, Real.cos a.1]

/-- The angles are those of a direction: ranges, and the vector is the direction times its length. -/
def AnglesOf (a : ℝ × ℝ) (v : V3) : Prop :=
  0 ≤ a.1 ∧ a.1 ≤ Real.pi ∧ -Real.pi < a.2 ∧ a.2 ≤ Real.pi ∧ v = len v • direction a

/-- The direction that a point of the stereographic disc, given by radius and azimuth, stands
for: the line from the pole of the lower hemisphere meets the sphere there. -/
noncomputable def fromDisc (r rho : ℝ) : V3 :=
  ![2 * r * Real.cos rho / (1 + r ^ 2), 2 * r * Real.sin rho / (1 + r ^ 2), (1 - r ^ 2) / (1 + r ^ 2)]

/-- The squared deviation of a calculated from a measured intensity relative to the measured
one; intensities below 1/100 do not count. -/
noncomputable def chi (m c : ℝ) : ℝ := if m < 1 / 100 then 0 else (m - c) ^ 2 / m

end Hexrd.PoleFigure.Spec
