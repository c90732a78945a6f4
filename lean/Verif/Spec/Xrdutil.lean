import Verif.Spec.Transforms
import Mathlib.Order.Bounds.Basic

/-!
Specification of angular pixel sizes, sphere projections and angular patches, independent of the model.
-/
namespace Hexrd.Xrdutil.Spec
open Matrix Hexrd.Transforms.Spec

/-- The corner number `k` of the rectangle of width `w` and height `h` about `c`, counter-clockwise from the lower
left. -/
noncomputable def corner (w h : ℝ) (c : ℝ × ℝ) (k : Fin 4) : ℝ × ℝ :=
  ![(c.1 - w / 2, c.2 - h / 2), (c.1 + w / 2, c.2 - h / 2), (c.1 + w / 2, c.2 + h / 2), (c.1 - w / 2, c.2 + h / 2)] k

/-- The scattering angles `tth`, `eta` of the detector point `xy` seen from `o`: the direction has polar angle `tth`
from the beam and azimuth `eta` in the beam frame `r`. -/
structure AnglesOf (r rd : Matrix (Fin 3) (Fin 3) ℝ) (td o : Fin 3 → ℝ) (xy : ℝ × ℝ) (tth eta : ℝ) : Prop where
  tth_range : 0 ≤ tth ∧ tth ≤ Real.pi
  direction : ∃ s : ℝ, 0 < s ∧ td + (xy.1 • (fun i => rd i 0) + xy.2 • (fun i => rd i 1)) - o =
    s • (r *ᵥ ![Real.sin tth * Real.cos eta, Real.sin tth * Real.sin eta, -Real.cos tth])

/-- `t` is the greatest difference of `f` along the four sides of a quadrangle. -/
def GreatestAlongSides (dist : ℝ → ℝ → ℝ → Prop) (f : Fin 4 → ℝ) (t : ℝ) : Prop :=
  IsGreatest {x | ∃ k : Fin 4, dist (f k) (f (k + 1)) x} t

/-- The point of the equatorial plane on the line through the pole `(0, 0, 1)` and `s`. -/
def Stereographic (s : Fin 3 → ℝ) (q : ℝ × ℝ) : Prop :=
  ∃ t : ℝ, (![0, 0, 1] : Fin 3 → ℝ) + t • (s - ![0, 0, 1]) = ![q.1, q.2, 0]

/-- Azimuthal projection: the point has the distance `rho` from the origin and the azimuth of `s`. -/
def Azimuthal (s : Fin 3 → ℝ) (rho : ℝ) (q : ℝ × ℝ) : Prop :=
  q.1 ^ 2 + q.2 ^ 2 = rho ^ 2 ∧ ∃ c : ℝ, 0 < c ∧ q.1 = c * s 0 ∧ q.2 = c * s 1

end Hexrd.Xrdutil.Spec
