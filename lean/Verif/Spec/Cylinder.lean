import Verif.Spec.Transforms

/-!
Specification of a cylindrical detector, independent of the model: a flat sheet whose x direction has been bent
to an arc of a circle.
-/

namespace Hexrd.Cylinder.Spec

open Matrix

/-- The point of space at arc length `x` and height `y` on the sheet: the sheet touches the plane of the tilted
panel at its centre `t`, and its x direction is bent, with the given radius, towards the panel's own z axis. -/
noncomputable def sheet (r : Matrix (Fin 3) (Fin 3) ℝ) (t : Fin 3 → ℝ) (radius x y : ℝ) : Fin 3 → ℝ :=
  t + r *ᵥ ![radius * Real.sin (x / radius), y, radius * (1 - Real.cos (x / radius))]

/-- A point in the panel's own frame. -/
def local_ (r : Matrix (Fin 3) (Fin 3) ℝ) (t o : Fin 3 → ℝ) : Fin 3 → ℝ := rᵀ *ᵥ (o - t)

/-- The point `o` is within the (infinite) cylinder, whose axis is parallel to the panel's y axis and passes the
point `(0, ·, radius)` of the panel's frame. -/
def Inside (r : Matrix (Fin 3) (Fin 3) ℝ) (t : Fin 3 → ℝ) (radius : ℝ) (o : Fin 3 → ℝ) : Prop :=
  local_ r t o 0 ^ 2 + (local_ r t o 2 - radius) ^ 2 < radius ^ 2

/-- The point with coordinates `xy` of the panel of height `h` and width `w` lies on the ray that leaves `o` in the
direction `u`.  The edges of the height are part of the panel, those of the width are not. -/
def RayHits (r : Matrix (Fin 3) (Fin 3) ℝ) (t : Fin 3 → ℝ) (radius h w : ℝ) (o u : Fin 3 → ℝ) (xy : ℝ × ℝ) : Prop :=
  |xy.2| ≤ h / 2 ∧ |xy.1| < w / 2 ∧ ∃ s : ℝ, 0 < s ∧ o + s • u = sheet r t radius xy.1 xy.2

end Hexrd.Cylinder.Spec
