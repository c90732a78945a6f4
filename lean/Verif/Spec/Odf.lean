import Verif.Model.Odf
import Verif.Spec.Quat

/-!
# What an orientation distribution function should be
-/
namespace Hexrd.Odf.Spec

open Matrix

/-- A rotation. -/
def IsRot (R : Mat) : Prop := Rᵀ * R = 1 ∧ R.det = 1

/-- A finite group of rotations, each listed once. -/
structure IsGroup (G : List Mat) : Prop where
  rot : ∀ g ∈ G, IsRot g
  nodup : G.Nodup
  one : (1 : Mat) ∈ G
  mul : ∀ g ∈ G, ∀ h ∈ G, g * h ∈ G
  inv : ∀ g ∈ G, gᵀ ∈ G

/-- The mean over all rotations of a function of the rotation angle: the density of the angle
of a random rotation is `(1 - cos ω) / π`. -/
noncomputable def angleMean (f : ℝ → ℝ) : ℝ := ∫ ω in (0 : ℝ)..Real.pi, f ω * ((1 - Real.cos ω) / Real.pi)

/-- The kernel around an orientation, from the cosine of the angle: with `t` the trace of
the relative rotation, `cos² (ω / 2) = (1 + t) / 4`. -/
noncomputable def bell (C κ : ℝ) (r g : Mat) : ℝ := C * ((1 + (gᵀ * r).trace) / 4) ^ κ

/-- The average of a function over the images `s r c` of an orientation. -/
noncomputable def imageMean (S C : List Mat) (f : Mat → ℝ) (r : Mat) : ℝ :=
  (S.map fun s => (C.map fun c => f (s * r * c)).sum).sum / (S.length * C.length)

/-- The density of a unimodal ODF. -/
noncomputable def density (K : Mat → Mat → ℝ) (modes : List Mat) (weights : List ℝ) (g : Mat) : ℝ :=
  ((modes.zip weights).map fun mw => mw.2 * K mw.1 g).sum

/-- A mean over orientations: linear, and the same for functions turned by the operators `S` from
the left and `C` from the right. The mean over all rotations is one. -/
structure IsMean (S C : List Mat) (M : (Mat → ℝ) → ℝ) : Prop where
  add : ∀ f g, M (fun x => f x + g x) = M f + M g
  smul : ∀ (a : ℝ) f, M (fun x => a * f x) = a * M f
  turn : ∀ f, ∀ a ∈ S, ∀ b ∈ C, M (fun x => f (a * x * b)) = M f

end Hexrd.Odf.Spec
