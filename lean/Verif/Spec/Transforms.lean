import Mathlib.Data.Matrix.Mul
import Mathlib.LinearAlgebra.Matrix.Determinant.Basic
import Mathlib.LinearAlgebra.CrossProduct
import Mathlib.Analysis.SpecialFunctions.Trigonometric.Basic
import Mathlib.Analysis.Real.Sqrt

/-!
What the coordinate transforms must do, in terms of Mathlib's matrices, dot product and trigonometry only.
-/

namespace Hexrd.Transforms.Spec

open Matrix

/-- A proper rotation: orthogonal, determinant one. -/
def IsRotation (r : Matrix (Fin 3) (Fin 3) ℝ) : Prop := rᵀ * r = 1 ∧ r.det = 1

/-- Elementary rotation about the first axis. -/
noncomputable def rotX (a : ℝ) : Matrix (Fin 3) (Fin 3) ℝ :=
  !![1, 0, 0; 0, Real.cos a, -Real.sin a; 0, Real.sin a, Real.cos a]
/-- Elementary rotation about the second axis. -/
noncomputable def rotY (a : ℝ) : Matrix (Fin 3) (Fin 3) ℝ :=
  !![Real.cos a, 0, Real.sin a; 0, 1, 0; -Real.sin a, 0, Real.cos a]
/-- Elementary rotation about the third axis. -/
noncomputable def rotZ (a : ℝ) : Matrix (Fin 3) (Fin 3) ℝ :=
  !![Real.cos a, -Real.sin a, 0; Real.sin a, Real.cos a, 0; 0, 0, 1]

/-- Unit vector. -/
def IsUnit3 (v : Fin 3 → ℝ) : Prop := v ⬝ᵥ v = 1

/-- `u` is the unit vector along `v`. -/
def IsDirection (u v : Fin 3 → ℝ) : Prop := IsUnit3 u ∧ ∃ c : ℝ, 0 < c ∧ v = c • u

/-- Two angles differ by whole turns. -/
def SameAngle (a b : ℝ) : Prop := ∃ k : ℤ, a = b + 2 * Real.pi * k

/-- `len` is the length, between zero and a full turn, of the arc that goes counter-clockwise from `start` to
`stop`; the full turn is allowed when the two ends coincide. -/
def ArcLength (start stop len : ℝ) : Prop :=
  0 ≤ len ∧ len ≤ 2 * Real.pi ∧ SameAngle stop (start + len)

/-- The angle lies on the counter-clockwise arc from `start` of length `len`, extended by `tol` at both ends. -/
def OnArc (tol start len ang : ℝ) : Prop := ∃ t, -tol ≤ t ∧ t ≤ len + tol ∧ SameAngle ang (start + t)

/-- The angle lies on the arc from `a` to `b` in the given direction (counter-clockwise if `ccw`), within `tol`:
going clockwise from `a` to `b` covers the arc that goes counter-clockwise from `b` to `a`. -/
def Between (tol : ℝ) (ccw : Bool) (a b ang : ℝ) : Prop :=
  if ccw then ∃ len, ArcLength a b len ∧ OnArc tol a len ang
  else ∃ len, ArcLength b a len ∧ OnArc tol b len ang

/-- The direction leaving a set of lattice planes with unit normal `g` lit along the unit direction `b`: mirror
image of the incoming direction in the plane. -/
def reflected (b g : Fin 3 → ℝ) : Fin 3 → ℝ := b - (2 * (b ⬝ᵥ g)) • g

/-- The ray from `p` along `d` meets the detector, whose plane is spanned from `t` by the first two columns of
`r`, at detector coordinates `xy`. -/
def Hits (r : Matrix (Fin 3) (Fin 3) ℝ) (t p d : Fin 3 → ℝ) (xy : ℝ × ℝ) : Prop :=
  ∃ s : ℝ, 0 < s ∧ p + s • d = t + (xy.1 • (fun i => r i 0) + xy.2 • (fun i => r i 1))

/-- The beam frame: third column opposite to the beam, first column in the half plane of the azimuth
reference, right handed. -/
def IsBeamFrame (b e : Fin 3 → ℝ) (r : Matrix (Fin 3) (Fin 3) ℝ) : Prop :=
  IsRotation r ∧ IsDirection (fun i => -r i 2) b ∧ e ⬝ᵥ (fun i => r i 1) = 0 ∧ 0 < e ⬝ᵥ (fun i => r i 0)

/-- The reflection with unit normal `g` (sample frame) is in the Bragg condition for sample rotation `r`, unit
beam `b` and sine of the Bragg angle `s`. -/
def Bragg (r : Matrix (Fin 3) (Fin 3) ℝ) (b g : Fin 3 → ℝ) (s : ℝ) : Prop := b ⬝ᵥ (r *ᵥ g) = -s

/-- The scattered wave, the unit beam `b` plus wavelength `lam` times the reciprocal lattice vector `s` turned by
`r`, has unit length: the reflection diffracts (Ewald's construction). -/
def Diffracts (r : Matrix (Fin 3) (Fin 3) ℝ) (b s : Fin 3 → ℝ) (lam : ℝ) : Prop := IsUnit3 (b + lam • (r *ᵥ s))

/-- The symmetric tensor with the six given Mandel-Voigt components. -/
noncomputable def tensorOf (v : Fin 6 → ℝ) : Matrix (Fin 3) (Fin 3) ℝ :=
  !![v 0, v 5 / √2, v 4 / √2; v 5 / √2, v 1, v 3 / √2; v 4 / √2, v 3 / √2, v 2]

end Hexrd.Transforms.Spec
