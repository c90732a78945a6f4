import Verif.Spec.Transforms

/-!
Vocabulary for C134: what a diffraction spot of a grain is.
-/

namespace Hexrd.GrainFit.Spec

open Matrix Hexrd.Transforms.Spec

/-- A beam along the unit vector `b`, of wavelength `lam`, makes a spot at `xy` on the detector with frame `rd`
and origin `td`: the reciprocal lattice vector `q`, both given in the laboratory, is in Ewald's condition, and the
scattered wave that leaves the crystal at `p` meets the detector at `xy`. -/
def IsSpot (b : Fin 3 → ℝ) (lam : ℝ) (rd : Matrix (Fin 3) (Fin 3) ℝ) (td p q : Fin 3 → ℝ) (xy : ℝ × ℝ) : Prop :=
  IsUnit3 (b + lam • q) ∧ Hits rd td p (b + lam • q) xy

end Hexrd.GrainFit.Spec
