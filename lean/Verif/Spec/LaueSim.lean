import Verif.Spec.Transforms

/-!
What a Laue pattern is: a crystal in a polychromatic beam, in terms of Mathlib's vectors only.
-/

namespace Hexrd.LaueSim.Spec

open Matrix Hexrd.Transforms.Spec

/-- Laue's equation: radiation of wavelength `lam` coming along the unit direction `b` leaves along the unit direction
`d` when the change of the wave vector is the reciprocal lattice vector `q`. -/
def LaueEquation (b d q : Fin 3 → ℝ) (lam : ℝ) : Prop := IsUnit3 d ∧ 0 < lam ∧ (1 / lam) • (d - b) = q

/-- The reciprocal lattice vector of the reflection `h` in the laboratory: metric `B`, orientation `rc`, inverse left
stretch with Mandel-Voigt components `v`, sample rotation `rs`. -/
noncomputable def labVector (rs : Matrix (Fin 3) (Fin 3) ℝ) (v : Fin 6 → ℝ) (rc B : Matrix (Fin 3) (Fin 3) ℝ)
    (h : Fin 3 → ℝ) : Fin 3 → ℝ := rs *ᵥ (tensorOf v *ᵥ (rc *ᵥ (B *ᵥ h)))

/-- A photon of energy `e` (keV) has wavelength `lam` (Angstrom), with Planck's constant, the speed of light and the
elementary charge of the SI. -/
def Photon (e lam : ℝ) : Prop :=
  e * lam = 10 ^ 7 * 299792458 * (662607015 / 10 ^ 42) / (1602176634 / 10 ^ 28)

end Hexrd.LaueSim.Spec
