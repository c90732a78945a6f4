import Verif.Model.Rietveld

/-! Bragg's law and the intensities that belong to the reflections in a window. -/

namespace Hexrd.Rietveld

/-- Bragg's law: `t` is the scattering angle, in degrees, of planes at distance `d`. -/
def Bragg (wavelength d t : ℝ) : Prop := 0 ≤ t ∧ t ≤ 180 ∧ wavelength = 2 * d * Real.sin (t / 2 * Real.pi / 180)

/-- The planes at distance `d` reflect into the window. -/
def InWindow (wavelength tthMin tthMax d : ℝ) : Prop := ∃ t, Bragg wavelength d t ∧ tthMin ≤ t ∧ t ≤ tthMax

/-- The reflections in the window, in the order of the phase. -/
noncomputable def inWindow (wavelength tthMin tthMax : ℝ) (rs : List Refl) : List Refl :=
  open Classical in rs.filter fun r => decide (InWindow wavelength tthMin tthMax r.dsp)

/-- The Lorentz and polarization factor for a scattering angle in degrees. -/
noncomputable def lorentzPolarization (ph t : ℝ) : ℝ :=
  (1 + ph * Real.cos (t * Real.pi / 180) ^ 2) / (Real.cos (t / 2 * Real.pi / 180) * Real.sin (t / 2 * Real.pi / 180) ^ 2)

/-- `i` is the intensity of the reflection `r`: with its own structure factor, at its own angle. -/
def IsIntensity (scale pf ph wavelength : ℝ) (r : Refl) (i : ℝ) : Prop :=
  ∃ t, Bragg wavelength r.dsp t ∧ i = scale * pf * r.sf * lorentzPolarization ph t

/-- Sabine's coefficient for crystals that fill more than one extinction length. -/
noncomputable def sabineLarge (x : ℝ) : ℝ :=
  √(2 / (Real.pi * x)) * (1 - 1 / (8 * x) - 3 / (128 * x ^ 2) - 15 / (1024 * x ^ 3))

end Hexrd.Rietveld
