import Verif.Model.Orbit
import Mathlib.Analysis.SpecialFunctions.Trigonometric.Basic

/-!
Structure factors (`hexrd/powder/wppf/xtal.py`), used by the unit cell and by the Rietveld refinement.

Floating-point numbers are real and complex numbers; the single precision of the form factors is left out.
-/

namespace Hexrd.StructFac

open Matrix Hexrd.UnitCell

/-- The displacement parameters of an atom: `betaij.ndim > 1` chooses between them (xtal.py:150-165). -/
inductive Disp
  | iso (u : ℝ)
  | aniso (b : M3)

/-- What `_calcxrsf` gets for one type of atom (xtal.py:108-126): occupancy, positions in the cell, displacements, the eleven numbers
of the coherent scattering (five amplitudes, a constant, five exponents), the nuclear and the relativistic correction, the atomic
number, and the anomalous factors interpolated at the wavelength (xtal.py:53-54). -/
structure Site where
  occ : ℝ
  pos : List V3
  disp : Disp
  amp : Fin 5 → ℝ
  const : ℝ
  rate : Fin 5 → ℝ
  fNT : ℝ
  frel : ℝ
  z : ℝ
  f1 : ℝ
  f2 : ℝ

/-- `_calcxrayformfactor` for one type of atom (xtal.py:55, 96-102). -/
noncomputable def formFactor (a : Site) (s : ℝ) : ℂ :=
  let fe := a.const + ∑ j, a.amp j * Real.exp (-a.rate j * s)
  ⟨fe + a.fNT + (a.f1 + a.frel - a.z), a.f2⟩

/-- The displacement factor `T` (xtal.py:150-167). -/
noncomputable def temperature (d : Disp) (g : V3) (s : ℝ) : ℝ :=
  match d with
  | .aniso b =>
    Real.exp (-(b 0 0 * g 0 ^ 2 + b 1 1 * g 1 ^ 2 + b 2 2 * g 2 ^ 2
      + 2 * (b 0 1 * g 0 * g 1 + b 0 2 * g 0 * g 2 + b 1 2 * g 1 * g 2)))
  | .iso u => Real.exp (-8 * Real.pi ^ 2 * u * s)

/-- `complex(np.cos(arg), -np.sin(arg))` with `arg = 2.0 * np.pi * np.sum(g * r)` (xtal.py:171-173). -/
noncomputable def phase (g r : V3) : ℂ :=
  let arg := 2 * Real.pi * (g ⬝ᵥ r)
  ⟨Real.cos arg, -Real.sin arg⟩

/-- `s` (xtal.py:133-134): the square of sin(theta)/lambda, from 1/nm² to 1/Å². -/
noncomputable def sSquared (rmt : M3) (g : V3) : ℝ := 25 / 100 * (g ⬝ᵥ (rmt *ᵥ g)) * (1 / 100)

/-- The structure factor `sf` (xtal.py:133-173). -/
noncomputable def structureFactor (rmt : M3) (atoms : List Site) (g : V3) : ℂ :=
  let s := sSquared rmt g
  (atoms.map fun a =>
    let ff := formFactor a s * ((a.occ : ℂ) * (temperature a.disp g s : ℂ))
    (a.pos.map fun r => ff * phase g r).sum).sum

/-- `struct_factors_raw` (xtal.py:175). -/
noncomputable def raw (rmt : M3) (atoms : List Site) (g : V3) : ℝ := ‖structureFactor rmt atoms g‖ ^ 2

/-- `struct_factors` (xtal.py:176). -/
noncomputable def intensity (wInt mult : ℝ) (rmt : M3) (atoms : List Site) (g : V3) : ℝ := wInt * mult * raw rmt atoms g

end Hexrd.StructFac
