import Mathlib.Analysis.SpecialFunctions.Exp
import Mathlib.Analysis.SpecialFunctions.Log.Basic
import Mathlib.Analysis.SpecialFunctions.Trigonometric.Arctan
import Mathlib.Analysis.Real.Sqrt

/-!
# Model of the intensity corrections

Transmission through filter, coating, phosphor, sample and window (`hexrd/core/instrument/detector.py`,
`planar_detector.py`, `cylindrical_detector.py`, `hedm_instrument.py`, `physics_package.py`), Compton energies,
polarization and Lorentz factors (`hexrd/core/material/crystallography.py`) and absorption lengths
(`hexrd/core/material/utils.py`).  One pixel; real numbers; `none` is a value that is not a number.
-/
namespace Hexrd.Transmission
noncomputable section
open Classical

/-- `np.isclose(t, 0)` with the default tolerances (hexrd/core/instrument/detector.py:2017). -/
def closeToZero (t : ℝ) : Prop := |t| ≤ 1e-8

/-- `calc_transmission_generic` (hexrd/core/instrument/detector.py:2011-2021). -/
def generic (secb thickness absLength : ℝ) : ℝ :=
  if closeToZero thickness then 1 else Real.exp (-thickness * (1 / absLength) * secb)

/-- `calc_transmission_phosphor` (hexrd/core/instrument/detector.py:2023-2038). -/
def phosphor (secb thickness readout absLength energy preU0 : ℝ) : ℝ :=
  if closeToZero thickness then 1 else
    let f1 := absLength * thickness
    let f2 := absLength * readout
    let arg := secb + 1 / f2
    preU0 * energy * ((1 - Real.exp (-f1 * arg)) / arg)

/-- The filter, coating and phosphor of a panel: thicknesses and absorption lengths, the readout length and the scale of
the phosphor (hexrd/core/instrument/detector_coatings.py:8-188). -/
structure Stack where
  tf : ℝ
  alf : ℝ
  tc : ℝ
  alc : ℝ
  tp : ℝ
  alp : ℝ
  readout : ℝ
  preU0 : ℝ

/-- `calc_filter_coating_transmission` (hexrd/core/instrument/planar_detector.py:143-190 and
hexrd/core/instrument/cylindrical_detector.py:172-216): the transmission of filter and coating, and the signal of the
phosphor with the arguments in the order of the call. -/
def filterCoating (s : Stack) (secb energy : ℝ) : ℝ × ℝ :=
  (generic secb s.tf s.alf * generic secb s.tc s.alc, phosphor secb s.tp s.alp s.readout energy s.preU0)

/-- `calc_transmission_sample` (hexrd/core/instrument/detector.py:1871-1887). -/
def sample (seca : ℝ) (secb : Option ℝ) (thickness absLength : ℝ) : Option ℝ :=
  if closeToZero thickness then some 1 else
    secb.bind fun secb =>
      let x := 1 / absLength * thickness
      if secb = seca then none else
        some (1 / x / (secb - seca) * (Real.exp (-x * seca) - Real.exp (-x * secb)))

/-- `calc_transmission_window` (hexrd/core/instrument/detector.py:1889-1902); `present` is whether there is a window
material. -/
def window (present : Bool) (secb : Option ℝ) (thickness absLength : ℝ) : Option ℝ :=
  if present = false ∨ closeToZero thickness then some 1 else
    secb.map fun secb => Real.exp (-thickness * (1 / absLength) * secb)

/-- The secant of the exit angle, with beams that leave backwards or nearly along the surface masked out
(hexrd/core/instrument/detector.py:1762-1772). -/
def exitSec (cosb : ℝ) : Option ℝ := if cosb < 0 ∨ |cosb| ≤ 5e-2 then none else some (1 / cosb)

/-- The layers of the package around the sample: thickness, absorption lengths at the energy of the beam and at the
energy after Compton scattering (hexrd/core/instrument/physics_package.py:114-190). -/
structure Package where
  ts : ℝ
  als : ℝ
  alsC : ℝ
  hasWindow : Bool
  tw : ℝ
  alw : ℝ
  alwC : ℝ

/-- `calc_physics_package_transmission` (hexrd/core/instrument/detector.py:1738-1778), from the cosines of the angles at
which the beam enters and leaves. -/
def package (p : Package) (cosa cosb : ℝ) : Option ℝ := do
  let s ← sample (1 / cosa) (exitSec cosb) p.ts p.als
  let w ← window p.hasWindow (exitSec cosb) p.tw p.alw
  pure (s * w)

/-- The end of `calc_compton_transmission` (hexrd/core/instrument/detector.py:1934-1940). -/
def comptonLayer (seca : ℝ) (secb : Option ℝ) (mu mu' thickness : ℝ) : Option ℝ :=
  if thickness ≤ 0 then some 1 else
    secb.bind fun secb =>
      let x1 := mu * thickness * seca
      let x2 := mu' * thickness * secb
      let num := Real.exp (-x1) - Real.exp (-x2)
      if x1 = x2 then none else some (-num / (x1 - x2))

/-- `calc_compton_transmission` for `'sample'` (hexrd/core/instrument/detector.py:1904-1921, 1934-1940). -/
def comptonSampleLayer (p : Package) (seca : ℝ) (secb : Option ℝ) : Option ℝ :=
  comptonLayer seca secb (1 / p.als) (1 / p.alsC) p.ts

/-- `calc_compton_transmission` for `'window'` (hexrd/core/instrument/detector.py:1922-1940). -/
def comptonWindowLayer (p : Package) (seca : ℝ) (secb : Option ℝ) : Option ℝ :=
  if p.hasWindow = false then some 1 else comptonLayer seca secb (1 / p.als) (1 / p.alwC) p.tw

/-- `calc_compton_physics_package_transmission` with `calc_compton_transmission_window`
(hexrd/core/instrument/detector.py:1780-1823, 1953-1969). -/
def comptonFromSample (p : Package) (cosa cosb : ℝ) : Option ℝ := do
  let s ← comptonSampleLayer p (1 / cosa) (exitSec cosb)
  let w ← if p.hasWindow = false then some 1 else
    (exitSec cosb).map fun secb => Real.exp (-(1 / p.alwC) * p.tw * secb)
  pure (s * w)

/-- `calc_compton_window_transmission` with `calc_compton_transmission_sample`
(hexrd/core/instrument/detector.py:1825-1869, 1942-1951). -/
def comptonFromWindow (p : Package) (cosa cosb : ℝ) : Option ℝ := do
  let w ← comptonWindowLayer p (1 / cosa) (exitSec cosb)
  pure (Real.exp (-(1 / p.als) * p.ts * (1 / cosa)) * w)

/-- `pixel_compton_energy_loss` (hexrd/core/instrument/detector.py:615-642); `m` is the rest energy of the electron. -/
def comptonEnergy (m energy tth : ℝ) : ℝ :=
  let angFact := 1 - Real.cos tth
  let beta := energy / m
  energy / (1 + beta * angFact)

/-- `pixel_Q` (hexrd/core/instrument/detector.py:592-613); `lam` is the wavelength. -/
def pixelQ (lam tth : ℝ) : ℝ := 4 * Real.pi * Real.sin (tth * 0.5) / lam

/-- `calc_effective_pinhole_area` (hexrd/core/instrument/detector.py:1971-2009), from the thickness and diameter of the
pinhole and the tangent of the angle to its axis. -/
def pinholeArea (thickness diameter tanb : ℝ) : Option ℝ :=
  if closeToZero thickness ∨ closeToZero diameter then some 1 else
    let jb := thickness / diameter * tanb
    if jb > 1 then none else
      let jb2 := jb ^ 2
      if jb2 ≤ 1e-8 then some (0.5 * (Real.pi / 2 - jb * Real.sqrt (1 - jb2))) else
        if 1 / jb2 - 1 < 0 ∨ 1 - jb2 < 0 then none else
          some (0.5 * (Real.arctan (Real.sqrt (1 / jb2 - 1)) - jb * Real.sqrt (1 - jb2)))

/-- `polarization_factor` (hexrd/core/material/crystallography.py:2233-2269) for an unpolarized beam. -/
def unpolarizedFactor (tth : ℝ) : ℝ := (1 + Real.cos tth ^ 2) / 2

/-- `polarization_factor` (hexrd/core/material/crystallography.py:2233-2269) for a polarized beam. -/
def polarizedFactor (tth eta fHor fVert : ℝ) : ℝ :=
  let ctth2 := Real.cos tth ^ 2
  let seta2 := Real.sin eta ^ 2
  let ceta2 := Real.cos eta ^ 2
  fHor * (seta2 + ceta2 * ctth2) + fVert * (ceta2 + seta2 * ctth2)

/-- `Detector.polarization_factor` (hexrd/core/instrument/detector.py:729-777): the exceptions for fractions that are
negative or do not add up to one (up to `ct.sqrt_epsf`, here `eps`). -/
def panelPolarization (eps tth eta fHor fVert : ℝ) (unpolarized : Bool) : Option ℝ :=
  if |fHor + fVert - 1| > eps then none
  else if fHor < 0 ∨ fVert < 0 then none
  else if unpolarized then some (unpolarizedFactor tth) else some (polarizedFactor tth eta fHor fVert)

/-- `lorentz_factor` (hexrd/core/material/crystallography.py:2208-2230). -/
def lorentzFactor (tth : ℝ) : ℝ := 1 / (Real.cos (0.5 * tth) * Real.sin (0.5 * tth) ^ 2)

/-! ### Absorption lengths -/

/-- `np.interp(x, xs, ys, left=0.0, right=0.0)` (hexrd/core/material/utils.py:113-119) for a table of at least two
increasing abscissae. -/
def interp0 (table : List (ℝ × ℝ)) (x : ℝ) : ℝ :=
  match table with
  | [] => 0
  | [(x0, y0)] => if x = x0 then y0 else 0
  | (x0, y0) :: (x1, y1) :: rest =>
    if x < x0 then 0
    else if x < x1 then y0 + (y1 - y0) / (x1 - x0) * (x - x0)
    else interp0 ((x1, y1) :: rest) x

/-- The mass attenuation coefficient of an element from its table of energies and coefficients
(hexrd/core/material/utils.py:108-121). -/
def massAttenuation (table : List (ℝ × ℝ)) (energy : ℝ) : ℝ :=
  Real.exp (interp0 (table.map fun e => (Real.log e.1, Real.log e.2)) (Real.log energy))

/-- `calculate_molecular_mass` (hexrd/core/material/utils.py:39-49) of a formula given as numbers of atoms and atomic
weights. -/
def molecularMass (formula : List (ℝ × ℝ)) : ℝ := (formula.map fun e => e.1 * e.2).sum

/-- `calculate_linear_absorption_length` (hexrd/core/material/utils.py:66-128); a formula is a list of numbers of atoms,
atomic weights and mass attenuation coefficients.  `calculate_energy_absorption_length`
(hexrd/core/material/utils.py:131-191) is the same with another column of the table. -/
def absorptionLength (density : ℝ) (formula : List (ℝ × ℝ × ℝ)) : ℝ :=
  let mass := molecularMass (formula.map fun e => (e.1, e.2.1))
  let muRho := (formula.map fun e => e.1 * e.2.1 / mass * e.2.2).sum
  let mu := muRho * density * 1e-4
  1 / mu

/-- `HEDPhysicsPackage.layer_standoff` (hexrd/core/instrument/physics_package.py:169-176); `thickness` are the
thicknesses of the layers in order, the last is the pinhole. -/
def layerStandoff (thickness : List ℝ) (idx : Nat) : ℝ :=
  ((List.range' (idx + 1) (thickness.length - 1 - (idx + 1))).map fun i => thickness.getD i 0).sum

end
end Hexrd.Transmission
