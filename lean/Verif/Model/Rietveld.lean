import Mathlib.Analysis.SpecialFunctions.Trigonometric.Inverse
import Mathlib.Data.Real.Basic

/-!
Reflections in the window of a powder pattern and their intensities (`hexrd/powder/wppf/WPPF.py`, `hexrd/powder/wppf/xtal.py`).

Floating-point numbers are real numbers, NaN is `none`; one phase and one wavelength.
-/

namespace Hexrd.Rietveld

noncomputable def radians (x : ℝ) : ℝ := x * Real.pi / 180
noncomputable def degrees (x : ℝ) : ℝ := x * 180 / Real.pi

/-- `_get_tth` for one reflection (xtal.py:20-36): `none` for NaN and a cleared mask. -/
noncomputable def getTth (wavelength d : ℝ) : Option ℝ :=
  let glen := 1 / d
  let sth := glen * wavelength / 2
  open Classical in
  if |sth| ≤ 1 then some (2 * degrees (Real.arcsin sth)) else none

/-- A reflection of a phase: its lattice spacing and the value of `CalcXRSF` for it, which is multiplicity times squared structure
factor times the weight of the wavelength (phase.py:769-817). -/
structure Refl where
  dsp : ℝ
  sf : ℝ

/-- The reflections in the window with their angles, as `calctth` selects them (WPPF.py:267-278): first those that the wavelength
allows, then those between the limits. -/
noncomputable def calctth (wavelength tthMin tthMax : ℝ) (rs : List Refl) : List (Refl × ℝ) :=
  let allowed := rs.filterMap fun r => (getTth wavelength r.dsp).map fun t => (r, t)
  open Classical in
  allowed.filter fun p => decide (tthMin ≤ p.2 ∧ p.2 ≤ tthMax)

/-- `LP` of `PolarizationFactor` for one angle in degrees (WPPF.py:1851-1855). -/
noncomputable def lpFactor (ph tth : ℝ) : ℝ :=
  let t := radians tth
  (1 + ph * Real.cos t ^ 2) / Real.cos (1 / 2 * t) / Real.sin (1 / 2 * t) ^ 2

/-- `compute_intensities` (WPPF.py:1857-1883): `sf` has one entry for each reflection of the phase (WPPF.py:1831), `tth` and `LP` one for
each reflection in the window; the arrays are cut to the shortest and multiplied. `pf` is the phase fraction over the squared volume.
Extinction and absorption are computed and not used. -/
noncomputable def computeIntensities (scale pf ph wavelength tthMin tthMax : ℝ) (rs : List Refl) : List ℝ :=
  let tth := (calctth wavelength tthMin tthMax rs).map (·.2)
  let sf := rs.map (·.sf)
  let lp := tth.map (lpFactor ph)
  let n := min (min tth.length sf.length) lp.length
  List.zipWith (fun s l => scale * pf * s * l) (sf.take n) (lp.take n)

/-- `_calc_x_factor` (xtal.py:185-187). -/
noncomputable def xFactor (k v wavelength fSqr d : ℝ) : ℝ := fSqr * (k * wavelength * d / v) ^ 2

/-- `_calc_bragg_factor` (xtal.py:190-193). -/
noncomputable def braggFactor (x tth : ℝ) : ℝ := Real.sin (radians (tth * (1 / 2))) ^ 2 / √(1 + x)

/-- The coefficient `El` of `_calc_laue_factor` (xtal.py:199-207). -/
noncomputable def laueCoefficient (x : ℝ) : ℝ :=
  open Classical in
  if x ≤ 1 then 1 - 1 / 2 * x + 1 / 4 * x ^ 2 - 5 / 48 * x ^ 3 + 7 / 192 * x ^ 4
  else (2 / Real.pi / x) ^ 2 * (1 - 1 / 8 / x - 3 / 128 * (1 / x) ^ 2 - 15 / 1024 * (1 / x) ^ 3)

/-- `_calc_laue_factor` (xtal.py:196-208). -/
noncomputable def laueFactor (x tth : ℝ) : ℝ := laueCoefficient x * Real.cos (radians (tth * (1 / 2))) ^ 2

/-- `_calc_extinction_factor` for one reflection (xtal.py:217-220). -/
noncomputable def extinction (k v wavelength fSqr d tth : ℝ) : ℝ :=
  let x := xFactor k v wavelength fSqr d
  braggFactor x tth + laueFactor x tth

/-- `_calc_absorption_factor` for one reflection (xtal.py:225-251). `none` is the NaN of zero over zero; for a denominator of infinity the
result is zero. -/
noncomputable def absorption (absFact tth phi wavelength : ℝ) : Option ℝ :=
  let phir := radians phi
  let abl := -absFact * wavelength
  let t := radians tth * (1 / 2)
  open Classical in
  if |phir| ≤ 1 / 1000 then some (Real.exp (abl / Real.cos t))
  else
    let c1 := Real.cos (t + phir)
    let c2 := Real.cos (t - phir)
    let f1 := Real.exp (abl / c1)
    let f2 := Real.exp (abl / c2)
    if |c2| > 1 / 1000 then
      let f3 := abl * (1 - c1 / c2)
      if f3 = 0 then none else some ((f1 - f2) / f3)
    else some 0

end Hexrd.Rietveld
