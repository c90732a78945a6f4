import Verif.Model.Peaks
import Mathlib.Data.Complex.Basic

/-!
# Model of the asymmetric parts of powder peaks

`hexrd/powder/wppf/peakfunctions.py`: the Gaussian and the Lorentzian folded with exponentials, and the Gaussian
folded with half a Gaussian. The part for the pink beam
(wppf/peakfunctions.py:501-527) is the same formula as `Hexrd.Peaks.gaussianPink`. The complementary error function and
the exponential integral times the exponential function are parameters; values that are not numbers, which the code replaces by zero, do not arise for the positive widths considered.
-/
namespace Hexrd.Convolved

/-- `_gaussian_exponential` at one position (wppf/peakfunctions.py:574-602). -/
noncomputable def gaussianExponential (erfc : ℝ → ℝ) (tau w tth x : ℝ) : ℝ :=
  let d := x - tth
  let sigsqr := w ^ 2
  let f2 := sigsqr / tau - 2 * d
  let f3 := √2 * w
  let v := 1 / 2 * f2 / tau
  let z := (f2 + d) / f3
  1 / 2 / tau * Real.exp v * erfc z

/-- `_gaussian_heating` at one position (wppf/peakfunctions.py:606-633). -/
noncomputable def gaussianHeating (erfc : ℝ → ℝ) (sigma w tth x : ℝ) : ℝ :=
  let d := x - tth
  let sigsqr := w ^ 2 + sigma ^ 2
  let sig := √sigsqr
  let f1 := d / sig
  let pre := 1 / 2 / sig / √(2 * Real.pi)
  let f2 := Real.exp (-(1 / 2) * f1 ^ 2)
  let f3 := erfc (-(f1 / √2) * (sigma / w))
  pre * f2 * f3

/-- `_lorentzian_exponential` at one position (wppf/peakfunctions.py:637-657). -/
noncomputable def lorentzianExponential (exp1exp : ℂ → ℂ) (tau w tth x : ℝ) : ℝ :=
  let d := x - tth
  1 / (Real.pi * tau) * (exp1exp ⟨-d / tau, 1 / 2 * w / tau⟩).im

/-- `_lorentzian_pink_beam` at one position (wppf/peakfunctions.py:531-554). -/
noncomputable def lorentzianPink (exp1exp : ℂ → ℂ) (a b w tth x : ℝ) : ℝ :=
  -(a * b) / (Real.pi * (a + b)) * (exp1exp ⟨-a * (x - tth), 1 / 2 * a * w⟩ + exp1exp ⟨-b * (x - tth), 1 / 2 * b * w⟩).im

/-- `_calc_tau` (wppf/peakfunctions.py:558-564). -/
noncomputable def calcTau (a0 a1 a2 tth : ℝ) : ℝ :=
  a0 + a1 * Real.tan (1 / 2 * tth * Real.pi / 180) + a2 * Real.tan (1 / 2 * tth * Real.pi / 180) ^ 2

/-- `_calc_alpha`, `_calc_beta` and `_calc_sigma` (wppf/peakfunctions.py:489-491, 495-497, 568-570). -/
noncomputable def calcLinear (a0 a1 tth : ℝ) : ℝ := a0 + a1 * Real.tan (1 / 2 * tth * Real.pi / 180)

end Hexrd.Convolved
