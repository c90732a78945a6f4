import Verif.Model.Peaks
import Verif.Model.Stephens
import Mathlib.Analysis.SpecialFunctions.Trigonometric.Inverse

/-!
Peak profiles of the powder pattern (`hexrd/powder/wppf/peakfunctions.py`).

Floating-point numbers are real numbers. A profile acts on one position, except where it is divided by an integral over the positions of
the pattern. `_mixing_factor_pv` (wppf/peakfunctions.py:334-365) and `_unit_gaussian` (wppf/peakfunctions.py:179-195) are the same as in
`hexrd/core/fitting/peakfunctions.py`, modelled by `Hexrd.Peaks.mixingFactor` and `Hexrd.Peaks.unitGaussian`.
-/

namespace Hexrd.PowderPeak

open Hexrd.Peaks

/-- `np.radians`. -/
noncomputable def radians (x : ℝ) : ℝ := x * (Real.pi / 180)

/-- `np.degrees`. -/
noncomputable def degrees (x : ℝ) : ℝ := x * (180 / Real.pi)

/-- `_gaussian_fwhm` (wppf/peakfunctions.py:56-80). -/
noncomputable def gaussianFwhm (U V W P gammaSqr eta tth dsp : ℝ) : ℝ :=
  let th := radians (0.5 * tth)
  let tanth := Real.tan th
  let cth2 := Real.cos th ^ 2
  let sig2 := degrees (gammaSqr * (1 - eta) ^ 2 * dsp ^ 4) * 1e4
  let sigsqr := (U + sig2) * tanth ^ 2 + V * tanth + W + P / cth2
  √(if sigsqr ≤ 0 then 1.0e-12 else sigsqr) * 1e-2

/-- `_lorentzian_fwhm` (wppf/peakfunctions.py:84-107). -/
noncomputable def lorentzianFwhm (X Y xySf gammaSqr eta tth dsp : ℝ) : ℝ :=
  let th := radians (0.5 * tth)
  let sig := degrees (√gammaSqr * eta * dsp ^ 2) * 1e2
  ((X + xySf) / Real.cos th + (Y + sig) * Real.tan th) * 1e-2

/-- `_unit_lorentzian` (wppf/peakfunctions.py:202-217). -/
noncomputable def unitLorentzian (x0 fwhm x : ℝ) : ℝ :=
  let gamma := fwhm / lorentzWidth
  gamma / ((x - x0) ^ 2 + gamma ^ 2)

/-- `_heaviside` (wppf/peakfunctions.py:221-231). -/
noncomputable def heaviside (x x0 : ℝ) : ℝ := if x < 0 then 0 else if x = 0 then x0 else 1

/-- `_split_unit_gaussian` (wppf/peakfunctions.py:239-268). -/
noncomputable def splitUnitGaussian (x0 wl wr x : ℝ) : ℝ :=
  unitGaussian x0 wl x * heaviside (x0 - x) 1 + unitGaussian x0 wr x * heaviside (x - x0) 1

/-- `_split_unit_pv` (wppf/peakfunctions.py:277-330). -/
noncomputable def splitUnitPv (x0 gl ll gr lr x : ℝ) : ℝ :=
  let mL := mixingFactor gl ll
  let mR := mixingFactor gr lr
  let pvL := mL.1 * (unitLorentzian x0 mL.2 x * (mL.2 / lorentzWidth)) + (1 - mL.1) * unitGaussian x0 mL.2 x
  let pvR := mR.1 * (unitLorentzian x0 mR.2 x * (mR.2 / lorentzWidth)) + (1 - mR.1) * unitGaussian x0 mR.2 x
  pvL * heaviside (x0 - x) 1 + pvR * heaviside (x - x0) 1

/-- `pvoight_wppf` (wppf/peakfunctions.py:369-387) with the widths of the two parts. -/
noncomputable def pvoight (fwhmG fwhmL tth x : ℝ) : ℝ :=
  let m := mixingFactor fwhmG fwhmL
  let Ag := 0.9394372787 / m.2
  let Al := 1 / Real.pi
  m.1 * (Al * unitLorentzian tth m.2 x) + (1 - m.1) * (Ag * unitGaussian tth m.2 x)

/-- The parameters of the widths of a phase: `uvw`, `p`, `xy`, `shkl`, `eta_mixing`. -/
structure Widths where
  U : ℝ
  V : ℝ
  W : ℝ
  P : ℝ
  X : ℝ
  Y : ℝ
  shkl : Fin 15 → ℝ
  eta : ℝ

/-- A reflection: `tth`, `dsp`, `hkl`, `xy_sf`. -/
structure Refl where
  tth : ℝ
  dsp : ℝ
  h : ℝ
  k : ℝ
  l : ℝ
  xySf : ℝ

/-- `pvoight_wppf` (wppf/peakfunctions.py:369-387). -/
noncomputable def pvoightWppf (w : Widths) (r : Refl) (x : ℝ) : ℝ :=
  let gammaSqr := Stephens.gammaSqr w.shkl r.h r.k r.l
  pvoight (gaussianFwhm w.U w.V w.W w.P gammaSqr w.eta r.tth r.dsp)
    (lorentzianFwhm w.X w.Y r.xySf gammaSqr w.eta r.tth r.dsp) r.tth x

/-- `computespectrum_pvtch` (wppf/peakfunctions.py:851-875): the number of terms is that of the shorter of the two lists; the four arrays of
the reflections are one list. -/
noncomputable def computespectrum (w : Widths) (refls : List Refl) (iobs : List ℝ) (x : ℝ) : ℝ :=
  ((refls.zip iobs).map fun p => p.2 * pvoightWppf w p.1 x).foldl (· + ·) 0

/-! ### Axial divergence -/

/-- `_func_h` (wppf/peakfunctions.py:391-394). -/
noncomputable def funcH (tau tthR : ℝ) : ℝ := √((Real.cos (tthR - tau) / Real.cos tthR) ^ 2 - 1)

/-- `_func_W` (wppf/peakfunctions.py:398-413). -/
noncomputable def funcW (HoL SoL tau tauMin tauInfl tth : ℝ) : ℝ :=
  if tth < Real.pi / 2 then
    if 0 ≤ tau ∧ tau ≤ tauInfl then 2 * min HoL SoL
    else if tauInfl < tau ∧ tau ≤ tauMin then HoL + SoL + funcH tau tth else 0
  else
    if tau ≤ 0 ∧ tauInfl ≤ tau then 2 * min HoL SoL
    else if tau < tauInfl ∧ tauMin ≤ tau then HoL + SoL + funcH tau tth else 0

/-- `tau_min` (wppf/peakfunctions.py:445-447). -/
noncomputable def tauMin (HoL SoL tthR : ℝ) : ℝ := tthR - Real.arccos (Real.cos tthR * √((HoL + SoL) ^ 2 + 1))

/-- `tau_infl` (wppf/peakfunctions.py:450-452). -/
noncomputable def tauInfl (HoL SoL tthR : ℝ) : ℝ := tthR - Real.arccos (Real.cos tthR * √((HoL - SoL) ^ 2 + 1))

/-- The factor `fact` of a node `xn` with the weight `wn` (wppf/peakfunctions.py:454-466). -/
noncomputable def fact (HoL SoL tthR xn wn : ℝ) : ℝ :=
  let tau := tauMin HoL SoL tthR * xn
  wn * (funcW HoL SoL tau (tauMin HoL SoL tthR) (tauInfl HoL SoL tthR) tthR / funcH tau tthR / Real.cos tau)

/-! ### Division by the area -/

/-- `np.trapezoid(y, x)`. -/
noncomputable def trapz : List ℝ → List ℝ → ℝ
  | y0 :: y1 :: ys, x0 :: x1 :: xs => (x1 - x0) * (y0 + y1) / 2 + trapz (y1 :: ys) (x1 :: xs)
  | _, _ => 0

open Classical in
/-- The area by which a part is divided (wppf/peakfunctions.py:714-719, 756-761, 798-803). -/
noncomputable def safeArea (y x : List ℝ) : ℝ := if |trapz y x| < 1e-6 then 1 else trapz y x

/-- The last line of `pvoight_pink_beam`, `pvoight_exponential` and `pvoight_heating` (wppf/peakfunctions.py:721, 763, 805): the parts are
given by their values at the positions. -/
noncomputable def mixed (n : ℝ) (g l tthList : List ℝ) : List ℝ :=
  List.zipWith (fun lv gv => n * lv / safeArea l tthList + (1 - n) * gv / safeArea g tthList) l g

end Hexrd.PowderPeak
