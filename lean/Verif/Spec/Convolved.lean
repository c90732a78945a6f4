import Mathlib.Analysis.SpecialFunctions.Gaussian.GaussianIntegral
import Mathlib.MeasureTheory.Integral.IntegralEqImproper

/-! Foldings of a Gaussian and a Lorentzian with the shapes of a pulse (C160). -/

namespace Hexrd.Convolved.Spec
open MeasureTheory Set

/-- The complementary error function. -/
noncomputable def erfc (x : ℝ) : ℝ := 2 / √Real.pi * ∫ t in Ioi x, Real.exp (-t ^ 2)

/-- The density of the normal distribution with standard deviation `w`. -/
noncomputable def gauss (w x : ℝ) : ℝ := Real.exp (-x ^ 2 / (2 * w ^ 2)) / (w * √(2 * Real.pi))

/-- The density of an exponential decay with mean `tau`. -/
noncomputable def decay (tau s : ℝ) : ℝ := if 0 < s then Real.exp (-s / tau) / tau else 0

/-- Two exponentials back to back, with rates `a` before and `b` after zero. -/
noncomputable def backToBack (a b s : ℝ) : ℝ := a * b / (a + b) * if 0 < s then Real.exp (-(b * s)) else Real.exp (a * s)

/-- The density of half a normal distribution. -/
noncomputable def halfGauss (sigma s : ℝ) : ℝ := if 0 < s then 2 * gauss sigma s else 0

/-- The Lorentzian of area one with full width `w` at half maximum. -/
noncomputable def lorentz (w x : ℝ) : ℝ := w / 2 / Real.pi / (x ^ 2 + (w / 2) ^ 2)

/-- `exp(z)` times the exponential integral of `z`, for `z` off the real axis. -/
noncomputable def expE1 (z : ℂ) : ℂ := ∫ t in Ioi (0 : ℝ), (Real.exp (-t) : ℂ) / (t + z)

/-- The folding of two functions. -/
noncomputable def fold (f g : ℝ → ℝ) (x : ℝ) : ℝ := ∫ s, f s * g (x - s)

end Hexrd.Convolved.Spec
