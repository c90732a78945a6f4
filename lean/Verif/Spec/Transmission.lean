import Verif.Model.Transmission
import Mathlib.MeasureTheory.Integral.IntervalIntegral.FundThmCalculus

/-!
# What the intensity corrections stand for
-/
namespace Hexrd.Transmission.Spec
noncomputable section

/-- The mean transmission of a layer that scatters evenly over its depth: a photon scattered at the fraction `u` of the
depth passed `u` of the optical depth `p` on the way in and `1 - u` of the optical depth `q` on the way out. -/
def meanTransmission (p q : ℝ) : ℝ := ∫ u in (0 : ℝ)..1, Real.exp (-(p * u + q * (1 - u)))

/-- The signal of a phosphor of thickness `t`: the energy absorbed at each depth, weakened on the way of the readout
light.  `mu` is the absorption coefficient, `L` the readout length, `secb` the slope of the path. -/
def phosphorSignal (mu L t secb : ℝ) : ℝ := ∫ z in (0 : ℝ)..t, mu * Real.exp (-(mu * secb * z)) * Real.exp (-(z / L))

/-- The area, in units of the squared diameter, that two equal discs have in common when their centres are `j`
diameters apart: four times the area of the quarter of the lens. -/
def lensArea (j : ℝ) : ℝ := 4 * ∫ x in (j / 2)..(1 / 2), Real.sqrt (1 / 4 - x ^ 2)

/-- The direction of the diffracted beam for a beam along -z. -/
def direction (tth eta : ℝ) : ℝ × ℝ × ℝ :=
  (Real.sin tth * Real.cos eta, Real.sin tth * Real.sin eta, -Real.cos tth)

/-- The share of an electric field along x that is perpendicular to the diffracted beam. -/
def shareX (d : ℝ × ℝ × ℝ) : ℝ := 1 - d.1 ^ 2

/-- The share of an electric field along y that is perpendicular to the diffracted beam. -/
def shareY (d : ℝ × ℝ × ℝ) : ℝ := 1 - d.2.1 ^ 2

end
end Hexrd.Transmission.Spec
