import Verif.Model.StackFault

/-!
# What the shifts and widths by stacking faults should be

Warren, *X-ray Diffraction*, chapter 13; Velterop et al., J. Appl. Cryst. 33 (2000) 296, equation 10. Of the `u + b` equivalents of a
reflection those with `L₀ = h + k + l` not a multiple of three are broadened. The sum for the shift runs over these, with the sign `+` for
`L₀ = 3N + 1` and `-` for `L₀ = 3N - 1`; the one for the width runs over their absolute values.
-/
namespace Hexrd.StackFault.Spec

/-- `L₀`. -/
def level (g : H) : ℤ := g.1 + g.2.1 + g.2.2

/-- The equivalents that are broadened. -/
def broadened (star : List H) : List H := star.filter fun g => ¬ (3 ∣ level g)

/-- The sum over the broadened equivalents of `± L₀`. -/
def signedSum (star : List H) : ℤ := ((broadened star).map fun g => if 3 ∣ level g - 1 then level g else -level g).sum

/-- The sum over the broadened equivalents of `|L₀|`. -/
def absSum (star : List H) : ℤ := ((broadened star).map fun g => |level g|).sum

/-- `h₀²`. -/
def square (h : H) : ℝ := (h.1 : ℝ) ^ 2 + (h.2.1 : ℝ) ^ 2 + (h.2.2 : ℝ) ^ 2

/-- The shift of the peak, in degrees of `2θ`, for the Bragg angle `theta` in radians. -/
noncomputable def shift (alpha theta : ℝ) (h : H) (star : List H) : ℝ :=
  90 * √3 * alpha * Real.tan theta / (Real.pi ^ 2 * square h * star.length) * signedSum star

/-- The factor of `(1.5 α + β) / a` in the inverse of the effective size of the domains. -/
noncomputable def inverseSize (h : H) (star : List H) : ℝ := absSum star / (√(square h) * star.length)

/-- The reflection of order `n`. -/
def order (n : ℤ) (g : H) : H := (n * g.1, n * g.2.1, n * g.2.2)

end Hexrd.StackFault.Spec
