import Mathlib.Analysis.SpecialFunctions.Trigonometric.Basic

/-! Slits seen along the axis of a diffractometer, without reference to the model. -/

namespace Hexrd.PowderPeak.Spec

/-- Length of the part of a slit reaching from `-H` to `H` that lies in the shadow, moved by `h`, of a sample reaching from `-S` to `S`. -/
noncomputable def overlap (H S h : ℝ) : ℝ := max 0 (min H (h + S) - max (-H) (h - S))

/-- Weight at the angle `phi`, for a height `h` of the beam, in the profile of a line (Finger, Cox & Jephcoat, J. Appl. Cryst. 27, 892). -/
noncomputable def axialWeight (H S h phi : ℝ) : ℝ := overlap H S h / (h * Real.cos phi)

end Hexrd.PowderPeak.Spec
