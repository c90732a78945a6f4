import Verif.Model.Stephens

/-! Broadening that respects the symmetry of the crystal. -/

namespace Hexrd.Stephens

open Hexrd.SpaceGroup

/-- A function of the indices of a reflection has the same value for the row `(h, k, l)` and for the row times the rotation. -/
def Invariant (f : ℝ → ℝ → ℝ → ℝ) (m : Mat) : Prop :=
  ∀ h k l : ℝ, f (h * m.a + k * m.d + l * m.g) (h * m.b + k * m.e + l * m.h) (h * m.c + k * m.f + l * m.i) = f h k l

/-- The trigonal space groups with a primitive lattice. -/
def trigonalP (sg : Nat) : Prop := 143 ≤ sg ∧ sg ≤ 167 ∧ sg ∉ [146, 148, 155, 160, 161, 166, 167]

end Hexrd.Stephens
