import Verif.Model.MarchDollase
import Mathlib.Analysis.SpecialFunctions.Trigonometric.Inverse

/-! What the March–Dollase model should compute. -/
namespace Hexrd.MarchDollase.Spec

open Hexrd.SpaceGroup Hexrd.UnitCell Hexrd.Hkls

/-- The March–Dollase function of the angle to the preferred axis. -/
noncomputable def march (P α : ℝ) : ℝ := (P ^ 2 * Real.cos α ^ 2 + Real.sin α ^ 2 / P) ^ (-(3 / 2) : ℝ)

/-- The Cartesian vector of a reciprocal lattice vector: the sum of the reciprocal basis
vectors of the cell times the indices. -/
noncomputable def cart (L : Cell) (v : V3) : V3 := Matrix.mulVec L.rsm0 v

/-- The angle between two Cartesian vectors. -/
noncomputable def angle (u v : V3) : ℝ := Real.arccos (u ⬝ᵥ v / (Real.sqrt (u ⬝ᵥ u) * Real.sqrt (v ⬝ᵥ v)))

/-- The stored factors are those of the present material, axis and parameter. -/
def Current (s : MD) : Prop :=
  ∃ m, s.material = some m ∧ s.hklLength = calcLength m.cell s.hkl .r ∧
    s.factors = m.hkls.map (reflection m s.hkl (calcLength m.cell s.hkl .r) s.p)

end Hexrd.MarchDollase.Spec
