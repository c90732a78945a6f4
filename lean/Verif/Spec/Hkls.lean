import Verif.Spec.Absences
import Verif.Spec.UnitCell

/-! Families of reflections, and the reflections of a crystal within a resolution limit. -/
namespace Hexrd.Hkls.Spec

open Hexrd.SpaceGroup Hexrd.UnitCell Matrix

/-- `v` is the image of `u` under one of the operators. -/
def Equivalent (sym : List Mat) (u v : Vec) : Prop := ∃ s ∈ sym, s.act u = v

/-- The length of a reciprocal vector with whole components: the metric is the inverse of
that of the cell. -/
noncomputable def glen (L : Cell) (g : Vec) : ℝ :=
  Real.sqrt (![(g.x : ℝ), g.y, g.z] ⬝ᵥ (L.dmt⁻¹ *ᵥ ![(g.x : ℝ), g.y, g.z]))

/-- A reflection other than the direct beam that the space group does not extinguish and
whose lattice spacing is at least `dmin`. -/
def InRange (L : Cell) (ops : List Op) (dmin : ℝ) (g : Vec) : Prop :=
  g ≠ ⟨0, 0, 0⟩ ∧ ¬ SpaceGroup.Spec.Extinct ops g ∧ dmin ≤ 1 / glen L g

/-- `a` comes before `b`: smaller length, then smaller largest index, smaller sum of the
indices, smaller `l`, `k`, `h`. `len` is the length as the code compares it. -/
def Before (len : Vec → ℝ) (a b : Vec) : Prop :=
  len a < len b ∨ (len a = len b ∧
    [max a.x (max a.y a.z), a.x + a.y + a.z, a.z, a.y, a.x] < [max b.x (max b.y b.z), b.x + b.y + b.z, b.z, b.y, b.x])

end Hexrd.Hkls.Spec
