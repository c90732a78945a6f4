import Verif.Model.UnitCell

/-! Matrices used in the statements about operators of the unit cell. -/
namespace Hexrd

/-- Transposed integer matrix. -/
def SpaceGroup.Mat.transpose (m : SpaceGroup.Mat) : SpaceGroup.Mat := ⟨m.a, m.d, m.g, m.b, m.e, m.h, m.c, m.f, m.i⟩

/-- Diagonal matrix. -/
def UnitCell.diag (x y z : ℝ) : UnitCell.M3 := !![x, 0, 0; 0, y, 0; 0, 0, z]

/-- No entry of the structure matrices is so small that the code clears it, except zeros. -/
def UnitCell.Cell.NoTiny (L : UnitCell.Cell) : Prop :=
  ∀ i j, (L.dsm0 i j = 0 ∨ UnitCell.Cell.eps ≤ |L.dsm0 i j|) ∧ (L.rsm0 i j = 0 ∨ UnitCell.Cell.eps ≤ |L.rsm0 i j|)

/-- A rotation that leaves a metric unchanged. -/
def UnitCell.Invariant (G : UnitCell.M3) (m : SpaceGroup.Mat) : Prop := Matrix.transpose (UnitCell.toReal m) * G * UnitCell.toReal m = G

end Hexrd
