import Verif.Model.CellSummary
import Mathlib.LinearAlgebra.Matrix.Determinant.Basic
import Mathlib.Data.Matrix.Mul

/-! # Specification for C172 -/
namespace Hexrd.CellSummary.Spec

/-- How many atoms an entry puts in the cell on average. -/
noncomputable def atoms (s : Site) : ℝ := s.num * s.occ

/-- A quantity summed over the atoms of the cell. -/
noncomputable def total (q : ℕ → ℝ) (sites : List Site) : ℝ := (sites.map fun s => atoms s * q s.z).sum

/-- The mean of a quantity over the atoms of the cell. -/
noncomputable def mean (q : ℕ → ℝ) (sites : List Site) : ℝ := total q sites / total (fun _ => 1) sites

/-- The metric of a lattice of a crystal system in its usual basis; trigonal crystals are in the hexagonal one. -/
structure Metric (c : System) (g : Matrix (Fin 3) (Fin 3) ℝ) : Prop where
  symm : g.transpose = g
  pos : ∀ v : Fin 3 → ℝ, v ≠ 0 → 0 < dotProduct v (g.mulVec v)
  shape : match c with
    | .triclinic => True
    | .monoclinic => g 0 1 = 0 ∧ g 1 2 = 0
    | .orthorhombic => g 0 1 = 0 ∧ g 1 2 = 0 ∧ g 0 2 = 0
    | .tetragonal => g 0 1 = 0 ∧ g 1 2 = 0 ∧ g 0 2 = 0 ∧ g 0 0 = g 1 1
    | .trigonal | .hexagonal => g 0 1 = - g 0 0 / 2 ∧ g 1 2 = 0 ∧ g 0 2 = 0 ∧ g 0 0 = g 1 1
    | .cubic => g 0 1 = 0 ∧ g 1 2 = 0 ∧ g 0 2 = 0 ∧ g 0 0 = g 1 1 ∧ g 0 0 = g 2 2

def vec (d : ℤ × ℤ × ℤ) : Fin 3 → ℤ := ![d.1, d.2.1, d.2.2]

/-- A direction is the axis of a rotation, other than the identity, that all lattices of the system have. -/
def IsAxis (c : System) (d : ℤ × ℤ × ℤ) : Prop :=
  ∃ r : Matrix (Fin 3) (Fin 3) ℤ, r ≠ 1 ∧ r.det = 1 ∧ r.mulVec (vec d) = vec d ∧
    ∀ g, Metric c g → (r.map (Int.cast : ℤ → ℝ)).transpose * g * r.map (Int.cast : ℤ → ℝ) = g

end Hexrd.CellSummary.Spec
