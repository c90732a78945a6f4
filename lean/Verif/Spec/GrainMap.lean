import Verif.Model.GrainMap

/-! Voxels, best grains and corners. Only the data types are those of the model. -/

namespace Hexrd.GrainMap.Spec

/-- The centres of `n` voxels of width `s` from `lo` on. -/
noncomputable def centres (lo s : ℝ) (n : ℕ) : List ℝ := (List.range n).map fun i : ℕ => lo + ((i : ℝ) + 1 / 2) * s

/-- Grain `g` has the greatest confidence `m` of the column, and no grain before it reaches it. -/
def Best (col : List ℝ) (g : ℕ) (m : ℝ) : Prop :=
  col[g]? = some m ∧ (∀ x ∈ col, x ≤ m) ∧ ∀ h < g, ∀ x, col[h]? = some x → x < m

/-- The number of the point in layer `k`, row `j` and column `i` of a flattened volume with rows of `ni` points and layers of `nj`
rows. -/
def number (nj ni k j i : ℕ) : ℕ := (k * nj + j) * ni + i

/-- The corners of a hexahedron in the order of VTK: around the lower face, then around the upper face. -/
def corners : List (ℕ × ℕ × ℕ) :=
  [(0, 0, 0), (0, 0, 1), (0, 1, 1), (0, 1, 0), (1, 0, 0), (1, 0, 1), (1, 1, 1), (1, 1, 0)]

/-- A layer moved along `y`. -/
noncomputable def moved (s : ℝ) (l : Layer) : Layer := l.map fun r => r.map fun p => { p with y := p.y + s }

end Hexrd.GrainMap.Spec
