import Verif.Model.Ipf

/-! The kinds of operators of the 32 point groups. -/

namespace Hexrd.SpaceGroup.Spec

/-- How many rotations of order 1, 2, 3, 4 and 6 and rotoinversions of order 1, 2, 3, 4 and 6 each point group has. -/
def PGKinds : PG → List Nat
  | .c1 => [1, 0, 0, 0, 0, 0, 0, 0, 0, 0]
  | .ci => [1, 0, 0, 0, 0, 1, 0, 0, 0, 0]
  | .c2 => [1, 1, 0, 0, 0, 0, 0, 0, 0, 0]
  | .cs => [1, 0, 0, 0, 0, 0, 1, 0, 0, 0]
  | .c2h => [1, 1, 0, 0, 0, 1, 1, 0, 0, 0]
  | .d2 => [1, 3, 0, 0, 0, 0, 0, 0, 0, 0]
  | .c2v => [1, 1, 0, 0, 0, 0, 2, 0, 0, 0]
  | .d2h => [1, 3, 0, 0, 0, 1, 3, 0, 0, 0]
  | .c4 => [1, 1, 0, 2, 0, 0, 0, 0, 0, 0]
  | .s4 => [1, 1, 0, 0, 0, 0, 0, 0, 2, 0]
  | .c4h => [1, 1, 0, 2, 0, 1, 1, 0, 2, 0]
  | .d4 => [1, 5, 0, 2, 0, 0, 0, 0, 0, 0]
  | .c4v => [1, 1, 0, 2, 0, 0, 4, 0, 0, 0]
  | .d2d => [1, 3, 0, 0, 0, 0, 2, 0, 2, 0]
  | .d4h => [1, 5, 0, 2, 0, 1, 5, 0, 2, 0]
  | .c3 => [1, 0, 2, 0, 0, 0, 0, 0, 0, 0]
  | .s6 => [1, 0, 2, 0, 0, 1, 0, 2, 0, 0]
  | .d3 => [1, 3, 2, 0, 0, 0, 0, 0, 0, 0]
  | .c3v => [1, 0, 2, 0, 0, 0, 3, 0, 0, 0]
  | .d3d => [1, 3, 2, 0, 0, 1, 3, 2, 0, 0]
  | .c6 => [1, 1, 2, 0, 2, 0, 0, 0, 0, 0]
  | .c3h => [1, 0, 2, 0, 0, 0, 1, 0, 0, 2]
  | .c6h => [1, 1, 2, 0, 2, 1, 1, 2, 0, 2]
  | .d6 => [1, 7, 2, 0, 2, 0, 0, 0, 0, 0]
  | .c6v => [1, 1, 2, 0, 2, 0, 6, 0, 0, 0]
  | .d3h => [1, 3, 2, 0, 0, 0, 4, 0, 0, 2]
  | .d6h => [1, 7, 2, 0, 2, 1, 7, 2, 0, 2]
  | .t => [1, 3, 8, 0, 0, 0, 0, 0, 0, 0]
  | .th => [1, 3, 8, 0, 0, 1, 3, 8, 0, 0]
  | .o => [1, 9, 8, 6, 0, 0, 0, 0, 0, 0]
  | .td => [1, 3, 8, 0, 0, 0, 6, 0, 6, 0]
  | .oh => [1, 9, 8, 6, 0, 1, 9, 8, 6, 0]

/-- Determinant and trace of these operators. -/
def kinds : List (Int × Int) := [(1, 3), (1, -1), (1, 0), (1, 1), (1, 2), (-1, -3), (-1, 1), (-1, 0), (-1, -1), (-1, -2)]

end Hexrd.SpaceGroup.Spec
