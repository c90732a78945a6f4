import Verif.Model.SGTables

/-!
# Crystal classes and crystal systems

A crystal class is recognised by counting its operations of each kind; the crystal system
follows from the characteristic axes. Nothing here refers to the space-group number.
-/
namespace Hexrd.SpaceGroup.Spec

/-- Determinant and trace. -/
def det (m : Mat) : Int :=
  m.a * (m.e * m.i - m.f * m.h) - m.b * (m.d * m.i - m.f * m.g) + m.c * (m.d * m.h - m.e * m.g)

def trace (m : Mat) : Int := m.a + m.e + m.i

/-- Number of operations of each kind: rotations of order 1, 2, 3, 4, 6, and inversion,
mirror, rotoinversions of order 3, 4, 6. -/
structure Census where
  one : Nat
  two : Nat
  three : Nat
  four : Nat
  six : Nat
  inv : Nat
  mirror : Nat
  bar3 : Nat
  bar4 : Nat
  bar6 : Nat
deriving DecidableEq, Repr

/-- How many matrices have this determinant and trace. -/
def number (L : List Mat) (d t : Int) : Nat := (L.filter fun m => det m = d ∧ trace m = t).length

/-- The order of a crystallographic rotation is given by its trace. -/
def census (L : List Mat) : Census where
  one := number L 1 3
  two := number L 1 (-1)
  three := number L 1 0
  four := number L 1 1
  six := number L 1 2
  inv := number L (-1) (-3)
  mirror := number L (-1) 1
  bar3 := number L (-1) 0
  bar4 := number L (-1) (-1)
  bar6 := number L (-1) (-2)

/-- The 32 crystal classes (International Tables for Crystallography A, chapter 10). -/
def classCensus : PG → Census
  | .c1 => ⟨1,0,0,0,0, 0,0,0,0,0⟩
  | .ci => ⟨1,0,0,0,0, 1,0,0,0,0⟩
  | .c2 => ⟨1,1,0,0,0, 0,0,0,0,0⟩
  | .cs => ⟨1,0,0,0,0, 0,1,0,0,0⟩
  | .c2h => ⟨1,1,0,0,0, 1,1,0,0,0⟩
  | .d2 => ⟨1,3,0,0,0, 0,0,0,0,0⟩
  | .c2v => ⟨1,1,0,0,0, 0,2,0,0,0⟩
  | .d2h => ⟨1,3,0,0,0, 1,3,0,0,0⟩
  | .c4 => ⟨1,1,0,2,0, 0,0,0,0,0⟩
  | .s4 => ⟨1,1,0,0,0, 0,0,0,2,0⟩
  | .c4h => ⟨1,1,0,2,0, 1,1,0,2,0⟩
  | .d4 => ⟨1,5,0,2,0, 0,0,0,0,0⟩
  | .c4v => ⟨1,1,0,2,0, 0,4,0,0,0⟩
  | .d2d => ⟨1,3,0,0,0, 0,2,0,2,0⟩
  | .d4h => ⟨1,5,0,2,0, 1,5,0,2,0⟩
  | .c3 => ⟨1,0,2,0,0, 0,0,0,0,0⟩
  | .s6 => ⟨1,0,2,0,0, 1,0,2,0,0⟩
  | .d3 => ⟨1,3,2,0,0, 0,0,0,0,0⟩
  | .c3v => ⟨1,0,2,0,0, 0,3,0,0,0⟩
  | .d3d => ⟨1,3,2,0,0, 1,3,2,0,0⟩
  | .c6 => ⟨1,1,2,0,2, 0,0,0,0,0⟩
  | .c3h => ⟨1,0,2,0,0, 0,1,0,0,2⟩
  | .c6h => ⟨1,1,2,0,2, 1,1,2,0,2⟩
  | .d6 => ⟨1,7,2,0,2, 0,0,0,0,0⟩
  | .c6v => ⟨1,1,2,0,2, 0,6,0,0,0⟩
  | .d3h => ⟨1,3,2,0,0, 0,4,0,0,2⟩
  | .d6h => ⟨1,7,2,0,2, 1,7,2,0,2⟩
  | .t => ⟨1,3,8,0,0, 0,0,0,0,0⟩
  | .th => ⟨1,3,8,0,0, 1,3,8,0,0⟩
  | .o => ⟨1,9,8,6,0, 0,0,0,0,0⟩
  | .td => ⟨1,3,8,0,0, 0,6,0,6,0⟩
  | .oh => ⟨1,9,8,6,0, 1,9,8,6,0⟩

/-- Crystal system from the characteristic symmetry: four threefold axes, a sixfold axis, a
threefold axis, a fourfold axis, three twofold axes or mirror normals, one, none. -/
def system (c : Census) : LatticeType :=
  if c.three = 8 then .cubic
  else if 0 < c.six + c.bar6 then .hexagonal
  else if 0 < c.three then .trigonal
  else if 0 < c.four + c.bar4 then .tetragonal
  else if 3 ≤ c.two + c.mirror then .orthorhombic
  else if 0 < c.two + c.mirror then .monoclinic
  else .triclinic

/-- The conditions a crystal system puts on `a, b, c, alpha, beta, gamma` (hexagonal axes
for the trigonal system, unique axis b for the monoclinic system). -/
def MetricConditions {V : Type} (ninety onetwenty : V) (s : LatticeType) (a b c al be ga : V) : Prop :=
  match s with
  | .triclinic => True
  | .monoclinic => al = ninety ∧ ga = ninety
  | .orthorhombic => al = ninety ∧ be = ninety ∧ ga = ninety
  | .tetragonal => a = b ∧ al = ninety ∧ be = ninety ∧ ga = ninety
  | .trigonal => a = b ∧ al = ninety ∧ be = ninety ∧ ga = onetwenty
  | .hexagonal => a = b ∧ al = ninety ∧ be = ninety ∧ ga = onetwenty
  | .cubic => a = b ∧ b = c ∧ al = ninety ∧ be = ninety ∧ ga = ninety

end Hexrd.SpaceGroup.Spec
