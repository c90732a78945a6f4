import Verif.Model.Ipf
import Verif.Spec.UnitCell

/-! What the reduction of a direction and its colour should be. -/
namespace Hexrd.Ipf.Spec

open Matrix Hexrd.UnitCell

/-- `r'` is the first of the images of `r`, in the order of the operators, that lies in the sector. -/
def FirstInside (syms : List M3) (s : Sector) (r r' : Option V3) : Prop :=
  ∃ before S after, syms = before ++ S :: after ∧ r' = r.map (fun v => S *ᵥ v) ∧ inside s r' = true ∧
    ∀ T ∈ before, inside s (r.map fun v => T *ᵥ v) = false

/-- Some image of `r` lies in the sector. -/
def Reducible (syms : List M3) (s : Sector) (r : Option V3) : Prop := ∃ S ∈ syms, inside s (r.map fun v => S *ᵥ v) = true

/-- The four groups that colour all crystals but the triclinic ones and those of the Laue group -3. -/
def isSuper (g : SpaceGroup.PG) : Prop := g = .d2h ∨ g = .d4h ∨ g = .d6h ∨ g = .oh

/-- The cell has the shape that the group asks for. -/
def Fits (L : Cell) : SpaceGroup.PG → Prop
  | .d2h => L.alpha = 90 ∧ L.beta = 90 ∧ L.gamma = 90
  | .d4h => L.alpha = 90 ∧ L.beta = 90 ∧ L.gamma = 90 ∧ L.a = L.b
  | .oh => L.alpha = 90 ∧ L.beta = 90 ∧ L.gamma = 90 ∧ L.a = L.b ∧ L.b = L.c
  | .d6h => L.alpha = 90 ∧ L.beta = 90 ∧ L.gamma = 120 ∧ L.a = L.b
  | _ => False

/-- Edges of positive length, and no entry of the structure matrices that the code takes for 0. -/
def Usable (L : Cell) : Prop := 0 < L.a ∧ 0 < L.b ∧ 0 < L.c ∧ Cell.NoTiny L

/-- On the inner side of the three planes through two vertices of the first three, by more than `t` (the determinants). -/
def Within (s : Sector) (t : ℝ) (x : V3) : Prop :=
  t < triple (vertex s 0) (vertex s 1) x ∧ t < triple (vertex s 0) x (vertex s 2) ∧ t < triple x (vertex s 1) (vertex s 2)

end Hexrd.Ipf.Spec

namespace Hexrd.SpaceGroup.Spec

/-- Order of each crystallographic point group. -/
def PGOrder : PG → Nat
  | .c1 => 1 | .ci => 2 | .c2 => 2 | .cs => 2 | .c2h => 4 | .d2 => 4 | .c2v => 4 | .d2h => 8
  | .c4 => 4 | .s4 => 4 | .c4h => 8 | .d4 => 8 | .c4v => 8 | .d2d => 8 | .d4h => 16
  | .c3 => 3 | .s6 => 6 | .d3 => 6 | .c3v => 6 | .d3d => 12
  | .c6 => 6 | .c3h => 6 | .c6h => 12 | .d6 => 12 | .c6v => 12 | .d3h => 12 | .d6h => 24
  | .t => 12 | .th => 24 | .o => 24 | .td => 24 | .oh => 48

end Hexrd.SpaceGroup.Spec
