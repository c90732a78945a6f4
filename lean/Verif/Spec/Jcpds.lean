import Verif.Model.Jcpds

/-! What the symmetry of a crystal says about its cell. -/

namespace Hexrd.Jcpds

/-- The conventional restrictions of the crystal systems (hexagonal axes for trigonal crystals, axis b for monoclinic ones). -/
def Conforms (s : Sym) (l : Lat) : Prop :=
  match s with
  | .triclinic => True
  | .monoclinic => l.al = 90 ∧ l.ga = 90
  | .orthorhombic => l.al = 90 ∧ l.be = 90 ∧ l.ga = 90
  | .tetragonal => l.a = l.b ∧ l.al = 90 ∧ l.be = 90 ∧ l.ga = 90
  | .trigonal => l.a = l.b ∧ l.al = 90 ∧ l.be = 90 ∧ l.ga = 120
  | .hexagonal => l.a = l.b ∧ l.al = 90 ∧ l.be = 90 ∧ l.ga = 120
  | .cubic => l.a = l.b ∧ l.b = l.c ∧ l.al = 90 ∧ l.be = 90 ∧ l.ga = 90
  | _ => False

/-- The last value that a file gives for something, or zero. -/
noncomputable def lastOf (f : Line → Option ℝ) (lines : List Line) : ℝ := ((lines.filterMap f).getLast?).getD 0

end Hexrd.Jcpds
