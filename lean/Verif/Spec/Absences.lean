import Verif.Model.SpaceGroup

/-!
# Which reflections a space group extinguishes

The operator `x ↦ R x + t` multiplies the structure factor of `h` by `exp(-2πi h·t)` and
turns it into that of `h R`. If `h R = h` and `h·t` is not an integer, the structure factor
vanishes for every arrangement of atoms with that symmetry.
-/
namespace Hexrd.SpaceGroup.Spec

/-- The row vector `h` times the rotation of the operator is `h`. -/
def Fixes (p : Op) (h : Vec) : Prop :=
  h.x * p.r.a + h.y * p.r.d + h.z * p.r.g = h.x ∧
  h.x * p.r.b + h.y * p.r.e + h.z * p.r.h = h.y ∧
  h.x * p.r.c + h.y * p.r.f + h.z * p.r.i = h.z

/-- The phase `h·t` is a whole number of turns; `t` is given in 1/24. -/
def WholePhase (p : Op) (h : Vec) : Prop := (24 : Int) ∣ h.x * p.t.x + h.y * p.t.y + h.z * p.t.z

/-- Some operator fixes `h` and shifts its phase by a fraction of a turn. -/
def Extinct (ops : List Op) (h : Vec) : Prop := ∃ p ∈ ops, Fixes p h ∧ ¬ WholePhase p h

end Hexrd.SpaceGroup.Spec
