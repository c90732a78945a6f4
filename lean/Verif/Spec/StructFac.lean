import Verif.Model.StructFac
import Verif.Spec.Absences
import Verif.Props.Orbit

/-! Symmetric arrangements of atoms. -/

namespace Hexrd.StructFac

open Matrix Hexrd.UnitCell Hexrd.SpaceGroup

/-- A reflection with whole indices. -/
def ofVec (h : Vec) : V3 := ![(h.x : ℝ), (h.y : ℝ), (h.z : ℝ)]

/-- The operator carries the atoms at `ps` to the same places, up to lattice translations. -/
def Keeps (p : Op) (ps : List V3) : Prop := ∃ qs : List V3, qs.Perm ps ∧ List.Forall₂ Congruent (ps.map (applyOp p)) qs

/-- The indices of the reflection that the operator makes of `h`: the row `h` times the rotation. -/
def turned (p : Op) (h : Vec) : Vec :=
  ⟨h.x * p.r.a + h.y * p.r.d + h.z * p.r.g, h.x * p.r.b + h.y * p.r.e + h.z * p.r.h, h.x * p.r.c + h.y * p.r.f + h.z * p.r.i⟩

/-- The displacements do not depend on the direction. -/
def Isotropic (a : Site) : Prop := ∃ u, a.disp = .iso u

/-- Nothing is absorbed by the atom. -/
def NoAbsorption (a : Site) : Prop := a.f2 = 0

end Hexrd.StructFac
