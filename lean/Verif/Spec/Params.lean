import Verif.Model.Params

/-!
# Specification: refinement parameters of phases
-/

namespace Hexrd.Params.Spec

open Hexrd.SpaceGroup

/-- The names of the phases differ, and no name is that of another phase followed by `_sf` or `_twin`. -/
def Separate (names : List Name) : Prop :=
  names.Nodup ∧ ∀ p ∈ names, ∀ q ∈ names, q ≠ p ++ ['_', 's', 'f'] ∧ q ≠ p ++ ['_', 't', 'w', 'i', 'n']

/-- The six lattice parameters (lengths, then angles in degrees) are those of a cell of the lattice type. -/
def LatticeOk : LatticeType → List ℝ → Prop
  | .triclinic, l => ∃ a b c al be ga : ℝ, l = [a, b, c, al, be, ga]
  | .monoclinic, l => ∃ a b c be : ℝ, l = [a, b, c, 90, be, 90]
  | .orthorhombic, l => ∃ a b c : ℝ, l = [a, b, c, 90, 90, 90]
  | .tetragonal, l => ∃ a c : ℝ, l = [a, a, c, 90, 90, 90]
  | .trigonal, l => ∃ a c : ℝ, l = [a, a, c, 90, 90, 120]
  | .hexagonal, l => ∃ a c : ℝ, l = [a, a, c, 90, 90, 120]
  | .cubic, l => ∃ a : ℝ, l = [a, a, a, 90, 90, 90]

/-- A known element inside the unit cell, with an occupation that is a fraction and displacement parameters that are not negative (a
little below zero is allowed for the anisotropic ones). -/
def AtomOk (aniU : Bool) (a : Atom) : Prop :=
  (1 ≤ a.z ∧ a.z ≤ 109) ∧ (0 ≤ a.x ∧ a.x ≤ 1) ∧ (0 ≤ a.y ∧ a.y ≤ 1) ∧ (0 ≤ a.zc ∧ a.zc ≤ 1) ∧ (0 ≤ a.occ ∧ a.occ ≤ 1) ∧
    if aniU then a.u.length = 6 ∧ ∀ v ∈ a.u, -0.001 ≤ v else ∃ v : ℝ, 0 ≤ v ∧ a.u = [v]

/-- The same parameters with any other values. -/
def SameExceptValues (ps qs : Pars) : Prop :=
  ∀ n, (qs n).map (fun p => (p.lo, p.hi, p.vary, p.expr)) = (ps n).map (fun p => (p.lo, p.hi, p.vary, p.expr))

end Hexrd.Params.Spec
