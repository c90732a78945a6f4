import Verif.Model.Harmonics
import Verif.Model.Laue

/-!
# What a texture model owes to symmetry (C124)

Stated with the rotations of `quatOfLaueGroup`, not with the harmonics.
-/
namespace Hexrd.Texture.Spec

open Hexrd.Rotations Matrix

/-- A unit vector. -/
def IsUnit3 (v : Fin 3 → ℝ) : Prop := v 0 ^ 2 + v 1 ^ 2 + v 2 ^ 2 = 1

/-- Two directions of the crystal that belong to the same family: a chain of rotations of the Laue group and
of inversions leads from one to the other. -/
inductive SameFamily (G : List (Quat ℝ)) : (Fin 3 → ℝ) → (Fin 3 → ℝ) → Prop
  | refl (v) : SameFamily G v v
  | rot {v w} (q) (hq : q ∈ G) (h : SameFamily G v w) : SameFamily G v (rotMat q *ᵥ w)
  | inv {v w} (h : SameFamily G v w) : SameFamily G v (-w)

/-- A rotation about the z axis by the angle `a`. -/
noncomputable def turnZ (a : ℝ) : Matrix (Fin 3) (Fin 3) ℝ :=
  !![Real.cos a, -Real.sin a, 0; Real.sin a, Real.cos a, 0; 0, 0, 1]

/-- Half a turn about the x axis. -/
def halfX : Matrix (Fin 3) (Fin 3) ℝ := !![1, 0, 0; 0, -1, 0; 0, 0, -1]

/-- Half a turn about the y axis. -/
def halfY : Matrix (Fin 3) (Fin 3) ℝ := !![-1, 0, 0; 0, 1, 0; 0, 0, -1]

/-- A third of a turn about the body diagonal. -/
def thirdD : Matrix (Fin 3) (Fin 3) ℝ := !![0, 0, 1; 1, 0, 0; 0, 1, 0]

/-- The symmetries of a sample: none but inversion; a mirror normal to z; three mirrors; every rotation
about z and half a turn normal to it. -/
def SampleOp : Sym → Matrix (Fin 3) (Fin 3) ℝ → Prop
  | .monoclinic, M => M = turnZ Real.pi
  | .orthorhombic, M => M = turnZ Real.pi ∨ M = halfX ∨ M = halfY
  | .axial, M => (∃ a, M = turnZ a) ∨ M = halfX
  | _, _ => False

/-- The symbol of a Laue group in both modules. -/
def laueTag : Sym → Option LaueTag
  | .ci => some .ci
  | .c2h => some .c2h
  | .d2h => some .d2h
  | .c4h => some .c4h
  | .d4h => some .d4h
  | .s6 => some .s6
  | .d3d => some .d3d
  | .c6h => some .c6h
  | .d6h => some .d6h
  | .th => some .th
  | .oh => some .oh
  | _ => none

end Hexrd.Texture.Spec
