import Mathlib.LinearAlgebra.Matrix.Notation
import Mathlib.Analysis.SpecialFunctions.Pow.Real
import Verif.Model.Stiffness
import Verif.Spec.SpaceGroup

/-!
# What a stiffness matrix must satisfy

The elastic energy of a strain is a quadratic form in its Voigt components. The symmetry
of a crystal means that turning the strain by a rotation of the Laue class does not change
its energy (Nye, Physical Properties of Crystals).
-/
namespace Hexrd.Stiffness.Spec

open Matrix

abbrev M3 := Matrix (Fin 3) (Fin 3) ℝ

/-- Engineering strains of a strain tensor, in Voigt order 11, 22, 33, 23, 13, 12. -/
def voigt (e : M3) : Fin 6 → ℝ := ![e 0 0, e 1 1, e 2 2, 2 * e 1 2, 2 * e 0 2, 2 * e 0 1]

/-- Twice the elastic energy of a strain. -/
noncomputable def energy (C : Matrix (Fin 6) (Fin 6) ℝ) (e : M3) : ℝ := ∑ i, ∑ j, C i j * voigt e i * voigt e j

/-- The energy of every strain is unchanged by the rotation `R`. -/
def Invariant (C : Matrix (Fin 6) (Fin 6) ℝ) (R : M3) : Prop :=
  ∀ e : M3, eᵀ = e → energy C (R * e * Rᵀ) = energy C e

/-- Twofold rotation about z. -/
def twoZ : M3 := !![-1, 0, 0; 0, -1, 0; 0, 0, 1]
/-- Twofold rotation about x. -/
def twoX : M3 := !![1, 0, 0; 0, -1, 0; 0, 0, -1]
/-- Fourfold rotation about z. -/
def fourZ : M3 := !![0, -1, 0; 1, 0, 0; 0, 0, 1]
/-- Threefold rotation about z. -/
noncomputable def threeZ : M3 := !![-1 / 2, -√3 / 2, 0; √3 / 2, -1 / 2, 0; 0, 0, 1]
/-- Sixfold rotation about z. -/
noncomputable def sixZ : M3 := !![1 / 2, -√3 / 2, 0; √3 / 2, 1 / 2, 0; 0, 0, 1]
/-- Threefold rotation about [111]. -/
def three111 : M3 := !![0, 0, 1; 1, 0, 0; 0, 1, 0]

/-- Rotations that generate the proper rotations of a Laue class, with the main axis along
z, and in -3m the twofold axis along x. -/
noncomputable def generators : Laue → List M3
  | .ci => []
  | .c2h => [twoZ]
  | .d2h => [twoZ, twoX]
  | .c4h => [fourZ]
  | .d4h => [fourZ, twoX]
  | .s6 => [threeZ]
  | .d3d => [threeZ, twoX]
  | .c6h => [sixZ]
  | .d6h => [sixZ, twoX]
  | .th => [twoZ, twoX, three111]
  | .oh => [fourZ, three111]

/-- The proper rotations of a Laue class. -/
def LaueRotation (g : Laue) (R : M3) : Prop := R = 1 ∨ SpaceGroup.Spec.Generated (· * ·) (generators g) R

end Hexrd.Stiffness.Spec
