import Verif.Model.Quat

/-!
# Rotations by quaternions, and symmetry groups of quaternions
-/
namespace Hexrd.Rotations.Spec

open Quat

/-- The conjugate quaternion, the inverse of a unit quaternion. -/
def conj {R : Type} [CommRing R] (q : Quat R) : Quat R := ⟨q.w, -q.x, -q.y, -q.z⟩

/-- A vector as a quaternion without scalar part. -/
def pure {R : Type} [CommRing R] (v : Fin 3 → R) : Quat R := ⟨0, v 0, v 1, v 2⟩

/-- A unit quaternion. -/
def UnitQ (q : Quat ℝ) : Prop := norm2 q = 1

/-- Two quaternions that stand for the same rotation. -/
def SameUpToSign {R : Type} [CommRing R] (p q : Quat R) : Prop := p = q ∨ p = qneg q

/-- A list of unit quaternions that is a group of rotations: with the identity, products and
inverses, all up to sign. -/
structure IsRotGroup (G : List (Quat ℝ)) : Prop where
  unit : ∀ g ∈ G, UnitQ g
  one : ∃ e ∈ G, SameUpToSign e qone
  mul : ∀ g ∈ G, ∀ h ∈ G, ∃ k ∈ G, SameUpToSign k (qmul g h)
  inv : ∀ g ∈ G, ∃ k ∈ G, SameUpToSign k (conj g)

/-- `p` is equivalent to `q` under the crystal symmetries `G`. -/
def Equivalent (G : List (Quat ℝ)) (p q : Quat ℝ) : Prop := ∃ g ∈ G, SameUpToSign p (qmul q g)

/-- Cosine of half the rotation angle between two unit quaternions. -/
def cosHalf (p q : Quat ℝ) : ℝ := |(qmul (conj p) q).w|

/-- `m` is the cosine of half the smallest rotation angle between `p` and the quaternions
equivalent to `q`. -/
def Best (G : List (Quat ℝ)) (p q : Quat ℝ) (m : ℝ) : Prop :=
  (∃ g ∈ G, m = cosHalf p (qmul q g)) ∧ ∀ g ∈ G, cosHalf p (qmul q g) ≤ m

end Hexrd.Rotations.Spec
