import Verif.Model.Variants

/-!
What a set of variants should be.
-/

namespace Hexrd.Variants
open Matrix

/-- A finite group of orthogonal matrices, each listed once. -/
structure IsPointGroup (G : List M3) : Prop where
  one : (1 : M3) ∈ G
  mul : ∀ a ∈ G, ∀ b ∈ G, a * b ∈ G
  orth : ∀ a ∈ G, a * aᵀ = 1
  inv : ∀ a ∈ G, aᵀ ∈ G
  nodup : G.Nodup

/-- Two orientations of the child are the same variant: they differ by a symmetry of the child. -/
def SameVariant (sym2 : List M3) (v w : M3) : Prop := ∃ s ∈ sym2, w = v * s

/-- The tolerance of the comparisons is small enough: matrices that are taken for equal are equal. -/
def Separated (T : M3) (sym1 sym2 : List M3) : Prop :=
  (∀ s1 ∈ sym1, ∀ s2 ∈ sym2, Close (T * (s2 * Tᵀ)) s1 → T * (s2 * Tᵀ) = s1) ∧
    ∀ a ∈ sym1, ∀ b ∈ sym1, ∀ s ∈ sym2, Close (s * (Tᵀ * aᵀ)) (Tᵀ * bᵀ) → s * (Tᵀ * aᵀ) = Tᵀ * bᵀ

end Hexrd.Variants
