import Mathlib.Analysis.SpecialFunctions.Trigonometric.Basic

/-! # Specification for the indexer: what it means for an angle to be in a range, in a bin, near a pixel -/
namespace Hexrd.Indexer.Spec

/-- The angle `x` lies, up to whole turns, in the half-open range `[a, b)`. -/
def InRange (x : ℝ) (r : ℝ × ℝ) : Prop := ∃ n : ℤ, r.1 ≤ x + 2 * Real.pi * n ∧ x + 2 * Real.pi * n < r.2

/-- No angle lies in two of the ranges. -/
def DisjointRanges (l : List (ℝ × ℝ)) : Prop := l.Pairwise fun r s => ∀ x, ¬ (InRange x r ∧ InRange x s)

/-- `x` lies in bin `i` of the bins with the given edges. -/
def InBin (edges : List ℝ) (x : ℝ) (i : Nat) : Prop :=
  ∃ lo hi, edges[i]? = some lo ∧ edges[i + 1]? = some hi ∧ lo ≤ x ∧ x < hi

/-- Pixel `(i, j)` of a map of `nOme` by `nEta` pixels is at most `dOme`, `dEta` away from `(ome, eta)`. -/
def Near (nOme nEta ome eta dOme dEta : Nat) (ij : Nat × Nat) : Prop :=
  ij.1 < nOme ∧ ij.2 < nEta ∧ ij.1 ≤ ome + dOme ∧ ome ≤ ij.1 + dOme ∧ ij.2 ≤ eta + dEta ∧ eta ≤ ij.2 + dEta

/-- All predicted angles with the number of the family they belong to; every reflection has two solutions. -/
def predictions {A : Type} (F : List (List (A × A))) : List (Nat × A) :=
  F.zipIdx.flatMap fun fk => fk.1.flatMap fun ab => [(fk.2, ab.1), (fk.2, ab.2)]

end Hexrd.Indexer.Spec
