import Mathlib.Data.Real.Basic

/-!
# Specification: operations on powder patterns
-/

namespace Hexrd.Pattern.Spec

/-- The positions increase. -/
def Increasing (b : List (ℝ × ℝ)) : Prop := b.Pairwise fun p q => p.1 < q.1

/-- `v` is the value at `x` of the line through two neighbouring points around `x`. -/
def LinAt (b : List (ℝ × ℝ)) (x v : ℝ) : Prop :=
  ∃ l1 p q l2, b = l1 ++ p :: q :: l2 ∧ p.1 ≤ x ∧ x ≤ q.1 ∧ v = p.2 + (q.2 - p.2) / (q.1 - p.1) * (x - p.1)

/-- `x` is within the range of the positions. -/
def Covered (b : List (ℝ × ℝ)) (x : ℝ) : Prop := (∃ p ∈ b, p.1 ≤ x) ∧ ∃ p ∈ b, x ≤ p.1

/-- Equidistant positions `x0`, `x0 + d`, ... -/
def Equidistant (x0 d : ℝ) (b : List (ℝ × ℝ)) : Prop := ∀ (i : ℕ) (p : ℝ × ℝ), b[i]? = some p → p.1 = x0 + i * d

/-- `d` is the pattern `p` where `o` covers it, in the same order, with the values combined with the interpolated ones of `o`. -/
def CombinedWith (op : ℝ → ℝ → ℝ) (p o d : List (ℝ × ℝ)) : Prop :=
  ∃ kept, kept.Sublist p ∧ (∀ a ∈ p, Covered o a.1 ↔ a ∈ kept) ∧
    List.Forall₂ (fun a c => c.1 = a.1 ∧ ∃ v, LinAt o a.1 v ∧ c.2 = op a.2 v) kept d

end Hexrd.Pattern.Spec
