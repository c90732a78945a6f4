import Mathlib.Data.Real.Basic

/-!
Vocabulary of the statements on peak fits, without reference to the model.
-/

namespace Hexrd.PeakFit.Spec

/-- Every parameter that has bounds is between them. -/
def Within (p : List ℝ) (b : List (Option (ℝ × ℝ))) : Prop :=
  ∀ (i : Nat) (v lo hi : ℝ), p[i]? = some v → b[i]? = some (some (lo, hi)) → lo ≤ v ∧ v ≤ hi

/-- Sample `k` of `x` is a nearest one to `t`. -/
def Nearest (x : List ℝ) (t : ℝ) (k : Nat) : Prop :=
  ∃ v, x[k]? = some v ∧ ∀ u ∈ x, |v - t| ≤ |u - t|

end Hexrd.PeakFit.Spec
