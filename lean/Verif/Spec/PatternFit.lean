import Mathlib.Data.Real.Basic
import Mathlib.Data.List.Infix

/-! What a powder pattern fit should keep, without reference to the model. -/

namespace Hexrd.PatternFit.Spec

/-- The pattern with NaN (`none`) at the points that are not used. -/
def masked (y : List ℝ) (used : List Bool) : List (Option ℝ) := List.zipWith (fun v u => if u then some v else none) y used

/-- A name is that of a coefficient of the background. -/
def IsCoefficient (n : List Char) (i : Nat) : Prop := n = ['b', 'k', 'g', '_'] ++ Nat.toDigits 10 i

/-- Only coefficients have the letters "bkg" in their names, and there are fewer than `n` of them. -/
def OnlyCoefficients {V : Type} (params : List (List Char × V)) (n : Nat) : Prop :=
  ∀ e ∈ params, ['b', 'k', 'g'] <:+: e.1 → ∃ i < n, IsCoefficient e.1 i

end Hexrd.PatternFit.Spec
