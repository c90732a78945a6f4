import Verif.Model.Spectrum

/-!
What a set of constrained parameters allows.
-/

namespace Hexrd.Spectrum.Spec

/-- The value of an expression for given parameter values. -/
def eval (v : Name → ℝ) : Expr → ℝ
  | .same n => v n
  | .add a b => v a + v b

/-- `v` respects the parameter `n` of `ps`: the value of its expression if it has one; otherwise its own value if it does
not vary, and a value within its bounds if it does. -/
def Respects (ps : Params) (v : Name → ℝ) (n : Name) : Prop :=
  match (ps.get n).expr with
  | some e => v n = eval v e
  | none => if (ps.get n).vary then (∀ lo ∈ (ps.get n).min, lo ≤ v n) ∧ ∀ hi ∈ (ps.get n).max, v n ≤ hi
      else v n = (ps.get n).value

/-- The values that an optimizer may give to the parameters. -/
def Admissible (ps : Params) (v : Name → ℝ) : Prop := ∀ n ∈ ps.names, Respects ps v n

/-- Parameters of a peak of amplitude `u` at `pos` with (equal) widths `w` and mixing one half. -/
noncomputable def startRow (t : Hexrd.Peaks.PkType) (u pos w : ℝ) : List ℝ :=
  match t with
  | .gaussian | .lorentzian => [u, pos, w]
  | .pvoigt => [u, pos, w, 1 / 2]
  | .splitPvoigt => [u, pos, w, w, 1 / 2, 1 / 2]

end Hexrd.Spectrum.Spec
