import Mathlib.Analysis.SpecialFunctions.Exp
import Mathlib.Analysis.SpecialFunctions.Trigonometric.Basic

/-!
What a peak function with a given height, centre and widths is, without reference to the model.
-/

namespace Hexrd.Peaks.Spec

/-- `f` is a peak of height `a` at `c`: it is continuous and positive, has its largest value `a` at `c`, rises strictly up
to there and falls strictly after it, and the positions with at least half of the height are those from `wl` before the
centre to `wr` after it. -/
structure IsPeak (f : ℝ → ℝ) (a c wl wr : ℝ) : Prop where
  top : f c = a
  pos : ∀ x, 0 < f x
  le : ∀ x, f x ≤ a
  rises : StrictMonoOn f (Set.Iic c)
  falls : StrictAntiOn f (Set.Ici c)
  width : ∀ x, a / 2 ≤ f x ↔ c - wl ≤ x ∧ x ≤ c + wr
  continuous : Continuous f

/-- The two coordinates of the offset of `(x, y)` from `(x0, y0)` along axes turned by `theta`. -/
noncomputable def along (theta x0 y0 x y : ℝ) : ℝ := (x - x0) * Real.cos theta + (y - y0) * Real.sin theta
noncomputable def across (theta x0 y0 x y : ℝ) : ℝ := (y - y0) * Real.cos theta - (x - x0) * Real.sin theta

/-- Value of a polynomial with the given coefficients, the constant one first. -/
def poly (c : List ℝ) (x : ℝ) : ℝ := c.foldr (fun a r => a + x * r) 0

/-- The parameters of one peak as the single-peak functions take them. -/
def params (q : List ℝ) : Nat → ℝ := fun i => q.getD i 0

end Hexrd.Peaks.Spec
