import Mathlib.Data.Real.Basic

/-!
Vocabulary for C135: the colour wheel.
-/

namespace Hexrd.ColorSpace.Spec

/-- The pure colours at the corners of the wheel: red, yellow, green, cyan, blue, magenta. -/
def corner : Fin 6 → Fin 3 → ℝ
  | 0 => fun i => if i = 0 then 1 else 0
  | 1 => fun i => if i = 2 then 0 else 1
  | 2 => fun i => if i = 1 then 1 else 0
  | 3 => fun i => if i = 0 then 0 else 1
  | 4 => fun i => if i = 2 then 1 else 0
  | 5 => fun i => if i = 1 then 0 else 1

/-- `p` is the pure colour of hue `h`, a fraction of the turn: between two neighbouring corners colours are mixed
linearly. -/
def Pure (h : ℝ) (p : Fin 3 → ℝ) : Prop :=
  ∃ (k : Fin 6) (t : ℝ) (n : ℤ), 0 ≤ t ∧ t ≤ 1 ∧ 6 * h = k.val + t + 6 * n ∧
    ∀ i, p i = (1 - t) * corner k i + t * corner (k + 1) i

/-- The colour of hue `h`, saturation `s` and lightness `l`: black at lightness 0, white at 1, at lightness 1/2 the pure
colour mixed with grey to the degree given by the saturation, and straight lines from black to there and from there to
white. -/
def IsColor (h s l : ℝ) (rgb : Fin 3 → ℝ) : Prop :=
  ∃ p, Pure h p ∧
    ((l ≤ 1 / 2 ∧ ∀ i, rgb i = 2 * l * (s * p i + (1 - s) * (1 / 2))) ∨
     (1 / 2 ≤ l ∧ ∀ i, rgb i = 1 - 2 * (1 - l) * (1 - (s * p i + (1 - s) * (1 / 2)))))

end Hexrd.ColorSpace.Spec
