import Mathlib.Data.Real.Basic

/-!
# What the pixels of a panel are, independent of the code

A panel of `rows × cols` pixels of `psr × psc` mm (rows times columns) is centred at the origin of its plane; row 0 is at
the top (largest `y`), column 0 at the left (smallest `x`).
-/
namespace Hexrd.Detector.Spec

/-- `(x, y)` lies strictly inside pixel `(i, j)`. -/
def InPixel (rows cols : Nat) (psr psc : ℝ) (i j : Int) (x y : ℝ) : Prop :=
  -(cols * psc / 2) + j * psc < x ∧ x < -(cols * psc / 2) + (j + 1) * psc ∧
  rows * psr / 2 - (i + 1) * psr < y ∧ y < rows * psr / 2 - i * psr

/-- `(x, y)` lies in the rectangle that is left of the panel when strips of `bx` mm at the left and right and of `by`
mm at the top and bottom are removed. -/
def InRectangle (rows cols : Nat) (psr psc bx bY x y : ℝ) : Prop :=
  -(cols * psc / 2) + bx ≤ x ∧ x ≤ cols * psc / 2 - bx ∧ -(rows * psr / 2) + bY ≤ y ∧ y ≤ rows * psr / 2 - bY

/-- The centre of pixel `(i, j)`; for other than whole numbers, the point that many pixels from the centre of pixel
`(0, 0)`. -/
noncomputable def centre (rows cols : Nat) (psr psc u v : ℝ) : ℝ × ℝ :=
  (-(cols * psc / 2) + (v + 1 / 2) * psc, rows * psr / 2 - (u + 1 / 2) * psr)

/-- Linear interpolation in both directions between the four pixels `(k, l)`, `(k, l + 1)`, `(k + 1, l)` and
`(k + 1, l + 1)`, a fraction `s` down and a fraction `t` to the right. -/
def mix (img : Nat → Nat → ℝ) (k l : Nat) (s t : ℝ) : ℝ :=
  (1 - s) * ((1 - t) * img k l + t * img k (l + 1)) + s * ((1 - t) * img (k + 1) l + t * img (k + 1) (l + 1))

end Hexrd.Detector.Spec
