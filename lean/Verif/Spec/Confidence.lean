import Verif.Model.Confidence

/-! Pixels, frames and the fraction of lit spots. Only the data types are those of the model. -/

namespace Hexrd.Confidence.Spec

/-- `t` lies in cell `i` of a ruler that begins at `b` and has cells of (signed) width `δ`. -/
def InCell (b δ t : ℝ) (i : ℕ) : Prop := ∃ u : ℝ, (i : ℝ) ≤ u ∧ u < i + 1 ∧ t = b + u * δ

/-- The point is on the sensor and not behind the beam stop. -/
def Visible (s : Sensor) (δ0 δ1 : ℝ) (p : Spot) : Prop :=
  ∃ x y : ℝ, p.1 = some (x, y) ∧ ¬ |y - s.stop| < s.width / 2 ∧
    (∃ i < s.cols, InCell s.b0 δ0 x i) ∧ ∃ j < s.rows, InCell s.b1 δ1 y j

/-- The pixel and the frame of the spot are lit. -/
def Lit (s : Sensor) (δ0 δ1 δ2 : ℝ) (img : Stack Bool) (p : Spot) : Prop :=
  ∃ x y : ℝ, p.1 = some (x, y) ∧ ∃ i j k : ℕ, InCell s.b0 δ0 x i ∧ InCell s.b1 δ1 y j ∧ InCell s.b2 δ2 p.2 k ∧
    img.val k j i = true

open Classical in
/-- The fraction of the visible spots that are lit, zero if none is visible. -/
noncomputable def fraction (s : Sensor) (δ0 δ1 δ2 : ℝ) (img : Stack Bool) (spots : List Spot) : ℝ :=
  let visible := spots.filter fun p => Visible s δ0 δ1 p
  let lit := visible.filter fun p => Lit s δ0 δ1 δ2 img p
  if visible = [] then 0 else (lit.length : ℝ) / (visible.length : ℝ)

end Hexrd.Confidence.Spec
