import Verif.Model.Chunks

/-! What cutting a composite detector into chips should do (C159). -/

namespace Hexrd.Chunks.Spec

/-- The pixel in row `r` and column `c` belongs to the rectangle. -/
def Contains (q : Rect) (r c : ℤ) : Prop := q.r0 ≤ r ∧ r < q.r1 ∧ q.c0 ≤ c ∧ c < q.c1

/-- The value of an array in row `i` and column `j`, if there is one. -/
def at2 {α : Type} (a : List (List α)) (i j : ℕ) : Option α := (a[i]?).bind fun row => row[j]?

/-- The angle, up to full turns, lies in the wedge that starts at `w.1` and ends before `w.2`. -/
def InWedge (turn angle : ℝ) (w : ℝ × ℝ) : Prop := ∃ k : ℤ, w.1 ≤ angle + k * turn ∧ angle + k * turn < w.2

end Hexrd.Chunks.Spec
