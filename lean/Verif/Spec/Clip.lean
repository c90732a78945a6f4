import Verif.Model.Grid
import Mathlib.Analysis.Convex.Hull

/-!
# What clipping a polygon means (C40)
-/
namespace Hexrd.Grid.Spec

/-- `p` is on or to the left of the line from `a` to `b`. -/
def LeftOf (a b p : Pt) : Prop := 0 ≤ (b.1 - a.1) * (p.2 - a.2) - (b.2 - a.2) * (p.1 - a.1)

/-- The sides of the closed polygon: from the last vertex to the first, from the first to the second, and so on. -/
def sides (l : List Pt) : List (Pt × Pt) :=
  match l.getLast? with
  | none => []
  | some z => (z :: l).zip l

/-- The points to the left of every side; for a convex polygon given counterclockwise, its inside. -/
def Inside (l : List Pt) : Set Pt := {p | ∀ e ∈ sides l, LeftOf e.1 e.2 p}

/-- Convex, with the vertices in counterclockwise order: every vertex is to the left of every side. -/
def Convex (l : List Pt) : Prop := ∀ v ∈ l, v ∈ Inside l

/-- All convex combinations of the vertices. -/
def hull (l : List Pt) : Set Pt := convexHull ℝ {v | v ∈ l}

end Hexrd.Grid.Spec
