import Verif.Model.CheckRun

/-! # Specification for C174 -/
namespace Hexrd.CheckRun.Spec

/-- Two numbers agree within the tolerance of the comparison. -/
def Agree (x ref : ℝ) : Prop := |x - ref| ≤ 1e-8 + 1e-5 * |ref|

/-- All entries that both arrays have agree. -/
def AgreeAll (value reference : Arr) : Prop :=
  ∀ i j, i < value.rows → i < reference.rows → j < value.cols → j < reference.cols → Agree (value.at' i j) (reference.at' i j)

/-- The dimension along which the results of this name may be incomplete: the columns of the confidence, which has a column for every
coordinate, the rows of all others. The first component is the number of results, the second the length of each. -/
def extent (key : Key) (a : Arr) : ℕ × ℕ := if key = .confidence then (a.cols, a.rows) else (a.rows, a.cols)

end Hexrd.CheckRun.Spec
