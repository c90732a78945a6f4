import Verif.Model.NamedBuffer

/-! # Specification for C173 -/
namespace Hexrd.NamedBuffer.Spec

/-- The rectangle with corner `(r, c)` and the size of the panel lies in the array. -/
def Inside (a : Arr) (p : Panel) (r c : ℤ) : Prop := 0 ≤ r ∧ 0 ≤ c ∧ r + p.rows ≤ a.rows ∧ c + p.cols ≤ a.cols

/-- An array of the size of the panel whose entries are those of the rectangle of `a` with corner `(r, c)`. -/
def IsPart (a : Arr) (p : Panel) (r c : ℕ) (b : Arr) : Prop := b.rows = p.rows ∧ b.cols = p.cols ∧ ∀ i j, b.at' i j = a.at' (r + i) (c + j)

end Hexrd.NamedBuffer.Spec
