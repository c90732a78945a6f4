import Verif.Model.MatArrays

/-! What the functions on arrays of matrices should return (C162, C163). -/

namespace Hexrd.MatArrays.Spec

/-- The block diagonal matrix of `A`, with blocks of `m` rows and `n` columns. -/
def blockDiag {R : Type} [CommRing R] (m n : ℕ) (A : ℕ → ℕ → ℕ → R) (a b : ℕ) : R :=
  if a / m = b / n then A (a / m) (a % m) (b % n) else 0

/-- `U`, `S` and `V` are a singular value decomposition of a matrix that is not taller than wide. -/
structure IsSvd {n m : ℕ} (A : Matrix (Fin n) (Fin m) ℝ) (U : Matrix (Fin n) (Fin n) ℝ) (S : Fin n → ℝ)
    (V : Matrix (Fin m) (Fin m) ℝ) : Prop where
  left : U.transpose * U = 1
  right : V * V.transpose = 1
  nonneg : ∀ i, 0 ≤ S i
  prod : A = U * (Matrix.of fun (i : Fin n) (j : Fin m) => if i.1 = j.1 then S i else 0) * V

end Hexrd.MatArrays.Spec
