import Mathlib.Data.Matrix.Mul
import Mathlib.Data.Real.Basic
import Mathlib.Data.Fin.Tuple.Basic
import Mathlib.Algebra.BigOperators.Group.List.Basic

/-!
# Model of arrays of matrices (`hexrd/core/matrixutil.py`)

Arrays of numbers are functions of their indices, over any commutative ring; `np.reshape` is arithmetic on the flat index. The
singular value decomposition of numpy is a parameter.
-/
namespace Hexrd.MatArrays

/-- `sij` (matrixutil.py:147): the entries, block by block, each down its columns. -/
def blockData {R : Type} (m n : ℕ) (A : ℕ → ℕ → ℕ → R) (t : ℕ) : R := A (t / (n * m)) (t % (n * m) % m) (t % (n * m) / m)

/-- `j` (matrixutil.py:148): `np.arange(jmax)`, each number `m` times. -/
def blockCol (m t : ℕ) : ℕ := t / m

/-- `i` (matrixutil.py:149-151): `np.arange(m)` again and again, and `m` times the number of the block. -/
def blockRow (m n t : ℕ) : ℕ := t % m + m * (t / (m * n))

/-- `blockSparseOfMatArray` (matrixutil.py:117-159), as a dense matrix: entries given for one place are added up. -/
def blockSparse {R : Type} [CommRing R] (p m n : ℕ) (A : ℕ → ℕ → ℕ → R) (a b : ℕ) : R :=
  ((List.range (p * m * n)).map fun t => if blockRow m n t = a ∧ blockCol m t = b then blockData m n A t else 0).sum

/-- `multMatArray` (matrixutil.py:397-420), with inner dimension `n`. -/
def multMatArray {R : Type} [CommRing R] (n : ℕ) (A B : ℕ → ℕ → ℕ → R) (l i k : ℕ) : R :=
  ((List.range n).map fun j => A l i j * B l j k).sum

/-- The loop of `rankOneMatrix` (matrixutil.py:271-277): in turn `i` the rows `i * m1 … i * m1 + m1 - 1` are written. -/
def rankLoop {R : Type} [CommRing R] (m1 : ℕ) (v1 v2 : ℕ → ℕ → R) : ℕ → ℕ → ℕ → R
  | 0 => fun _ _ => 0
  | i + 1 => fun row k => if i * m1 ≤ row ∧ row < i * m1 + m1 then v1 (row - i * m1) k * v2 i k else rankLoop m1 v1 v2 i row k

/-- `rankOneMatrix` (matrixutil.py:232-280) before `squeeze`: entry `(k, r, i)`. -/
def rankOne {R : Type} [CommRing R] (m1 m2 : ℕ) (v1 v2 : ℕ → ℕ → R) (k r i : ℕ) : R :=
  let flat := (k * m2 + i) * m1 + r
  rankLoop m1 v1 v2 m2 (flat % (m1 * m2)) (flat / (m1 * m2))

open Classical in
/-- The rows of `V` with small singular values, these filled up with zeros (matrixutil.py:107-114), for a matrix with `n` rows and `m`
columns. -/
noncomputable def nullRows {n m : ℕ} (tol : ℝ) (S : Fin n → ℝ) (V : Matrix (Fin m) (Fin m) ℝ) : List (Fin m → ℝ) :=
  ((List.finRange m).filter fun i : Fin m => decide ((if h : i.1 < n then S ⟨i, h⟩ else 0) ≤ tol)).map fun i j => V i j

/-- Rows to columns, of `w` rows of length `m` (matrixutil.py:105). -/
noncomputable def transposeRows {m : ℕ} (rows : List (Fin m → ℝ)) : List (List ℝ) := (List.finRange m).map fun i => rows.map fun r => r i

/-- `nullSpace` (matrixutil.py:96-114): the rows of the result. `svd` gives the singular values and the second orthogonal matrix. -/
noncomputable def nullSpace (svd : ∀ {n m : ℕ}, Matrix (Fin n) (Fin m) ℝ → (Fin n → ℝ) × Matrix (Fin m) (Fin m) ℝ) (tol : ℝ)
    {n m : ℕ} (A : Matrix (Fin n) (Fin m) ℝ) : List (List ℝ) :=
  if m < n then transposeRows (nullRows tol (svd A.transpose).1 (svd A.transpose).2)
  else (nullRows tol (svd A).1 (svd A).2).map List.ofFn

end Hexrd.MatArrays
