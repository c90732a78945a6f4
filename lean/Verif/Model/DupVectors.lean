import Mathlib.Algebra.Order.Group.Abs
import Mathlib.Data.Real.Basic
import Mathlib.Algebra.BigOperators.Group.Finset.Basic

/-!
# Model of the search for duplicate vectors (`hexrd/core/matrixutil.py`)

Columns are functions on `Fin d` with real values; the array of columns is a list.
-/
namespace Hexrd.DupVectors

variable {d : ℕ}

/-- `np.sum(np.abs(a - b))` -/
noncomputable def dist1 (a b : Fin d → ℝ) : ℝ := (List.ofFn fun k => |a k - b k|).sum

open Classical in
/-- The comparison of columns `a` and `b` (matrixutil.py:530-545). -/
noncomputable def near (tol : ℝ) (equivPM : Bool) (a b : Fin d → ℝ) : Bool :=
  if equivPM then decide (dist1 a (fun k => -b k) < tol) || decide (dist1 a b < tol)
  else decide (dist1 a b < tol)

/-- The comparison of columns by number; columns that do not exist are never compared. -/
noncomputable def close (tol : ℝ) (pm : Bool) (vec : List (Fin d → ℝ)) (i j : ℕ) : Bool :=
  match vec[i]?, vec[j]? with
  | some a, some b => near tol pm a b
  | _, _ => false

/-- The loop over `jj` for one `ii`, from `jj` on, `n` more columns (matrixutil.py:527-545): returns
the new elements and the new master list. -/
def innerLoop (close : ℕ → ℕ → Bool) (ii : ℕ) : ℕ → ℕ → List ℕ → List ℕ → List ℕ × List ℕ
  | 0, _, elem, master => (elem, master)
  | n + 1, jj, elem, master =>
    if jj ∈ master then innerLoop close ii n (jj + 1) elem master
    else if close ii jj then innerLoop close ii n (jj + 1) (elem ++ [jj]) (master ++ [jj])
    else innerLoop close ii n (jj + 1) elem master

/-- The loop over `ii`, from `ii` on, `n` more columns (matrixutil.py:524-548): the rows of `eqv`
without the NaN entries. -/
def outerLoop (close : ℕ → ℕ → Bool) (m : ℕ) : ℕ → ℕ → List ℕ → List (List ℕ)
  | 0, _, _ => []
  | n + 1, ii, master =>
    let r := innerLoop close ii (m - (ii + 1)) (ii + 1) [] master
    r.1 :: outerLoop close m n (ii + 1) r.2

/-- `_findduplicatevectors` (matrixutil.py:480-550). -/
noncomputable def rows (tol : ℝ) (pm : Bool) (vec : List (Fin d → ℝ)) : List (List ℕ) :=
  outerLoop (close tol pm vec) vec.length vec.length 0 []

/-- The second result `uid2` of `findDuplicateVectors` (matrixutil.py:465-470). -/
noncomputable def uid (tol : ℝ) (pm : Bool) (vec : List (Fin d → ℝ)) : List ℕ :=
  (List.range vec.length).filter fun i => i ∉ (rows tol pm vec).flatten

/-- The first result `eqv2` of `findDuplicateVectors` (matrixutil.py:471-476). -/
noncomputable def eqv (tol : ℝ) (pm : Bool) (vec : List (Fin d → ℝ)) : List (List ℕ) :=
  (rows tol pm vec).zipIdx.filterMap fun p => if p.1 = [] then none else some (p.2 :: p.1)

end Hexrd.DupVectors
