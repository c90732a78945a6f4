import Verif.Model.DupVectors
import Verif.Model.Quat

/-!
# Model of `applySym` and `uniqueVectors`
-/
namespace Hexrd.DupVectors

open Matrix

/-- The list `allhkl` of `applySym` (`hexrd/core/rotations.py`:1187-1200). -/
def allHkl (sym : List (Rotations.Quat ℝ)) (csFlag : Bool) (v : Fin 3 → ℝ) : List (Fin 3 → ℝ) :=
  let l := sym.map fun q => Rotations.rotMat q *ᵥ v
  if csFlag then l ++ l.map fun x => -x else l

/-- `applySym(vec, qsym, csFlag, cullPM, tol)` (`hexrd/core/rotations.py`:1180-1203). -/
noncomputable def applySym (sym : List (Rotations.Quat ℝ)) (csFlag cullPM : Bool) (tol : ℝ) (v : Fin 3 → ℝ) :
    List (Fin 3 → ℝ) :=
  let all := allHkl sym csFlag v
  (uid tol cullPM all).filterMap fun i => all[i]?

/-! `uniqueVectors` (`hexrd/core/matrixutil.py`:423-462). `np.argsort` and `np.lexsort` enter as the permutations
they return, given as lists of column numbers. -/

/-- Cumulative count of independent values along the sorted row, after the first entry: pairs of column
number and label (matrixutil.py:441-447). -/
noncomputable def labelLoop (v : ℕ → ℝ) (tol : ℝ) : List ℕ → ℝ → ℕ → List (ℕ × ℕ)
  | [], _, _ => []
  | i :: l, prev, c =>
    have : Decidable (tol < |v i - prev|) := Classical.propDecidable _
    let c' := if tol < |v i - prev| then c + 1 else c
    (i, c') :: labelLoop v tol l (v i) c'

/-- The labels of one row, `rowint` with `tmpord` (matrixutil.py:441-447). -/
noncomputable def rowLabels (v : ℕ → ℝ) (tol : ℝ) : List ℕ → List (ℕ × ℕ)
  | [] => []
  | i :: l => (i, 1) :: labelLoop v tol l (v i) 1

/-- `iv[row, i]` (matrixutil.py:447). -/
noncomputable def label (v : ℕ → ℝ) (tol : ℝ) (ord : List ℕ) (i : ℕ) : ℕ := ((rowLabels v tol ord).lookup i).getD 0

/-- The loop over the columns after the first (matrixutil.py:456-460). -/
def dedupAux {α : Type} [DecidableEq α] (lab : ℕ → α) : α → List ℕ → List ℕ
  | _, [] => []
  | prev, j :: l => if lab j ≠ prev then j :: dedupAux lab (lab j) l else dedupAux lab (lab j) l

/-- The columns that start a run of equal labels in the order of `np.lexsort` (matrixutil.py:451-462). -/
def dedup {α : Type} [DecidableEq α] (lab : ℕ → α) : List ℕ → List ℕ
  | [] => []
  | i :: l => i :: dedupAux lab (lab i) l

/-- The labels of column `i`, last row first, in the order of comparison of `np.lexsort`; `v` are the rows and
`ords` what `np.argsort` returned for them (matrixutil.py:438-451). -/
noncomputable def key (tol : ℝ) (v : List (ℕ → ℝ)) (ords : List (List ℕ)) (i : ℕ) : List ℕ :=
  ((v.zip ords).map fun r => label r.1 tol r.2 i).reverse

/-- The columns returned by `uniqueVectors` (matrixutil.py:423-462). -/
noncomputable def uniqueVectors (tol : ℝ) (v : List (ℕ → ℝ)) (ords : List (List ℕ)) (iNum : List ℕ) : List ℕ :=
  dedup (key tol v ords) iNum

end Hexrd.DupVectors
