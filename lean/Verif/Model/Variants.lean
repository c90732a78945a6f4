import Mathlib.Data.Matrix.Mul
import Mathlib.LinearAlgebra.Matrix.Notation
import Mathlib.LinearAlgebra.CrossProduct
import Mathlib.Data.Real.Basic

/-!
The variants of a phase transformation (`hexrd/phase_transition/variants.py`).
-/

namespace Hexrd.Variants
open Matrix

/-- A 3 by 3 matrix. -/
abbrev M3 := Matrix (Fin 3) (Fin 3) ℝ

/-- `np.sum(np.abs(a - b)) < 1e-6` (variants.py:50-51, 69-70). -/
def Close (a b : M3) : Prop := ∑ i, ∑ j, |a i j - b i j| < 1e-6

noncomputable instance (a b : M3) : Decidable (Close a b) := Classical.dec _

/-- `get_rmats` (variants.py:56-61): the columns are the direction, the third vector and the plane normal. -/
def getRmats (p d : Fin 3 → ℝ) : M3 := (Matrix.of ![d, p ⨯₃ d, p])ᵀ

/-- `isnew` (variants.py:64-73). -/
noncomputable def isNew (m : M3) (rmat sym : List M3) : Bool :=
  !(rmat.any fun r => sym.any fun s => decide (Close (s * r) m))

/-- The loop of `getOR` (variants.py:112-119), on the matrices that are already there. -/
noncomputable def orLoop (r1 r2 : M3) (sym2 : List M3) : List M3 → List M3 → List M3
  | rmat, [] => rmat
  | rmat, sa :: rest =>
    let ma := sa * r1
    let m := r2 * maᵀ
    orLoop r1 r2 sym2 (if isNew m rmat sym2 then rmat ++ [m] else rmat) rest

/-- `getOR` (variants.py:104-122). -/
noncomputable def getOR (r1 r2 : M3) (sym1 sym2 : List M3) : List M3 :=
  (orLoop r1 r2 sym2 [] sym1).map fun r => rᵀ

/-- The counter of `expected_num_variants` (variants.py:43-52). -/
noncomputable def ctr (r1 r2 : M3) (sym1 sym2 : List M3) : ℕ :=
  let T := r1 * r2ᵀ
  (sym2.map fun s2 => (sym1.filter fun s1 => decide (Close (T * (s2 * Tᵀ)) s1)).length).sum

/-- `expected_num_variants` (variants.py:33-53); a counter of zero, which raises, gives zero here. -/
noncomputable def expectedNumVariants (r1 r2 : M3) (sym1 sym2 : List M3) : ℕ := sym1.length / ctr r1 r2 sym1 sym2

/-- `removeinversion` (variants.py:17-30), on the list that is already there. -/
def removeInversionLoop : List (List ℤ) → List (List ℤ) → List (List ℤ)
  | klist, [] => klist
  | klist, k :: rest =>
    let nk := k.map (-·)
    removeInversionLoop
      (if klist.isEmpty then klist ++ [if nk.sum < k.sum then k else nk]
       else if k ∉ klist ∧ nk ∉ klist then klist ++ [k] else klist) rest

/-- `removeinversion` (variants.py:17-30). -/
def removeInversion (ksym : List (List ℤ)) : List (List ℤ) := removeInversionLoop [] ksym

end Hexrd.Variants
