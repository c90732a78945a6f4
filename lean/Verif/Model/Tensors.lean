import Mathlib.LinearAlgebra.Matrix.Notation
import Mathlib.Analysis.Real.Sqrt
import Verif.Model.Quat

/-!
# Model of the tensor conversions (`hexrd/core/matrixutil.py`)

Entries are real numbers; stacks of matrices are treated one at a time.
-/
namespace Hexrd.Tensors

open Matrix

/-- A 3x3 array. -/
abbrev M3 := Matrix (Fin 3) (Fin 3) ℝ

/-- `fac` (matrixutil.py:167-170, 187-190). -/
noncomputable def fac (scale : Bool) : ℝ := if scale then √2 else 1

/-- `symmToVecMV` (matrixutil.py:162-178). -/
noncomputable def symmToVecMV (A : M3) (scale : Bool) : Fin 6 → ℝ :=
  ![A 0 0, A 1 1, A 2 2, fac scale * A 1 2, fac scale * A 0 2, fac scale * A 0 1]

/-- `vecMVToSymm` (matrixutil.py:181-201). -/
noncomputable def vecMVToSymm (a : Fin 6 → ℝ) (scale : Bool) : M3 :=
  !![a 0, a 5 / fac scale, a 4 / fac scale;
     a 5 / fac scale, a 1, a 3 / fac scale;
     a 4 / fac scale, a 3 / fac scale, a 2]

/-- `strainTenToVec` (matrixutil.py:563-572). -/
def strainTenToVec (A : M3) : Fin 6 → ℝ := ![A 0 0, A 1 1, A 2 2, 2 * A 1 2, 2 * A 0 2, 2 * A 0 1]

/-- `strainVecToTen` (matrixutil.py:575-586). -/
noncomputable def strainVecToTen (a : Fin 6 → ℝ) : M3 :=
  !![a 0, a 5 / 2, a 4 / 2; a 5 / 2, a 1, a 3 / 2; a 4 / 2, a 3 / 2, a 2]

/-- `stressTenToVec` (matrixutil.py:589-598). -/
def stressTenToVec (A : M3) : Fin 6 → ℝ := ![A 0 0, A 1 1, A 2 2, A 1 2, A 0 2, A 0 1]

/-- `stressVecToTen` (matrixutil.py:601-614). -/
def stressVecToTen (a : Fin 6 → ℝ) : M3 := !![a 0, a 5, a 4; a 5, a 1, a 3; a 4, a 3, a 2]

/-- `sqr6i` (matrixutil.py:41). -/
noncomputable def sqr6i : ℝ := 1 / √6
/-- `sqr3i` (matrixutil.py:42). -/
noncomputable def sqr3i : ℝ := 1 / √3
/-- `sqr2i` (matrixutil.py:43). -/
noncomputable def sqr2i : ℝ := 1 / √2
/-- `sqr2b3` (matrixutil.py:46). -/
noncomputable def sqr2b3 : ℝ := √(2 / 3)

/-- `vecdsToSymm` (matrixutil.py:647-664). -/
noncomputable def vecdsToSymm (v : Fin 6 → ℝ) : M3 :=
  let k := sqr3i * v 5
  let t1 := sqr2i * v 0
  let t2 := sqr6i * v 1
  !![t1 - t2 + k, v 2 * sqr2i, v 3 * sqr2i;
     v 2 * sqr2i, -t1 - t2 + k, v 4 * sqr2i;
     v 3 * sqr2i, v 4 * sqr2i, sqr2b3 * v 1 + k]

/-- `symmToVecds`, with `traceToVecdsS` (matrixutil.py:667-684). -/
noncomputable def symmToVecds (A : M3) : Fin 6 → ℝ :=
  ![sqr2i * (A 0 0 - A 1 1), sqr6i * (2 * A 2 2 - A 0 0 - A 1 1), √2 * A 1 0, √2 * A 2 0, √2 * A 2 1,
    sqr3i * (A 0 0 + A 1 1 + A 2 2)]

/-- `skewMatrixOfVector` (matrixutil.py:335-364), rows of `W` reshaped row by row. -/
def skewMatrixOfVector (w : Fin 3 → ℝ) : M3 :=
  !![0, -w 2, w 1; w 2, 0, -w 0; -w 1, w 0, 0]

/-- `vectorOfSkewMatrix` (matrixutil.py:367-394). -/
def vectorOfSkewMatrix (W : M3) : Fin 3 → ℝ := ![-W 1 2, W 0 2, -W 0 1]

/-- The values of `symm` and `skew` (matrixutil.py:283-332). -/
noncomputable def symm (A : M3) : M3 := fun i j => 1 / 2 * (A i j + A j i)
@[inherit_doc symm] noncomputable def skew (A : M3) : M3 := fun i j => 1 / 2 * (A i j - A j i)

/-- `unitVector` (matrixutil.py:76-93) for one column of three. -/
noncomputable def unitVector3 (v : Fin 3 → ℝ) : Fin 3 → ℝ :=
  let nrm := √(v 0 ^ 2 + v 1 ^ 2 + v 2 ^ 2)
  let nrm := if nrm ≤ Rotations.tenEps then 1 else nrm
  fun i => v i / nrm

/-- `nrmlProjOfVecMV` for one column (matrixutil.py:204-229). -/
noncomputable def nrmlProjOfVecMV (v : Fin 3 → ℝ) : Fin 6 → ℝ :=
  let n := unitVector3 v
  ![n 0 ^ 2, n 1 ^ 2, n 2 ^ 2, √2 * n 1 * n 2, √2 * n 0 * n 2, √2 * n 0 * n 1]

/-- A numpy array: shape and data. -/
structure Arr where
  shape : List ℕ
  data : List ℝ

/-- The shape of the argument of `symm`, `skew` and `vectorOfSkewMatrix` after the call: `A.resize(1, m, n)`
works on the caller's array, since `np.asarray` does not copy (matrixutil.py:288-297, 314-323, 377-382). -/
def shapeAfter (a : Arr) : Arr :=
  match a.shape with
  | [m, n] => if m = n then { a with shape := [1, m, n] } else a
  | _ => a

end Hexrd.Tensors
