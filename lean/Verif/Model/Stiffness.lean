import Verif.Model.UnitCell

/-!
# Model of the stiffness matrix (`hexrd/core/material/unitcell.py`:1079-1106, 1421-1433, 1885-2016)

Floating-point numbers are real numbers; `np.linalg.inv` is the matrix inverse, and raises
on singular matrices.
-/
namespace Hexrd.Stiffness

open Matrix

abbrev M6 := Matrix (Fin 6) (Fin 6) ℝ

/-- The Laue groups `laue_1` .. `laue_11` (unitcell.py:1777-1787). -/
inductive Laue
  | ci | c2h | d2h | c4h | d4h | s6 | d3d | c6h | d6h | th | oh
deriving DecidableEq, Repr

/-- Independent components, triclinic (unitcell.py:1885-1887). -/
def type1 : List (Fin 6 × Fin 6) :=
  (List.finRange 6).flatMap fun i => ((List.finRange 6).filter (fun j => decide (i ≤ j))).map fun j => (i, j)

/-- monoclinic (unitcell.py:1891-1895). -/
def type2 : List (Fin 6 × Fin 6) :=
  type1.filter (· ∉ [(0, 3), (0, 4), (1, 3), (1, 4), (2, 3), (2, 4), (3, 5), (4, 5)])

/-- orthorhombic (unitcell.py:1901-1903). -/
def type3 : List (Fin 6 × Fin 6) := type2.filter (· ∉ [(0, 5), (1, 5), (2, 5), (3, 4)])

/-- cyclic tetragonal (unitcell.py:1908-1910). -/
def type4 : List (Fin 6 × Fin 6) := type2.filter (· ∉ [(2, 5), (3, 4), (1, 1), (1, 2), (1, 5), (4, 4)])

/-- dihedral tetragonal (unitcell.py:1916). -/
def type5 : List (Fin 6 × Fin 6) := type4.filter (· ≠ (0, 5))

/-- trigonal (unitcell.py:1922-1942). -/
def type6 : List (Fin 6 × Fin 6) :=
  type1.filter (· ∉ [(0, 5), (1, 5), (2, 3), (2, 4), (2, 5), (3, 4), (1, 1), (1, 2), (1, 3), (1, 4), (3, 5), (4, 4),
    (4, 5), (5, 5)])

/-- rhombohedral (unitcell.py:1946). -/
def type7 : List (Fin 6 × Fin 6) := type6.filter (· ≠ (0, 4))

/-- hexagonal (unitcell.py:1950). -/
def type8 : List (Fin 6 × Fin 6) := type7.filter (· ≠ (0, 3))

/-- cubic (unitcell.py:1954-1956). -/
def type9 : List (Fin 6 × Fin 6) := type5.filter (· ∉ [(0, 2), (2, 2), (5, 5)])

/-- `x[i, j] = v` -/
def setAt (x : M6) (ij : Fin 6 × Fin 6) (v : ℝ) : M6 := fun k l => if k = ij.1 ∧ l = ij.2 then v else x k l

/-- `C_cyclictet_eq` (unitcell.py:1971-1976). -/
def cyclicTetEq (x : M6) : M6 :=
  let x := setAt x (1, 1) (x 0 0)
  let x := setAt x (1, 2) (x 0 2)
  let x := setAt x (1, 5) (-x 0 5)
  setAt x (4, 4) (x 3 3)

/-- `C_trigonal_eq` (unitcell.py:1979-1988). -/
noncomputable def trigonalEq (x : M6) : M6 :=
  let x := setAt x (1, 1) (x 0 0)
  let x := setAt x (1, 2) (x 0 2)
  let x := setAt x (1, 3) (-x 0 3)
  let x := setAt x (1, 4) (-x 0 4)
  let x := setAt x (3, 5) (-x 0 4)
  let x := setAt x (4, 4) (x 3 3)
  let x := setAt x (4, 5) (x 0 3)
  setAt x (5, 5) (1 / 2 * (x 0 0 - x 0 1))

/-- `C_cubic_eq` (unitcell.py:1991-1999). -/
def cubicEq (x : M6) : M6 :=
  let x := setAt x (0, 2) (x 0 1)
  let x := setAt x (2, 2) (x 0 0)
  let x := setAt x (5, 5) (x 3 3)
  let x := setAt x (1, 1) (x 0 0)
  let x := setAt x (1, 2) (x 0 2)
  let x := setAt x (1, 5) (-x 0 5)
  setAt x (4, 4) (x 3 3)

/-- First entries of `_StiffnessDict` (unitcell.py:2002-2016). -/
def indices : Laue → List (Fin 6 × Fin 6)
  | .ci => type1
  | .c2h => type2
  | .d2h => type3
  | .c4h => type4
  | .d4h => type5
  | .s6 => type6
  | .d3d => type7
  | .c6h => type8
  | .d6h => type8
  | .th => type9
  | .oh => type9

/-- Second entries of `_StiffnessDict` (unitcell.py:2002-2016). -/
noncomputable def constraint : Laue → M6 → M6
  | .ci | .c2h | .d2h => id
  | .c4h | .d4h => cyclicTetEq
  | .s6 | .d3d | .c6h | .d6h => trigonalEq
  | .th | .oh => cubicEq

/-- `Required_C` (unitcell.py:1080-1081). -/
def requiredC (g : Laue) (C : M6) : List ℝ := (indices g).map fun ij => C ij.1 ij.2

/-- `for i in range(6): for j in range(i): C[i, j] = C[j, i]` (unitcell.py:1101-1103). -/
def fillLower (C : M6) : M6 := fun i j => if j < i then C j i else C i j

/-- The matrix built by `MakeStiffnessMatrix` (unitcell.py:1083-1103); `none` is the error
for a wrong number of constants. -/
noncomputable def buildC (g : Laue) (vals : List ℝ) : Option M6 :=
  if vals.length = (indices g).length then
    some (fillLower (constraint g (((indices g).zip vals).foldl (fun C e => setAt C e.1 e.2) 0)))
  else none

/-- The `compliance` property (unitcell.py:1420-1426); `none` is the `LinAlgError`. -/
noncomputable def getCompliance (stiffness : M6) : Option M6 :=
  open Classical in if ((1 / 1000 : ℝ) • stiffness).det = 0 then none else some ((1 / 1000 : ℝ) • stiffness)⁻¹

/-- The `compliance` setter (unitcell.py:1428-1431): the new stiffness. -/
noncomputable def setCompliance (v : M6) : Option M6 :=
  open Classical in if v.det = 0 then none else some ((1000 : ℝ) • v⁻¹)

/-- `MakeStiffnessMatrix` (unitcell.py:1083-1106): the stored stiffness; `none` is an error.
The assignment to `compliance` overwrites the stiffness assigned just before. -/
noncomputable def makeStiffness (g : Laue) (vals : List ℝ) : Option M6 := do
  let C ← buildC g vals
  let inv ← (open Classical in if C.det = 0 then none else some C⁻¹)
  setCompliance inv

end Hexrd.Stiffness
