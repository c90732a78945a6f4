import Verif.Model.Absences
import Mathlib.Data.Real.Basic
import Mathlib.Data.Fin.VecNotation

/-!
Anisotropic broadening of powder lines (`hexrd/powder/wppf/peakfunctions.py`, `hexrd/powder/wppf/wppfsupport.py`).

Floating-point numbers are real numbers.
-/

namespace Hexrd.Stephens

open Hexrd.SpaceGroup

/-- `_anisotropic_peak_broadening` (peakfunctions.py:127-155). -/
noncomputable def gammaSqr (s : Fin 15 → ℝ) (h k l : ℝ) : ℝ :=
  s 0 * h ^ 4 + s 1 * k ^ 4 + s 2 * l ^ 4
    + 3 * (s 3 * (h * k) ^ 2 + s 4 * (h * l) ^ 2 + s 5 * (k * l) ^ 2)
    + 2 * (s 6 * k * h ^ 3 + s 7 * h * l ^ 3 + s 8 * l * k ^ 3 + s 9 * h * k ^ 3 + s 10 * l * h ^ 3 + s 11 * k * l ^ 3)
    + 4 * (s 12 * k * l * h ^ 2 + s 13 * h * l * k ^ 2 + s 14 * h * k * l ^ 2)

/-- An equality constraint: source, target, weight (wppfsupport.py:583-589). -/
structure Constraint where
  source : Fin 15
  target : Fin 15
  weight : ℝ

/-- `_rqd_shkl` (wppfsupport.py:590-614): the indices of the parameters and the constraints. -/
noncomputable def rqdShkl : LatticeType → List (Fin 15) × List Constraint
  | .cubic => ([0, 3], [⟨0, 1, 1⟩, ⟨0, 2, 1⟩, ⟨3, 4, 1⟩, ⟨3, 5, 1⟩])
  | .hexagonal => ([0, 2, 4], [⟨0, 1, 1⟩, ⟨0, 6, 2⟩, ⟨0, 9, 2⟩, ⟨0, 3, 3⟩, ⟨4, 5, 1⟩, ⟨4, 14, 1⟩])
  | .trigonal => ([0, 2, 4, 10], [⟨0, 1, 1⟩, ⟨0, 6, 2⟩, ⟨0, 9, 2⟩, ⟨0, 3, 3⟩, ⟨4, 5, 1⟩, ⟨4, 14, 1⟩, ⟨10, 8, -1⟩,
      ⟨10, 12, 3 / 2⟩, ⟨10, 13, -(3 / 2)⟩])
  | .tetragonal => ([0, 2, 3, 4], [⟨0, 1, 1⟩, ⟨4, 5, 1⟩])
  | .orthorhombic => ([0, 1, 2, 3, 4, 5], [])
  | .monoclinic => ([0, 1, 2, 3, 4, 5, 7, 10, 13], [])
  | .triclinic => ([0, 1, 2, 3, 4, 5, 6, 7, 8, 9, 10, 11, 12, 13, 14], [])

/-- `_required_shkl_names` (wppfsupport.py:561-580): the name "haxagonal" is not a key of `_rqd_shkl`, which is the exception `none`. The
names are represented by their places in `_shkl_name`; the letter is the first of the Hermann-Mauguin symbol. -/
noncomputable def required (lt : LatticeType) (letter : Char) : Option (List (Fin 15) × List Constraint) :=
  if lt = .trigonal ∧ letter = 'P' then none else some (rqdShkl lt)

/-- The assignment `x_ret[c[1]] = c[2] * x_ret[c[0]]` (wppfsupport.py:556). -/
noncomputable def constrain (x : Fin 15 → ℝ) (c : Constraint) : Fin 15 → ℝ :=
  fun i => if i = c.target then c.weight * x c.source else x i

/-- `_fill_shkl` (wppfsupport.py:541-558) on a dictionary that has the given names. -/
noncomputable def fill (names : List (Fin 15)) (x : Fin 15 → ℝ) (eqConst : List Constraint) : Fin 15 → ℝ :=
  eqConst.foldl constrain fun i => if i ∈ names then x i else 0

end Hexrd.Stephens
