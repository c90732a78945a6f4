import Verif.Lemmas.Stiffness

/-!
# The matrices built for each Laue class, entry by entry
-/
set_option linter.unusedSimpArgs false
set_option linter.unnecessarySeqFocus false

namespace Hexrd.Stiffness
open Matrix Spec

theorem indices_ci : indices .ci = [(0, 0), (0, 1), (0, 2), (0, 3), (0, 4), (0, 5), (1, 1), (1, 2), (1, 3), (1, 4), (1, 5), (2, 2), (2, 3), (2, 4), (2, 5), (3, 3), (3, 4), (3, 5), (4, 4), (4, 5), (5, 5)] := by decide

theorem build_ci (a b c d e f g h i j k l m n o p q r s t u : ℝ) : buildC .ci [a, b, c, d, e, f, g, h, i, j, k, l, m, n, o, p, q, r, s, t, u] =
    some (symm6 a b c d e f g h i j k l m n o p q r s t u) := by
  unfold buildC
  rw [indices_ci, if_pos (by rfl)]
  congr 1
  ext x y
  fin_cases x <;> fin_cases y <;>
    simp [fillLower, setAt, constraint, cyclicTetEq, trigonalEq, cubicEq, symm6]

theorem indices_c2h : indices .c2h = [(0, 0), (0, 1), (0, 2), (0, 5), (1, 1), (1, 2), (1, 5), (2, 2), (2, 5), (3, 3), (3, 4), (4, 4), (5, 5)] := by decide

theorem build_c2h (a b c d e f g h i j k l m : ℝ) : buildC .c2h [a, b, c, d, e, f, g, h, i, j, k, l, m] =
    some (symm6 a b c 0 0 d e f 0 0 g h 0 0 i j k 0 l 0 m) := by
  unfold buildC
  rw [indices_c2h, if_pos (by rfl)]
  congr 1
  ext x y
  fin_cases x <;> fin_cases y <;>
    simp [fillLower, setAt, constraint, cyclicTetEq, trigonalEq, cubicEq, symm6]

theorem indices_d2h : indices .d2h = [(0, 0), (0, 1), (0, 2), (1, 1), (1, 2), (2, 2), (3, 3), (4, 4), (5, 5)] := by decide

theorem build_d2h (a b c d e f g h i : ℝ) : buildC .d2h [a, b, c, d, e, f, g, h, i] =
    some (symm6 a b c 0 0 0 d e 0 0 0 f 0 0 0 g 0 0 h 0 i) := by
  unfold buildC
  rw [indices_d2h, if_pos (by rfl)]
  congr 1
  ext x y
  fin_cases x <;> fin_cases y <;>
    simp [fillLower, setAt, constraint, cyclicTetEq, trigonalEq, cubicEq, symm6]

theorem indices_c4h : indices .c4h = [(0, 0), (0, 1), (0, 2), (0, 5), (2, 2), (3, 3), (5, 5)] := by decide

theorem build_c4h (a b c d e f g : ℝ) : buildC .c4h [a, b, c, d, e, f, g] =
    some (symm6 a b c 0 0 d a c 0 0 (-d) e 0 0 0 f 0 0 f 0 g) := by
  unfold buildC
  rw [indices_c4h, if_pos (by rfl)]
  congr 1
  ext x y
  fin_cases x <;> fin_cases y <;>
    simp [fillLower, setAt, constraint, cyclicTetEq, trigonalEq, cubicEq, symm6]

theorem indices_d4h : indices .d4h = [(0, 0), (0, 1), (0, 2), (2, 2), (3, 3), (5, 5)] := by decide

theorem build_d4h (a b c d e f : ℝ) : buildC .d4h [a, b, c, d, e, f] =
    some (symm6 a b c 0 0 0 a c 0 0 0 d 0 0 0 e 0 0 e 0 f) := by
  unfold buildC
  rw [indices_d4h, if_pos (by rfl)]
  congr 1
  ext x y
  fin_cases x <;> fin_cases y <;>
    simp [fillLower, setAt, constraint, cyclicTetEq, trigonalEq, cubicEq, symm6]

theorem indices_s6 : indices .s6 = [(0, 0), (0, 1), (0, 2), (0, 3), (0, 4), (2, 2), (3, 3)] := by decide

theorem build_s6 (a b c d e f g : ℝ) : buildC .s6 [a, b, c, d, e, f, g] =
    some (symm6 a b c d e 0 a c (-d) (-e) 0 f 0 0 0 g 0 (-e) g d ((a - b) / 2)) := by
  unfold buildC
  rw [indices_s6, if_pos (by rfl)]
  congr 1
  ext x y
  fin_cases x <;> fin_cases y <;>
    simp [fillLower, setAt, constraint, cyclicTetEq, trigonalEq, cubicEq, symm6] <;> ring

theorem indices_d3d : indices .d3d = [(0, 0), (0, 1), (0, 2), (0, 3), (2, 2), (3, 3)] := by decide

theorem build_d3d (a b c d e f : ℝ) : buildC .d3d [a, b, c, d, e, f] =
    some (symm6 a b c d 0 0 a c (-d) 0 0 e 0 0 0 f 0 0 f d ((a - b) / 2)) := by
  unfold buildC
  rw [indices_d3d, if_pos (by rfl)]
  congr 1
  ext x y
  fin_cases x <;> fin_cases y <;>
    simp [fillLower, setAt, constraint, cyclicTetEq, trigonalEq, cubicEq, symm6] <;> ring

theorem indices_c6h : indices .c6h = [(0, 0), (0, 1), (0, 2), (2, 2), (3, 3)] := by decide

theorem build_c6h (a b c d e : ℝ) : buildC .c6h [a, b, c, d, e] =
    some (symm6 a b c 0 0 0 a c 0 0 0 d 0 0 0 e 0 0 e 0 ((a - b) / 2)) := by
  unfold buildC
  rw [indices_c6h, if_pos (by rfl)]
  congr 1
  ext x y
  fin_cases x <;> fin_cases y <;>
    simp [fillLower, setAt, constraint, cyclicTetEq, trigonalEq, cubicEq, symm6] <;> ring

theorem indices_d6h : indices .d6h = [(0, 0), (0, 1), (0, 2), (2, 2), (3, 3)] := by decide

theorem build_d6h (a b c d e : ℝ) : buildC .d6h [a, b, c, d, e] =
    some (symm6 a b c 0 0 0 a c 0 0 0 d 0 0 0 e 0 0 e 0 ((a - b) / 2)) := by
  unfold buildC
  rw [indices_d6h, if_pos (by rfl)]
  congr 1
  ext x y
  fin_cases x <;> fin_cases y <;>
    simp [fillLower, setAt, constraint, cyclicTetEq, trigonalEq, cubicEq, symm6] <;> ring

theorem indices_th : indices .th = [(0, 0), (0, 1), (3, 3)] := by decide

theorem build_th (a b c : ℝ) : buildC .th [a, b, c] =
    some (symm6 a b b 0 0 0 a b 0 0 0 a 0 0 0 c 0 0 c 0 c) := by
  unfold buildC
  rw [indices_th, if_pos (by rfl)]
  congr 1
  ext x y
  fin_cases x <;> fin_cases y <;>
    simp [fillLower, setAt, constraint, cyclicTetEq, trigonalEq, cubicEq, symm6]

theorem indices_oh : indices .oh = [(0, 0), (0, 1), (3, 3)] := by decide

theorem build_oh (a b c : ℝ) : buildC .oh [a, b, c] =
    some (symm6 a b b 0 0 0 a b 0 0 0 a 0 0 0 c 0 0 c 0 c) := by
  unfold buildC
  rw [indices_oh, if_pos (by rfl)]
  congr 1
  ext x y
  fin_cases x <;> fin_cases y <;>
    simp [fillLower, setAt, constraint, cyclicTetEq, trigonalEq, cubicEq, symm6]

end Hexrd.Stiffness
