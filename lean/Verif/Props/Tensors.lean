import Verif.Model.Tensors
import Mathlib.Tactic.FinCases
import Mathlib.Tactic.FieldSimp
import Mathlib.Tactic.LinearCombination
import Mathlib.Tactic.NormNum
import Mathlib.Tactic.Linarith
import Mathlib.Data.Matrix.Mul

/-!
# Vectors of symmetric and skew tensors (C36)
-/
namespace Hexrd.Tensors

open Matrix

/-- Inner product of two matrices, the sum of the products of all entries. -/
def dot9 (A B : M3) : ℝ := ∑ i, ∑ j, A i j * B i j

/-- Inner product of vectors with six components. -/
def dot6 (a b : Fin 6 → ℝ) : ℝ := ∑ i, a i * b i

/-- The cross product. -/
def crossP (a b : Fin 3 → ℝ) : Fin 3 → ℝ := ![a 1 * b 2 - a 2 * b 1, a 2 * b 0 - a 0 * b 2, a 0 * b 1 - a 1 * b 0]

theorem sqrt_values : (√2 : ℝ) * √2 = 2 ∧ √3 * √3 = (3 : ℝ) ∧ √2 * sqr2i = 1 ∧ √3 * sqr3i = 1 ∧ √2 * √3 * sqr6i = 1 ∧
    sqr2b3 * √3 = √2 ∧ (0 : ℝ) < √2 ∧ (0 : ℝ) < √3 := by
  have p2 : (0 : ℝ) < √2 := Real.sqrt_pos.2 (by norm_num)
  have p3 : (0 : ℝ) < √3 := Real.sqrt_pos.2 (by norm_num)
  have e6 : (√6 : ℝ) = √2 * √3 := by rw [← Real.sqrt_mul (by norm_num)]; norm_num
  have e23 : sqr2b3 = √2 / √3 := by unfold sqr2b3; rw [Real.sqrt_div (by norm_num)]
  refine ⟨Real.mul_self_sqrt (by norm_num), Real.mul_self_sqrt (by norm_num), ?_, ?_, ?_, ?_, p2, p3⟩
  · unfold sqr2i; field_simp
  · unfold sqr3i; field_simp
  · unfold sqr6i; rw [e6]; field_simp
  · rw [e23]; field_simp

theorem symm_entries {A : M3} (h : A.IsSymm) : A 1 0 = A 0 1 ∧ A 2 0 = A 0 2 ∧ A 2 1 = A 1 2 :=
  ⟨h.apply 0 1, h.apply 0 2, h.apply 1 2⟩

theorem fac_pos (s : Bool) : fac s ≠ 0 := by
  have := sqrt_values.2.2.2.2.2.2.1
  cases s <;> simp [fac]

/-- C36: symmetric matrix to Mandel-Voigt vector and back. -/
theorem mv_roundtrip (A : M3) (h : A.IsSymm) (s : Bool) : vecMVToSymm (symmToVecMV A s) s = A := by
  obtain ⟨h1, h2, h3⟩ := symm_entries h
  have f := fac_pos s
  ext i j
  fin_cases i <;> fin_cases j <;> simp [vecMVToSymm, symmToVecMV, h1, h2, h3] <;> field_simp

/-- C36: Mandel-Voigt vector to symmetric matrix and back. -/
theorem mv_roundtrip' (a : Fin 6 → ℝ) (s : Bool) :
    symmToVecMV (vecMVToSymm a s) s = a ∧ (vecMVToSymm a s).IsSymm := by
  have f := fac_pos s
  constructor
  · funext i
    fin_cases i <;> simp [vecMVToSymm, symmToVecMV] <;> field_simp
  · ext i j
    fin_cases i <;> fin_cases j <;> simp [vecMVToSymm]

/-- C36: the Mandel-Voigt vector keeps inner products. -/
theorem mv_isometry (A B : M3) (hA : A.IsSymm) (hB : B.IsSymm) :
    dot6 (symmToVecMV A true) (symmToVecMV B true) = dot9 A B := by
  obtain ⟨h1, h2, h3⟩ := symm_entries hA
  obtain ⟨k1, k2, k3⟩ := symm_entries hB
  have s := sqrt_values.1
  simp [dot6, dot9, Fin.sum_univ_succ, symmToVecMV, fac, h1, h2, h3, k1, k2, k3]
  linear_combination (A 1 2 * B 1 2 + A 0 2 * B 0 2 + A 0 1 * B 0 1) * s

/-- C36: strain and stress vectors, both ways. -/
theorem strain_roundtrip (A : M3) (h : A.IsSymm) (a : Fin 6 → ℝ) :
    strainVecToTen (strainTenToVec A) = A ∧ strainTenToVec (strainVecToTen a) = a ∧ (strainVecToTen a).IsSymm := by
  obtain ⟨h1, h2, h3⟩ := symm_entries h
  refine ⟨?_, ?_, ?_⟩
  · ext i j; fin_cases i <;> fin_cases j <;> simp [strainVecToTen, strainTenToVec, h1, h2, h3]
  · funext i; fin_cases i <;> simp [strainVecToTen, strainTenToVec] <;> field_simp
  · ext i j; fin_cases i <;> fin_cases j <;> simp [strainVecToTen]

@[inherit_doc strain_roundtrip]
theorem stress_roundtrip (A : M3) (h : A.IsSymm) (a : Fin 6 → ℝ) :
    stressVecToTen (stressTenToVec A) = A ∧ stressTenToVec (stressVecToTen a) = a ∧ (stressVecToTen a).IsSymm := by
  obtain ⟨h1, h2, h3⟩ := symm_entries h
  refine ⟨?_, ?_, ?_⟩
  · ext i j; fin_cases i <;> fin_cases j <;> simp [stressVecToTen, stressTenToVec, h1, h2, h3]
  · funext i; fin_cases i <;> simp [stressVecToTen, stressTenToVec]
  · ext i j; fin_cases i <;> fin_cases j <;> simp [stressVecToTen]

/-- C36: the work of a stress on a strain is the inner product of their vectors. -/
theorem stress_strain_work (S E : M3) (hS : S.IsSymm) (hE : E.IsSymm) :
    dot6 (stressTenToVec S) (strainTenToVec E) = dot9 S E := by
  obtain ⟨h1, h2, h3⟩ := symm_entries hS
  obtain ⟨k1, k2, k3⟩ := symm_entries hE
  simp [dot6, dot9, Fin.sum_univ_succ, stressTenToVec, strainTenToVec, h1, h2, h3, k1, k2, k3]
  ring

/-- C36: symmetric matrix to deviatoric-spherical vector and back. -/
theorem vecds_roundtrip (A : M3) (h : A.IsSymm) : vecdsToSymm (symmToVecds A) = A := by
  obtain ⟨h1, h2, h3⟩ := symm_entries h
  obtain ⟨s2, s3, i2, i3, i6, b, p2, p3⟩ := sqrt_values
  have q2 : sqr2i * sqr2i = 1 / 2 := by grind
  have q3 : sqr3i * sqr3i = 1 / 3 := by grind
  have q6 : sqr6i * sqr6i = 1 / 6 := by grind
  have qb : sqr2b3 * sqr6i = 1 / 3 := by grind
  ext i j
  fin_cases i <;> fin_cases j <;> simp [vecdsToSymm, symmToVecds, h1, h2, h3] <;> grind

/-- C36: deviatoric-spherical vector to symmetric matrix and back. -/
theorem vecds_roundtrip' (v : Fin 6 → ℝ) : symmToVecds (vecdsToSymm v) = v ∧ (vecdsToSymm v).IsSymm := by
  obtain ⟨s2, s3, i2, i3, i6, b, p2, p3⟩ := sqrt_values
  have q2 : sqr2i * sqr2i = 1 / 2 := by grind
  have q3 : sqr3i * sqr3i = 1 / 3 := by grind
  have q6 : sqr6i * sqr6i = 1 / 6 := by grind
  have qb : sqr2b3 * sqr6i = 1 / 3 := by grind
  have c1 : sqr2b3 = 2 * sqr6i := by grind
  constructor
  · funext i
    fin_cases i <;> simp [vecdsToSymm, symmToVecds] <;> grind
  · ext i j
    fin_cases i <;> fin_cases j <;> simp [vecdsToSymm]

/-- C36: the deviatoric-spherical vector keeps inner products, and its last component alone carries the trace. -/
theorem vecds_isometry (A B : M3) (hA : A.IsSymm) (hB : B.IsSymm) :
    dot6 (symmToVecds A) (symmToVecds B) = dot9 A B := by
  obtain ⟨h1, h2, h3⟩ := symm_entries hA
  obtain ⟨k1, k2, k3⟩ := symm_entries hB
  obtain ⟨s2, s3, i2, i3, i6, b, p2, p3⟩ := sqrt_values
  have q2 : sqr2i * sqr2i = 1 / 2 := by grind
  have q3 : sqr3i * sqr3i = 1 / 3 := by grind
  have q6 : sqr6i * sqr6i = 1 / 6 := by grind
  simp [dot6, dot9, Fin.sum_univ_succ, symmToVecds, h1, h2, h3, k1, k2, k3]
  linear_combination (A 0 0 - A 1 1) * (B 0 0 - B 1 1) * q2 +
    (2 * A 2 2 - A 0 0 - A 1 1) * (2 * B 2 2 - B 0 0 - B 1 1) * q6 +
    (A 0 0 + A 1 1 + A 2 2) * (B 0 0 + B 1 1 + B 2 2) * q3 +
    (A 0 1 * B 0 1 + A 0 2 * B 0 2 + A 1 2 * B 1 2) * s2

@[inherit_doc vecds_isometry]
theorem vecds_trace (v : Fin 6 → ℝ) : (vecdsToSymm v).trace = √3 * v 5 := by
  obtain ⟨s2, s3, i2, i3, i6, b, p2, p3⟩ := sqrt_values
  have c1 : sqr2b3 = 2 * sqr6i := by grind
  simp [Matrix.trace, Fin.sum_univ_succ, vecdsToSymm]
  grind

/-- C36: the skew matrix of a vector acts as the cross product. -/
theorem skew_cross (w v : Fin 3 → ℝ) : skewMatrixOfVector w *ᵥ v = crossP w v := by
  funext i
  fin_cases i <;> simp [skewMatrixOfVector, crossP, Matrix.mulVec, dotProduct, Fin.sum_univ_succ] <;> ring

/-- C36: vector to skew matrix and back, both ways. -/
theorem skew_roundtrip (w : Fin 3 → ℝ) (W : M3) (h : Wᵀ = -W) :
    vectorOfSkewMatrix (skewMatrixOfVector w) = w ∧ (skewMatrixOfVector w)ᵀ = -skewMatrixOfVector w ∧
      skewMatrixOfVector (vectorOfSkewMatrix W) = W := by
  have e : ∀ i j, W j i = -W i j := fun i j => congrFun (congrFun h i) j
  have d0 := e 0 0
  have d1 := e 1 1
  have d2 := e 2 2
  have e1 := e 0 1
  have e2 := e 0 2
  have e3 := e 1 2
  refine ⟨?_, ?_, ?_⟩
  · funext i; fin_cases i <;> simp [vectorOfSkewMatrix, skewMatrixOfVector]
  · ext i j; fin_cases i <;> fin_cases j <;> simp [skewMatrixOfVector]
  · ext i j; fin_cases i <;> fin_cases j <;> simp [vectorOfSkewMatrix, skewMatrixOfVector] <;> linarith

/-- C36: the symmetric and the skew part. -/
theorem symm_skew (A : M3) : symm A + skew A = A ∧ (symm A).IsSymm ∧ (skew A)ᵀ = -skew A := by
  refine ⟨?_, ?_, ?_⟩
  · ext i j; simp [symm, skew]; ring
  · ext i j; simp [symm]; ring
  · ext i j; simp [skew]; ring

/-- C36: the projection vector gives the normal component `n · A n` along the direction of `v`. -/
theorem normal_projection (A : M3) (hA : A.IsSymm) (v : Fin 3 → ℝ)
    (hv : Rotations.tenEps < √(v 0 ^ 2 + v 1 ^ 2 + v 2 ^ 2)) :
    dot6 (nrmlProjOfVecMV v) (symmToVecMV A true) * (v ⬝ᵥ v) = v ⬝ᵥ (A *ᵥ v) := by
  obtain ⟨h1, h2, h3⟩ := symm_entries hA
  have s := sqrt_values.1
  have hp : 0 < √(v 0 ^ 2 + v 1 ^ 2 + v 2 ^ 2) := lt_of_le_of_lt (by unfold Rotations.tenEps; positivity) hv
  have hn : √(v 0 ^ 2 + v 1 ^ 2 + v 2 ^ 2) * √(v 0 ^ 2 + v 1 ^ 2 + v 2 ^ 2) = v 0 ^ 2 + v 1 ^ 2 + v 2 ^ 2 :=
    Real.mul_self_sqrt (by positivity)
  have hu : ∀ i, unitVector3 v i * √(v 0 ^ 2 + v 1 ^ 2 + v 2 ^ 2) = v i := by
    intro i
    unfold unitVector3
    simp only [if_neg (not_le.2 hv)]
    field_simp
  have u0 := hu 0
  have u1 := hu 1
  have u2 := hu 2
  generalize √(v 0 ^ 2 + v 1 ^ 2 + v 2 ^ 2) = n at *
  simp [dot6, Fin.sum_univ_succ, nrmlProjOfVecMV, symmToVecMV, fac, dotProduct, Matrix.mulVec, h1, h2, h3]
  generalize unitVector3 v = u at *
  rw [← u0, ← u1, ← u2] at hn ⊢
  grind

/-- C36 (not a property of the code): `symm`, `skew` and `vectorOfSkewMatrix` do not leave their argument as it was:
a square matrix becomes a stack of one matrix. -/
theorem argument_reshaped (n : ℕ) (d : List ℝ) : (shapeAfter ⟨[n, n], d⟩).shape = [1, n, n] := by
  simp [shapeAfter]

/-- Non-vacuity of the hypotheses on symmetry and skewness, with matrices that are not zero. -/
example : (!![1, 2, 3; 2, 5, 6; 3, 6, 9] : M3).IsSymm ∧ (!![0, 2, 3; -2, 0, 6; -3, -6, 0] : M3)ᵀ =
    -(!![0, 2, 3; -2, 0, 6; -3, -6, 0] : M3) := by
  constructor <;> ext i j <;> fin_cases i <;> fin_cases j <;> simp

/-- Non-vacuity of `normal_projection`. -/
example : Rotations.tenEps < √((![3, 0, 4] : Fin 3 → ℝ) 0 ^ 2 + (![3, 0, 4] : Fin 3 → ℝ) 1 ^ 2 + (![3, 0, 4] : Fin 3 → ℝ) 2 ^ 2) := by
  rw [Real.lt_sqrt (by unfold Rotations.tenEps; positivity)]
  change Rotations.tenEps ^ 2 < 3 ^ 2 + 0 ^ 2 + 4 ^ 2
  norm_num [Rotations.tenEps]

end Hexrd.Tensors
