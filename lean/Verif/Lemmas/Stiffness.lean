import Verif.Spec.Stiffness
import Mathlib.Tactic.FinCases
import Mathlib.Tactic.Linarith
import Mathlib.Tactic.LinearCombination

namespace Hexrd.Stiffness
open Matrix Spec

/-- The action of a rotation on engineering strains. -/
def bond (R : M3) : M6 :=
  !![R 0 0 ^ 2, R 0 1 ^ 2, R 0 2 ^ 2, R 0 1 * R 0 2, R 0 0 * R 0 2, R 0 0 * R 0 1;
     R 1 0 ^ 2, R 1 1 ^ 2, R 1 2 ^ 2, R 1 1 * R 1 2, R 1 0 * R 1 2, R 1 0 * R 1 1;
     R 2 0 ^ 2, R 2 1 ^ 2, R 2 2 ^ 2, R 2 1 * R 2 2, R 2 0 * R 2 2, R 2 0 * R 2 1;
     2 * R 1 0 * R 2 0, 2 * R 1 1 * R 2 1, 2 * R 1 2 * R 2 2,
       R 1 1 * R 2 2 + R 1 2 * R 2 1, R 1 0 * R 2 2 + R 1 2 * R 2 0, R 1 0 * R 2 1 + R 1 1 * R 2 0;
     2 * R 0 0 * R 2 0, 2 * R 0 1 * R 2 1, 2 * R 0 2 * R 2 2,
       R 0 1 * R 2 2 + R 0 2 * R 2 1, R 0 0 * R 2 2 + R 0 2 * R 2 0, R 0 0 * R 2 1 + R 0 1 * R 2 0;
     2 * R 0 0 * R 1 0, 2 * R 0 1 * R 1 1, 2 * R 0 2 * R 1 2,
       R 0 1 * R 1 2 + R 0 2 * R 1 1, R 0 0 * R 1 2 + R 0 2 * R 1 0, R 0 0 * R 1 1 + R 0 1 * R 1 0]

theorem voigt_rotate (R e : M3) (he : eᵀ = e) : voigt (R * e * Rᵀ) = bond R *ᵥ voigt e := by
  have h01 : e 1 0 = e 0 1 := congrFun (congrFun he 0) 1
  have h02 : e 2 0 = e 0 2 := congrFun (congrFun he 0) 2
  have h12 : e 2 1 = e 1 2 := congrFun (congrFun he 1) 2
  funext i
  fin_cases i <;>
  simp only [voigt, bond, Matrix.mul_apply, Matrix.mulVec, dotProduct, Fin.sum_univ_succ, Fin.isValue,
    Matrix.transpose_apply, Matrix.of_apply, Matrix.cons_val', Matrix.cons_val, Fin.zero_eta, Fin.mk_one,
    Fin.succ_zero_eq_one, Fin.reduceFinMk, Fin.reduceSucc, Finset.univ_unique, Finset.sum_singleton, Fin.default_eq_zero, h01, h02, h12] <;>
  ring

theorem energy_eq (C : M6) (e : M3) : energy C e = voigt e ⬝ᵥ (C *ᵥ voigt e) := by
  simp only [energy, dotProduct, mulVec, Finset.mul_sum]
  refine Finset.sum_congr rfl fun i _ => Finset.sum_congr rfl fun j _ => by ring

/-- Every vector of engineering strains is that of a strain. -/
theorem voigt_surj (v : Fin 6 → ℝ) : ∃ e : M3, eᵀ = e ∧ voigt e = v := by
  refine ⟨!![v 0, v 5 / 2, v 4 / 2; v 5 / 2, v 1, v 3 / 2; v 4 / 2, v 3 / 2, v 2], ?_, ?_⟩
  · ext i j
    fin_cases i <;> fin_cases j <;> rfl
  · funext i
    fin_cases i <;> simp [voigt] <;> ring

/-- Symmetric matrices with equal quadratic forms are equal. -/
theorem eq_of_form (A B : M6) (hA : Aᵀ = A) (hB : Bᵀ = B)
    (h : ∀ v : Fin 6 → ℝ, v ⬝ᵥ (A *ᵥ v) = v ⬝ᵥ (B *ᵥ v)) : A = B := by
  ext i j
  have e : ∀ (M : M6) (k l : Fin 6), (Pi.single k (1:ℝ)) ⬝ᵥ (M *ᵥ Pi.single l 1) = M k l := by
    intro M k l
    simp
  have sA : A j i = A i j := congrFun (congrFun hA i) j
  have sB : B j i = B i j := congrFun (congrFun hB i) j
  have h1 := h (Pi.single i 1 + Pi.single j 1)
  have h2 := h (Pi.single i 1)
  have h3 := h (Pi.single j 1)
  simp only [mulVec_add, add_dotProduct, dotProduct_add, e] at h1 h2 h3
  linarith

theorem invariant_iff (C : M6) (hC : Cᵀ = C) (R : M3) : Invariant C R ↔ (bond R)ᵀ * C * bond R = C := by
  have key : ∀ v : Fin 6 → ℝ, (bond R *ᵥ v) ⬝ᵥ (C *ᵥ (bond R *ᵥ v)) = v ⬝ᵥ (((bond R)ᵀ * C * bond R) *ᵥ v) := by
    intro v
    rw [← mulVec_mulVec, ← mulVec_mulVec, dotProduct_mulVec v, vecMul_transpose]
  constructor
  · intro h
    refine eq_of_form _ _ ?_ hC ?_
    · rw [transpose_mul, transpose_mul, transpose_transpose, hC, Matrix.mul_assoc]
    · intro v
      obtain ⟨e, he, rfl⟩ := voigt_surj v
      have := h e he
      rw [energy_eq, energy_eq, voigt_rotate R e he, key] at this
      exact this
  · intro h e he
    rw [energy_eq, energy_eq, voigt_rotate R e he, key, h]

/-- A symmetric matrix by its upper triangle. -/
def symm6 (a b c d e f g h i j k l m n o p q r s t u : ℝ) : M6 :=
  !![a, b, c, d, e, f; b, g, h, i, j, k; c, h, l, m, n, o; d, i, m, p, q, r; e, j, n, q, s, t; f, k, o, r, t, u]

theorem symm6_symm (a b c d e f g h i j k l m n o p q r s t u : ℝ) :
    (symm6 a b c d e f g h i j k l m n o p q r s t u)ᵀ = symm6 a b c d e f g h i j k l m n o p q r s t u := by
  ext x y
  fin_cases x <;> fin_cases y <;> rfl

/-- Every symmetric matrix has this form. -/
theorem symm6_of (C : M6) (hC : Cᵀ = C) :
    C = symm6 (C 0 0) (C 0 1) (C 0 2) (C 0 3) (C 0 4) (C 0 5) (C 1 1) (C 1 2) (C 1 3) (C 1 4) (C 1 5) (C 2 2) (C 2 3)
      (C 2 4) (C 2 5) (C 3 3) (C 3 4) (C 3 5) (C 4 4) (C 4 5) (C 5 5) := by
  have h : ∀ x y, C y x = C x y := fun x y => congrFun (congrFun hC x) y
  ext x y
  fin_cases x <;> fin_cases y <;> first | rfl | exact h _ _

theorem bond_twoZ : bond twoZ =
    !![1, 0, 0, 0, 0, 0; 0, 1, 0, 0, 0, 0; 0, 0, 1, 0, 0, 0; 0, 0, 0, -1, 0, 0; 0, 0, 0, 0, -1, 0; 0, 0, 0, 0, 0, 1] := by
  ext x y
  fin_cases x <;> fin_cases y <;> simp [bond, twoZ]

theorem fix_twoZ (a b c d e f g h i j k l m n o p q r s t u : ℝ) :
    (bond twoZ)ᵀ * symm6 a b c d e f g h i j k l m n o p q r s t u * bond twoZ =
      symm6 a b c d e f g h i j k l m n o p q r s t u ↔
    d = 0 ∧ e = 0 ∧ i = 0 ∧ j = 0 ∧ m = 0 ∧ n = 0 ∧ r = 0 ∧ t = 0 := by
  rw [← Matrix.ext_iff, bond_twoZ]
  simp only [Fin.forall_fin_succ, symm6]
  simp [Matrix.mul_apply, Fin.sum_univ_succ]

  constructor
  · intro E
    refine ⟨?_, ?_, ?_, ?_, ?_, ?_, ?_, ?_⟩ <;> grind
  · intro E
    and_intros <;> grind

theorem bond_twoX : bond twoX =
    !![1, 0, 0, 0, 0, 0; 0, 1, 0, 0, 0, 0; 0, 0, 1, 0, 0, 0; 0, 0, 0, 1, 0, 0; 0, 0, 0, 0, -1, 0; 0, 0, 0, 0, 0, -1] := by
  ext x y
  fin_cases x <;> fin_cases y <;> simp [bond, twoX]

theorem fix_twoX (a b c d e f g h i j k l m n o p q r s t u : ℝ) :
    (bond twoX)ᵀ * symm6 a b c d e f g h i j k l m n o p q r s t u * bond twoX =
      symm6 a b c d e f g h i j k l m n o p q r s t u ↔
    e = 0 ∧ f = 0 ∧ j = 0 ∧ k = 0 ∧ n = 0 ∧ o = 0 ∧ q = 0 ∧ r = 0 := by
  rw [← Matrix.ext_iff, bond_twoX]
  simp only [Fin.forall_fin_succ, symm6]
  simp [Matrix.mul_apply, Fin.sum_univ_succ]

  constructor
  · intro E
    refine ⟨?_, ?_, ?_, ?_, ?_, ?_, ?_, ?_⟩ <;> grind
  · intro E
    and_intros <;> grind

theorem bond_fourZ : bond fourZ =
    !![0, 1, 0, 0, 0, 0; 1, 0, 0, 0, 0, 0; 0, 0, 1, 0, 0, 0; 0, 0, 0, 0, 1, 0; 0, 0, 0, -1, 0, 0; 0, 0, 0, 0, 0, -1] := by
  ext x y
  fin_cases x <;> fin_cases y <;> simp [bond, fourZ]

theorem fix_fourZ (a b c d e f g h i j k l m n o p q r s t u : ℝ) :
    (bond fourZ)ᵀ * symm6 a b c d e f g h i j k l m n o p q r s t u * bond fourZ =
      symm6 a b c d e f g h i j k l m n o p q r s t u ↔
    d = 0 ∧ e = 0 ∧ i = 0 ∧ j = 0 ∧ m = 0 ∧ n = 0 ∧ r = 0 ∧ t = 0 ∧ o = 0 ∧ q = 0 ∧ g = a ∧ h = c ∧ k = -f ∧ s = p := by
  rw [← Matrix.ext_iff, bond_fourZ]
  simp only [Fin.forall_fin_succ, symm6]
  simp [Matrix.mul_apply, Fin.sum_univ_succ]

  constructor
  · intro E
    refine ⟨?_, ?_, ?_, ?_, ?_, ?_, ?_, ?_, ?_, ?_, ?_, ?_, ?_, ?_⟩ <;> grind
  · intro E
    and_intros <;> grind

theorem bond_threeZ : bond threeZ =
    !![1 / 4, 3 / 4, 0, 0, 0, √3 / 4; 3 / 4, 1 / 4, 0, 0, 0, -√3 / 4; 0, 0, 1, 0, 0, 0; 0, 0, 0, -1 / 2, √3 / 2, 0;
      0, 0, 0, -√3 / 2, -1 / 2, 0; -√3 / 2, √3 / 2, 0, 0, 0, -1 / 2] := by
  have h3 : √3 * √3 = (3 : ℝ) := Real.mul_self_sqrt (by norm_num)
  ext x y
  fin_cases x <;> fin_cases y <;> simp [bond, threeZ] <;> linarith

theorem fix_threeZ (a b c d e f g h i j k l m n o p q r s t u : ℝ) :
    (bond threeZ)ᵀ * symm6 a b c d e f g h i j k l m n o p q r s t u * bond threeZ =
      symm6 a b c d e f g h i j k l m n o p q r s t u ↔
    f = 0 ∧ k = 0 ∧ m = 0 ∧ n = 0 ∧ o = 0 ∧ q = 0 ∧ g = a ∧ h = c ∧ i = -d ∧ j = -e ∧ r = -e ∧ s = p ∧ t = d ∧
      u = (a - b) / 2 := by
  have h3 : √3 * √3 = (3 : ℝ) := Real.mul_self_sqrt (by norm_num)
  rw [← Matrix.ext_iff, bond_threeZ]
  simp only [Fin.forall_fin_succ, symm6]
  simp [Matrix.mul_apply, Fin.sum_univ_succ]
  generalize √3 = S at *
  constructor
  · intro E
    refine ⟨?_, ?_, ?_, ?_, ?_, ?_, ?_, ?_, ?_, ?_, ?_, ?_, ?_, ?_⟩ <;> grind
  · intro E
    and_intros <;> grind

theorem bond_sixZ : bond sixZ =
    !![1 / 4, 3 / 4, 0, 0, 0, -√3 / 4; 3 / 4, 1 / 4, 0, 0, 0, √3 / 4; 0, 0, 1, 0, 0, 0; 0, 0, 0, 1 / 2, √3 / 2, 0;
      0, 0, 0, -√3 / 2, 1 / 2, 0; √3 / 2, -√3 / 2, 0, 0, 0, -1 / 2] := by
  have h3 : √3 * √3 = (3 : ℝ) := Real.mul_self_sqrt (by norm_num)
  ext x y
  fin_cases x <;> fin_cases y <;> simp [bond, sixZ] <;> linarith

theorem fix_sixZ (a b c d e f g h i j k l m n o p q r s t u : ℝ) :
    (bond sixZ)ᵀ * symm6 a b c d e f g h i j k l m n o p q r s t u * bond sixZ =
      symm6 a b c d e f g h i j k l m n o p q r s t u ↔
    d = 0 ∧ e = 0 ∧ i = 0 ∧ j = 0 ∧ r = 0 ∧ t = 0 ∧ f = 0 ∧ k = 0 ∧ m = 0 ∧ n = 0 ∧ o = 0 ∧ q = 0 ∧ g = a ∧ h = c ∧ s = p ∧
      u = (a - b) / 2 := by
  have h3 : √3 * √3 = (3 : ℝ) := Real.mul_self_sqrt (by norm_num)
  rw [← Matrix.ext_iff, bond_sixZ]
  simp only [Fin.forall_fin_succ, symm6]
  simp [Matrix.mul_apply, Fin.sum_univ_succ]
  generalize √3 = S at *
  constructor
  · intro E
    refine ⟨?_, ?_, ?_, ?_, ?_, ?_, ?_, ?_, ?_, ?_, ?_, ?_, ?_, ?_, ?_, ?_⟩ <;> grind
  · intro E
    and_intros <;> grind

theorem bond_three111 : bond three111 =
    !![0, 0, 1, 0, 0, 0; 1, 0, 0, 0, 0, 0; 0, 1, 0, 0, 0, 0; 0, 0, 0, 0, 0, 1; 0, 0, 0, 1, 0, 0; 0, 0, 0, 0, 1, 0] := by
  ext x y
  fin_cases x <;> fin_cases y <;> simp [bond, three111]

theorem fix_three111 (a b c d e f g h i j k l m n o p q r s t u : ℝ) :
    (bond three111)ᵀ * symm6 a b c d e f g h i j k l m n o p q r s t u * bond three111 =
      symm6 a b c d e f g h i j k l m n o p q r s t u ↔
    g = a ∧ l = a ∧ c = b ∧ h = b ∧ s = p ∧ u = p ∧ r = q ∧ t = q ∧ j = d ∧ o = d ∧ k = m ∧ e = m ∧ n = f ∧ i = f := by
  rw [← Matrix.ext_iff, bond_three111]
  simp only [Fin.forall_fin_succ, symm6]
  simp [Matrix.mul_apply, Fin.sum_univ_succ]

  constructor
  · intro E
    refine ⟨?_, ?_, ?_, ?_, ?_, ?_, ?_, ?_, ?_, ?_, ?_, ?_, ?_, ?_⟩ <;> grind
  · intro E
    and_intros <;> grind

end Hexrd.Stiffness
