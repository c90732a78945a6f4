import Verif.Model.Transforms
import Verif.Spec.Transforms
import Mathlib.Tactic.FinCases
import Mathlib.Tactic.LinearCombination

/-! Vector algebra used by the proofs about the transforms. -/

namespace Hexrd.Transforms

open Matrix Spec

theorem dot_eq (a b : V) : dot a b = a ⬝ᵥ b := by
  simp [dot, dotProduct, Fin.sum_univ_three]

theorem mulV_eq (m : M) (v : V) : mulV m v = m *ᵥ v := by
  ext i; fin_cases i <;> simp [mulV, Matrix.mulVec, dotProduct, Fin.sum_univ_three]

theorem mulTV_eq (m : M) (v : V) : mulTV m v = mᵀ *ᵥ v := by
  ext i; fin_cases i <;> simp [mulTV, Matrix.mulVec, dotProduct, Fin.sum_univ_three]

theorem dot_comm (a b : V) : dot a b = dot b a := by simp only [dot]; ring

theorem dot_self_nonneg (a : V) : 0 ≤ dot a a := by
  simp only [dot]; nlinarith [mul_self_nonneg (a 0), mul_self_nonneg (a 1), mul_self_nonneg (a 2)]

theorem dot_self_eq_zero {a : V} (h : dot a a = 0) : a = 0 := by
  simp only [dot] at h
  have h0 := mul_self_nonneg (a 0)
  have h1 := mul_self_nonneg (a 1)
  have h2 := mul_self_nonneg (a 2)
  ext i
  fin_cases i <;> exact mul_self_eq_zero.1 (by simp; nlinarith)

/-- Entries of `Rᵀ R = 1`. -/
theorem rot_entries {r : M} (h : rᵀ * r = 1) :
    r 0 0 * r 0 0 + r 1 0 * r 1 0 + r 2 0 * r 2 0 = 1 ∧
    r 0 1 * r 0 1 + r 1 1 * r 1 1 + r 2 1 * r 2 1 = 1 ∧
    r 0 2 * r 0 2 + r 1 2 * r 1 2 + r 2 2 * r 2 2 = 1 ∧
    r 0 0 * r 0 1 + r 1 0 * r 1 1 + r 2 0 * r 2 1 = 0 ∧
    r 0 0 * r 0 2 + r 1 0 * r 1 2 + r 2 0 * r 2 2 = 0 ∧
    r 0 1 * r 0 2 + r 1 1 * r 1 2 + r 2 1 * r 2 2 = 0 := by
  have e : ∀ i j, (rᵀ * r) i j = (1 : M) i j := fun i j => by rw [h]
  have e00 := e 0 0
  have e11 := e 1 1
  have e22 := e 2 2
  have e01 := e 0 1
  have e02 := e 0 2
  have e12 := e 1 2
  simp [Matrix.mul_apply, Fin.sum_univ_three] at e00 e11 e22 e01 e02 e12
  exact ⟨e00, e11, e22, e01, e02, e12⟩

/-- Entries of `R Rᵀ = 1`. -/
theorem rot_entries' {r : M} (h : rᵀ * r = 1) :
    r 0 0 * r 0 0 + r 0 1 * r 0 1 + r 0 2 * r 0 2 = 1 ∧
    r 1 0 * r 1 0 + r 1 1 * r 1 1 + r 1 2 * r 1 2 = 1 ∧
    r 2 0 * r 2 0 + r 2 1 * r 2 1 + r 2 2 * r 2 2 = 1 ∧
    r 0 0 * r 1 0 + r 0 1 * r 1 1 + r 0 2 * r 1 2 = 0 ∧
    r 0 0 * r 2 0 + r 0 1 * r 2 1 + r 0 2 * r 2 2 = 0 ∧
    r 1 0 * r 2 0 + r 1 1 * r 2 1 + r 1 2 * r 2 2 = 0 := by
  have h' : (rᵀ)ᵀ * rᵀ = 1 := by rw [transpose_transpose]; exact mul_eq_one_comm.1 h
  have := rot_entries h'
  simpa using this

theorem rot_mul_transpose {r : M} (h : rᵀ * r = 1) : r * rᵀ = 1 := mul_eq_one_comm.1 h

theorem mulTV_mulV {r : M} (h : rᵀ * r = 1) (v : V) : mulTV r (mulV r v) = v := by
  rw [mulTV_eq, mulV_eq, mulVec_mulVec, h, one_mulVec]

theorem mulV_mulTV {r : M} (h : rᵀ * r = 1) (v : V) : mulV r (mulTV r v) = v := by
  rw [mulTV_eq, mulV_eq, mulVec_mulVec, rot_mul_transpose h, one_mulVec]

theorem dot_mulV_left (r : M) (u v : V) : dot (mulV r u) v = dot u (mulTV r v) := by
  simp [dot, mulV, mulTV]; ring

theorem dot_mulV_mulV {r : M} (h : rᵀ * r = 1) (u v : V) : dot (mulV r u) (mulV r v) = dot u v := by
  rw [dot_mulV_left, mulTV_mulV h]

theorem dot_mulTV_mulTV {r : M} (h : rᵀ * r = 1) (u v : V) : dot (mulTV r u) (mulTV r v) = dot u v := by
  rw [← dot_mulV_left, mulV_mulTV h]

/-- Lagrange's identity. -/
theorem dot_cross_self (a b : V) : dot (cross a b) (cross a b) = dot a a * dot b b - dot a b ^ 2 := by
  simp [dot, cross]; ring

theorem dot_cross_left (a b : V) : dot a (cross a b) = 0 := by simp [dot, cross]; ring

theorem dot_cross_right (a b : V) : dot b (cross a b) = 0 := by simp [dot, cross]; ring

theorem isRotation_of_entries {r : M}
    (h00 : r 0 0 * r 0 0 + r 1 0 * r 1 0 + r 2 0 * r 2 0 = 1)
    (h11 : r 0 1 * r 0 1 + r 1 1 * r 1 1 + r 2 1 * r 2 1 = 1)
    (h22 : r 0 2 * r 0 2 + r 1 2 * r 1 2 + r 2 2 * r 2 2 = 1)
    (h01 : r 0 0 * r 0 1 + r 1 0 * r 1 1 + r 2 0 * r 2 1 = 0)
    (h02 : r 0 0 * r 0 2 + r 1 0 * r 1 2 + r 2 0 * r 2 2 = 0)
    (h12 : r 0 1 * r 0 2 + r 1 1 * r 1 2 + r 2 1 * r 2 2 = 0)
    (hd : r 0 0 * (r 1 1 * r 2 2 - r 1 2 * r 2 1) - r 0 1 * (r 1 0 * r 2 2 - r 1 2 * r 2 0)
      + r 0 2 * (r 1 0 * r 2 1 - r 1 1 * r 2 0) = 1) : IsRotation r := by
  refine ⟨?_, ?_⟩
  · ext i j
    fin_cases i <;> fin_cases j <;> simp [Matrix.mul_apply, Fin.sum_univ_three] <;> linarith
  · rw [Matrix.det_fin_three]; linarith

/-- The columns `b × y, y, -b` of unit perpendicular `b`, `y` form a proper rotation. -/
theorem ofCols_isRotation {b y : V} (hb : dot b b = 1) (hy : dot y y = 1) (hby : dot b y = 0) :
    IsRotation (ofCols (cross b y) y (fun i => -b i)) := by
  have hx : dot (cross b y) (cross b y) = 1 := by rw [dot_cross_self, hb, hy, hby]; ring
  have h1 := dot_cross_left b y
  have h2 := dot_cross_right b y
  apply isRotation_of_entries
  · simpa [ofCols, dot] using hx
  · simpa [ofCols, dot] using hy
  · simpa [ofCols, dot] using hb
  · have : dot (cross b y) y = 0 := by rw [dot_comm]; exact h2
    simpa [ofCols, dot] using this
  · have : -dot (cross b y) b = 0 := by rw [dot_comm]; simp [h1]
    simp only [ofCols, dot] at this ⊢
    simp at this ⊢; linarith
  · simp only [dot] at hby
    simp [ofCols]; linarith
  · have : dot (cross b y) (cross b y) = 1 := hx
    simp only [dot, cross] at this
    simp [ofCols, cross] at this ⊢
    linarith

theorem unit_of_sqrt {v : V} (h : 0 < dot v v) :
    dot (fun i => v i / √(dot v v)) (fun i => v i / √(dot v v)) = 1 := by
  have hs : √(dot v v) ≠ 0 := (Real.sqrt_pos.2 h).ne'
  have e : dot (fun i => v i / √(dot v v)) (fun i => v i / √(dot v v))
      = dot v v / (√(dot v v) * √(dot v v)) := by
    simp only [dot]; field_simp
  rw [e, Real.mul_self_sqrt h.le, div_self h.ne']

theorem epsf_pos : 0 < epsf := by unfold epsf; positivity

theorem sqrtEpsf_pos : 0 < sqrtEpsf := by unfold sqrtEpsf; positivity

theorem unitRow_true {v : V} (h : (unitRow v).2 = true) :
    0 < dot v v ∧ (unitRow v).1 = fun i => v i / √(dot v v) := by
  unfold unitRow at h ⊢
  split at h
  · rename_i hc
    rw [if_pos hc]
    exact ⟨Real.sqrt_pos.1 (epsf_pos.trans hc), rfl⟩
  · simp at h

theorem unitRow_of_gt {v : V} (h : √(dot v v) > epsf) : unitRow v = (fun i => v i / √(dot v v), true) := by
  rw [unitRow, if_pos h]

theorem eigenUnit_of_pos {v : V} (h : 0 < dot v v) : eigenUnit v = fun i => v i / √(dot v v) := by
  rw [eigenUnit, if_pos h]

theorem unitRow_isDirection {v : V} (h : (unitRow v).2 = true) : IsDirection (unitRow v).1 v := by
  obtain ⟨hp, e⟩ := unitRow_true h
  refine ⟨?_, √(dot v v), Real.sqrt_pos.2 hp, ?_⟩
  · rw [IsUnit3, ← dot_eq, e, unit_of_sqrt hp]
  · ext i
    have hs : √(dot v v) ≠ 0 := (Real.sqrt_pos.2 hp).ne'
    rw [e]; simp; field_simp

theorem eigenUnit_isDirection {v : V} (h : 0 < dot v v) : IsDirection (eigenUnit v) v := by
  refine ⟨?_, √(dot v v), Real.sqrt_pos.2 h, ?_⟩
  · rw [IsUnit3, ← dot_eq, eigenUnit_of_pos h, unit_of_sqrt h]
  · ext i
    have hs : √(dot v v) ≠ 0 := (Real.sqrt_pos.2 h).ne'
    rw [eigenUnit_of_pos h]; simp; field_simp

/-- Directions are unique. -/
theorem isDirection_unique {u u' v : V} (h : IsDirection u v) (h' : IsDirection u' v) : u = u' := by
  obtain ⟨hu, c, hc, e⟩ := h
  obtain ⟨hu', c', hc', e'⟩ := h'
  rw [IsUnit3, ← dot_eq] at hu hu'
  have h1 : c • u = c' • u' := e.symm.trans e'
  have hsq : c ^ 2 = c' ^ 2 := by
    have a : dot (c • u) (c • u) = c ^ 2 := by simp only [dot] at hu ⊢; simp; linear_combination c ^ 2 * hu
    have b : dot (c' • u') (c' • u') = c' ^ 2 := by
      simp only [dot] at hu' ⊢; simp; linear_combination c' ^ 2 * hu'
    rw [← a, ← b, h1]
  have hcc : c = c' := by nlinarith [sq_nonneg (c - c')]
  subst hcc
  ext i
  have := congrFun h1 i
  simp at this
  rcases this with h | h
  · exact h
  · exact absurd h hc.ne'

end Hexrd.Transforms
