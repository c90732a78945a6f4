import Verif.Lemmas.Odf
import Verif.Lemmas.Quat
import Mathlib.LinearAlgebra.Matrix.Adjugate
import Mathlib.Data.List.Nodup
import Mathlib.Algebra.BigOperators.Group.List.Basic
import Mathlib.Algebra.Order.BigOperators.Group.List
import Mathlib.Algebra.BigOperators.Ring.List
import Mathlib.Tactic.LinearCombination
import Mathlib.Tactic.FinCases

/-! Rotation matrices and finite groups of them. -/
namespace Hexrd.Odf

open Matrix Spec Hexrd.Rotations Hexrd.Rotations.Spec

theorem rot_mul_transpose {R : Mat} (h : IsRot R) : R * Rᵀ = 1 := _root_.mul_eq_one_comm.1 h.1

theorem rot_one : IsRot 1 := ⟨by simp, by simp⟩

theorem rot_mul {A B : Mat} (ha : IsRot A) (hb : IsRot B) : IsRot (A * B) := by
  refine ⟨?_, by rw [det_mul, ha.2, hb.2, one_mul]⟩
  rw [transpose_mul, Matrix.mul_assoc, ← Matrix.mul_assoc Aᵀ, ha.1, Matrix.one_mul, hb.1]

theorem rot_transpose {A : Mat} (ha : IsRot A) : IsRot Aᵀ :=
  ⟨by rw [transpose_transpose]; exact rot_mul_transpose ha, by rw [det_transpose, ha.2]⟩

theorem rot_adj {R : Mat} (h : IsRot R) : R.adjugate = Rᵀ := by
  have h1 : R.adjugate * R = 1 := by rw [adjugate_mul, h.2, one_smul]
  calc R.adjugate = R.adjugate * (R * Rᵀ) := by rw [rot_mul_transpose h, Matrix.mul_one]
    _ = Rᵀ := by rw [← Matrix.mul_assoc, h1, Matrix.one_mul]

theorem trace_entries (R : Mat) : R.trace = R 0 0 + R 1 1 + R 2 2 := Matrix.trace_fin_three R

theorem sq_sum {R : Mat} (h : IsRot R) :
    R 0 0 ^ 2 + R 0 1 ^ 2 + R 0 2 ^ 2 + R 1 0 ^ 2 + R 1 1 ^ 2 + R 1 2 ^ 2 + R 2 0 ^ 2 + R 2 1 ^ 2 + R 2 2 ^ 2 = 3 := by
  have h1 := congrArg Matrix.trace h.1
  simp only [trace_entries, Matrix.mul_apply, Fin.sum_univ_three, transpose_apply] at h1
  simp at h1
  linarith

theorem cofactors {R : Mat} (h : IsRot R) :
    R 1 1 * R 2 2 - R 1 2 * R 2 1 = R 0 0 ∧ R 0 0 * R 2 2 - R 0 2 * R 2 0 = R 1 1 ∧
      R 0 0 * R 1 1 - R 0 1 * R 1 0 = R 2 2 := by
  have h1 := rot_adj h
  rw [adjugate_fin_three] at h1
  have e0 := congrFun (congrFun h1 0) 0
  have e1 := congrFun (congrFun h1 1) 1
  have e2 := congrFun (congrFun h1 2) 2
  simp at e0 e1 e2
  exact ⟨e0, e1, e2⟩

theorem trace_bounds {R : Mat} (h : IsRot R) : -1 ≤ R.trace ∧ R.trace ≤ 3 := by
  obtain ⟨c0, c1, c2⟩ := cofactors h
  have hs := sq_sum h
  rw [trace_entries]
  have key : (3 - (R 0 0 + R 1 1 + R 2 2)) * (1 + (R 0 0 + R 1 1 + R 2 2)) =
      (R 0 1 - R 1 0) ^ 2 + (R 0 2 - R 2 0) ^ 2 + (R 1 2 - R 2 1) ^ 2 := by
    linear_combination (-1 : ℝ) * hs - 2 * c0 - 2 * c1 - 2 * c2
  have hle : R 0 0 + R 1 1 + R 2 2 ≤ 3 := by
    nlinarith [sq_nonneg (R 0 0 - 1), sq_nonneg (R 1 1 - 1), sq_nonneg (R 2 2 - 1), sq_nonneg (R 0 1),
      sq_nonneg (R 0 2), sq_nonneg (R 1 0), sq_nonneg (R 1 2), sq_nonneg (R 2 0), sq_nonneg (R 2 1)]
  refine ⟨?_, hle⟩
  by_contra hc
  push Not at hc
  have hp : 0 ≤ (3 - (R 0 0 + R 1 1 + R 2 2)) * (1 + (R 0 0 + R 1 1 + R 2 2)) := by rw [key]; positivity
  nlinarith

theorem one_of_trace {R : Mat} (h : IsRot R) (ht : R.trace = 3) : R = 1 := by
  have hs := sq_sum h
  rw [trace_entries] at ht
  have key : (R 0 0 - 1) ^ 2 + (R 1 1 - 1) ^ 2 + (R 2 2 - 1) ^ 2 + R 0 1 ^ 2 + R 0 2 ^ 2 + R 1 0 ^ 2 + R 1 2 ^ 2
      + R 2 0 ^ 2 + R 2 1 ^ 2 = 0 := by linear_combination hs - 2 * ht
  have p : ∀ x : ℝ, 0 ≤ x ^ 2 := fun x => sq_nonneg x
  have z : ∀ x : ℝ, x ^ 2 ≤ 0 → x = 0 := fun x hx => pow_eq_zero_iff two_ne_zero |>.1 (le_antisymm hx (p x))
  have q1 := p (R 0 0 - 1); have q2 := p (R 1 1 - 1); have q3 := p (R 2 2 - 1)
  have q4 := p (R 0 1); have q5 := p (R 0 2); have q6 := p (R 1 0); have q7 := p (R 1 2)
  have q8 := p (R 2 0); have q9 := p (R 2 1)
  have r1 : R 0 0 = 1 := by have := z (R 0 0 - 1) (by linarith); linarith
  have r2 : R 1 1 = 1 := by have := z (R 1 1 - 1) (by linarith); linarith
  have r3 : R 2 2 = 1 := by have := z (R 2 2 - 1) (by linarith); linarith
  have r4 := z (R 0 1) (by linarith); have r5 := z (R 0 2) (by linarith); have r6 := z (R 1 0) (by linarith)
  have r7 := z (R 1 2) (by linarith); have r8 := z (R 2 0) (by linarith); have r9 := z (R 2 1) (by linarith)
  ext i j
  fin_cases i <;> fin_cases j <;> simp <;> assumption

theorem trace_square {R : Mat} (h : IsRot R) : (R * R).trace = R.trace ^ 2 - 2 * R.trace := by
  obtain ⟨c0, c1, c2⟩ := cofactors h
  simp only [trace_entries, Matrix.mul_apply, Fin.sum_univ_three]
  linear_combination (-2 : ℝ) * c0 - 2 * c1 - 2 * c2

theorem eq_of_trace {A B : Mat} (ha : IsRot A) (hb : IsRot B) (h : (Aᵀ * B).trace = 3) : A = B := by
  have h1 := one_of_trace (rot_mul (rot_transpose ha) hb) h
  calc A = A * (Aᵀ * B) := by rw [h1, Matrix.mul_one]
    _ = B := by rw [← Matrix.mul_assoc, rot_mul_transpose ha, Matrix.one_mul]

/-- A group whose traces are all positive is trivial. -/
theorem group_trivial {G : List Mat} (hG : IsGroup G) (h : ∀ g ∈ G, 0 < g.trace) : G = [1] := by
  have key : ∀ g ∈ G, g = 1 := by
    obtain ⟨m, hm, hmin⟩ := G.toFinset.exists_min_image (fun g : Mat => g.trace) ⟨1, by simpa using hG.one⟩
    rw [List.mem_toFinset] at hm
    have h2 := hmin (m * m) (by rw [List.mem_toFinset]; exact hG.mul m hm m hm)
    simp only [trace_square (hG.rot m hm)] at h2
    have hp := h m hm
    have h3 : 3 ≤ m.trace := by nlinarith
    intro g hg
    have h4 := hmin g (List.mem_toFinset.2 hg)
    have h5 := (trace_bounds (hG.rot g hg)).2
    exact one_of_trace (hG.rot g hg) (by linarith)
  have hnd := hG.nodup
  have hone := hG.one
  match G, key, hnd, hone with
  | [], _, _, h => simp at h
  | [a], key, _, _ => rw [key a (by simp)]
  | a :: b :: l, key, hnd, _ =>
    exfalso
    have e1 := key a (by simp)
    have e2 := key b (by simp)
    rw [List.nodup_cons] at hnd
    exact hnd.1 (by rw [e1, e2]; simp)

theorem group_left {G : List Mat} (hG : IsGroup G) {a : Mat} (ha : a ∈ G) : (G.map (a * ·)).Perm G := by
  have inj : Function.Injective (a * · : Mat → Mat) := by
    intro x y hxy
    have := congrArg (aᵀ * ·) hxy
    simpa only [← Matrix.mul_assoc, (hG.rot a ha).1, Matrix.one_mul] using this
  refine ((List.subperm_of_subset (hG.nodup.map inj) ?_).perm_of_length_le (by simp))
  intro x hx
  obtain ⟨g, hg, rfl⟩ := List.mem_map.1 hx
  exact hG.mul a ha g hg

theorem group_right {G : List Mat} (hG : IsGroup G) {a : Mat} (ha : a ∈ G) : (G.map (· * a)).Perm G := by
  have inj : Function.Injective (· * a : Mat → Mat) := by
    intro x y hxy
    have := congrArg (· * aᵀ) hxy
    simpa only [Matrix.mul_assoc, rot_mul_transpose (hG.rot a ha), Matrix.mul_one] using this
  refine ((List.subperm_of_subset (hG.nodup.map inj) ?_).perm_of_length_le (by simp))
  intro x hx
  obtain ⟨g, hg, rfl⟩ := List.mem_map.1 hx
  exact hG.mul g hg a ha

theorem group_inv {G : List Mat} (hG : IsGroup G) : (G.map (fun g => gᵀ)).Perm G := by
  refine ((List.subperm_of_subset (hG.nodup.map transpose_injective) ?_).perm_of_length_le (by simp))
  intro x hx
  obtain ⟨g, hg, rfl⟩ := List.mem_map.1 hx
  exact hG.inv g hg

theorem group_one : IsGroup [1] := by
  refine ⟨?_, by simp, by simp, ?_, ?_⟩
  · intro g hg; rw [List.mem_singleton.1 hg]; exact rot_one
  · intro g hg h hh; rw [List.mem_singleton.1 hg, List.mem_singleton.1 hh]; simp
  · intro g hg; rw [List.mem_singleton.1 hg]; simp

theorem rotMat_one : rotMat (⟨1, 0, 0, 0⟩ : Quat ℝ) = 1 := by rw [rotMat_scalar]; simp

theorem rotMat_isRot {q : Quat ℝ} (h : UnitQ q) : IsRot (rotMat q) := by
  refine ⟨?_, by rw [rotMat_det, h]; norm_num⟩
  rw [← rotMat_conj, ← rotMat_mul_aux, Rotations.conj_mul, h]
  exact rotMat_one

theorem rotMat_trace (q : Quat ℝ) : (rotMat q).trace = 4 * q.w ^ 2 - Quat.norm2 q := by
  rw [trace_entries]; simp [rotMat, Quat.norm2]; ring

theorem unit_of_rot {q : Quat ℝ} (h : IsRot (rotMat q)) : UnitQ q := by
  have h1 := h.2
  rw [rotMat_det] at h1
  have h0 := norm2_nonneg q
  have h2 : (Quat.norm2 q - 1) * (Quat.norm2 q ^ 2 + Quat.norm2 q + 1) = 0 := by linear_combination h1
  rcases mul_eq_zero.1 h2 with h3 | h3
  · exact sub_eq_zero.1 h3
  · nlinarith

theorem imageMean_left {S C : List Mat} (hS : IsGroup S) {a : Mat} (ha : a ∈ S) (f : Mat → ℝ) (r : Mat) :
    imageMean S C f (a * r) = imageMean S C f r := by
  unfold imageMean
  congr 1
  have h := ((group_right hS ha).map fun s => (C.map fun c => f (s * r * c)).sum).sum_eq
  rw [List.map_map] at h
  rw [← h]
  simp only [Function.comp_def, Matrix.mul_assoc]

theorem imageMean_right {S C : List Mat} (hC : IsGroup C) {a : Mat} (ha : a ∈ C) (f : Mat → ℝ) (r : Mat) :
    imageMean S C f (r * a) = imageMean S C f r := by
  unfold imageMean
  congr 2
  refine List.map_congr_left fun s _ => ?_
  have h := ((group_left hC ha).map fun c => f (s * r * c)).sum_eq
  rw [List.map_map] at h
  rw [← h]
  simp only [Function.comp_def, Matrix.mul_assoc]

/-- Averaging over the inverses is averaging over the group. -/
theorem imageMean_inv {S C : List Mat} (hS : IsGroup S) (hC : IsGroup C) (f : Mat → ℝ) (r : Mat) :
    imageMean S C f r = (S.map fun s => (C.map fun c => f (sᵀ * r * cᵀ)).sum).sum / (S.length * C.length) := by
  unfold imageMean
  congr 1
  have h := ((group_inv hS).map fun s => (C.map fun c => f (s * r * c)).sum).sum_eq
  rw [List.map_map] at h
  rw [← h]
  congr 1
  refine List.map_congr_left fun s _ => ?_
  have h := ((group_inv hC).map fun c => f (sᵀ * r * c)).sum_eq
  rw [List.map_map] at h
  simp only [Function.comp_def] at h ⊢
  exact h.symm

theorem trace_swap (g s r c : Mat) : (gᵀ * (s * r * c)).trace = (rᵀ * (sᵀ * g * cᵀ)).trace := by
  rw [← Matrix.trace_transpose]
  simp only [transpose_mul, transpose_transpose]
  rw [show cᵀ * (rᵀ * sᵀ) * g = cᵀ * (rᵀ * sᵀ * g) from by simp only [Matrix.mul_assoc], Matrix.trace_mul_comm]
  simp only [Matrix.mul_assoc]

end Hexrd.Odf
