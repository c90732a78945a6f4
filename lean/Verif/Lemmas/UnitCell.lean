import Verif.Spec.UnitCell
import Mathlib.Tactic.FieldSimp
import Mathlib.Tactic.Ring
import Mathlib.Tactic.LinearCombination
import Mathlib.Tactic.Positivity
import Mathlib.Tactic.Linarith
import Mathlib.Tactic.NormNum

/-! Algebra of the cell matrices. -/
namespace Hexrd.UnitCell

open Matrix Hexrd.SpaceGroup

namespace Cell

variable (L : Cell)

theorem det_dmt : L.dmt.det =
    (L.a * L.b * L.c) ^ 2 * (1 - L.ca ^ 2 - L.cb ^ 2 - L.cg ^ 2 + 2 * L.ca * L.cb * L.cg) := by
  rw [dmt, Matrix.det_fin_three]
  simp
  ring

theorem sg_sq : L.sg ^ 2 = 1 - L.cg ^ 2 := by
  rw [sg, cg]; linear_combination Real.sin_sq_add_cos_sq (radians L.gamma)

variable {L}

theorem abc_ne (h : 0 < L.dmt.det) : L.a ≠ 0 ∧ L.b ≠ 0 ∧ L.c ≠ 0 := by
  rw [det_dmt] at h
  refine ⟨?_, ?_, ?_⟩ <;> rintro e <;> simp [e] at h

theorem sg_ne (h : 0 < L.dmt.det) : L.sg ≠ 0 := by
  intro e
  have h1 := L.sg_sq
  rw [e] at h1
  rw [det_dmt] at h
  have h2 : 1 - L.ca ^ 2 - L.cb ^ 2 - L.cg ^ 2 + 2 * L.ca * L.cb * L.cg = -(L.cb - L.ca * L.cg) ^ 2 := by
    linear_combination (L.ca ^ 2 - 1) * h1
  rw [h2] at h
  have h3 : 0 ≤ (L.a * L.b * L.c) ^ 2 * (L.cb - L.ca * L.cg) ^ 2 := by positivity
  linarith

theorem vol_sq (h : 0 < L.dmt.det) : L.vol ^ 2 = L.dmt.det := Real.sq_sqrt h.le

theorem vol_pos (h : 0 < L.dmt.det) : 0 < L.vol := Real.sqrt_pos.2 h

theorem tg_eq : L.tg = L.sg / L.cg := Real.tan_eq_sin_div_cos _

theorem inv_tg : -1 / (L.a * L.tg) = -(L.cg / (L.a * L.sg)) := by
  rw [tg_eq]
  by_cases h : L.cg = 0
  · simp [h]
  · by_cases h' : L.sg = 0
    · simp [h']
    · by_cases ha : L.a = 0
      · simp [ha]
      · field_simp

/-- The columns of the structure matrix have the scalar products of the metric. -/
theorem dsm0_gram (h : 0 < L.dmt.det) : L.dsm0ᵀ * L.dsm0 = L.dmt := by
  obtain ⟨ha, hb, hc⟩ := abc_ne h
  have hs := sg_ne h
  have hq := L.sg_sq
  have hv := vol_sq h
  rw [det_dmt] at hv
  ext i j
  fin_cases i <;> fin_cases j <;> simp [dsm0, dmt, Matrix.mul_apply, Fin.sum_univ_three]
  · ring
  · ring
  · ring
  · ring
  · linear_combination L.b ^ 2 * hq
  · field_simp
    ring
  · ring
  · field_simp
    ring
  · field_simp
    rw [hv]
    linear_combination (L.b ^ 2 * L.a ^ 2 * L.c ^ 2 * L.cb ^ 2 - L.a ^ 2 * L.b ^ 2 * L.c ^ 2) * hq

/-- The reciprocal structure matrix is the inverse transpose. -/
theorem rsm0_dual (h : 0 < L.dmt.det) : L.rsm0ᵀ * L.dsm0 = 1 := by
  obtain ⟨ha, hb, hc⟩ := abc_ne h
  have hs := sg_ne h
  have hq := L.sg_sq
  have hv := (vol_pos h).ne'
  ext i j
  fin_cases i <;> fin_cases j <;> simp [dsm0, rsm0, Matrix.mul_apply, Fin.sum_univ_three, inv_tg]
  all_goals first | (field_simp; done) | skip
  · field_simp
    ring
  · field_simp
    linear_combination L.c * L.cb * hq
  · field_simp
    ring

theorem dsm0_det (h : 0 < L.dmt.det) : L.dsm0.det = L.vol := by
  obtain ⟨ha, hb, hc⟩ := abc_ne h
  have hs := sg_ne h
  rw [dsm0, Matrix.det_fin_three]
  simp
  field_simp

theorem clip_id (m : M3) (h : ∀ i j, m i j = 0 ∨ eps ≤ |m i j|) : clip m = m := by
  ext i j
  rw [clip]
  split_ifs with hlt
  · rcases h i j with h | h
    · exact h.symm
    · exact absurd hlt (not_lt.2 h)
  · rfl

theorem dsm_eq (hn : NoTiny L) : L.dsm = L.dsm0 := clip_id _ fun i j => (hn i j).1

theorem rsm_eq (hn : NoTiny L) : L.rsm = L.rsm0 := clip_id _ fun i j => (hn i j).2

theorem dsm_gram (h : 0 < L.dmt.det) (hn : NoTiny L) : L.dsmᵀ * L.dsm = L.dmt := by
  rw [dsm_eq hn]; exact dsm0_gram h

theorem rsm_dsm (h : 0 < L.dmt.det) (hn : NoTiny L) : L.rsmᵀ * L.dsm = 1 := by
  rw [dsm_eq hn, rsm_eq hn]; exact rsm0_dual h

theorem dsm_rsm (h : 0 < L.dmt.det) (hn : NoTiny L) : L.dsm * L.rsmᵀ = 1 :=
  mul_eq_one_comm.1 (rsm_dsm h hn)

theorem dsmT_rsm (h : 0 < L.dmt.det) (hn : NoTiny L) : L.dsmᵀ * L.rsm = 1 := by
  have := congrArg Matrix.transpose (rsm_dsm h hn)
  rwa [Matrix.transpose_mul, Matrix.transpose_transpose, Matrix.transpose_one] at this

theorem rsm_dsmT (h : 0 < L.dmt.det) (hn : NoTiny L) : L.rsm * L.dsmᵀ = 1 :=
  mul_eq_one_comm.1 (dsmT_rsm h hn)

theorem rmt_dmt (h : 0 < L.dmt.det) : L.rmt * L.dmt = 1 :=
  Matrix.nonsing_inv_mul _ (isUnit_iff_ne_zero.2 h.ne')

theorem dmt_rmt (h : 0 < L.dmt.det) : L.dmt * L.rmt = 1 := mul_eq_one_comm.1 (rmt_dmt h)

theorem rmt_eq (h : 0 < L.dmt.det) (hn : NoTiny L) : L.rmt = L.rsmᵀ * L.rsm := by
  have h1 : L.dmt * (L.rsmᵀ * L.rsm) = 1 := by
    rw [← dsm_gram h hn, Matrix.mul_assoc, ← Matrix.mul_assoc L.dsm, dsm_rsm h hn, Matrix.one_mul, dsmT_rsm h hn]
  calc L.rmt = L.rmt * (L.dmt * (L.rsmᵀ * L.rsm)) := by rw [h1, Matrix.mul_one]
    _ = L.rsmᵀ * L.rsm := by rw [← Matrix.mul_assoc, rmt_dmt h, Matrix.one_mul]

theorem dmt_symm : L.dmtᵀ = L.dmt := by
  ext i j
  fin_cases i <;> fin_cases j <;> simp [dmt]

theorem rmt_symm : L.rmtᵀ = L.rmt := by
  rw [rmt, Matrix.transpose_nonsing_inv, dmt_symm]

end Cell

/-- The matrix that takes components in a space to Cartesian components. -/
noncomputable def frame (L : Cell) : Space → M3
  | .d => L.dsm
  | .r => L.rsm
  | .c => 1

open Cell

variable {L : Cell}

/-- Changing the space keeps the Cartesian vector. -/
theorem frame_trans (h : 0 < L.dmt.det) (hn : NoTiny L) (v : V3) (s t : Space) :
    frame L t *ᵥ transSpace L v s t = frame L s *ᵥ v := by
  cases s <;> cases t <;>
    simp only [transSpace, frame, reduceCtorEq, if_false, if_true, Matrix.one_mulVec, ← Matrix.mulVec_transpose,
      Matrix.mulVec_mulVec, dmt_symm, rmt_symm, Matrix.one_mul]
  · rw [← dsm_gram h hn, ← Matrix.mul_assoc, rsm_dsmT h hn, Matrix.one_mul]
  · rw [rmt_eq h hn, ← Matrix.mul_assoc, dsm_rsm h hn, Matrix.one_mul]
  · rw [dsm_rsm h hn, Matrix.one_mulVec]
  · rw [rsm_dsmT h hn, Matrix.one_mulVec]

theorem frame_inj (h : 0 < L.dmt.det) (hn : NoTiny L) (s : Space) (v w : V3)
    (e : frame L s *ᵥ v = frame L s *ᵥ w) : v = w := by
  cases s
  · have := congrArg (fun x => L.rsmᵀ *ᵥ x) e
    simpa [frame, Matrix.mulVec_mulVec, rsm_dsm h hn] using this
  · have := congrArg (fun x => L.dsmᵀ *ᵥ x) e
    simpa [frame, Matrix.mulVec_mulVec, dsmT_rsm h hn] using this
  · simpa [frame] using e

theorem metric_frame (h : 0 < L.dmt.det) (hn : NoTiny L) (s : Space) : metric L s = (frame L s)ᵀ * frame L s := by
  cases s
  · exact (dsm_gram h hn).symm
  · exact rmt_eq h hn
  · simp [metric, frame]

theorem dot_frame (h : 0 < L.dmt.det) (hn : NoTiny L) (s : Space) (u v : V3) :
    u ⬝ᵥ (metric L s *ᵥ v) = (frame L s *ᵥ u) ⬝ᵥ (frame L s *ᵥ v) := by
  rw [metric_frame h hn, ← Matrix.mulVec_mulVec, Matrix.dotProduct_mulVec, Matrix.vecMul_transpose]

theorem calcDot_eq (u v : V3) (s : Space) : calcDot L u v s = u ⬝ᵥ (metric L s *ᵥ v) := by
  cases s <;> simp [calcDot, metric]

theorem cross_mulVec (M : M3) (p q : V3) : Mᵀ *ᵥ cross (M *ᵥ p) (M *ᵥ q) = M.det • cross p q := by
  ext i
  rw [Matrix.det_fin_three]
  fin_cases i <;> simp [cross, Matrix.mulVec, dotProduct, Fin.sum_univ_three] <;> ring

/-- The cross product of the Cartesian vectors, from the components. -/
theorem cross_frame (M N : M3) (hMN : N * Mᵀ = 1) (p q : V3) :
    cross (M *ᵥ p) (M *ᵥ q) = M.det • (N *ᵥ cross p q) := by
  have := congrArg (fun x => N *ᵥ x) (cross_mulVec M p q)
  simpa [Matrix.mulVec_mulVec, hMN, Matrix.mulVec_smul] using this

theorem det_dsm (h : 0 < L.dmt.det) (hn : NoTiny L) : L.dsm.det = L.vol := by rw [dsm_eq hn, dsm0_det h]

theorem det_rsm (h : 0 < L.dmt.det) (hn : NoTiny L) : L.rsm.det = L.vol⁻¹ := by
  have := congrArg Matrix.det (dsmT_rsm h hn)
  rw [Matrix.det_mul, Matrix.det_transpose, det_dsm h hn, Matrix.det_one] at this
  exact eq_inv_of_mul_eq_one_right this

end Hexrd.UnitCell
