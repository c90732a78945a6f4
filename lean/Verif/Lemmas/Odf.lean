import Verif.Spec.Odf
import Mathlib.MeasureTheory.Integral.IntervalIntegral.FundThmCalculus
import Mathlib.MeasureTheory.Integral.IntervalIntegral.IntegrationByParts
import Mathlib.Analysis.SpecialFunctions.ImproperIntegrals
import Mathlib.Tactic.Linarith
import Mathlib.Tactic.Ring
import Mathlib.Tactic.FieldSimp
import Mathlib.Tactic.NormNum
import Mathlib.Tactic.Positivity

/-! Integrals over the rotation angle. -/
namespace Hexrd.Odf

open MeasureTheory Set

theorem half_pos {ω : ℝ} (h : ω ∈ Ioo 0 Real.pi) : 0 < Real.sin (ω / 2) ∧ 0 < Real.cos (ω / 2) := by
  have h1 := h.1; have h2 := h.2
  exact ⟨Real.sin_pos_of_pos_of_lt_pi (by linarith) (by linarith),
    Real.cos_pos_of_mem_Ioo ⟨by linarith, by linarith⟩⟩

theorem beta_integrable {a : ℝ} (ha : 0 ≤ a) :
    IntervalIntegrable (fun t : ℝ => t ^ ((3 / 2 : ℝ) - 1) * (1 - t) ^ (a + 1 / 2 - 1)) volume 0 1 := by
  have h1 : IntervalIntegrable (fun t : ℝ => t ^ (a + 1 / 2 - 1)) volume 0 1 :=
    intervalIntegral.intervalIntegrable_rpow' (by linarith)
  have h2 := (h1.comp_sub_left 1).symm
  simp only [sub_zero, sub_self] at h2
  refine h2.continuousOn_mul ?_
  exact ContinuousOn.rpow_const continuousOn_id (fun x _ => Or.inr (by norm_num))

theorem sin_sq_integrable {a : ℝ} (ha : 0 ≤ a) :
    Continuous (fun ω : ℝ => Real.sin (ω / 2) ^ 2 * Real.cos (ω / 2) ^ (2 * a)) := by
  have h : Continuous fun ω : ℝ => Real.cos (ω / 2) ^ (2 * a) :=
    (Real.continuous_cos.comp (continuous_id.div_const 2)).rpow_const (fun x => Or.inr (by linarith))
  exact ((Real.continuous_sin.comp (continuous_id.div_const 2)).pow 2).mul h

/-- The substitution `t = sin² (ω / 2)`. -/
theorem subst_point {a ω : ℝ} (h : ω ∈ Ioo 0 Real.pi) :
    ((fun t : ℝ => t ^ ((3 / 2 : ℝ) - 1) * (1 - t) ^ (a + 1 / 2 - 1)) ∘ fun ω => Real.sin (ω / 2) ^ 2) ω
        * (Real.sin (ω / 2) * Real.cos (ω / 2)) =
      Real.sin (ω / 2) ^ 2 * Real.cos (ω / 2) ^ (2 * a) := by
  obtain ⟨hs, hc⟩ := half_pos h
  simp only [Function.comp]
  have e1 : 1 - Real.sin (ω / 2) ^ 2 = Real.cos (ω / 2) ^ 2 := by
    have := Real.sin_sq_add_cos_sq (ω / 2); linarith
  rw [e1]
  generalize Real.sin (ω / 2) = s at *
  generalize Real.cos (ω / 2) = c at *
  have e2 : (s ^ 2) ^ ((3 / 2 : ℝ) - 1) = s := by
    rw [← Real.rpow_natCast, ← Real.rpow_mul hs.le]; norm_num
  have e3 : (c ^ 2) ^ (a + 1 / 2 - 1) * c = c ^ (2 * a) := by
    rw [← Real.rpow_natCast, ← Real.rpow_mul hc.le]
    conv_lhs => rw [← Real.rpow_one c]
    rw [Real.rpow_one, ← Real.rpow_add_one hc.ne']
    congr 1; push_cast; ring
  rw [e2, ← e3]; ring

theorem beta_angle {a : ℝ} (ha : 0 ≤ a) :
    ∫ ω in (0 : ℝ)..Real.pi, Real.sin (ω / 2) ^ 2 * Real.cos (ω / 2) ^ (2 * a) = beta (3 / 2) (a + 1 / 2) := by
  have hpi := Real.pi_pos
  set g : ℝ → ℝ := fun t => t ^ ((3 / 2 : ℝ) - 1) * (1 - t) ^ (a + 1 / 2 - 1) with hg
  set f : ℝ → ℝ := fun ω => Real.sin (ω / 2) ^ 2 with hf
  set f' : ℝ → ℝ := fun ω => Real.sin (ω / 2) * Real.cos (ω / 2) with hf'
  have fc : Continuous f := (Real.continuous_sin.comp (continuous_id.div_const 2)).pow 2
  have fd : ∀ x, HasDerivAt f (f' x) x := by
    intro x
    have h1 : HasDerivAt (fun ω : ℝ => ω / 2) (1 / 2) x := (hasDerivAt_id x).div_const 2
    have h2 := (h1.sin).pow 2
    refine h2.congr_deriv ?_
    simp only [hf']; push_cast; ring
  have frange : f '' Ioo 0 Real.pi ⊆ Ioo 0 1 := by
    rintro _ ⟨x, hx, rfl⟩
    obtain ⟨hs, hc⟩ := half_pos hx
    have h := Real.sin_sq_add_cos_sq (x / 2)
    refine ⟨by positivity, ?_⟩
    show Real.sin (x / 2) ^ 2 < 1
    have : 0 < Real.cos (x / 2) ^ 2 := by positivity
    linarith
  have fcc : f '' Icc 0 Real.pi ⊆ Icc 0 1 := by
    rintro _ ⟨x, hx, rfl⟩
    exact ⟨sq_nonneg _, Real.sin_sq_le_one _⟩
  have key := intervalIntegral.integral_comp_mul_deriv''' (a := 0) (b := Real.pi) (f := f) (f' := f') (g := g)
    fc.continuousOn (fun x _ => (fd x).hasDerivWithinAt) ?_ ?_ ?_
  · have e0 : f 0 = 0 := by simp [hf]
    have e1 : f Real.pi = 1 := by simp [hf]
    rw [e0, e1] at key
    unfold beta
    rw [← key]
    refine intervalIntegral.integral_congr_ae ?_
    rw [uIoc_of_le hpi.le]
    have : ∀ᵐ x : ℝ, x ≠ Real.pi := by simp [ae_iff]
    filter_upwards [this] with x hx hm
    exact (subst_point ⟨hm.1, lt_of_le_of_ne hm.2 hx⟩).symm
  · rw [min_eq_left hpi.le, max_eq_right hpi.le]
    refine ContinuousOn.mono ?_ frange
    refine ContinuousOn.mul ?_ ?_
    · exact ContinuousOn.rpow_const continuousOn_id (fun x hx => Or.inl hx.1.ne')
    · exact ContinuousOn.rpow_const (continuousOn_const.sub continuousOn_id) (fun x hx => Or.inl (by
        have h2 : x < 1 := hx.2; show 1 - x ≠ 0; linarith))
  · rw [uIcc_of_le hpi.le]
    refine IntegrableOn.mono_set ?_ fcc
    rw [← uIcc_of_le zero_le_one]
    have := beta_integrable ha
    rwa [intervalIntegrable_iff', ] at this
  · rw [uIcc_of_le hpi.le, integrableOn_Icc_iff_integrableOn_Ioo]
    refine IntegrableOn.congr_fun ?_ (fun x hx => (subst_point (a := a) hx).symm) measurableSet_Ioo
    exact ((sin_sq_integrable ha).integrableOn_Icc (a := 0) (b := Real.pi)).mono_set Ioo_subset_Icc_self

theorem sin_sq_half (ω : ℝ) : Real.sin (ω / 2) ^ 2 = (1 - Real.cos ω) / 2 := by
  have h := Real.cos_sq (ω / 2)
  have h2 := Real.sin_sq_add_cos_sq (ω / 2)
  rw [show 2 * (ω / 2) = ω by ring] at h
  linarith

theorem beta_half : beta (3 / 2) (1 / 2) = Real.pi / 2 := by
  have h := beta_angle (a := 0) le_rfl
  rw [zero_add] at h
  rw [← h]
  simp only [mul_zero, Real.rpow_zero, mul_one, sin_sq_half]
  rw [intervalIntegral.integral_div, intervalIntegral.integral_sub (by simp)
    (Real.continuous_cos.intervalIntegrable _ _), integral_cos]
  simp

theorem beta_symm (a b : ℝ) : beta a b = beta b a := by
  unfold beta
  have h := intervalIntegral.integral_comp_sub_left (a := 0) (b := 1) (fun t : ℝ => t ^ (b - 1) * (1 - t) ^ (a - 1)) 1
  simp only [sub_zero, sub_self, sub_sub_cancel] at h
  rw [← h]
  refine intervalIntegral.integral_congr (fun t _ => ?_)
  ring

theorem beta_pos {a : ℝ} (ha : 0 ≤ a) : 0 < beta (3 / 2) (a + 1 / 2) := by
  rw [← beta_angle ha]
  refine intervalIntegral.intervalIntegral_pos_of_pos_on ((sin_sq_integrable ha).intervalIntegrable _ _) (fun x hx => ?_) Real.pi_pos
  obtain ⟨hs, hc⟩ := half_pos hx
  positivity

/-- The mean of a power of the cosine. -/
theorem mean_pow {a : ℝ} (ha : 0 ≤ a) (c : ℝ) :
    Spec.angleMean (fun ω => c * Real.cos (ω / 2) ^ (2 * a)) = 2 * c / Real.pi * beta (3 / 2) (a + 1 / 2) := by
  unfold Spec.angleMean
  rw [← beta_angle ha, ← intervalIntegral.integral_const_mul]
  refine intervalIntegral.integral_congr (fun ω _ => ?_)
  simp only [sin_sq_half]
  field_simp

end Hexrd.Odf
