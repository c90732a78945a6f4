import Verif.Model.Convolved
import Verif.Spec.Convolved
import Mathlib.Tactic.FieldSimp
import Mathlib.Tactic.LinearCombination

/-! Properties of the asymmetric Gaussian parts of powder peaks (C160). -/

namespace Hexrd.Convolved
open MeasureTheory Set Spec

/-! ### The complementary error function -/

theorem tail_integrable (x : ℝ) : IntegrableOn (fun t : ℝ => Real.exp (-t ^ 2)) (Ioi x) := by
  have := (integrable_exp_neg_mul_sq (b := 1) one_pos).integrableOn (s := Ioi x)
  simpa using this

theorem erfc_pos (x : ℝ) : 0 < erfc x := by
  unfold erfc
  refine mul_pos (by positivity) ?_
  rw [setIntegral_pos_iff_support_of_nonneg_ae (Filter.Eventually.of_forall fun t => (Real.exp_pos _).le) (tail_integrable x)]
  have : Function.support (fun t : ℝ => Real.exp (-t ^ 2)) = univ := by
    ext t; simp [Real.exp_ne_zero]
  rw [this]
  simp

theorem erfc_zero : erfc 0 = 1 := by
  unfold erfc
  have h := integral_gaussian_Ioi 1
  simp only [neg_mul, one_mul, div_one] at h
  rw [h]
  have : √Real.pi ≠ 0 := by positivity
  field_simp

theorem shift_Ioi (f : ℝ → ℝ) (z a : ℝ) : ∫ s in Ioi a, f (s + z) = ∫ t in Ioi (a + z), f t := by
  rw [← integral_indicator measurableSet_Ioi, ← integral_indicator measurableSet_Ioi,
    ← integral_add_right_eq_self (μ := volume) ((Ioi (a + z)).indicator f) z]
  refine integral_congr_ae (Filter.Eventually.of_forall fun s => ?_)
  simp only [indicator, mem_Ioi, add_lt_add_iff_right]

theorem tail_scaled (k z : ℝ) (hk : 0 < k) :
    ∫ s in Ioi (0 : ℝ), Real.exp (-(k * s + z) ^ 2) = √Real.pi / (2 * k) * erfc z := by
  have h1 := integral_comp_mul_left_Ioi (fun t => Real.exp (-(t + z) ^ 2)) 0 hk
  have h2 := shift_Ioi (fun t => Real.exp (-t ^ 2)) z 0
  simp only [mul_zero, smul_eq_mul] at h1
  rw [h1, h2, zero_add]
  unfold erfc
  have : √Real.pi ≠ 0 := by positivity
  field_simp

/-! ### One exponential -/

theorem product_eq (b w d s : ℝ) (hw : 0 < w) : Real.exp (-(b * s)) * gauss w (d - s) =
    Real.exp (b ^ 2 * w ^ 2 / 2 - b * d) / (w * √(2 * Real.pi)) *
      Real.exp (-(1 / (√2 * w) * s + (b * w ^ 2 - d) / (√2 * w)) ^ 2) := by
  have h2 : √2 ≠ 0 := by positivity
  have hs2 : √2 ^ 2 = 2 := Real.sq_sqrt (by norm_num)
  unfold gauss
  rw [div_mul_eq_mul_div, ← Real.exp_add, ← mul_div_assoc, ← Real.exp_add]
  congr 2
  have hw0 := hw.ne'
  have : (1 / (√2 * w) * s + (b * w ^ 2 - d) / (√2 * w)) ^ 2 = (s + (b * w ^ 2 - d)) ^ 2 / (√2 ^ 2 * w ^ 2) := by
    field_simp
  rw [this, hs2]
  field_simp
  ring

theorem product_integrable (b w d : ℝ) (hw : 0 < w) : Integrable fun s => Real.exp (-(b * s)) * gauss w (d - s) := by
  simp only [product_eq b w d _ hw]
  refine Integrable.const_mul ?_ _
  have h0 : Integrable fun t : ℝ => Real.exp (-t ^ 2) := by
    have := integrable_exp_neg_mul_sq (b := 1) one_pos
    simpa using this
  exact (h0.comp_add_right ((b * w ^ 2 - d) / (√2 * w))).comp_mul_left' (by positivity)

theorem half_line (b w d : ℝ) (hw : 0 < w) :
    ∫ s in Ioi (0 : ℝ), Real.exp (-(b * s)) * gauss w (d - s) =
      1 / 2 * Real.exp (b ^ 2 * w ^ 2 / 2 - b * d) * erfc ((b * w ^ 2 - d) / (√2 * w)) := by
  have h2 : √2 ≠ 0 := by positivity
  have hpi : √Real.pi ≠ 0 := by positivity
  simp only [product_eq b w d _ hw]
  rw [integral_const_mul, tail_scaled _ _ (by positivity), Real.sqrt_mul (by norm_num)]
  field_simp

/-- The part for an exponential pulse is the Gaussian folded with the decay. -/
theorem exponential_is_fold (tau w tth x : ℝ) (ht : 0 < tau) (hw : 0 < w) :
    gaussianExponential erfc tau w tth x = fold (decay tau) (gauss w) (x - tth) := by
  have e : fold (decay tau) (gauss w) (x - tth) =
      1 / tau * ∫ s in Ioi (0 : ℝ), Real.exp (-(1 / tau * s)) * gauss w (x - tth - s) := by
    unfold fold decay
    rw [← integral_const_mul, ← integral_indicator measurableSet_Ioi]
    refine integral_congr_ae (Filter.Eventually.of_forall fun s => ?_)
    simp only [indicator, mem_Ioi]
    split
    · rw [show -s / tau = -(1 / tau * s) by ring]; ring
    · ring
  rw [e, half_line _ _ _ hw]
  unfold gaussianExponential
  simp only
  have ht0 := ht.ne'
  rw [show 1 / 2 * (w ^ 2 / tau - 2 * (x - tth)) / tau = (1 / tau) ^ 2 * w ^ 2 / 2 - 1 / tau * (x - tth) by field_simp,
    show w ^ 2 / tau - 2 * (x - tth) + (x - tth) = 1 / tau * w ^ 2 - (x - tth) by ring]
  ring

/-- With another function for `erfc` the error of the peak is bounded by that of the function. -/
theorem exponential_error (f : ℝ → ℝ) (ε : ℝ) (hf : ∀ z, |f z - erfc z| ≤ ε) (tau w tth x : ℝ) (ht : 0 < tau) (hw : 0 < w) :
    |gaussianExponential f tau w tth x - fold (decay tau) (gauss w) (x - tth)| ≤
      ε / (2 * tau) * Real.exp (w ^ 2 / (2 * tau ^ 2) - (x - tth) / tau) := by
  rw [← exponential_is_fold tau w tth x ht hw]
  unfold gaussianExponential
  simp only
  have ht0 := ht.ne'
  rw [← mul_sub, abs_mul, abs_of_pos (by positivity),
    show 1 / 2 * (w ^ 2 / tau - 2 * (x - tth)) / tau = w ^ 2 / (2 * tau ^ 2) - (x - tth) / tau by field_simp]
  calc 1 / 2 / tau * Real.exp (w ^ 2 / (2 * tau ^ 2) - (x - tth) / tau) *
        |f ((w ^ 2 / tau - 2 * (x - tth) + (x - tth)) / (√2 * w)) - erfc ((w ^ 2 / tau - 2 * (x - tth) + (x - tth)) / (√2 * w))|
      ≤ 1 / 2 / tau * Real.exp (w ^ 2 / (2 * tau ^ 2) - (x - tth) / tau) * ε :=
        mul_le_mul_of_nonneg_left (hf _) (by positivity)
    _ = _ := by field_simp

/-! ### Two exponentials -/

theorem mirrored (a w d s : ℝ) : Real.exp (a * -s) * gauss w (d - -s) = Real.exp (-(a * s)) * gauss w (-d - s) := by
  have : gauss w (d - -s) = gauss w (-d - s) := by unfold gauss; congr 3; ring
  rw [this]; congr 2; ring

theorem half_line_neg (a w d : ℝ) (hw : 0 < w) :
    ∫ s in Iic (0 : ℝ), Real.exp (a * s) * gauss w (d - s) =
      1 / 2 * Real.exp (a ^ 2 * w ^ 2 / 2 + a * d) * erfc ((a * w ^ 2 + d) / (√2 * w)) := by
  have h := half_line a w (-d) hw
  have h2 := integral_comp_neg_Ioi 0 (fun s : ℝ => Real.exp (a * s) * gauss w (d - s))
  simp only [neg_zero] at h2
  rw [← h2]
  simp only [mirrored, h]
  rw [mul_neg, sub_neg_eq_add, sub_neg_eq_add]

/-- The Gaussian folded with two exponentials back to back, in closed form. -/
theorem fold_backToBack (a b w d : ℝ) (hw : 0 < w) :
    fold (backToBack a b) (gauss w) d = 1 / 2 * (a * b) / (a + b) *
      (Real.exp (a ^ 2 * w ^ 2 / 2 + a * d) * erfc ((a * w ^ 2 + d) / (√2 * w)) +
       Real.exp (b ^ 2 * w ^ 2 / 2 - b * d) * erfc ((b * w ^ 2 - d) / (√2 * w))) := by
  let F : ℝ → ℝ := fun s => backToBack a b s * gauss w (d - s)
  have hneg : EqOn F (fun s => a * b / (a + b) * (Real.exp (a * s) * gauss w (d - s))) (Iic 0) := by
    intro s hs
    simp only [F, backToBack, if_neg (not_lt.2 (mem_Iic.1 hs))]; ring
  have hpos : EqOn F (fun s => a * b / (a + b) * (Real.exp (-(b * s)) * gauss w (d - s))) (Ioi 0) := by
    intro s hs
    simp only [F, backToBack, if_pos (mem_Ioi.1 hs)]; ring
  have hi1 : Integrable fun s => Real.exp (a * s) * gauss w (d - s) := by
    have := (product_integrable a w (-d) hw).comp_neg
    refine this.congr (Filter.Eventually.of_forall fun s => ?_)
    have h := mirrored a w d (-s)
    simp only [neg_neg] at h
    exact h.symm
  have i1 : IntegrableOn F (Iic 0) :=
    ((hi1.const_mul (a * b / (a + b))).integrableOn).congr_fun hneg.symm measurableSet_Iic
  have i2 : IntegrableOn F (Ioi 0) :=
    (((product_integrable b w d hw).const_mul (a * b / (a + b))).integrableOn).congr_fun hpos.symm measurableSet_Ioi
  have hsplit : ∫ s, F s = (∫ s in Iic 0, F s) + ∫ s in Ioi 0, F s := (intervalIntegral.integral_Iic_add_Ioi i1 i2).symm
  show ∫ s, F s = _
  rw [hsplit, setIntegral_congr_fun measurableSet_Iic hneg, setIntegral_congr_fun measurableSet_Ioi hpos,
    integral_const_mul, integral_const_mul, half_line_neg a w d hw, half_line b w d hw]
  ring

/-- The part for the pink beam is not the folding: the factor in front is that of the first term only. -/
theorem pink_excess (a b w x0 x : ℝ) (hw : 0 < w) :
    Peaks.gaussianPink erfc x0 a b w x = fold (backToBack a b) (gauss w) (x - x0) +
      (1 - 1 / 2 * (a * b) / (a + b)) *
        (Real.exp (b ^ 2 * w ^ 2 / 2 - b * (x - x0)) * erfc ((b * w ^ 2 - (x - x0)) / (√2 * w))) := by
  rw [fold_backToBack a b w _ hw]
  unfold Peaks.gaussianPink
  simp only
  rw [show 1 / 2 * a * (a * w ^ 2 + 2 * (x - x0)) = a ^ 2 * w ^ 2 / 2 + a * (x - x0) by ring,
    show 1 / 2 * b * (b * w ^ 2 - 2 * (x - x0)) = b ^ 2 * w ^ 2 / 2 - b * (x - x0) by ring,
    show a * w ^ 2 + 2 * (x - x0) - (x - x0) = a * w ^ 2 + (x - x0) by ring,
    show b * w ^ 2 - 2 * (x - x0) + (x - x0) = b * w ^ 2 - (x - x0) by ring]
  ring

/-- It is the folding for no position, or for every one, and this when the product of the rates is twice their sum. -/
theorem pink_fold_iff (a b w x0 x : ℝ) (ha : 0 < a) (hb : 0 < b) (hw : 0 < w) :
    Peaks.gaussianPink erfc x0 a b w x = fold (backToBack a b) (gauss w) (x - x0) ↔ a * b = 2 * (a + b) := by
  rw [pink_excess a b w x0 x hw]
  have hp : Real.exp (b ^ 2 * w ^ 2 / 2 - b * (x - x0)) * erfc ((b * w ^ 2 - (x - x0)) / (√2 * w)) ≠ 0 :=
    (mul_pos (Real.exp_pos _) (erfc_pos _)).ne'
  have hab : a + b ≠ 0 := by positivity
  rw [add_eq_left, mul_eq_zero, or_iff_left hp, sub_eq_zero, eq_comm, div_eq_iff hab]
  constructor <;> intro h <;> linarith

/-- With rates of one the peak is not the folding it is said to be. -/
theorem pink_fold_fails (w x0 x : ℝ) (hw : 0 < w) :
    Peaks.gaussianPink erfc x0 1 1 w x ≠ fold (backToBack 1 1) (gauss w) (x - x0) := by
  rw [Ne, pink_fold_iff 1 1 w x0 x one_pos one_pos hw]
  norm_num

/-! ### Half a Gaussian -/

/-- The part for a heated sample is half of the Gaussian folded with half a Gaussian. -/
theorem heating_is_half_fold (sigma w tth x : ℝ) (hs : 0 < sigma) (hw : 0 < w) :
    gaussianHeating erfc sigma w tth x = 1 / 2 * fold (halfGauss sigma) (gauss w) (x - tth) := by
  set d := x - tth with hd
  set S := √(w ^ 2 + sigma ^ 2) with hS
  have hS0 : 0 < S := Real.sqrt_pos.2 (by positivity)
  have hSS : S ^ 2 = w ^ 2 + sigma ^ 2 := Real.sq_sqrt (by positivity)
  have h2 : √2 ≠ 0 := by positivity
  have hs2 : √2 ^ 2 = 2 := Real.sq_sqrt (by norm_num)
  have hpi : √Real.pi ≠ 0 := by positivity
  have hpp : √Real.pi ^ 2 = Real.pi := Real.sq_sqrt Real.pi_pos.le
  have hw0 := hw.ne'
  have hs0 := hs.ne'
  have e1 : fold (halfGauss sigma) (gauss w) d =
      ∫ s in Ioi (0 : ℝ), 2 / (sigma * √(2 * Real.pi) * (w * √(2 * Real.pi))) * Real.exp (-(1 / 2) * (d / S) ^ 2) *
        Real.exp (-(S / (√2 * sigma * w) * s + -(d / S / √2) * (sigma / w)) ^ 2) := by
    unfold fold halfGauss
    rw [← integral_indicator measurableSet_Ioi]
    refine integral_congr_ae (Filter.Eventually.of_forall fun s => ?_)
    simp only [indicator, mem_Ioi]
    split
    · unfold gauss
      have hexp : -s ^ 2 / (2 * sigma ^ 2) + -(d - s) ^ 2 / (2 * w ^ 2) =
          -(1 / 2) * (d / S) ^ 2 + -(S / (√2 * sigma * w) * s + -(d / S / √2) * (sigma / w)) ^ 2 := by
        have : (S / (√2 * sigma * w) * s + -(d / S / √2) * (sigma / w)) ^ 2 =
            (S ^ 2 * s - d * sigma ^ 2) ^ 2 / (√2 ^ 2 * sigma ^ 2 * w ^ 2 * S ^ 2) := by
          field_simp; ring
        rw [this, hs2, div_pow, hSS]
        have hne : w ^ 2 + sigma ^ 2 ≠ 0 := by positivity
        field_simp
        ring
      rw [mul_assoc (2 / _), ← Real.exp_add, ← hexp, Real.exp_add]
      field_simp
    · ring
  rw [e1, integral_const_mul, tail_scaled _ _ (by positivity)]
  unfold gaussianHeating
  simp only [← hd, ← hS]
  rw [Real.sqrt_mul (by norm_num : (0 : ℝ) ≤ 2)]
  field_simp

/-! ### Lorentzians -/

theorem lorentz_bound (w x : ℝ) (hw : 0 < w) : 0 < lorentz w x ∧ lorentz w x ≤ 2 / (Real.pi * w) := by
  unfold lorentz
  have hp := Real.pi_pos
  refine ⟨by positivity, ?_⟩
  rw [div_le_iff₀ (by positivity)]
  have : 0 ≤ 2 / (Real.pi * w) * x ^ 2 := by positivity
  have e : 2 / (Real.pi * w) * (x ^ 2 + (w / 2) ^ 2) = 2 / (Real.pi * w) * x ^ 2 + w / 2 / Real.pi := by
    field_simp
  rw [e]; linarith

theorem lorentz_integrable (r w d : ℝ) (hr : 0 < r) (hw : 0 < w) :
    IntegrableOn (fun s => Real.exp (-(r * s)) * lorentz w (d - s)) (Ioi 0) := by
  have h0 : IntegrableOn (fun s : ℝ => Real.exp (-r * s) * (2 / (Real.pi * w))) (Ioi 0) :=
    (integrableOn_exp_mul_Ioi (neg_lt_zero.2 hr) 0).mul_const _
  refine Integrable.mono' h0 ?_ ?_
  · refine Continuous.aestronglyMeasurable ?_
    unfold lorentz
    refine Continuous.mul (by fun_prop) (Continuous.div (by fun_prop) (by fun_prop) fun s => ?_)
    positivity
  · refine Filter.Eventually.of_forall fun s => ?_
    have hb := lorentz_bound w (d - s) hw
    rw [Real.norm_eq_abs, abs_of_pos (mul_pos (Real.exp_pos _) hb.1), neg_mul]
    exact mul_le_mul_of_nonneg_left hb.2 (Real.exp_pos _).le

theorem im_expE1 (r w d : ℝ) (hr : 0 < r) (hw : 0 < w) :
    (expE1 ⟨-r * d, 1 / 2 * r * w⟩).im = -(Real.pi * ∫ s in Ioi (0 : ℝ), Real.exp (-(r * s)) * lorentz w (d - s)) := by
  set q : ℂ := ⟨-r * d, 1 / 2 * r * w⟩ with hq
  have hqi : q.im = 1 / 2 * r * w := rfl
  have hqr : q.re = -r * d := rfl
  have hpos : 0 < q.im := by rw [hqi]; positivity
  have hne : ∀ t : ℝ, (t : ℂ) + q ≠ 0 := by
    intro t h
    have := congrArg Complex.im h
    simp at this
    exact hpos.ne' this
  have himt : ∀ t : ℝ, ((Real.exp (-t) : ℂ) / (t + q)).im = -(Real.exp (-t) * q.im / ((t + q.re) ^ 2 + q.im ^ 2)) := by
    intro t
    rw [Complex.div_im]
    simp only [Complex.ofReal_im, Complex.ofReal_re, Complex.add_re, Complex.add_im, Complex.normSq_apply, zero_mul, zero_div,
      zero_add, zero_sub]
    rw [show (t + q.re) * (t + q.re) + q.im * q.im = (t + q.re) ^ 2 + q.im ^ 2 by ring]
  have hint : IntegrableOn (fun t : ℝ => (Real.exp (-t) : ℂ) / (t + q)) (Ioi 0) := by
    have h0 : IntegrableOn (fun t : ℝ => Real.exp (-1 * t) * (1 / q.im)) (Ioi 0) :=
      (integrableOn_exp_mul_Ioi (by norm_num) 0).mul_const _
    refine Integrable.mono' h0 ?_ ?_
    · refine Continuous.aestronglyMeasurable ?_
      exact Continuous.div (by fun_prop) (by fun_prop) hne
    · refine Filter.Eventually.of_forall fun t => ?_
      rw [norm_div, Complex.norm_real, Real.norm_eq_abs, abs_of_pos (Real.exp_pos _), neg_one_mul, div_eq_mul_one_div]
      refine mul_le_mul_of_nonneg_left (one_div_le_one_div_of_le hpos ?_) (Real.exp_pos _).le
      have := Complex.abs_im_le_norm ((t : ℂ) + q)
      simp only [Complex.add_im, Complex.ofReal_im, zero_add] at this
      exact (le_abs_self _).trans this
  have h1 : (expE1 q).im = ∫ t in Ioi (0 : ℝ), ((Real.exp (-t) : ℂ) / (t + q)).im := (integral_im hint).symm
  rw [h1]
  simp only [himt, hqi, hqr]
  have h2 := integral_comp_mul_left_Ioi (fun t : ℝ => Real.exp (-t) * (1 / 2 * r * w) / ((t + -r * d) ^ 2 + (1 / 2 * r * w) ^ 2)) 0 hr
  simp only [mul_zero, smul_eq_mul] at h2
  rw [integral_neg, neg_inj]
  have h3 : ∫ t in Ioi (0 : ℝ), Real.exp (-t) * (1 / 2 * r * w) / ((t + -r * d) ^ 2 + (1 / 2 * r * w) ^ 2) =
      r * ∫ s in Ioi (0 : ℝ), Real.exp (-(r * s)) * (1 / 2 * r * w) / ((r * s + -r * d) ^ 2 + (1 / 2 * r * w) ^ 2) := by
    rw [h2, mul_inv_cancel_left₀ hr.ne']
  rw [h3, ← integral_const_mul, ← integral_const_mul]
  refine setIntegral_congr_fun measurableSet_Ioi fun s _ => ?_
  simp only [lorentz]
  have hp := Real.pi_ne_zero
  have e : (r * s + -r * d) ^ 2 + (1 / 2 * r * w) ^ 2 = r ^ 2 * ((d - s) ^ 2 + (w / 2) ^ 2) := by ring
  have hn : (d - s) ^ 2 + (w / 2) ^ 2 ≠ 0 := by positivity
  rw [e]
  have hr0 := hr.ne'
  field_simp

/-- The Lorentzian part for an exponential pulse is the folding with the opposite sign. -/
theorem lorentzian_is_minus_fold (tau w tth x : ℝ) (ht : 0 < tau) (hw : 0 < w) :
    lorentzianExponential expE1 tau w tth x = -fold (decay tau) (lorentz w) (x - tth) := by
  have e : fold (decay tau) (lorentz w) (x - tth) =
      1 / tau * ∫ s in Ioi (0 : ℝ), Real.exp (-(1 / tau * s)) * lorentz w (x - tth - s) := by
    unfold fold decay
    rw [← integral_const_mul, ← integral_indicator measurableSet_Ioi]
    refine integral_congr_ae (Filter.Eventually.of_forall fun s => ?_)
    simp only [indicator, mem_Ioi]
    split
    · rw [show -s / tau = -(1 / tau * s) by ring]; ring
    · ring
  have h := im_expE1 (1 / tau) w (x - tth) (by positivity) hw
  unfold lorentzianExponential
  simp only
  rw [show -(x - tth) / tau = -(1 / tau) * (x - tth) by ring, show 1 / 2 * w / tau = 1 / 2 * (1 / tau) * w by ring, h, e]
  have hp := Real.pi_ne_zero
  field_simp

theorem lorentz_fold_pos (r w d : ℝ) (hr : 0 < r) (hw : 0 < w) :
    0 < ∫ s in Ioi (0 : ℝ), Real.exp (-(r * s)) * lorentz w (d - s) := by
  rw [setIntegral_pos_iff_support_of_nonneg_ae
    (Filter.Eventually.of_forall fun s => (mul_pos (Real.exp_pos _) (lorentz_bound w _ hw).1).le) (lorentz_integrable r w d hr hw)]
  have : Function.support (fun s : ℝ => Real.exp (-(r * s)) * lorentz w (d - s)) = univ := by
    ext s
    simp only [Function.mem_support, mem_univ, iff_true]
    exact (mul_pos (Real.exp_pos _) (lorentz_bound w _ hw).1).ne'
  rw [this]
  simp

/-- Before it is divided by its area, the Lorentzian part for an exponential pulse is negative everywhere. -/
theorem lorentzian_sign_fails (tau w tth x : ℝ) (ht : 0 < tau) (hw : 0 < w) : lorentzianExponential expE1 tau w tth x < 0 := by
  have h := im_expE1 (1 / tau) w (x - tth) (by positivity) hw
  unfold lorentzianExponential
  simp only
  rw [show -(x - tth) / tau = -(1 / tau) * (x - tth) by ring, show 1 / 2 * w / tau = 1 / 2 * (1 / tau) * w by ring, h]
  have := lorentz_fold_pos (1 / tau) w (x - tth) (by positivity) hw
  have hp := Real.pi_pos
  exact mul_neg_of_pos_of_neg (by positivity) (neg_lt_zero.2 (by positivity))

/-- The Lorentzian part for the pink beam is folded with two exponentials on the same side. -/
theorem pink_lorentzian (a b w tth x : ℝ) (ha : 0 < a) (hb : 0 < b) (hw : 0 < w) :
    lorentzianPink expE1 a b w tth x =
      fold (fun s => if 0 < s then a * b / (a + b) * (Real.exp (-(a * s)) + Real.exp (-(b * s))) else 0) (lorentz w) (x - tth) := by
  have e : fold (fun s => if 0 < s then a * b / (a + b) * (Real.exp (-(a * s)) + Real.exp (-(b * s))) else 0) (lorentz w) (x - tth) =
      a * b / (a + b) * ((∫ s in Ioi (0 : ℝ), Real.exp (-(a * s)) * lorentz w (x - tth - s)) +
        ∫ s in Ioi (0 : ℝ), Real.exp (-(b * s)) * lorentz w (x - tth - s)) := by
    unfold fold
    rw [← integral_add (lorentz_integrable a w _ ha hw) (lorentz_integrable b w _ hb hw), ← integral_const_mul,
      ← integral_indicator measurableSet_Ioi]
    refine integral_congr_ae (Filter.Eventually.of_forall fun s => ?_)
    simp only [indicator, mem_Ioi]
    split
    · ring
    · ring
  rw [e]
  unfold lorentzianPink
  simp only [Complex.add_im]
  rw [im_expE1 a w _ ha hw, im_expE1 b w _ hb hw]
  have hp := Real.pi_ne_zero
  have hab : a + b ≠ 0 := by positivity
  field_simp
  ring

/-- Two equal exponentials back to back give a peak that is symmetric. -/
theorem fold_symmetric (a w d : ℝ) : fold (backToBack a a) (lorentz w) (-d) = fold (backToBack a a) (lorentz w) d := by
  unfold fold
  rw [← integral_neg_eq_self (μ := volume) (fun s => backToBack a a s * lorentz w (d - s))]
  refine integral_congr_ae ?_
  have h0 : ∀ᵐ s : ℝ, s ≠ 0 := by
    rw [ae_iff]; simp
  filter_upwards [h0] with s hs
  have hl : lorentz w (d - -s) = lorentz w (-d - s) := by unfold lorentz; congr 2; ring
  rw [hl]
  congr 1
  unfold backToBack
  congr 1
  rcases lt_or_gt_of_ne hs with h | h
  · rw [if_neg (by linarith), if_pos (by linarith)]; congr 1; ring
  · rw [if_pos h, if_neg (by linarith)]; congr 1; ring

/-- The Lorentzian part of the code is not symmetric then: it is greater after the centre than before it. So it is not the
folding with the exponentials back to back. -/
theorem pink_lorentzian_fails (a w tth d : ℝ) (ha : 0 < a) (hw : 0 < w) (hd : 0 < d) :
    lorentzianPink expE1 a a w tth (tth - d) < lorentzianPink expE1 a a w tth (tth + d) ∧
    ¬ ∀ x, lorentzianPink expE1 a a w tth x = fold (backToBack a a) (lorentz w) (x - tth) := by
  have hlt : lorentzianPink expE1 a a w tth (tth - d) < lorentzianPink expE1 a a w tth (tth + d) := by
    unfold lorentzianPink
    simp only [Complex.add_im, add_sub_cancel_left, show tth - d - tth = -d by ring]
    rw [im_expE1 a w _ ha hw, im_expE1 a w _ ha hw]
    have hlt : ∫ s in Ioi (0 : ℝ), Real.exp (-(a * s)) * lorentz w (-d - s) <
        ∫ s in Ioi (0 : ℝ), Real.exp (-(a * s)) * lorentz w (d - s) := by
      rw [← sub_pos, ← integral_sub (lorentz_integrable a w d ha hw) (lorentz_integrable a w (-d) ha hw)]
      have hgt : ∀ s : ℝ, 0 < s → 0 < Real.exp (-(a * s)) * lorentz w (d - s) - Real.exp (-(a * s)) * lorentz w (-d - s) := by
        intro s hs
        rw [← mul_sub]
        refine mul_pos (Real.exp_pos _) (sub_pos.2 ?_)
        unfold lorentz
        refine div_lt_div_of_pos_left (by positivity) (by positivity) ?_
        nlinarith [mul_pos hd hs]
      rw [setIntegral_pos_iff_support_of_nonneg_ae]
      · have : Function.support (fun s : ℝ => Real.exp (-(a * s)) * lorentz w (d - s) - Real.exp (-(a * s)) * lorentz w (-d - s)) ∩
            Ioi 0 = Ioi 0 := by
          ext s
          simp only [mem_inter_iff, Function.mem_support, mem_Ioi, and_iff_right_iff_imp]
          exact fun hs => (hgt s hs).ne'
        rw [this]
        simp
      · filter_upwards [ae_restrict_mem measurableSet_Ioi] with s hs
        exact (hgt s hs).le
      · exact (lorentz_integrable a w d ha hw).sub (lorentz_integrable a w (-d) ha hw)
    have hp := Real.pi_pos
    have hc : 0 < a * a / (Real.pi * (a + a)) := by positivity
    rw [neg_div]
    nlinarith [mul_pos hc (mul_pos hp (sub_pos.2 hlt))]
  refine ⟨hlt, fun h => ?_⟩
  rw [h, h, add_sub_cancel_left, show tth - d - tth = -d by ring, fold_symmetric] at hlt
  exact lt_irrefl _ hlt

/-! ### The width -/

/-- The number given as the full width at half maximum is used as the standard deviation: the Gaussian that is folded has not
fallen to half of its greatest value half of this width from its centre. -/
theorem width_fails (w : ℝ) (hw : 0 < w) : gauss w (w / 2) > gauss w 0 / 2 := by
  have hp : 0 < w * √(2 * Real.pi) := by positivity
  unfold gauss
  rw [gt_iff_lt, div_right_comm, div_lt_div_iff_of_pos_right hp]
  have hw0 := hw.ne'
  have e : -(w / 2) ^ 2 / (2 * w ^ 2) = -(1 / 8) := by field_simp; norm_num
  rw [e]
  simp only [ne_eq, OfNat.ofNat_ne_zero, not_false_eq_true, zero_pow, neg_zero, zero_div, Real.exp_zero]
  have := Real.add_one_le_exp (-(1 / 8 : ℝ))
  linarith

/-- The Gaussian of width two. -/
example : gauss 2 1 > gauss 2 0 / 2 := by simpa using width_fails 2 (by norm_num)

end Hexrd.Convolved
