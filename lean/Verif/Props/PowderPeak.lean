import Verif.Model.PowderPeak
import Verif.Spec.PowderPeak
import Verif.Spec.Peaks
import Verif.Props.Peaks
import Mathlib.Analysis.SpecialFunctions.ImproperIntegrals
import Mathlib.Analysis.SpecialFunctions.Gaussian.GaussianIntegral
import Mathlib.Analysis.Complex.ExponentialBounds
import Mathlib.Analysis.Real.Pi.Bounds
import Mathlib.Tactic.Linarith
import Mathlib.Tactic.FieldSimp
import Mathlib.Tactic.Positivity

/-! C117: the peak profiles of the powder pattern. -/

namespace Hexrd.PowderPeak

open Hexrd.Peaks Hexrd.Peaks.Spec Hexrd.PowderPeak.Spec

/-! ### Shape and area -/

/-- Height of the profile. -/
noncomputable def height (n w : ℝ) : ℝ := n * (2 / (Real.pi * w)) + (1 - n) * (0.9394372787 / w)

theorem mixing_pos {g l : ℝ} (hg : 0 < g) (hl : 0 ≤ l) :
    0 < (mixingFactor g l).2 ∧ 0 ≤ (mixingFactor g l).1 ∧ (mixingFactor g l).1 ≤ 1 := by
  have h := mixing_width_bounds hg.le hl
  have h' := mixing_fraction hg.le hl
  exact ⟨by linarith [h.1], h'.1, h'.2.1⟩

theorem unitLorentzian_eq {w : ℝ} (hw : 0 < w) (x0 x : ℝ) : unitLorentzian x0 w x = 2 / w * Peaks.unitLorentzian x0 w x := by
  have h : 0 < (x - x0) ^ 2 + (w / 2) ^ 2 := by positivity
  unfold unitLorentzian Peaks.unitLorentzian lorentzWidth
  simp only
  field_simp

theorem height_pos {n w : ℝ} (hw : 0 < w) (h0 : 0 ≤ n) (h1 : n ≤ 1) : 0 < height n w := by
  have hp := Real.pi_pos
  unfold height
  rcases eq_or_lt_of_le h0 with h | h
  · rw [← h]; norm_num; positivity
  · have : 0 < n * (2 / (Real.pi * w)) := by positivity
    have : 0 ≤ (1 - n) * (0.9394372787 / w) := mul_nonneg (by linarith) (by positivity)
    linarith

/-- C117: the profile is a peak centred on the line, equally wide on both sides, and its width is that of the width formula. -/
theorem pvoight_isPeak {g l : ℝ} (hg : 0 < g) (hl : 0 ≤ l) (tth : ℝ) :
    IsPeak (pvoight g l tth) (height (mixingFactor g l).1 (mixingFactor g l).2) tth ((mixingFactor g l).2 / 2)
      ((mixingFactor g l).2 / 2) := by
  obtain ⟨hw, h0, h1⟩ := mixing_pos hg hl
  set n := (mixingFactor g l).1 with hn
  set w := (mixingFactor g l).2 with hw'
  have hA := height_pos hw h0 h1
  have hp := Real.pi_pos
  have hgw : 0 ≤ (1 - n) * (0.9394372787 / w) := mul_nonneg (by linarith) (by positivity)
  have hlw : 0 ≤ n * (2 / (Real.pi * w)) := by positivity
  have key := pvoigt_isPeak (p := fun i => if i = 0 then height n w else if i = 1 then tth else if i = 2 then w else
    (1 - n) * (0.9394372787 / w) / height n w) (by simpa using hA) (by simpa using hw)
    ⟨by simp only [OfNat.ofNat_ne_zero, OfNat.ofNat_ne_one, if_false]; norm_num; positivity, by
      norm_num
      rw [div_le_one hA]
      unfold height
      norm_num at *
      linarith⟩
  have e : pvoight g l tth = pvoigtNoBg (fun i => if i = 0 then height n w else if i = 1 then tth else if i = 2 then w else
    (1 - n) * (0.9394372787 / w) / height n w) := by
    funext x
    simp only [pvoight, pvoigtNoBg, unitPvoigt, ← hn, ← hw', unitLorentzian_eq hw]
    norm_num
    have : height n w * (1 - (1 - n) * (9394372787 / 10000000000 / w) / height n w) = n * (2 / (Real.pi * w)) := by
      rw [mul_sub, mul_one, mul_div_cancel₀ _ hA.ne']
      unfold height; norm_num
    have e2 : ∀ a b : ℝ, height n w * ((1 - n) * (9394372787 / 10000000000 / w) / height n w * a +
        (1 - (1 - n) * (9394372787 / 10000000000 / w) / height n w) * b) = (1 - n) * (9394372787 / 10000000000 / w) * a +
        n * (2 / (Real.pi * w)) * b := by
      intro a b
      rw [← this]
      field_simp
    rw [e2]
    field_simp
    ring
  rw [e]
  simpa using key

theorem lorentz_integral {w : ℝ} (hw : 0 < w) (x0 : ℝ) :
    MeasureTheory.Integrable (unitLorentzian x0 w) ∧ ∫ x, unitLorentzian x0 w x = Real.pi := by
  have e : unitLorentzian x0 w = fun x => 2 / w * (fun y => (1 + y ^ 2)⁻¹) ((x - x0) / (w / 2)) := by
    funext x
    unfold unitLorentzian lorentzWidth
    have h : 0 < (x - x0) ^ 2 + (w / 2) ^ 2 := by positivity
    have h' : 0 < 1 + ((x - x0) / (w / 2)) ^ 2 := by positivity
    simp only
    field_simp
    ring
  have hi := integrable_inv_one_add_sq
  rw [e]
  constructor
  · refine MeasureTheory.Integrable.const_mul ?_ _
    exact (hi.comp_div (by positivity : w / 2 ≠ 0)).comp_sub_right x0
  · rw [MeasureTheory.integral_const_mul,
      MeasureTheory.integral_sub_right_eq_self (fun x => (fun y : ℝ => (1 + y ^ 2)⁻¹) (x / (w / 2))) x0,
      MeasureTheory.Measure.integral_comp_div (fun y : ℝ => (1 + y ^ 2)⁻¹), integral_univ_inv_one_add_sq, abs_of_pos (by positivity), smul_eq_mul]
    field_simp

theorem gauss_integral {w : ℝ} (hw : 0 < w) (x0 : ℝ) :
    MeasureTheory.Integrable (unitGaussian x0 w) ∧ ∫ x, unitGaussian x0 w x = w * √(Real.pi / (4 * Real.log 2)) := by
  have hl : 0 < Real.log 2 := Real.log_pos (by norm_num)
  have hgw := gaussWidth_pos
  have e : unitGaussian x0 w = fun x => (fun y => Real.exp (-(4 * Real.log 2 / w ^ 2) * y ^ 2)) (x - x0) := by
    funext x
    have e1 : -((x - x0) ^ 2) / (2 * (w / gaussWidth) ^ 2) = -(4 * Real.log 2 / w ^ 2) * (x - x0) ^ 2 := by
      rw [div_pow, gaussWidth_sq]
      field_simp
      ring
    simp only [unitGaussian, e1]
  rw [e]
  constructor
  · exact (integrable_exp_neg_mul_sq (by positivity)).comp_sub_right x0
  · rw [MeasureTheory.integral_sub_right_eq_self (fun y => Real.exp (-(4 * Real.log 2 / w ^ 2) * y ^ 2)) x0, integral_gaussian]
    rw [show Real.pi / (4 * Real.log 2 / w ^ 2) = w ^ 2 * (Real.pi / (4 * Real.log 2)) by field_simp, Real.sqrt_mul (by positivity),
      Real.sqrt_sq hw.le]

/-- The constant of the code normalises the Gaussian part to nine digits. -/
theorem gauss_constant : |0.9394372787 * √(Real.pi / (4 * Real.log 2)) - 1| ≤ 1e-9 := by
  have hl : 0 < Real.log 2 := Real.log_pos (by norm_num)
  have l1 := Real.log_two_gt_d9
  have l2 := Real.log_two_lt_d9
  have p1 := Real.pi_gt_d20
  have p2 := Real.pi_lt_d20
  have b1 : (1 - 1e-9) / 0.9394372787 ≤ √(Real.pi / (4 * Real.log 2)) := by
    apply Real.le_sqrt_of_sq_le
    rw [le_div_iff₀ (by positivity)]
    nlinarith
  have b2 : √(Real.pi / (4 * Real.log 2)) ≤ (1 + 1e-9) / 0.9394372787 := by
    apply Real.sqrt_le_iff.2 ⟨by norm_num, ?_⟩
    rw [div_le_iff₀ (by positivity)]
    nlinarith
  rw [div_le_iff₀ (by norm_num)] at b1
  rw [le_div_iff₀ (by norm_num)] at b2
  rw [abs_le]
  constructor <;> linarith

/-- C117: the area of the profile is one, up to the digits of a constant. -/
theorem pvoight_area {g l : ℝ} (hg : 0 < g) (hl : 0 ≤ l) (tth : ℝ) :
    MeasureTheory.Integrable (pvoight g l tth) ∧ |(∫ x, pvoight g l tth x) - 1| ≤ 1e-9 := by
  obtain ⟨hw, h0, h1⟩ := mixing_pos hg hl
  obtain ⟨i1, a1⟩ := lorentz_integral hw tth
  obtain ⟨i2, a2⟩ := gauss_integral hw tth
  have e : pvoight g l tth = fun x => (mixingFactor g l).1 * (1 / Real.pi) * unitLorentzian tth (mixingFactor g l).2 x +
      (1 - (mixingFactor g l).1) * (0.9394372787 / (mixingFactor g l).2) * unitGaussian tth (mixingFactor g l).2 x := by
    funext x
    unfold pvoight
    ring
  have j1 := i1.const_mul ((mixingFactor g l).1 * (1 / Real.pi))
  have j2 := i2.const_mul ((1 - (mixingFactor g l).1) * (0.9394372787 / (mixingFactor g l).2))
  rw [e]
  refine ⟨j1.add j2, ?_⟩
  rw [MeasureTheory.integral_add j1 j2, MeasureTheory.integral_const_mul, MeasureTheory.integral_const_mul, a1, a2]
  have hp := Real.pi_pos
  have hc := gauss_constant
  generalize √(Real.pi / (4 * Real.log 2)) = s at *
  generalize (mixingFactor g l).1 = n at *
  generalize (mixingFactor g l).2 = w at *
  have : n * (1 / Real.pi) * Real.pi + (1 - n) * (0.9394372787 / w) * (w * s) - 1 = (1 - n) * (0.9394372787 * s - 1) := by
    field_simp
    ring
  rw [this, abs_mul, abs_of_nonneg (by linarith : 0 ≤ 1 - n)]
  have := abs_nonneg (0.9394372787 * s - 1)
  nlinarith

/-! ### Widths -/

/-- C117: the width of the Gaussian part is positive for all parameters. -/
theorem gaussianFwhm_pos (U V W P gammaSqr eta tth dsp : ℝ) : 0 < gaussianFwhm U V W P gammaSqr eta tth dsp := by
  unfold gaussianFwhm
  simp only
  split
  · have : 0 < √(1.0e-12 : ℝ) := Real.sqrt_pos.2 (by norm_num)
    positivity
  · rename_i h
    have := Real.sqrt_pos.2 (not_le.1 h)
    positivity

theorem half_angle {tth : ℝ} (h0 : 0 ≤ tth) (h1 : tth < 180) :
    0 < Real.cos (radians (0.5 * tth)) ∧ 0 ≤ Real.tan (radians (0.5 * tth)) := by
  have hp := Real.pi_pos
  have a0 : 0 ≤ radians (0.5 * tth) := by unfold radians; positivity
  have a1 : radians (0.5 * tth) < Real.pi / 2 := by unfold radians; nlinarith
  exact ⟨Real.cos_pos_of_mem_Ioo ⟨by linarith, a1⟩, Real.tan_nonneg_of_nonneg_of_le_pi_div_two a0 a1.le⟩

/-- C117: the width of the Lorentzian part is not negative for parameters that are not. -/
theorem lorentzianFwhm_nonneg {X Y xySf gammaSqr eta tth dsp : ℝ} (hX : 0 ≤ X + xySf) (hY : 0 ≤ Y) (he : 0 ≤ eta) (h0 : 0 ≤ tth)
    (h1 : tth < 180) : 0 ≤ lorentzianFwhm X Y xySf gammaSqr eta tth dsp := by
  obtain ⟨hc, ht⟩ := half_angle h0 h1
  have hp := Real.pi_pos
  unfold lorentzianFwhm degrees
  simp only
  positivity

/-- C117 for a reflection: with parameters that are not negative, each line of the pattern is a peak at its angle whose area is one. -/
theorem line_isPeak {w : Widths} {r : Refl} (hX : 0 ≤ w.X + r.xySf) (hY : 0 ≤ w.Y) (he : 0 ≤ w.eta) (h0 : 0 ≤ r.tth) (h1 : r.tth < 180) :
    (∃ a b, 0 < b ∧ IsPeak (pvoightWppf w r) a r.tth b b) ∧ |(∫ x, pvoightWppf w r x) - 1| ≤ 1e-9 := by
  have hg := gaussianFwhm_pos w.U w.V w.W w.P (Stephens.gammaSqr w.shkl r.h r.k r.l) w.eta r.tth r.dsp
  have hl := lorentzianFwhm_nonneg (gammaSqr := Stephens.gammaSqr w.shkl r.h r.k r.l) (dsp := r.dsp) hX hY he h0 h1
  exact ⟨⟨_, _, by linarith [(mixing_pos hg hl).1], pvoight_isPeak hg hl r.tth⟩, (pvoight_area hg hl r.tth).2⟩

example : ∃ a b, 0 < b ∧ IsPeak (pvoightWppf ⟨1, -1, 1, 0, 1, 1, fun _ => 1, 0.5⟩ ⟨30, 2, 1, 1, 1, 0⟩) a 30 b b :=
  (line_isPeak (by norm_num) (by norm_num) (by norm_num) (by norm_num) (by norm_num)).1

/-- Disagreement: strain that is attributed to the Gaussian part alone gives it a smaller width than the same strain attributed to the
Lorentzian part alone, by the factor of the square root of a degree in radians: the square of an angle is converted as an angle. -/
theorem strain_widths {gammaSqr tth dsp : ℝ} (hg : 0 < gammaSqr) (hd : dsp ≠ 0) (h0 : 0 < tth) (h1 : tth < 180) :
    gaussianFwhm 0 0 0 0 gammaSqr 0 tth dsp = √(Real.pi / 180) * lorentzianFwhm 0 0 0 gammaSqr 1 tth dsp ∧
    gaussianFwhm 0 0 0 0 gammaSqr 0 tth dsp < lorentzianFwhm 0 0 0 gammaSqr 1 tth dsp / 7 := by
  have hp := Real.pi_pos
  have ht : 0 < Real.tan (radians (0.5 * tth)) := by
    apply Real.tan_pos_of_pos_of_lt_pi_div_two
    · unfold radians; positivity
    · unfold radians; nlinarith
  have hs := Real.sqrt_pos.2 hg
  have e : gaussianFwhm 0 0 0 0 gammaSqr 0 tth dsp = √(Real.pi / 180) * lorentzianFwhm 0 0 0 gammaSqr 1 tth dsp := by
    unfold gaussianFwhm lorentzianFwhm degrees
    simp only
    generalize Real.tan (radians (0.5 * tth)) = t at *
    have pos : 0 < (0 + gammaSqr * (1 - 0) ^ 2 * dsp ^ 4 * (180 / Real.pi) * 1e4) * t ^ 2 + 0 * t + 0 +
        0 / Real.cos (radians (0.5 * tth)) ^ 2 := by
      have : 0 < dsp ^ 4 := by positivity
      norm_num
      positivity
    rw [if_neg (not_le.2 pos)]
    have e1 : (0 + gammaSqr * (1 - 0) ^ 2 * dsp ^ 4 * (180 / Real.pi) * 1e4) * t ^ 2 + 0 * t + 0 +
        0 / Real.cos (radians (0.5 * tth)) ^ 2 = (Real.pi / 180) * (√gammaSqr * dsp ^ 2 * (180 / Real.pi) * 1e2 * t) ^ 2 := by
      have := Real.sq_sqrt hg.le
      have : (√gammaSqr * dsp ^ 2 * (180 / Real.pi) * 1e2 * t) ^ 2 = gammaSqr * dsp ^ 4 * (180 / Real.pi) ^ 2 * 1e4 * t ^ 2 := by
        calc (√gammaSqr * dsp ^ 2 * (180 / Real.pi) * 1e2 * t) ^ 2 = √gammaSqr ^ 2 * dsp ^ 4 * (180 / Real.pi) ^ 2 * 1e2 ^ 2 * t ^ 2 := by ring
          _ = _ := by rw [this]; norm_num
      rw [this]
      field_simp
      ring
    rw [e1, Real.sqrt_mul (by positivity), Real.sqrt_sq (by positivity)]
    ring
  refine ⟨e, ?_⟩
  have hL : 0 < lorentzianFwhm 0 0 0 gammaSqr 1 tth dsp := by
    unfold lorentzianFwhm degrees
    simp only
    have : 0 < dsp ^ 2 := by positivity
    have e2 : ((0 + 0) / Real.cos (radians (0.5 * tth)) + (0 + √gammaSqr * 1 * dsp ^ 2 * (180 / Real.pi) * 1e2) *
        Real.tan (radians (0.5 * tth))) * 1e-2 = √gammaSqr * dsp ^ 2 * (180 / Real.pi) * Real.tan (radians (0.5 * tth)) := by
      norm_num
      ring
    rw [e2]
    positivity
  have : √(Real.pi / 180) < 1 / 7 := by
    rw [Real.sqrt_lt' (by norm_num)]
    have := Real.pi_lt_d2
    linarith
  rw [e]
  nlinarith

/-! ### Split profiles -/

/-- Disagreement: at the centre both sides of the split profiles are added, so their value is twice the limit from either side. -/
theorem split_centre {x0 gl ll gr lr : ℝ} (hgl : 0 < gl) (hll : 0 ≤ ll) (hgr : 0 < gr) (hlr : 0 ≤ lr) :
    splitUnitPv x0 gl ll gr lr x0 = 2 ∧ splitUnitGaussian x0 gl gr x0 = 2 ∧ (∀ x, x ≠ x0 → splitUnitPv x0 gl ll gr lr x < 1) := by
  obtain ⟨hw, h0, h1⟩ := mixing_pos hgl hll
  obtain ⟨hw', h0', h1'⟩ := mixing_pos hgr hlr
  have key : ∀ {n w x : ℝ}, 0 < w → n * (unitLorentzian x0 w x * (w / lorentzWidth)) + (1 - n) * unitGaussian x0 w x =
      prof (1 - n) ((2 * (x - x0) / w) ^ 2) := by
    intro n w x hw
    rw [← unitPvoigt_eq _ _ hw, unitLorentzian_eq hw]
    unfold unitPvoigt lorentzWidth
    field_simp
    ring
  have hG : ∀ w : ℝ, unitGaussian x0 w x0 = 1 := by intro w; simp [unitGaussian]
  refine ⟨?_, ?_, ?_⟩
  · simp only [splitUnitPv, key hw, key hw']
    simp [heaviside, prof_zero]
    norm_num
  · simp [splitUnitGaussian, heaviside, hG]
    norm_num
  · intro x hx
    have lt1 : ∀ {n w : ℝ}, 0 < w → 0 ≤ n → n ≤ 1 → prof (1 - n) ((2 * (x - x0) / w) ^ 2) < 1 := by
      intro n w hw h0 h1
      have hd : x - x0 ≠ 0 := sub_ne_zero.2 hx
      have := prof_lt (n := 1 - n) (by linarith) (by linarith) (le_refl 0) (show 0 < (2 * (x - x0) / w) ^ 2 by positivity)
      rwa [prof_zero] at this
    simp only [splitUnitPv, key hw, key hw', heaviside]
    rcases lt_or_gt_of_ne hx with h | h
    · rw [if_neg (by linarith), if_neg (by linarith), if_pos (by linarith)]
      linarith [lt1 hw h0 h1]
    · rw [if_pos (by linarith), if_neg (by linarith), if_neg (by linarith)]
      linarith [lt1 hw' h0' h1']

/-! ### Axial divergence -/

theorem cos_arccos_height {c q : ℝ} (hc : 0 < c) (h1 : c * √(q ^ 2 + 1) ≤ 1) :
    √((Real.cos (Real.arccos (c * √(q ^ 2 + 1))) / c) ^ 2 - 1) = |q| := by
  rw [Real.cos_arccos (by have := Real.sqrt_nonneg (q ^ 2 + 1); nlinarith) h1, mul_div_cancel_left₀ _ hc.ne', Real.sq_sqrt (by positivity),
    add_sub_cancel_right, Real.sqrt_sq_eq_abs]

/-- C117: at the angle where the profile of a line below ninety degrees begins, the beam leaves the slit, and at the angle of its
inflexion one of slit and sample is wholly in the beam. -/
theorem slit_angles {H S t : ℝ} (hH : 0 < H) (hS : 0 < S) (h0 : 0 < t) (h1 : t < Real.pi / 2) (hm : Real.cos t * √((H + S) ^ 2 + 1) ≤ 1) :
    funcH (tauMin H S t) t = H + S ∧ funcH (tauInfl H S t) t = |H - S| ∧ overlap H S (funcH (tauMin H S t) t) = 0 := by
  have hc : 0 < Real.cos t := Real.cos_pos_of_mem_Ioo ⟨by linarith, h1⟩
  have hi : Real.cos t * √((H - S) ^ 2 + 1) ≤ 1 := by
    refine le_trans (mul_le_mul_of_nonneg_left (Real.sqrt_le_sqrt ?_) hc.le) hm
    nlinarith
  have a : funcH (tauMin H S t) t = H + S := by
    unfold funcH tauMin
    rw [sub_sub_cancel, cos_arccos_height hc hm, abs_of_pos (by linarith)]
  refine ⟨a, ?_, ?_⟩
  · unfold funcH tauInfl
    rw [sub_sub_cancel, cos_arccos_height hc hi]
  · rw [a]
    unfold overlap
    rw [min_eq_left (by linarith), max_eq_right (by linarith : -H ≤ H + S - S)]
    simp

theorem funcH_mono {t a b : ℝ} (h0 : 0 < t) (h1 : t < Real.pi / 2) (ha : 0 ≤ a) (hab : a ≤ b) (hb : b ≤ t) : funcH a t ≤ funcH b t := by
  have hc : 0 < Real.cos t := Real.cos_pos_of_mem_Ioo ⟨by linarith, h1⟩
  have c1 : Real.cos (t - a) ≤ Real.cos (t - b) := Real.cos_le_cos_of_nonneg_of_le_pi (by linarith) (by linarith [Real.pi_pos]) (by linarith)
  have c0 : 0 < Real.cos (t - a) := Real.cos_pos_of_mem_Ioo ⟨by linarith, by linarith⟩
  unfold funcH
  apply Real.sqrt_le_sqrt
  have : Real.cos (t - a) / Real.cos t ≤ Real.cos (t - b) / Real.cos t := div_le_div_of_nonneg_right c1 hc.le
  have : 0 < Real.cos (t - a) / Real.cos t := by positivity
  nlinarith

theorem tau_nonneg {t q : ℝ} (h0 : 0 < t) (h1 : t < Real.pi / 2) : 0 ≤ t - Real.arccos (Real.cos t * √(q ^ 2 + 1)) := by
  have hc : 0 < Real.cos t := Real.cos_pos_of_mem_Ioo ⟨by linarith, h1⟩
  have hs : 1 ≤ √(q ^ 2 + 1) := Real.one_le_sqrt.2 (by nlinarith [sq_nonneg q])
  have := Real.antitone_arccos (show Real.cos t ≤ Real.cos t * √(q ^ 2 + 1) by nlinarith)
  rw [Real.arccos_cos h0.le (by linarith [Real.pi_pos])] at this
  linarith

/-- With less than the difference of the two lengths between them, the shorter is seen whole. -/
theorem overlap_inner {H S h : ℝ} (hH : 0 < H) (hS : 0 < S) (h0 : 0 ≤ h) (h1 : h ≤ |H - S|) : overlap H S h = 2 * min H S := by
  unfold overlap
  rcases le_total H S with hHS | hHS
  · rw [abs_of_nonpos (by linarith)] at h1
    have e : min H (h + S) = H := min_eq_left (by linarith)
    have e' : max (-H) (h - S) = -H := max_eq_left (by linarith)
    rw [e, e', min_eq_left hHS, max_eq_right (by linarith)]
    ring
  · rw [abs_of_nonneg (by linarith)] at h1
    have e : min H (h + S) = h + S := min_eq_right (by linarith)
    have e' : max (-H) (h - S) = h - S := max_eq_right (by linarith)
    rw [e, e', min_eq_right hHS, max_eq_right (by linarith)]
    ring

theorem overlap_outer {H S h : ℝ} (h0 : |H - S| ≤ h) (h1 : h ≤ H + S) : overlap H S h = H + S - h := by
  have := abs_le.1 h0
  have e : min H (h + S) = H := min_eq_left (by linarith)
  have e' : max (-H) (h - S) = h - S := max_eq_right (by linarith)
  unfold overlap
  rw [e, e', max_eq_right (by linarith)]
  ring

/-- C117, what holds of the axial divergence: between the line and the inflexion the weight is the length of the slit seen from the
sample. -/
theorem funcW_partial {H S t tau : ℝ} (hH : 0 < H) (hS : 0 < S) (h0 : 0 < t) (h1 : t < Real.pi / 2)
    (hm : Real.cos t * √((H + S) ^ 2 + 1) ≤ 1) (ht : 0 ≤ tau) (hti : tau ≤ tauInfl H S t) :
    funcW H S tau (tauMin H S t) (tauInfl H S t) t = overlap H S (funcH tau t) := by
  obtain ⟨-, hI, -⟩ := slit_angles hH hS h0 h1 hm
  have hIt : tauInfl H S t ≤ t := by unfold tauInfl; linarith [Real.arccos_nonneg (Real.cos t * √((H - S) ^ 2 + 1))]
  have hle : funcH tau t ≤ |H - S| := hI ▸ funcH_mono h0 h1 ht hti hIt
  have hn : 0 ≤ funcH tau t := Real.sqrt_nonneg _
  rw [overlap_inner hH hS hn hle]
  unfold funcW
  rw [if_pos h1, if_pos ⟨ht, hti⟩]

/-- Disagreement: beyond the inflexion the weight exceeds that length by twice the height of the beam: the height is added in place of
being subtracted. -/
theorem funcW_fails {H S t tau : ℝ} (hH : 0 < H) (hS : 0 < S) (h0 : 0 < t) (h1 : t < Real.pi / 2)
    (hm : Real.cos t * √((H + S) ^ 2 + 1) ≤ 1) (ht : 0 ≤ tau) (hti : tauInfl H S t < tau) (htm : tau ≤ tauMin H S t) :
    funcW H S tau (tauMin H S t) (tauInfl H S t) t = overlap H S (funcH tau t) + 2 * funcH tau t := by
  obtain ⟨hM, hI, -⟩ := slit_angles hH hS h0 h1 hm
  have hMt : tauMin H S t ≤ t := by unfold tauMin; linarith [Real.arccos_nonneg (Real.cos t * √((H + S) ^ 2 + 1))]
  have hle : funcH tau t ≤ H + S := hM ▸ funcH_mono h0 h1 ht htm hMt
  have hge : |H - S| ≤ funcH tau t := hI ▸ funcH_mono h0 h1 (tau_nonneg h0 h1) hti.le (by linarith)
  rw [overlap_outer hge hle]
  unfold funcW
  rw [if_pos h1, if_neg (by rintro ⟨-, h⟩; linarith), if_pos ⟨hti, htm⟩]
  ring

/-- Disagreement: also between the line and the inflexion the factor of a node is not the weight of its angle `t - tau`: the code divides by
the cosine of the difference `tau` from the line. -/
theorem fact_fails {H S t xn wn : ℝ} (hH : 0 < H) (hS : 0 < S) (h0 : 0 < t) (h1 : t < Real.pi / 2)
    (hm : Real.cos t * √((H + S) ^ 2 + 1) ≤ 1) (hx : 0 < xn) (hti : tauMin H S t * xn ≤ tauInfl H S t) :
    fact H S t xn wn * Real.cos (tauMin H S t * xn) =
      wn * axialWeight H S (funcH (tauMin H S t * xn) t) (t - tauMin H S t * xn) * Real.cos (t - tauMin H S t * xn) := by
  have hn : 0 ≤ tauMin H S t * xn := mul_nonneg (tau_nonneg h0 h1) hx.le
  have hIt : tauInfl H S t ≤ t := by unfold tauInfl; linarith [Real.arccos_nonneg (Real.cos t * √((H - S) ^ 2 + 1))]
  have hW := funcW_partial hH hS h0 h1 hm hn hti
  have c1 : 0 < Real.cos (tauMin H S t * xn) := Real.cos_pos_of_mem_Ioo ⟨by linarith [Real.pi_pos], by linarith⟩
  have c2 : 0 < Real.cos (t - tauMin H S t * xn) := Real.cos_pos_of_mem_Ioo ⟨by linarith [Real.pi_pos], by linarith⟩
  unfold fact axialWeight
  simp only [hW]
  field_simp

/-- Concrete case: a line at sixty degrees with slit and sample of a tenth: the profile begins where the slit is no longer seen, and the
weight there is four tenths. -/
example : funcW 0.1 0.1 (tauMin 0.1 0.1 (Real.pi / 3)) (tauMin 0.1 0.1 (Real.pi / 3)) (tauInfl 0.1 0.1 (Real.pi / 3)) (Real.pi / 3) = 0.4 ∧
    overlap 0.1 0.1 (funcH (tauMin 0.1 0.1 (Real.pi / 3)) (Real.pi / 3)) = 0 := by
  have hp := Real.pi_pos
  have h0 : (0 : ℝ) < Real.pi / 3 := by positivity
  have h1 : Real.pi / 3 < Real.pi / 2 := by linarith
  have hm : Real.cos (Real.pi / 3) * √((0.1 + 0.1) ^ 2 + 1) ≤ 1 := by
    rw [Real.cos_pi_div_three]
    have : √((0.1 + 0.1) ^ 2 + 1 : ℝ) ≤ 2 := Real.sqrt_le_iff.2 ⟨by norm_num, by norm_num⟩
    linarith
  obtain ⟨a, b, c⟩ := slit_angles (by norm_num) (by norm_num) h0 h1 hm
  refine ⟨?_, c⟩
  have hlt : tauInfl 0.1 0.1 (Real.pi / 3) < tauMin 0.1 0.1 (Real.pi / 3) := by
    by_contra hc
    have := funcH_mono h0 h1 (tau_nonneg h0 h1) (not_lt.1 hc) (by
      unfold tauInfl; linarith [Real.arccos_nonneg (Real.cos (Real.pi / 3) * √((0.1 - 0.1) ^ 2 + 1))])
    change funcH (tauMin 0.1 0.1 (Real.pi / 3)) _ ≤ _ at this
    rw [a, b] at this
    norm_num at this
  have := funcW_fails (tau := tauMin 0.1 0.1 (Real.pi / 3)) (by norm_num) (by norm_num) h0 h1 hm (tau_nonneg h0 h1) hlt le_rfl
  rw [this, c, a]
  norm_num

/-! ### Division by the area -/

theorem trapz_smul (c : ℝ) (y x : List ℝ) : trapz (y.map fun v => c * v) x = c * trapz y x := by
  induction y generalizing x with
  | nil => simp [trapz]
  | cons a ys ih =>
    cases ys with
    | nil => simp [trapz]
    | cons b ys =>
      rcases x with _ | ⟨p, _ | ⟨q, xs⟩⟩
      · simp [trapz]
      · simp [trapz]
      · have := ih (q :: xs)
        simp only [List.map_cons, trapz] at this ⊢
        rw [this]
        ring

theorem trapz_add (y z x : List ℝ) (h : y.length = z.length) :
    trapz (List.zipWith (· + ·) y z) x = trapz y x + trapz z x := by
  induction y generalizing z x with
  | nil => cases z with
    | nil => simp [trapz]
    | cons => simp at h
  | cons a ys ih =>
    cases z with
    | nil => simp at h
    | cons c zs =>
      cases ys with
      | nil =>
        cases zs with
        | nil => simp [trapz]
        | cons => simp at h
      | cons b ys =>
        cases zs with
        | nil => simp at h
        | cons d zs =>
          rcases x with _ | ⟨p, _ | ⟨q, xs⟩⟩
          · simp [trapz]
          · simp [trapz]
          · have := ih (d :: zs) (q :: xs) (by simpa using h)
            simp only [List.zipWith_cons_cons, trapz] at this ⊢
            rw [this]
            ring

/-- C117: a profile that has no closed form has the integral one over the positions of the pattern, whatever its parts, unless the
integral of a part is below one millionth. -/
theorem mixed_area_partial (n : ℝ) (g l x : List ℝ) (h : l.length = g.length) (hg : 1e-6 ≤ |trapz g x|) (hl : 1e-6 ≤ |trapz l x|) :
    trapz (mixed n g l x) x = 1 := by
  have e : mixed n g l x = List.zipWith (· + ·) (l.map fun v => n / trapz l x * v) (g.map fun v => (1 - n) / trapz g x * v) := by
    unfold mixed safeArea
    rw [if_neg (not_lt.2 hg), if_neg (not_lt.2 hl), List.zipWith_map]
    congr 1
    funext a b
    ring
  have g0 : trapz g x ≠ 0 := by intro h0; rw [h0] at hg; norm_num at hg
  have l0 : trapz l x ≠ 0 := by intro h0; rw [h0] at hl; norm_num at hl
  rw [e, trapz_add _ _ _ (by simpa using h), trapz_smul, trapz_smul]
  field_simp
  ring

/-- Disagreement: parts whose integral is smaller are not divided, and the integral of the profile is not one. -/
theorem mixed_area_fails : trapz (mixed 0 [5e-7, 5e-7] [1, 1] [0, 1]) [0, 1] = 5e-7 := by
  have : |trapz ([5e-7, 5e-7] : List ℝ) [0, 1]| < 1e-6 := by norm_num [trapz, abs_lt]
  have : safeArea [5e-7, 5e-7] [0, 1] = 1 := by unfold safeArea; rw [if_pos this]
  simp [mixed, this, trapz]

example : (1e-6 : ℝ) ≤ |trapz [1, 3] [0, 1]| ∧ trapz [1, 3] [0, 1] = 2 := by norm_num [trapz]

/-! ### The pattern -/

theorem foldl_add (l : List ℝ) (a : ℝ) : l.foldl (· + ·) a = a + l.sum := by
  induction l generalizing a with
  | nil => simp
  | cons b l ih => rw [List.foldl_cons, ih, List.sum_cons]; ring

theorem computespectrum_eq (w : Widths) (refls : List Refl) (iobs : List ℝ) (x : ℝ) :
    computespectrum w refls iobs x = ((refls.zip iobs).map fun p => p.2 * pvoightWppf w p.1 x).sum := by
  unfold computespectrum
  rw [foldl_add, zero_add]

/-- C117: the pattern does not depend on the order of the reflections, and the patterns of two lists of reflections add. -/
theorem spectrum_order (w : Widths) (refls refls' : List Refl) (iobs iobs' : List ℝ) (h : (refls.zip iobs).Perm (refls'.zip iobs')) (x : ℝ) :
    computespectrum w refls iobs x = computespectrum w refls' iobs' x := by
  rw [computespectrum_eq, computespectrum_eq]
  exact (h.map _).sum_eq

theorem spectrum_append (w : Widths) (refls refls' : List Refl) (iobs iobs' : List ℝ) (h : refls.length = iobs.length) (x : ℝ) :
    computespectrum w (refls ++ refls') (iobs ++ iobs') x = computespectrum w refls iobs x + computespectrum w refls' iobs' x := by
  rw [computespectrum_eq, computespectrum_eq, computespectrum_eq, List.zip_append h, List.map_append, List.sum_append]

/-- C117: the integral of the pattern of a phase is the sum of its intensities, within a part in a thousand million of the sum of their
absolute values. -/
theorem spectrum_area (w : Widths) (refls : List Refl) (iobs : List ℝ) (h : refls.length = iobs.length) (hY : 0 ≤ w.Y) (he : 0 ≤ w.eta)
    (hr : ∀ r ∈ refls, 0 ≤ w.X + r.xySf ∧ 0 ≤ r.tth ∧ r.tth < 180) :
    |(∫ x, computespectrum w refls iobs x) - iobs.sum| ≤ 1e-9 * (iobs.map fun i => |i|).sum := by
  have key : MeasureTheory.Integrable (computespectrum w refls iobs) ∧
      |(∫ x, computespectrum w refls iobs x) - iobs.sum| ≤ 1e-9 * (iobs.map fun i => |i|).sum := by
    induction refls generalizing iobs with
    | nil =>
      cases iobs with
      | nil =>
        have : computespectrum w [] [] = fun _ => 0 := by funext x; simp [computespectrum]
        rw [this]
        simp
      | cons => simp at h
    | cons r refls ih =>
      cases iobs with
      | nil => simp at h
      | cons i iobs =>
        obtain ⟨j1, j2⟩ := ih iobs (by simpa using h) fun r' hr' => hr r' (List.mem_cons_of_mem _ hr')
        obtain ⟨hx, h0, h1⟩ := hr r List.mem_cons_self
        have e : computespectrum w (r :: refls) (i :: iobs) = fun x => i * pvoightWppf w r x + computespectrum w refls iobs x := by
          funext x
          rw [computespectrum_eq, computespectrum_eq]
          simp
        have hg := gaussianFwhm_pos w.U w.V w.W w.P (Stephens.gammaSqr w.shkl r.h r.k r.l) w.eta r.tth r.dsp
        have hl := lorentzianFwhm_nonneg (gammaSqr := Stephens.gammaSqr w.shkl r.h r.k r.l) (dsp := r.dsp) hx hY he h0 h1
        obtain ⟨k1, k2⟩ := pvoight_area hg hl r.tth
        have k1' : MeasureTheory.Integrable (pvoightWppf w r) := k1
        have k2' : |(∫ x, pvoightWppf w r x) - 1| ≤ 1e-9 := k2
        rw [e]
        refine ⟨(k1'.const_mul i).add j1, ?_⟩
        rw [MeasureTheory.integral_add (k1'.const_mul i) j1, MeasureTheory.integral_const_mul, List.sum_cons, List.map_cons, List.sum_cons]
        have e2 : i * (∫ x, pvoightWppf w r x) + (∫ x, computespectrum w refls iobs x) - (i + iobs.sum) =
            i * ((∫ x, pvoightWppf w r x) - 1) + ((∫ x, computespectrum w refls iobs x) - iobs.sum) := by ring
        rw [e2]
        refine (abs_add_le _ _).trans ?_
        rw [abs_mul]
        have := mul_le_mul_of_nonneg_left k2' (abs_nonneg i)
        linarith
  exact key.2

end Hexrd.PowderPeak
