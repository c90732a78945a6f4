import Verif.Spec.Transmission
import Mathlib.Analysis.SpecialFunctions.ExpDeriv
import Mathlib.Analysis.SpecialFunctions.Trigonometric.InverseDeriv
import Mathlib.Analysis.SpecialFunctions.Sqrt
import Mathlib.Tactic.Linarith
import Mathlib.Tactic.FieldSimp
import Mathlib.Tactic.Ring
import Mathlib.Tactic.Positivity
import Mathlib.Tactic.NormNum
import Mathlib.Tactic.Push
import Mathlib.Algebra.BigOperators.Ring.List
import Mathlib.Algebra.Order.BigOperators.Group.List
import Mathlib.Analysis.SpecialFunctions.Exp

/-!
# Intensity corrections: transmissions, Compton energies, polarization, absorption lengths
-/
namespace Hexrd.Transmission
open Spec

/-! ### C94: transmissions -/

/-- C94 (plain layers).  A filter, coating or window of thickness `t` and absorption length `al` lets through the share
`exp(-t secb / al)`, where layers thinner than `1e-8` count as absent; the share is in (0, 1], and two layers of the same
material act as one of their joint thickness. -/
theorem generic_spec (secb al t t' : ℝ) (hs : 0 < secb) (ha : 0 < al) (ht : 0 ≤ t) (ht' : 0 ≤ t')
    (h : ¬ closeToZero t) (h' : ¬ closeToZero t') :
    generic secb t al = Real.exp (-(t * secb / al)) ∧ 0 < generic secb t al ∧ generic secb t al ≤ 1 ∧
      generic secb (t + t') al = generic secb t al * generic secb t' al := by
  have e : ∀ t, -t * (1 / al) * secb = -(t * secb / al) := by intro t; ring
  have h2 : ¬ closeToZero (t + t') := by
    unfold closeToZero at *
    rw [abs_of_nonneg ht] at h
    rw [abs_of_nonneg (by linarith)]
    intro hh
    apply h
    linarith
  unfold generic
  rw [if_neg h, if_neg h', if_neg h2, e, e, e]
  refine ⟨rfl, Real.exp_pos _, ?_, ?_⟩
  · rw [Real.exp_le_one_iff]
    have : 0 ≤ t * secb / al := by positivity
    linarith
  · rw [← Real.exp_add]; congr 1; ring

/-- C94 (absent layers).  A layer thinner than `1e-8` has no effect. -/
theorem generic_absent (secb al t : ℝ) (h : closeToZero t) : generic secb t al = 1 := by
  unfold generic; rw [if_pos h]

theorem exp_integral (p q : ℝ) (h : p ≠ q) :
    meanTransmission p q = (Real.exp (-q) - Real.exp (-p)) / (p - q) := by
  unfold meanTransmission
  have hd : p - q ≠ 0 := sub_ne_zero.mpr h
  have := intervalIntegral.integral_eq_sub_of_hasDerivAt
    (f := fun u : ℝ => -(Real.exp (-(p * u + q * (1 - u)))) / (p - q))
    (f' := fun u : ℝ => Real.exp (-(p * u + q * (1 - u)))) (a := 0) (b := 1) ?_ ?_
  · rw [this]
    simp only [mul_one, sub_self, mul_zero, add_zero, zero_add, sub_zero]
    ring
  · intro u _
    have h1 : HasDerivAt (fun u : ℝ => -(p * u + q * (1 - u))) (-(p - q)) u := by
      have := (((hasDerivAt_id' u).const_mul p).add (((hasDerivAt_id' u).const_sub 1).const_mul q)).neg
      refine this.congr_deriv ?_
      ring
    refine (h1.exp.neg.div_const (p - q)).congr_deriv ?_
    field_simp
  · apply Continuous.intervalIntegrable
    fun_prop

/-- Between an evenly scattering layer's extreme paths. -/
theorem meanTransmission_bounds (p q : ℝ) (h : p ≠ q) :
    min (Real.exp (-p)) (Real.exp (-q)) < meanTransmission p q ∧
      meanTransmission p q < max (Real.exp (-p)) (Real.exp (-q)) := by
  -- the slope of the exponential between two points
  have key : ∀ a b : ℝ, a < b →
      Real.exp (-b) < (Real.exp (-a) - Real.exp (-b)) / (b - a) ∧
        (Real.exp (-a) - Real.exp (-b)) / (b - a) < Real.exp (-a) := by
    intro a b hab
    have hd : 0 < b - a := by linarith
    have e1 : Real.exp (-a) = Real.exp (-b) * Real.exp (b - a) := by rw [← Real.exp_add]; congr 1; ring
    have e2 : Real.exp (-b) = Real.exp (-a) * Real.exp (-(b - a)) := by rw [← Real.exp_add]; congr 1; ring
    have g1 : b - a + 1 < Real.exp (b - a) := Real.add_one_lt_exp (by linarith)
    have g2 : -(b - a) + 1 < Real.exp (-(b - a)) := Real.add_one_lt_exp (by linarith)
    have p1 := Real.exp_pos (-a)
    have p2 := Real.exp_pos (-b)
    constructor
    · rw [lt_div_iff₀ hd, e1]; nlinarith
    · rw [div_lt_iff₀ hd, e2]; nlinarith
  rw [exp_integral p q h]
  rcases lt_or_gt_of_ne h with hlt | hgt
  · have := key p q hlt
    have e : (Real.exp (-q) - Real.exp (-p)) / (p - q) = (Real.exp (-p) - Real.exp (-q)) / (q - p) := by
      rw [← neg_sub (Real.exp (-p)), ← neg_sub q p, neg_div_neg_eq]
    rw [e]
    have hle : Real.exp (-q) < Real.exp (-p) := Real.exp_lt_exp.mpr (by linarith)
    rw [min_eq_right hle.le, max_eq_left hle.le]
    exact this
  · have := key q p hgt
    have hle : Real.exp (-p) < Real.exp (-q) := Real.exp_lt_exp.mpr (by linarith)
    rw [min_eq_left hle.le, max_eq_right hle.le]
    exact this

/-- C94 (sample).  The transmission of the sample is the mean over the depth at which the photon is scattered; where the
paths in and out have the same slope it is not a number. -/
theorem sample_spec (seca secb t al : ℝ) (h : ¬ closeToZero t) (ha : 0 < al) :
    (secb ≠ seca → sample seca (some secb) t al = some (meanTransmission (t * seca / al) (t * secb / al))) ∧
      (secb = seca → sample seca (some secb) t al = none) := by
  have ht : t ≠ 0 := by rintro rfl; exact h (by unfold closeToZero; norm_num)
  unfold sample
  rw [if_neg h]
  simp only [Option.bind_some]
  constructor
  · intro hne
    rw [if_neg hne]
    have hne' : t * seca / al ≠ t * secb / al := by
      intro hh
      rw [div_left_inj' ha.ne'] at hh
      exact hne (mul_left_cancel₀ ht hh).symm
    rw [exp_integral _ _ hne']
    have e1 : -(1 / al * t) * seca = -(t * seca / al) := by ring
    have e2 : -(1 / al * t) * secb = -(t * secb / al) := by ring
    rw [e1, e2]
    have hs : secb - seca ≠ 0 := sub_ne_zero.mpr hne
    have e3 : t * seca / al - t * secb / al = -(1 / al * t * (secb - seca)) := by ring
    rw [e3]
    congr 1
    rw [div_neg, div_div, one_div_mul_eq_div]
    ring
  · intro he; rw [if_pos he]

/-- C94 (masks).  A pixel has an exit path exactly if the beam leaves forwards at more than `0.05` in the cosine. -/
theorem exitSec_spec (cosb : ℝ) :
    (0.05 < cosb → exitSec cosb = some (1 / cosb)) ∧ (cosb ≤ 0.05 → exitSec cosb = none) := by
  unfold exitSec
  constructor
  · intro h
    rw [if_neg]
    rintro (h1 | h1)
    · linarith
    · rw [abs_of_pos (by linarith)] at h1; norm_num at h h1; linarith
  · intro h
    rw [if_pos]
    by_cases h0 : cosb < 0
    · exact Or.inl h0
    · right
      rw [abs_of_nonneg (by linarith)]; norm_num at h ⊢; linarith

open Classical in
/-- C94 (package).  For a sample that is not thin and a beam entering forwards, a pixel has a number exactly if its beam
leaves forwards, not nearly along the surface, and with another slope than the beam enters; the number is then the mean
over the scattering depth times the transmission of the window, and lies in (0, 1). -/
theorem package_partial (p : Package) (cosa cosb : ℝ) (hs : ¬ closeToZero p.ts) (hts : 0 < p.ts) (hal : 0 < p.als)
    (htw : 0 ≤ p.tw) (halw : 0 < p.alw) (hca : 0 < cosa) :
    ((package p cosa cosb).isSome ↔ 0.05 < cosb ∧ cosb ≠ cosa) ∧
    ∀ T, package p cosa cosb = some T →
      T = meanTransmission (p.ts / cosa / p.als) (p.ts / cosb / p.als) *
        (if p.hasWindow = true ∧ ¬ closeToZero p.tw then Real.exp (-(p.tw / cosb / p.alw)) else 1) ∧
      0 < T ∧ T < 1 := by
  obtain ⟨x1, x2⟩ := exitSec_spec cosb
  rcases lt_or_ge 0.05 cosb with hc | hc
  · have hcb : 0 < cosb := by norm_num at hc; linarith
    have hx := x1 hc
    have hsec : (1 / cosb = 1 / cosa) ↔ cosb = cosa := by
      constructor
      · intro hh; rwa [one_div, one_div, inv_inj] at hh
      · rintro rfl; rfl
    obtain ⟨s1, s2⟩ := sample_spec (1 / cosa) (1 / cosb) p.ts p.als hs hal
    have hw : window p.hasWindow (exitSec cosb) p.tw p.alw = some
        (if p.hasWindow = true ∧ ¬ closeToZero p.tw then Real.exp (-(p.tw / cosb / p.alw)) else 1) := by
      unfold window
      rw [hx]
      by_cases h1 : p.hasWindow = false ∨ closeToZero p.tw
      · rw [if_pos h1, if_neg]
        rintro ⟨h2, h3⟩
        rcases h1 with h1 | h1
        · rw [h1] at h2; exact absurd h2 (by simp)
        · exact h3 h1
      · rw [if_neg h1, if_pos]
        · simp only [Option.map_some, Option.some.injEq]; congr 1; ring
        · rw [not_or] at h1
          exact ⟨by simpa using h1.1, h1.2⟩
    by_cases he : cosb = cosa
    · have : package p cosa cosb = none := by
        unfold package
        rw [hx, s2 (hsec.mpr he)]
        rfl
      rw [this]
      simp [he]
    · have e1 : p.ts * (1 / cosa) / p.als = p.ts / cosa / p.als := by ring
      have e2 : p.ts * (1 / cosb) / p.als = p.ts / cosb / p.als := by ring
      have hval : package p cosa cosb = some (meanTransmission (p.ts / cosa / p.als) (p.ts / cosb / p.als) *
          (if p.hasWindow = true ∧ ¬ closeToZero p.tw then Real.exp (-(p.tw / cosb / p.alw)) else 1)) := by
        unfold package
        rw [hw, hx, s1 (fun hh => he (hsec.mp hh)), e1, e2]
        rfl
      rw [hval]
      refine ⟨by simp only [Option.isSome_some, true_iff]; exact ⟨hc, he⟩, ?_⟩
      intro T hT
      rw [Option.some.injEq] at hT
      refine ⟨hT.symm, ?_⟩
      rw [← hT]
      have hp : 0 < p.ts / cosa / p.als := by positivity
      have hq : 0 < p.ts / cosb / p.als := by positivity
      have hne : p.ts / cosa / p.als ≠ p.ts / cosb / p.als := by
        intro hh
        rw [div_left_inj' hal.ne'] at hh
        apply he
        rw [div_eq_div_iff hca.ne' hcb.ne'] at hh
        exact mul_left_cancel₀ hts.ne' hh
      obtain ⟨b1, b2⟩ := meanTransmission_bounds _ _ hne
      have m0 : 0 < meanTransmission (p.ts / cosa / p.als) (p.ts / cosb / p.als) :=
        lt_trans (lt_min (Real.exp_pos _) (Real.exp_pos _)) b1
      have m1 : meanTransmission (p.ts / cosa / p.als) (p.ts / cosb / p.als) < 1 := by
        refine lt_of_lt_of_le b2 (max_le ?_ ?_) <;> rw [Real.exp_le_one_iff] <;> linarith
      split
      · have w0 := Real.exp_pos (-(p.tw / cosb / p.alw))
        have w1 : Real.exp (-(p.tw / cosb / p.alw)) ≤ 1 := by
          rw [Real.exp_le_one_iff]
          have : 0 ≤ p.tw / cosb / p.alw := by positivity
          linarith
        exact ⟨by positivity, by nlinarith⟩
      · rw [mul_one]; exact ⟨m0, m1⟩
  · have : package p cosa cosb = none := by
      unfold package sample
      rw [x2 hc, if_neg hs]
      rfl
    rw [this]
    simp [not_lt.mpr hc]

/-- A sample of 10 microns with absorption length 20, entered straight, left at 60 degrees. -/
theorem package_case : ∃ T, package ⟨10, 20, 20, true, 5, 100, 100⟩ 1 (1 / 2) = some T ∧ 0 < T ∧ T < 1 := by
  have h := package_partial ⟨10, 20, 20, true, 5, 100, 100⟩ 1 (1 / 2)
    (by unfold closeToZero; norm_num [abs_of_pos]) (by norm_num) (by norm_num) (by norm_num) (by norm_num) (by norm_num)
  obtain ⟨T, hT⟩ := Option.isSome_iff_exists.mp (h.1.mpr ⟨by norm_num, by norm_num⟩)
  exact ⟨T, hT, (h.2 T hT).2⟩

/-- C94 (Compton).  The transmission of a layer for Compton scattering is the mean over the scattering depth, with the
absorption of the beam on the way in and of the scattered photons on the way out. -/
theorem comptonLayer_spec (seca secb mu mu' t : ℝ) (ht : 0 < t) :
    (mu * t * seca ≠ mu' * t * secb →
      comptonLayer seca (some secb) mu mu' t = some (meanTransmission (mu * t * seca) (mu' * t * secb))) ∧
    (mu * t * seca = mu' * t * secb → comptonLayer seca (some secb) mu mu' t = none) := by
  unfold comptonLayer
  rw [if_neg (not_le.mpr ht)]
  simp only [Option.bind_some]
  constructor
  · intro h
    rw [if_neg h, exp_integral _ _ h, neg_sub]
  · intro h; rw [if_pos h]

/-- C94 (Compton, sample).  Compton scattering in the sample: mean over the depth, times the window. -/
theorem comptonFromSample_spec (p : Package) (cosa cosb : ℝ) (hts : 0 < p.ts) (hc : 0.05 < cosb)
    (hw : p.hasWindow = true) (h : p.ts / cosa / p.als ≠ p.ts / cosb / p.alsC) :
    comptonFromSample p cosa cosb =
      some (meanTransmission (p.ts / cosa / p.als) (p.ts / cosb / p.alsC) * Real.exp (-(p.tw / cosb / p.alwC))) := by
  have e1 : 1 / p.als * p.ts * (1 / cosa) = p.ts / cosa / p.als := by ring
  have e2 : 1 / p.alsC * p.ts * (1 / cosb) = p.ts / cosb / p.alsC := by ring
  have e3 : -(1 / p.alwC) * p.tw * (1 / cosb) = -(p.tw / cosb / p.alwC) := by ring
  have h1 := (comptonLayer_spec (1 / cosa) (1 / cosb) (1 / p.als) (1 / p.alsC) p.ts hts).1
  rw [e1, e2] at h1
  unfold comptonFromSample comptonSampleLayer
  rw [(exitSec_spec cosb).1 hc, h1 h, hw]
  simp only [Option.map_some, e3]
  rfl

/-- C94 (Compton, window).  Compton scattering in the window is computed with the absorption length of the sample for
the way into the window. -/
theorem comptonFromWindow_value (p : Package) (cosa cosb : ℝ) (htw : 0 < p.tw) (hc : 0.05 < cosb)
    (hw : p.hasWindow = true) (h : p.tw / cosa / p.als ≠ p.tw / cosb / p.alwC) :
    comptonFromWindow p cosa cosb =
      some (Real.exp (-(p.ts / cosa / p.als)) * meanTransmission (p.tw / cosa / p.als) (p.tw / cosb / p.alwC)) := by
  have e1 : 1 / p.als * p.tw * (1 / cosa) = p.tw / cosa / p.als := by ring
  have e2 : 1 / p.alwC * p.tw * (1 / cosb) = p.tw / cosb / p.alwC := by ring
  have e3 : -(1 / p.als) * p.ts * (1 / cosa) = -(p.ts / cosa / p.als) := by ring
  have h1 := (comptonLayer_spec (1 / cosa) (1 / cosb) (1 / p.als) (1 / p.alwC) p.tw htw).1
  rw [e1, e2] at h1
  unfold comptonFromWindow comptonWindowLayer
  rw [(exitSec_spec cosb).1 hc, if_neg (by rw [hw]; simp), h1 h, e3]
  rfl

theorem meanTransmission_lt (p p' q : ℝ) (h : p < p') :
    meanTransmission p' q < meanTransmission p q := by
  unfold meanTransmission
  apply intervalIntegral.integral_lt_integral_of_continuousOn_of_le_of_exists_lt (by norm_num)
  · exact Continuous.continuousOn (by fun_prop)
  · exact Continuous.continuousOn (by fun_prop)
  · intro u hu
    apply Real.exp_le_exp.mpr
    have := hu.1
    nlinarith
  · exact ⟨1, by simp, by apply Real.exp_lt_exp.mpr; linarith⟩

/-- C94 (disagreement).  For every sample that absorbs less than the window at the energy of the beam, the transmission
reported for Compton scattering in the window is too large. -/
theorem comptonFromWindow_wrong (p : Package) (cosa cosb : ℝ) (htw : 0 < p.tw) (hca : 0 < cosa) (hc : 0.05 < cosb)
    (hw : p.hasWindow = true) (h0 : 0 < p.alw) (hlt : p.alw < p.als)
    (h : p.tw / cosa / p.als ≠ p.tw / cosb / p.alwC) :
    ∃ T, comptonFromWindow p cosa cosb = some T ∧
      Real.exp (-(p.ts / cosa / p.als)) * meanTransmission (p.tw / cosa / p.alw) (p.tw / cosb / p.alwC) < T := by
  refine ⟨_, comptonFromWindow_value p cosa cosb htw hc hw h, ?_⟩
  apply mul_lt_mul_of_pos_left _ (Real.exp_pos _)
  apply meanTransmission_lt
  have : 0 < p.tw / cosa := by positivity
  exact div_lt_div_of_pos_left this h0 hlt

/-! ### The phosphor -/

theorem phosphorSignal_value (mu L t secb : ℝ) (hmu : 0 < mu) (hL : 0 < L) (hs : 0 < secb) :
    phosphorSignal mu L t secb = (1 - Real.exp (-(mu * t) * (secb + 1 / (mu * L)))) / (secb + 1 / (mu * L)) := by
  unfold phosphorSignal
  have hk : 0 < mu * secb + 1 / L := by positivity
  have hrw : ∀ z, mu * Real.exp (-(mu * secb * z)) * Real.exp (-(z / L)) =
      mu * Real.exp (-((mu * secb + 1 / L) * z)) := by
    intro z
    rw [mul_assoc, ← Real.exp_add]
    congr 2
    ring
  simp only [hrw]
  have := intervalIntegral.integral_eq_sub_of_hasDerivAt
    (f := fun z : ℝ => -(mu * Real.exp (-((mu * secb + 1 / L) * z))) / (mu * secb + 1 / L))
    (f' := fun z : ℝ => mu * Real.exp (-((mu * secb + 1 / L) * z))) (a := 0) (b := t) ?_ ?_
  · rw [this]
    have e1 : secb + 1 / (mu * L) = (mu * secb + 1 / L) / mu := by field_simp
    rw [e1]
    have e2 : -(mu * t) * ((mu * secb + 1 / L) / mu) = -((mu * secb + 1 / L) * t) := by field_simp
    rw [e2]
    simp only [mul_zero, neg_zero, Real.exp_zero, mul_one]
    field_simp
    ring
  · intro z _
    have h1 : HasDerivAt (fun z : ℝ => -((mu * secb + 1 / L) * z)) (-(mu * secb + 1 / L)) z := by
      have := ((hasDerivAt_id' z).const_mul (mu * secb + 1 / L)).neg
      exact this.congr_deriv (by ring)
    refine ((h1.exp.const_mul mu).neg.div_const _).congr_deriv ?_
    field_simp
  · apply Continuous.intervalIntegrable
    fun_prop

/-- C94 (filter and coating).  Both layers are in the way of the beam. -/
theorem filterCoating_layers (s : Stack) (secb energy : ℝ) (h1 : ¬ closeToZero s.tf) (h2 : ¬ closeToZero s.tc) :
    (filterCoating s secb energy).1 = Real.exp (-(s.tf / s.alf + s.tc / s.alc) * secb) := by
  unfold filterCoating generic
  rw [if_neg h1, if_neg h2, ← Real.exp_add]
  congr 1
  ring

/-- C94 (phosphor).  The formula is the signal of the phosphor if it is given the absorption coefficient, the inverse of
an absorption length. -/
theorem phosphor_coefficient (secb t L mu energy pre : ℝ) (h : ¬ closeToZero t) (hmu : 0 < mu) (hL : 0 < L)
    (hs : 0 < secb) : phosphor secb t L mu energy pre = pre * energy * phosphorSignal mu L t secb := by
  unfold phosphor
  rw [if_neg h, phosphorSignal_value mu L t secb hmu hL hs]

/-- C94 (phosphor, as called).  The detectors pass the absorption length as readout length and the readout length as
absorption coefficient. -/
theorem filterCoating_phosphor_value (s : Stack) (secb energy : ℝ) (h : ¬ closeToZero s.tp) (ha : 0 < s.alp)
    (hL : 0 < s.readout) (hs : 0 < secb) :
    (filterCoating s secb energy).2 = s.preU0 * energy * phosphorSignal s.readout s.alp s.tp secb :=
  phosphor_coefficient secb s.tp s.alp s.readout energy s.preU0 h hL ha hs

/-- C94 (disagreement).  A phosphor of thickness 1 and absorption length 1 with readout length 2. -/
theorem filterCoating_phosphor_wrong :
    (filterCoating ⟨0, 1, 0, 1, 1, 1, 2, 1⟩ 1 1).2 ≠ 1 * 1 * phosphorSignal (1 / 1) 2 1 1 := by
  have h : ¬ closeToZero (1 : ℝ) := by unfold closeToZero; norm_num
  unfold filterCoating
  simp only
  rw [phosphor_coefficient 1 1 1 2 1 1 h (by norm_num) (by norm_num) (by norm_num),
    phosphorSignal_value 2 1 1 1 (by norm_num) (by norm_num) (by norm_num),
    phosphorSignal_value (1 / 1) 2 1 1 (by norm_num) (by norm_num) (by norm_num)]
  norm_num

/-! ### The pinhole -/

theorem lens_integral (j : ℝ) : lensArea j = ∫ u in j..1, Real.sqrt (1 - u ^ 2) := by
  unfold lensArea
  have h := intervalIntegral.integral_comp_div (f := fun u : ℝ => Real.sqrt (1 - u ^ 2)) (a := j / 2 * 1) (b := 1 / 2)
    (c := 1 / 2) (by norm_num)
  have e : ∀ x : ℝ, Real.sqrt (1 / 4 - x ^ 2) = 1 / 2 * Real.sqrt (1 - (x / (1 / 2)) ^ 2) := by
    intro x
    have : (1 : ℝ) / 4 - x ^ 2 = (1 / 2) ^ 2 * (1 - (x / (1 / 2)) ^ 2) := by ring
    rw [this, Real.sqrt_mul (by positivity), Real.sqrt_sq (by norm_num)]
  simp only [e]
  rw [intervalIntegral.integral_const_mul]
  rw [mul_one] at h
  rw [h]
  have e1 : j / 2 / (1 / 2) = j := by ring
  have e2 : (1 : ℝ) / 2 / (1 / 2) = 1 := by norm_num
  rw [e1, e2, smul_eq_mul]
  ring

theorem lens_value (j : ℝ) (h0 : 0 ≤ j) (h1 : j ≤ 1) :
    lensArea j = 1 / 2 * (Real.arccos j - j * Real.sqrt (1 - j ^ 2)) := by
  rw [lens_integral]
  have := intervalIntegral.integral_eq_sub_of_hasDerivAt_of_le
    (f := fun u : ℝ => -(1 / 2 * (Real.arccos u - u * Real.sqrt (1 - u ^ 2))))
    (f' := fun u : ℝ => Real.sqrt (1 - u ^ 2)) h1 ?_ ?_ ?_
  · rw [this]
    simp
  · apply Continuous.continuousOn
    have := Real.continuous_arccos
    fun_prop
  · intro u hu
    have hu1 : 0 < 1 - u ^ 2 := by nlinarith [hu.1, hu.2]
    have ha := Real.hasDerivAt_arccos (x := u) (by linarith [hu.1]) (by linarith [hu.2])
    have hin : HasDerivAt (fun u : ℝ => 1 - u ^ 2) (-(2 * u)) u := by
      have := (hasDerivAt_pow 2 u).const_sub 1
      exact this.congr_deriv (by norm_num)
    have hsq := hin.sqrt hu1.ne'
    have := ((ha.sub ((hasDerivAt_id' u).mul hsq)).const_mul (1 / 2)).neg
    refine this.congr_deriv ?_
    have hs : 0 < Real.sqrt (1 - u ^ 2) := Real.sqrt_pos.mpr hu1
    have hs2 : Real.sqrt (1 - u ^ 2) ^ 2 = 1 - u ^ 2 := Real.sq_sqrt hu1.le
    field_simp
    rw [hs2]
    ring
  · apply Continuous.intervalIntegrable
    fun_prop

theorem arctan_arccos (j : ℝ) (h0 : 0 < j) :
    Real.arctan (Real.sqrt (1 / j ^ 2 - 1)) = Real.arccos j := by
  rw [Real.arccos_eq_arctan h0]
  congr 1
  have : (1 : ℝ) / j ^ 2 - 1 = (1 - j ^ 2) / j ^ 2 := by field_simp
  rw [this, Real.sqrt_div' _ (by positivity), Real.sqrt_sq h0.le]

/-- C95.  For a pinhole that is neither thin nor narrow, and a beam that is not parallel to its axis within the
tolerance: the effective area is the area, in units of the squared diameter, that the two faces of the pinhole have in
common as seen along the beam; there is a number exactly if they have an area in common or touch. -/
theorem pinhole_partial (t d tanb : ℝ) (ht : ¬ closeToZero t) (hd : ¬ closeToZero d) (hb : 0 ≤ t / d * tanb)
    (hj : 1e-8 < (t / d * tanb) ^ 2) :
    (t / d * tanb ≤ 1 → pinholeArea t d tanb = some (lensArea (t / d * tanb))) ∧
      (1 < t / d * tanb → pinholeArea t d tanb = none) := by
  unfold pinholeArea
  rw [if_neg (by rintro (h | h) <;> contradiction)]
  simp only
  set j := t / d * tanb with hjdef
  constructor
  · intro h1
    have hpos : 0 < j := by
      rcases hb.lt_or_eq with h | h
      · exact h
      · rw [← h] at hj; norm_num at hj
    have hj1 : j ^ 2 ≤ 1 := by nlinarith
    have hj2 : 1 ≤ 1 / j ^ 2 := by rw [le_div_iff₀ (by positivity)]; linarith
    rw [if_neg (not_lt.mpr h1), if_neg (not_le.mpr hj), if_neg (by rintro (h | h) <;> linarith),
      arctan_arccos j hpos, lens_value j hb h1]
    norm_num
  · intro h1
    rw [if_pos h1]

/-- C95 (properties).  The common area falls from a full disc of unit diameter to nothing. -/
theorem lens_range : lensArea 0 = Real.pi / 4 ∧ lensArea 1 = 0 ∧
    ∀ j j', 0 ≤ j → j < j' → j' ≤ 1 → lensArea j' < lensArea j := by
  refine ⟨?_, ?_, ?_⟩
  · rw [lens_value 0 le_rfl zero_le_one]; simp; ring
  · rw [lens_value 1 zero_le_one le_rfl]; simp
  · intro j j' h0 h1 h2
    have hi : ∀ a b : ℝ, IntervalIntegrable (fun u : ℝ => Real.sqrt (1 - u ^ 2)) MeasureTheory.volume a b := by
      intro a b
      apply Continuous.intervalIntegrable
      fun_prop
    rw [lens_integral, lens_integral, ← intervalIntegral.integral_add_adjacent_intervals (hi j j') (hi j' 1)]
    have : 0 < ∫ u in j..j', Real.sqrt (1 - u ^ 2) := by
      apply intervalIntegral.intervalIntegral_pos_of_pos_on (hi j j') _ h1
      intro u hu
      apply Real.sqrt_pos.mpr
      nlinarith [hu.1, hu.2]
    linarith

/-- C95 (disagreement).  Along its axis every pinhole has the area `π / 4` of the disc, but one that is thinner than the
tolerance has the area one: the correction jumps by a quarter. -/
theorem pinhole_axis (t d : ℝ) (ht : ¬ closeToZero t) (hd : ¬ closeToZero d) :
    pinholeArea t d 0 = some (Real.pi / 4) ∧ pinholeArea 0 d 0 = some 1 := by
  constructor
  · unfold pinholeArea
    rw [if_neg (by rintro (h | h) <;> contradiction)]
    norm_num
    ring
  · unfold pinholeArea
    rw [if_pos (Or.inl (by unfold closeToZero; norm_num))]

/-! ### C96: Compton energy, polarization -/

/-- C96 (Compton).  The wavelength, inverse to the energy, grows by the Compton shift; the photon never gains energy and
keeps at least `m / (m + 2 E)` of it. -/
theorem comptonEnergy_spec (m energy tth : ℝ) (hm : 0 < m) (he : 0 < energy) :
    1 / comptonEnergy m energy tth - 1 / energy = (1 - Real.cos tth) / m ∧
      comptonEnergy m energy tth ≤ energy ∧ energy * (m / (m + 2 * energy)) ≤ comptonEnergy m energy tth := by
  have hc1 := Real.cos_le_one tth
  have hc2 := Real.neg_one_le_cos tth
  have hb : 0 < energy / m := by positivity
  have hden : 1 ≤ 1 + energy / m * (1 - Real.cos tth) := by nlinarith
  unfold comptonEnergy
  simp only
  refine ⟨?_, ?_, ?_⟩
  · rw [one_div_div]
    field_simp
    ring
  · exact div_le_self he.le hden
  · rw [le_div_iff₀ (by linarith)]
    have : energy * (m / (m + 2 * energy)) * (1 + energy / m * (1 - Real.cos tth)) =
        energy * ((m + energy * (1 - Real.cos tth)) / (m + 2 * energy)) := by field_simp
    rw [this]
    have h2 : (m + energy * (1 - Real.cos tth)) / (m + 2 * energy) ≤ 1 := by
      rw [div_le_one (by linarith)]
      nlinarith
    nlinarith

/-- C96 (momentum transfer).  `Q` is the length of the difference of the wave vectors of the diffracted beam and of the beam
along -z. -/
theorem pixelQ_transfer (lam tth eta : ℝ) (hl : 0 < lam) (h0 : 0 ≤ tth) (h1 : tth ≤ Real.pi) :
    0 ≤ pixelQ lam tth ∧ pixelQ lam tth ^ 2 = (2 * Real.pi / lam) ^ 2 *
      ((Spec.direction tth eta).1 ^ 2 + (Spec.direction tth eta).2.1 ^ 2 + ((Spec.direction tth eta).2.2 + 1) ^ 2) := by
  constructor
  · unfold pixelQ
    have := Real.sin_nonneg_of_nonneg_of_le_pi (x := tth * 0.5) (by linarith) (by linarith [Real.pi_pos])
    have := Real.pi_pos
    positivity
  · have e : (1 : ℝ) - Real.cos tth = 2 * Real.sin (tth * 0.5) ^ 2 := by
      have h := Real.cos_two_mul (tth * 0.5)
      have h2 : 2 * (tth * 0.5) = tth := by ring
      rw [h2] at h
      have := Real.sin_sq_add_cos_sq (tth * 0.5)
      linarith
    have g : (Spec.direction tth eta).1 ^ 2 + (Spec.direction tth eta).2.1 ^ 2 + ((Spec.direction tth eta).2.2 + 1) ^ 2 =
        2 * (1 - Real.cos tth) := by
      simp only [Spec.direction]
      linear_combination Real.sin tth ^ 2 * Real.sin_sq_add_cos_sq eta + Real.sin_sq_add_cos_sq tth
    rw [g, e]
    unfold pixelQ
    ring

/-- C96 (polarization).  The factor is the share of the field perpendicular to the diffracted beam, with the given
weights of horizontal and vertical polarization; equal weights give the factor of an unpolarized beam; it is between
`cos² 2θ` and one. -/
theorem polarization_spec (tth eta fHor fVert : ℝ) (h : fHor + fVert = 1) (h0 : 0 ≤ fHor) (h1 : 0 ≤ fVert) :
    polarizedFactor tth eta fHor fVert =
      fHor * shareX (direction tth eta) + fVert * shareY (direction tth eta) ∧
    polarizedFactor tth eta (1 / 2) (1 / 2) = unpolarizedFactor tth ∧
    Real.cos tth ^ 2 ≤ polarizedFactor tth eta fHor fVert ∧ polarizedFactor tth eta fHor fVert ≤ 1 := by
  have s1 := Real.sin_sq_add_cos_sq eta
  have s2 := Real.sin_sq_add_cos_sq tth
  have e1 : ∀ fHor fVert, polarizedFactor tth eta fHor fVert =
      fHor * shareX (direction tth eta) + fVert * shareY (direction tth eta) := by
    intro fHor fVert
    unfold polarizedFactor shareX shareY direction
    simp only [mul_pow]
    have a1 : Real.sin eta ^ 2 = 1 - Real.cos eta ^ 2 := by linarith
    have a2 : Real.sin tth ^ 2 = 1 - Real.cos tth ^ 2 := by linarith
    rw [a1, a2]
    ring
  refine ⟨e1 _ _, ?_, ?_, ?_⟩
  · unfold polarizedFactor unpolarizedFactor
    have a1 : Real.sin eta ^ 2 = 1 - Real.cos eta ^ 2 := by linarith
    simp only [a1]
    ring
  · rw [e1]
    unfold shareX shareY direction
    simp only [mul_pow]
    have c1 : Real.sin tth ^ 2 * Real.cos eta ^ 2 ≤ Real.sin tth ^ 2 := by
      nlinarith [sq_nonneg (Real.sin tth), sq_nonneg (Real.sin eta), mul_nonneg (sq_nonneg (Real.sin tth)) (sq_nonneg (Real.sin eta))]
    have c2 : Real.sin tth ^ 2 * Real.sin eta ^ 2 ≤ Real.sin tth ^ 2 := by
      nlinarith [mul_nonneg (sq_nonneg (Real.sin tth)) (sq_nonneg (Real.cos eta))]
    have : Real.cos tth ^ 2 = fHor * (1 - Real.sin tth ^ 2) + fVert * (1 - Real.sin tth ^ 2) := by
      rw [← add_mul, h, one_mul]; linarith
    rw [this]
    exact add_le_add (mul_le_mul_of_nonneg_left (by linarith) h0) (mul_le_mul_of_nonneg_left (by linarith) h1)
  · rw [e1]
    unfold shareX shareY direction
    simp only [mul_pow]
    have c1 : 0 ≤ Real.sin tth ^ 2 * Real.cos eta ^ 2 := by positivity
    have c2 : 0 ≤ Real.sin tth ^ 2 * Real.sin eta ^ 2 := by positivity
    nlinarith [mul_nonneg h0 c1, mul_nonneg h1 c2]

/-- C96 (input checks).  The method of the panel gives a number exactly for fractions that are not negative and add up
to one within the tolerance. -/
theorem panelPolarization_isSome (eps tth eta fHor fVert : ℝ) (u : Bool) :
    (panelPolarization eps tth eta fHor fVert u).isSome ↔ |fHor + fVert - 1| ≤ eps ∧ 0 ≤ fHor ∧ 0 ≤ fVert := by
  unfold panelPolarization
  split
  · rename_i h; simp; intro h'; linarith
  · rename_i h
    split
    · rename_i h2
      simp only [Option.isSome_none, Bool.false_eq_true, false_iff, not_and, not_le]
      intro _ h3
      rcases h2 with h2 | h2
      · linarith
      · exact h2
    · rename_i h2
      push Not at h h2
      split <;> simp [h, h2.1, h2.2]

/-- C96 (Lorentz).  The factor is positive between the beam and backscattering, and equals `2 / (sin θ sin 2θ)`. -/
theorem lorentz_spec (tth : ℝ) (h0 : 0 < tth) (h1 : tth < Real.pi) :
    0 < lorentzFactor tth ∧ lorentzFactor tth = 2 / (Real.sin (tth / 2) * Real.sin tth) := by
  have e : (0.5 : ℝ) * tth = tth / 2 := by norm_num; ring
  have hs : 0 < Real.sin (tth / 2) := Real.sin_pos_of_pos_of_lt_pi (by linarith) (by linarith)
  have hc : 0 < Real.cos (tth / 2) := Real.cos_pos_of_mem_Ioo ⟨by linarith, by linarith⟩
  have h2 : Real.sin tth = 2 * Real.sin (tth / 2) * Real.cos (tth / 2) := by
    rw [← Real.sin_two_mul]; congr 1; ring
  unfold lorentzFactor
  rw [e]
  refine ⟨by positivity, ?_⟩
  rw [h2]
  field_simp

/-! ### C97: absorption lengths -/

theorem interp0_inside (table : List (ℝ × ℝ)) (hs : (table.map Prod.fst).Pairwise (· < ·)) (x : ℝ) (lo hi : ℝ)
    (hb : ∀ e ∈ table, lo ≤ e.2 ∧ e.2 ≤ hi) (h0 : ∃ e ∈ table, e.1 ≤ x) (h1 : ∃ e ∈ table, x ≤ e.1) :
    lo ≤ interp0 table x ∧ interp0 table x ≤ hi := by
  induction table with
  | nil => simp at h0
  | cons a rest ih =>
    cases rest with
    | nil =>
      simp only [List.mem_singleton, exists_eq_left] at h0 h1
      obtain ⟨x0, y0⟩ := a
      have : x = x0 := le_antisymm h1 h0
      simp only [interp0]
      rw [if_pos this]
      exact hb (x0, y0) (by simp)
    | cons b rest' =>
      obtain ⟨x0, y0⟩ := a
      obtain ⟨x1, y1⟩ := b
      simp only [interp0]
      have hlt : x0 < x1 := by
        simp only [List.map_cons, List.pairwise_cons] at hs
        exact hs.1 x1 (by simp)
      have hle : x0 ≤ x := by
        obtain ⟨e, he, hx⟩ := h0
        simp only [List.map_cons, List.pairwise_cons] at hs
        rcases List.mem_cons.mp he with rfl | he'
        · exact hx
        · have := hs.1 e.1 (by
            rcases List.mem_cons.mp he' with rfl | h''
            · simp
            · exact List.mem_cons_of_mem _ (List.mem_map_of_mem h''))
          exact le_trans this.le hx
      rw [if_neg (not_lt.mpr hle)]
      have b0 := hb (x0, y0) (by simp)
      have b1 := hb (x1, y1) (by simp)
      split
      · rename_i hx
        have hd : 0 < x1 - x0 := by linarith
        have e : y0 + (y1 - y0) / (x1 - x0) * (x - x0) = ((x1 - x) * y0 + (x - x0) * y1) / (x1 - x0) := by
          field_simp; ring
        rw [e]
        have p1 : 0 ≤ x1 - x := by linarith
        have p2 : 0 ≤ x - x0 := by linarith
        constructor
        · rw [le_div_iff₀ hd]; nlinarith [b0.1, b1.1]
        · rw [div_le_iff₀ hd]; nlinarith [b0.2, b1.2]
      · rename_i hx
        push Not at hx
        apply ih
        · simp only [List.map_cons, List.pairwise_cons] at hs ⊢
          exact hs.2
        · exact fun e he => hb e (List.mem_cons_of_mem _ he)
        · exact ⟨(x1, y1), by simp, hx⟩
        · obtain ⟨e, he, hx'⟩ := h1
          rcases List.mem_cons.mp he with rfl | he'
          · exact ⟨(x1, y1), by simp, by dsimp only at hx' ⊢; linarith⟩
          · exact ⟨e, he', hx'⟩

theorem interp0_outside (table : List (ℝ × ℝ)) (x : ℝ)
    (h : (∀ e ∈ table, x < e.1) ∨ (∀ e ∈ table, e.1 < x)) : interp0 table x = 0 := by
  induction table with
  | nil => rfl
  | cons a rest ih =>
    obtain ⟨x0, y0⟩ := a
    cases rest with
    | nil =>
      simp only [interp0]
      rw [if_neg]
      rintro rfl
      rcases h with h | h
      · exact lt_irrefl _ (h (x, y0) (by simp))
      · exact lt_irrefl _ (h (x, y0) (by simp))
    | cons b rest' =>
      obtain ⟨x1, y1⟩ := b
      simp only [interp0]
      rcases h with h | h
      · rw [if_pos (h (x0, y0) (by simp))]
      · have a0 := h (x0, y0) (by simp)
        have a1 := h (x1, y1) (by simp)
        dsimp only at a0 a1
        rw [if_neg (by linarith), if_neg (by linarith)]
        exact ih (Or.inr fun e he => h e (List.mem_cons_of_mem _ he))

theorem interp0_node (table : List (ℝ × ℝ)) (hs : (table.map Prod.fst).Pairwise (· < ·)) (e : ℝ × ℝ)
    (he : e ∈ table) : interp0 table e.1 = e.2 := by
  induction table with
  | nil => simp at he
  | cons a rest ih =>
    obtain ⟨x0, y0⟩ := a
    cases rest with
    | nil =>
      simp only [List.mem_singleton] at he
      subst he
      simp [interp0]
    | cons b rest' =>
      obtain ⟨x1, y1⟩ := b
      simp only [List.map_cons, List.pairwise_cons] at hs
      have h01 : x0 < x1 := hs.1 x1 (by simp)
      simp only [interp0]
      rcases List.mem_cons.mp he with rfl | he'
      · dsimp only
        rw [if_neg (lt_irrefl _), if_pos h01]; ring
      · have hge : x1 ≤ e.1 := by
          rcases List.mem_cons.mp he' with rfl | h''
          · exact le_rfl
          · exact (hs.2.1 e.1 (List.mem_map_of_mem h'')).le
        rw [if_neg (by linarith), if_neg (by linarith)]
        exact ih (by simp only [List.map_cons, List.pairwise_cons]; exact hs.2) he'

/-- C97 (elements).  At an energy of the table the coefficient is the tabulated one; between, it is within every bounds
of the tabulated values. -/
theorem massAttenuation_partial (table : List (ℝ × ℝ)) (hpos : ∀ e ∈ table, 0 < e.1 ∧ 0 < e.2)
    (hs : (table.map Prod.fst).Pairwise (· < ·)) :
    (∀ e ∈ table, massAttenuation table e.1 = e.2) ∧
      ∀ energy lo hi, 0 < lo → 0 < hi → (∀ e ∈ table, lo ≤ e.2 ∧ e.2 ≤ hi) → 0 < energy →
        (∃ e ∈ table, e.1 ≤ energy) → (∃ e ∈ table, energy ≤ e.1) →
        lo ≤ massAttenuation table energy ∧ massAttenuation table energy ≤ hi := by
  have hs' : ((table.map fun e => (Real.log e.1, Real.log e.2)).map Prod.fst).Pairwise (· < ·) := by
    rw [List.map_map]
    rw [List.pairwise_map] at hs ⊢
    exact hs.imp_of_mem (fun {a b} ha _ hab => Real.log_lt_log (hpos a ha).1 hab)
  constructor
  · intro e he
    unfold massAttenuation
    have := interp0_node _ hs' (Real.log e.1, Real.log e.2) (List.mem_map_of_mem (f := fun e => (Real.log e.1, Real.log e.2)) he)
    dsimp only at this
    rw [this, Real.exp_log (hpos e he).2]
  · intro energy lo hi hlo hhi hb hE h0 h1
    unfold massAttenuation
    have := interp0_inside _ hs' (Real.log energy) (Real.log lo) (Real.log hi) ?_ ?_ ?_
    · constructor
      · rw [← Real.log_le_log_iff hlo (Real.exp_pos _), Real.log_exp]; exact this.1
      · rw [← Real.log_le_log_iff (Real.exp_pos _) hhi, Real.log_exp]; exact this.2
    · intro e he
      obtain ⟨a, ha, rfl⟩ := List.mem_map.mp he
      exact ⟨Real.log_le_log hlo (hb a ha).1, Real.log_le_log (hpos a ha).2 (hb a ha).2⟩
    · obtain ⟨a, ha, hx⟩ := h0
      exact ⟨_, List.mem_map_of_mem ha, Real.log_le_log (hpos a ha).1 hx⟩
    · obtain ⟨a, ha, hx⟩ := h1
      exact ⟨_, List.mem_map_of_mem ha, Real.log_le_log hE hx⟩

/-- C97 (disagreement).  At every energy outside the table the coefficient is one, whatever the element. -/
theorem massAttenuation_outside (table : List (ℝ × ℝ)) (hpos : ∀ e ∈ table, 0 < e.1) (energy : ℝ) (hE : 0 < energy)
    (h : (∀ e ∈ table, energy < e.1) ∨ (∀ e ∈ table, e.1 < energy)) : massAttenuation table energy = 1 := by
  unfold massAttenuation
  rw [interp0_outside, Real.exp_zero]
  rcases h with h | h
  · left
    intro e he
    obtain ⟨a, ha, rfl⟩ := List.mem_map.mp he
    exact Real.log_lt_log hE (h a ha)
  · right
    intro e he
    obtain ⟨a, ha, rfl⟩ := List.mem_map.mp he
    exact Real.log_lt_log (hpos a ha) (h a ha)

theorem molecularMass_pos (formula : List (ℝ × ℝ)) (h : formula ≠ []) (hp : ∀ e ∈ formula, 0 < e.1 ∧ 0 < e.2) :
    0 < molecularMass formula := by
  unfold molecularMass
  apply List.sum_pos
  · intro x hx
    obtain ⟨e, he, rfl⟩ := List.mem_map.mp hx
    exact mul_pos (hp e he).1 (hp e he).2
  · simpa using h

theorem weighted_bounds (l : List (ℝ × ℝ × ℝ)) (M lo hi : ℝ) (hM : 0 < M)
    (hp : ∀ e ∈ l, 0 < e.1 ∧ 0 < e.2.1) (hb : ∀ e ∈ l, lo ≤ e.2.2 ∧ e.2.2 ≤ hi) :
    lo * (molecularMass (l.map fun e => (e.1, e.2.1)) / M) ≤ (l.map fun e => e.1 * e.2.1 / M * e.2.2).sum ∧
      (l.map fun e => e.1 * e.2.1 / M * e.2.2).sum ≤ hi * (molecularMass (l.map fun e => (e.1, e.2.1)) / M) := by
  unfold molecularMass
  induction l with
  | nil => simp
  | cons a rest ih =>
    have := ih (fun e he => hp e (List.mem_cons_of_mem _ he)) (fun e he => hb e (List.mem_cons_of_mem _ he))
    simp only [List.map_cons, List.sum_cons, List.map_map] at this ⊢
    have ha := hp a (by simp)
    have hba := hb a (by simp)
    have hw : 0 ≤ a.1 * a.2.1 / M := by have := mul_pos ha.1 ha.2; positivity
    rw [add_div, mul_add, mul_add]
    constructor
    · nlinarith [this.1, mul_le_mul_of_nonneg_left hba.1 hw]
    · nlinarith [this.2, mul_le_mul_of_nonneg_left hba.2 hw]

/-- C97 (mixtures).  The weights of the elements are mass fractions: the inverse of the absorption length, in inverse
microns for a density in g/cm³, is the density times a mean of the coefficients of the elements. -/
theorem absorptionLength_bounds (density : ℝ) (formula : List (ℝ × ℝ × ℝ)) (hd : 0 < density) (hne : formula ≠ [])
    (hp : ∀ e ∈ formula, 0 < e.1 ∧ 0 < e.2.1) (lo hi : ℝ) (hlo : 0 < lo)
    (hb : ∀ e ∈ formula, lo ≤ e.2.2 ∧ e.2.2 ≤ hi) :
    0 < absorptionLength density formula ∧
      1e4 / (density * hi) ≤ absorptionLength density formula ∧
      absorptionLength density formula ≤ 1e4 / (density * lo) := by
  have hM := molecularMass_pos (formula.map fun e => (e.1, e.2.1)) (by simpa using hne) (by
    intro e he
    obtain ⟨a, ha, rfl⟩ := List.mem_map.mp he
    exact hp a ha)
  obtain ⟨b1, b2⟩ := weighted_bounds formula _ lo hi hM hp hb
  rw [div_self hM.ne', mul_one] at b1 b2
  unfold absorptionLength
  simp only
  set mr := (formula.map fun e => e.1 * e.2.1 / molecularMass (formula.map fun e => (e.1, e.2.1)) * e.2.2).sum
  have hmr : 0 < mr := by linarith
  have e : 1 / (mr * density * 1e-4) = 1e4 / (density * mr) := by
    rw [div_eq_div_iff (by positivity) (by positivity)]; ring
  rw [e]
  refine ⟨by positivity, ?_, ?_⟩
  · exact div_le_div_of_nonneg_left (by norm_num) (by positivity) (mul_le_mul_of_nonneg_left b2 hd.le)
  · exact div_le_div_of_nonneg_left (by norm_num) (by positivity) (mul_le_mul_of_nonneg_left b1 hd.le)

/-- C97 (formula units).  Writing the formula with a multiple of the numbers of atoms does not change the length, and
the length is inverse to the density. -/
theorem absorptionLength_scale (density c : ℝ) (formula : List (ℝ × ℝ × ℝ)) (hc : c ≠ 0) :
    absorptionLength density (formula.map fun e => (c * e.1, e.2)) = absorptionLength density formula ∧
      absorptionLength (c * density) formula = absorptionLength density formula / c := by
  have hm : molecularMass ((formula.map fun e => (c * e.1, e.2)).map fun e => (e.1, e.2.1)) =
      c * molecularMass (formula.map fun e => (e.1, e.2.1)) := by
    unfold molecularMass
    rw [← List.sum_map_mul_left]
    simp only [List.map_map]
    congr 1
    apply List.map_congr_left
    intro e _
    simp only [Function.comp]
    ring
  unfold absorptionLength
  simp only
  constructor
  · rw [hm, List.map_map]
    congr 4
    apply List.map_congr_left
    intro e _
    simp only [Function.comp]
    rw [mul_assoc c, mul_div_mul_left _ _ hc]
  · field_simp

/-- Water: two hydrogen atoms, one oxygen atom. -/
theorem absorptionLength_case :
    0 < absorptionLength 1 [(2, 1.008, 0.3), (1, 15.999, 0.6)] ∧
      absorptionLength 1 [(2, 1.008, 0.3), (1, 15.999, 0.6)] ≤ 1e4 / (1 * 0.3) := by
  have := absorptionLength_bounds 1 [(2, 1.008, 0.3), (1, 15.999, 0.6)] (by norm_num) (by simp)
    (by intro e he; simp at he; rcases he with rfl | rfl <;> norm_num) 0.3 0.6 (by norm_num)
    (by intro e he; simp at he; rcases he with rfl | rfl <;> norm_num)
  exact ⟨this.1, this.2.2⟩

/-- C97 (standoff).  The last layer before the pinhole, and the pinhole, have no standoff; every other layer has the
standoff of the next layer and the thickness of the next layer. -/
theorem layerStandoff_spec (t : List ℝ) :
    (∀ i, t.length ≤ i + 2 → layerStandoff t i = 0) ∧
      ∀ i, i + 2 < t.length → layerStandoff t i = t.getD (i + 1) 0 + layerStandoff t (i + 1) := by
  unfold layerStandoff
  constructor
  · intro i hi
    have : t.length - 1 - (i + 1) = 0 := by omega
    rw [this]; simp
  · intro i hi
    obtain ⟨n, hn⟩ : ∃ n, t.length - 1 - (i + 1) = n + 1 := ⟨t.length - 1 - (i + 1) - 1, by omega⟩
    have hn' : t.length - 1 - (i + 1 + 1) = n := by omega
    rw [hn, hn', List.range'_succ]
    simp

end Hexrd.Transmission
