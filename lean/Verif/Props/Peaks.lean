import Verif.Model.Peaks
import Verif.Spec.Peaks
import Mathlib.Analysis.SpecialFunctions.ExpDeriv
import Mathlib.Analysis.Calculus.Deriv.Inv
import Mathlib.Analysis.Calculus.Deriv.Pow
import Mathlib.Tactic.Linarith
import Mathlib.Tactic.IntervalCases
import Mathlib.Algebra.BigOperators.Group.List.Basic
import Mathlib.Tactic.FieldSimp
import Mathlib.Tactic.Positivity
import Mathlib.Tactic.LinearCombination

/-!
C75: shapes of the peak functions.  C76: their derivatives.  C77: several peaks.
-/

namespace Hexrd.Peaks

open Spec

theorem gaussWidth_pos : 0 < gaussWidth := by
  have : 0 < Real.log 2 := Real.log_pos (by norm_num)
  unfold gaussWidth; positivity

theorem gaussWidth_sq : gaussWidth ^ 2 = 8 * Real.log 2 := by
  have : 0 < Real.log 2 := Real.log_pos (by norm_num)
  unfold gaussWidth
  rw [mul_pow, Real.sq_sqrt (by positivity)]; ring

/-- The profile as a function of the squared offset in units of half the width. -/
noncomputable def prof (n t : ℝ) : ℝ := n * Real.exp (-(Real.log 2 * t)) + (1 - n) / (t + 1)

theorem unitPvoigt_eq {x0 w : ℝ} (n x : ℝ) (hw : 0 < w) :
    unitPvoigt x0 w n x = prof n ((2 * (x - x0) / w) ^ 2) := by
  have hl : 0 < Real.log 2 := Real.log_pos (by norm_num)
  have hg := gaussWidth_pos
  unfold unitPvoigt prof unitGaussian unitLorentzian lorentzWidth
  have e1 : -((x - x0) ^ 2) / (2 * (w / gaussWidth) ^ 2) = -(Real.log 2 * (2 * (x - x0) / w) ^ 2) := by
    rw [div_pow w, gaussWidth_sq]; field_simp; ring
  have e2 : (w / 2) ^ 2 / ((x - x0) ^ 2 + (w / 2) ^ 2) = 1 / ((2 * (x - x0) / w) ^ 2 + 1) := by
    rw [div_eq_div_iff (by positivity) (by positivity)]; field_simp
  simp only [e1, e2]
  ring

theorem prof_zero (n : ℝ) : prof n 0 = 1 := by simp [prof]

theorem prof_one (n : ℝ) : prof n 1 = 1 / 2 := by
  unfold prof
  rw [mul_one, Real.exp_neg, Real.exp_log (by norm_num)]; ring

theorem prof_lt {n s t : ℝ} (h0 : 0 ≤ n) (h1 : n ≤ 1) (hs : 0 ≤ s) (hst : s < t) : prof n t < prof n s := by
  have hl : 0 < Real.log 2 := Real.log_pos (by norm_num)
  have e1 : Real.exp (-(Real.log 2 * t)) < Real.exp (-(Real.log 2 * s)) := by
    apply Real.exp_lt_exp.2; nlinarith
  have e2 : 1 / (t + 1) < 1 / (s + 1) := one_div_lt_one_div_of_lt (by linarith) (by linarith)
  have r : ∀ a, prof n a = n * Real.exp (-(Real.log 2 * a)) + (1 - n) * (1 / (a + 1)) := by intro a; unfold prof; ring
  rw [r, r]
  rcases eq_or_lt_of_le h0 with rfl | h0
  · linarith
  · nlinarith

theorem prof_pos {n t : ℝ} (h0 : 0 ≤ n) (h1 : n ≤ 1) (ht : 0 ≤ t) : 0 < prof n t := by
  have e1 := Real.exp_pos (-(Real.log 2 * t))
  have e2 : 0 < 1 / (t + 1) := by positivity
  have r : prof n t = n * Real.exp (-(Real.log 2 * t)) + (1 - n) * (1 / (t + 1)) := by unfold prof; ring
  rw [r]
  rcases eq_or_lt_of_le h0 with rfl | h0
  · linarith
  · nlinarith

theorem half_le_prof {n t : ℝ} (h0 : 0 ≤ n) (h1 : n ≤ 1) (ht : 0 ≤ t) : 1 / 2 ≤ prof n t ↔ t ≤ 1 := by
  constructor
  · intro h
    by_contra hc
    have := prof_lt h0 h1 zero_le_one (not_le.1 hc)
    rw [prof_one] at this; linarith
  · intro h
    rcases eq_or_lt_of_le h with rfl | h
    · rw [prof_one]
    · have := prof_lt h0 h1 ht h
      rw [prof_one] at this; exact this.le

theorem prof_continuous (n : ℝ) {u : ℝ → ℝ} (hu : Continuous u) : Continuous fun x => prof n (u x ^ 2) := by
  unfold prof
  refine Continuous.add (by fun_prop) (Continuous.div continuous_const (by fun_prop) fun x => ?_)
  positivity

/-- C75: the split pseudo-Voigt function without background is a peak with the given height and centre, whose widths on
the two sides are half of the two width parameters. -/
theorem splitPvoigt_isPeak {p : Nat → ℝ} (hA : 0 < p 0) (hl : 0 < p 2) (hr : 0 < p 3) (hn : 0 ≤ p 4 ∧ p 4 ≤ 1)
    (hm : 0 ≤ p 5 ∧ p 5 ≤ 1) : IsPeak (splitPvoigtNoBg p) (p 0) (p 1) (p 2 / 2) (p 3 / 2) := by
  have eR : ∀ x, p 1 ≤ x → splitPvoigtNoBg p x = p 0 * prof (p 5) ((2 * (x - p 1) / p 3) ^ 2) := by
    intro x hx; unfold splitPvoigtNoBg; rw [if_pos hx, unitPvoigt_eq _ _ hr]
  have eL' : ∀ x, x < p 1 → splitPvoigtNoBg p x = p 0 * prof (p 4) ((2 * (x - p 1) / p 2) ^ 2) := by
    intro x hx; unfold splitPvoigtNoBg; rw [if_neg (not_le.2 hx), unitPvoigt_eq _ _ hl]
  have eL : ∀ x, x ≤ p 1 → splitPvoigtNoBg p x = p 0 * prof (p 4) ((2 * (x - p 1) / p 2) ^ 2) := by
    intro x hx
    rcases eq_or_lt_of_le hx with rfl | hx
    · rw [eR _ le_rfl]; simp [prof_zero]
    · exact eL' x hx
  refine ⟨?_, ?_, ?_, ?_, ?_, ?_, ?_⟩
  · rw [eR _ le_rfl]; simp [prof_zero]
  · intro x
    rcases le_total (p 1) x with h | h
    · rw [eR x h]; exact mul_pos hA (prof_pos hm.1 hm.2 (sq_nonneg _))
    · rw [eL x h]; exact mul_pos hA (prof_pos hn.1 hn.2 (sq_nonneg _))
  · intro x
    have key : ∀ n t : ℝ, 0 ≤ n ∧ n ≤ 1 → 0 ≤ t → prof n t ≤ 1 := by
      intro n t h ht
      rcases eq_or_lt_of_le ht with rfl | ht
      · rw [prof_zero]
      · have := prof_lt h.1 h.2 le_rfl ht
        rw [prof_zero] at this; exact this.le
    rcases le_total (p 1) x with h | h
    · rw [eR x h]; nlinarith [key _ _ hm (sq_nonneg (2 * (x - p 1) / p 3))]
    · rw [eL x h]; nlinarith [key _ _ hn (sq_nonneg (2 * (x - p 1) / p 2))]
  · intro a ha b hb hab
    rw [Set.mem_Iic] at ha hb
    rw [eL a ha, eL b hb]
    refine mul_lt_mul_of_pos_left (prof_lt hn.1 hn.2 (sq_nonneg _) ?_) hA
    rw [div_pow, div_pow]
    refine div_lt_div_of_pos_right ?_ (by positivity)
    nlinarith
  · intro a ha b hb hab
    rw [Set.mem_Ici] at ha hb
    rw [eR a ha, eR b hb]
    refine mul_lt_mul_of_pos_left (prof_lt hm.1 hm.2 (sq_nonneg _) ?_) hA
    rw [div_pow, div_pow]
    refine div_lt_div_of_pos_right ?_ (by positivity)
    nlinarith
  · intro x
    have key : ∀ n w : ℝ, 0 ≤ n ∧ n ≤ 1 → 0 < w →
        (p 0 / 2 ≤ p 0 * prof n ((2 * (x - p 1) / w) ^ 2) ↔ |x - p 1| ≤ w / 2) := by
      intro n w h hw
      rw [show p 0 / 2 = p 0 * (1 / 2) by ring, mul_le_mul_iff_right₀ hA, half_le_prof h.1 h.2 (sq_nonneg _),
        sq_le_one_iff_abs_le_one, abs_div, abs_of_pos hw, div_le_one hw, abs_mul, abs_of_pos (two_pos : (0 : ℝ) < 2)]
      constructor <;> intro <;> linarith
    rcases le_total (p 1) x with h | h
    · rw [eR x h, key _ _ hm hr, abs_of_nonneg (by linarith)]
      constructor
      · intro h'; constructor <;> linarith
      · rintro ⟨h1, h2⟩; linarith
    · rw [eL x h, key _ _ hn hl, abs_of_nonpos (by linarith)]
      constructor
      · intro h'; constructor <;> linarith
      · rintro ⟨h1, h2⟩; linarith
  · have e : splitPvoigtNoBg p = fun x => if p 1 ≤ x then p 0 * prof (p 5) ((2 * (x - p 1) / p 3) ^ 2)
        else p 0 * prof (p 4) ((2 * (x - p 1) / p 2) ^ 2) := by
      funext x
      split
      · rename_i h; exact eR x h
      · rename_i h; exact eL' x (not_le.1 h)
    rw [e]
    refine Continuous.if_le (continuous_const.mul (prof_continuous _ (by fun_prop)))
      (continuous_const.mul (prof_continuous _ (by fun_prop))) continuous_const continuous_id ?_
    rintro x rfl
    simp [prof_zero]

theorem pvoigt_as_split (p : Nat → ℝ) :
    pvoigtNoBg p = splitPvoigtNoBg fun i => if i = 3 then p 2 else if i = 4 ∨ i = 5 then p 3 else p i := by
  funext x
  simp [pvoigtNoBg, splitPvoigtNoBg]

/-- C75: the pseudo-Voigt function without background, for a mixing parameter between zero and one. -/
theorem pvoigt_isPeak {p : Nat → ℝ} (hA : 0 < p 0) (hw : 0 < p 2) (hn : 0 ≤ p 3 ∧ p 3 ≤ 1) :
    IsPeak (pvoigtNoBg p) (p 0) (p 1) (p 2 / 2) (p 2 / 2) := by
  rw [pvoigt_as_split]
  exact splitPvoigt_isPeak (p := fun i => if i = 3 then p 2 else if i = 4 ∨ i = 5 then p 3 else p i) hA hw hw hn hn

/-- C75: the Gaussian function without background: its third parameter is the full width at half maximum. -/
theorem gaussian_isPeak {p : Nat → ℝ} (hA : 0 < p 0) (hw : 0 < p 2) :
    IsPeak (gaussianNoBg p) (p 0) (p 1) (p 2 / 2) (p 2 / 2) := by
  have e : gaussianNoBg p = pvoigtNoBg fun i => if i = 3 then 1 else p i := by
    funext x; simp [gaussianNoBg, pvoigtNoBg, unitPvoigt]
  rw [e]
  exact pvoigt_isPeak (p := fun i => if i = 3 then 1 else p i) hA hw (by simp)

/-- C75: the Lorentzian function without background. -/
theorem lorentzian_isPeak {p : Nat → ℝ} (hA : 0 < p 0) (hw : 0 < p 2) :
    IsPeak (lorentzianNoBg p) (p 0) (p 1) (p 2 / 2) (p 2 / 2) := by
  have e : lorentzianNoBg p = pvoigtNoBg fun i => if i = 3 then 0 else p i := by
    funext x; simp [lorentzianNoBg, pvoigtNoBg, unitPvoigt]
  rw [e]
  exact pvoigt_isPeak (p := fun i => if i = 3 then 0 else p i) hA hw (by simp)

/-- C75: the functions with background are the peaks plus a straight line with the last two parameters. -/
theorem with_background (p : Nat → ℝ) (x : ℝ) :
    gaussian1d p x - gaussianNoBg p x = poly [p 3, p 4] x ∧ lorentzian1d p x - lorentzianNoBg p x = poly [p 3, p 4] x ∧
      pvoigt1d p x - pvoigtNoBg p x = poly [p 4, p 5] x ∧
      splitPvoigt1d p x - splitPvoigtNoBg p x = poly [p 6, p 7] x := by
  simp only [gaussian1d, lorentzian1d, pvoigt1d, splitPvoigt1d, poly, List.foldr]
  refine ⟨?_, ?_, ?_, ?_⟩ <;> ring

/-! ### Mixing factor -/

/-- The fifth power of the width. -/
noncomputable def quint (g l : ℝ) : ℝ :=
  g ^ 5 + 2.69269 * g ^ 4 * l + 2.42843 * g ^ 3 * l ^ 2 + 4.47163 * g ^ 2 * l ^ 3 + 0.07842 * g * l ^ 4 + l ^ 5

theorem mixing_width {g l : ℝ} (hg : 0 ≤ g) (hl : 0 ≤ l) :
    0 ≤ (mixingFactor g l).2 ∧ (mixingFactor g l).2 ^ 5 = quint g l := by
  have hq : 0 ≤ quint g l := by unfold quint; positivity
  have e : (mixingFactor g l).2 = quint g l ^ (0.20 : ℝ) := rfl
  rw [e]
  refine ⟨Real.rpow_nonneg hq _, ?_⟩
  rw [← Real.rpow_natCast, ← Real.rpow_mul hq]
  norm_num

/-- C75: the width of the pseudo-Voigt approximation is at least each of the two widths and at most their sum. -/
theorem mixing_width_bounds {g l : ℝ} (hg : 0 ≤ g) (hl : 0 ≤ l) :
    g ≤ (mixingFactor g l).2 ∧ l ≤ (mixingFactor g l).2 ∧ (mixingFactor g l).2 ≤ g + l := by
  obtain ⟨h0, h5⟩ := mixing_width hg hl
  have mono : ∀ a b : ℝ, 0 ≤ b → a ^ 5 ≤ b ^ 5 → a ≤ b := fun a b hb h => le_of_pow_le_pow_left₀ (by norm_num) hb h
  have hp : ∀ i j : ℕ, 0 ≤ g ^ i * l ^ j := fun i j => by positivity
  refine ⟨mono _ _ h0 ?_, mono _ _ h0 ?_, mono _ _ (by linarith) ?_⟩
  · rw [h5, quint]; nlinarith [hp 4 1, hp 3 2, hp 2 3, hp 1 4, hp 0 5]
  · rw [h5, quint]; nlinarith [hp 4 1, hp 3 2, hp 2 3, hp 1 4, hp 5 0]
  · rw [h5, quint]; nlinarith [hp 4 1, hp 3 2, hp 2 3, hp 1 4]

/-- C75: the mixing factor is a fraction, zero for a pure Gaussian and one for a pure Lorentzian, and the two clamps of
the code never act. -/
theorem mixing_fraction {g l : ℝ} (hg : 0 ≤ g) (hl : 0 ≤ l) :
    0 ≤ (mixingFactor g l).1 ∧ (mixingFactor g l).1 ≤ 1 ∧ (l = 0 → (mixingFactor g l).1 = 0) ∧
      (g = 0 → 0 < l → (mixingFactor g l).1 = 1) ∧
      (mixingFactor g l).1 = 1.36603 * (l / (mixingFactor g l).2) - 0.47719 * (l / (mixingFactor g l).2) ^ 2 +
        0.11116 * (l / (mixingFactor g l).2) ^ 3 := by
  obtain ⟨h0, -⟩ := mixing_width hg hl
  obtain ⟨-, hle, -⟩ := mixing_width_bounds hg hl
  have r0 : 0 ≤ l / (mixingFactor g l).2 := div_nonneg hl h0
  have r1 : l / (mixingFactor g l).2 ≤ 1 := div_le_one_of_le₀ hle h0
  have e : (mixingFactor g l).1 = (fun e => if e < 0 then 0 else if e > 1 then 1 else e)
      (1.36603 * (l / (mixingFactor g l).2) - 0.47719 * (l / (mixingFactor g l).2) ^ 2 +
        0.11116 * (l / (mixingFactor g l).2) ^ 3) := rfl
  have z : l = 0 → l / (mixingFactor g l).2 = 0 := by intro h; rw [h, zero_div]
  have q : g = 0 → 0 < l → l / (mixingFactor g l).2 = 1 := by
    rintro rfl hl'
    have := (mixing_width_bounds (le_refl (0 : ℝ)) hl).2.2
    rw [zero_add] at this
    rw [le_antisymm this hle, div_self hl'.ne']
  rw [e]
  generalize l / (mixingFactor g l).2 = r at *
  have b0 : ¬ (1.36603 * r - 0.47719 * r ^ 2 + 0.11116 * r ^ 3 < 0) := by
    rw [not_lt]
    have : 1.36603 * r - 0.47719 * r ^ 2 + 0.11116 * r ^ 3 = r * (1.36603 - 0.47719 * r + 0.11116 * r ^ 2) := by ring
    rw [this]; exact mul_nonneg r0 (by nlinarith [sq_nonneg r])
  have b1 : ¬ (1.36603 * r - 0.47719 * r ^ 2 + 0.11116 * r ^ 3 > 1) := by
    rw [gt_iff_lt, not_lt]
    have : 1 - (1.36603 * r - 0.47719 * r ^ 2 + 0.11116 * r ^ 3) = (1 - r) * (1 - 0.36603 * r + 0.11116 * r ^ 2) := by
      ring
    have h2 : 0 ≤ (1 - r) * (1 - 0.36603 * r + 0.11116 * r ^ 2) := mul_nonneg (by linarith) (by nlinarith [sq_nonneg r])
    linarith
  simp only [if_neg b0, if_neg b1]
  rw [not_lt] at b0
  rw [gt_iff_lt, not_lt] at b1
  refine ⟨b0, b1, ?_, ?_, trivial⟩
  · intro h
    rw [z h]; norm_num
  · intro h hl'; rw [q h hl']; norm_num

/-! ### The convolution with two exponentials -/

/-- Disagreement: a Gaussian convolved with two exponentials of equal steepness on both sides is symmetric.  The code
multiplies only the first of its two terms by the normalising factor, so the profile is not: the values at opposite
offsets differ, unless the steepness is exactly four.  Of the complementary error function only two bounds are used. -/
theorem pink_not_symmetric {erfc : ℝ → ℝ} (h1 : ∀ y, 0 ≤ y → erfc y ≤ Real.exp (-y ^ 2)) (h2 : ∀ z, z ≤ 0 → 1 ≤ erfc z)
    {a w d : ℝ} (ha : 0 < a) (ha4 : a ≠ 4) (hw : 0 < w) (x0 : ℝ) (hd : a * w ^ 2 < d) :
    gaussianPink erfc x0 a a w (x0 + d) ≠ gaussianPink erfc x0 a a w (x0 - d) := by
  intro h
  have hs : 0 < √2 * w := by positivity
  have ht : Real.exp (1 / 2 * a * (a * w ^ 2 + 2 * d)) * erfc ((a * w ^ 2 + d) / (√2 * w)) <
      Real.exp (1 / 2 * a * (a * w ^ 2 - 2 * d)) * erfc ((a * w ^ 2 - d) / (√2 * w)) := by
    have b1 := h1 ((a * w ^ 2 + d) / (√2 * w)) (div_nonneg (by nlinarith [sq_nonneg w]) hs.le)
    have b2 := h2 ((a * w ^ 2 - d) / (√2 * w)) (div_nonpos_of_nonpos_of_nonneg (by linarith) hs.le)
    have e1 := Real.exp_pos (1 / 2 * a * (a * w ^ 2 + 2 * d))
    have e2 := Real.exp_pos (1 / 2 * a * (a * w ^ 2 - 2 * d))
    have c : 1 / 2 * a * (a * w ^ 2 + 2 * d) + -((a * w ^ 2 + d) / (√2 * w)) ^ 2 <
        1 / 2 * a * (a * w ^ 2 - 2 * d) := by
      rw [div_pow, mul_pow, Real.sq_sqrt (by norm_num)]
      have : 1 / 2 * a * (a * w ^ 2 - 2 * d) - (1 / 2 * a * (a * w ^ 2 + 2 * d) + -((a * w ^ 2 + d) ^ 2 / (2 * w ^ 2))) =
          (d - a * w ^ 2) ^ 2 / (2 * w ^ 2) := by field_simp; ring
      have : 0 < (d - a * w ^ 2) ^ 2 / (2 * w ^ 2) := by
        have : d - a * w ^ 2 ≠ 0 := by linarith
        positivity
      linarith
    calc Real.exp (1 / 2 * a * (a * w ^ 2 + 2 * d)) * erfc ((a * w ^ 2 + d) / (√2 * w))
        ≤ Real.exp (1 / 2 * a * (a * w ^ 2 + 2 * d)) * Real.exp (-((a * w ^ 2 + d) / (√2 * w)) ^ 2) :=
          mul_le_mul_of_nonneg_left b1 e1.le
      _ = Real.exp (1 / 2 * a * (a * w ^ 2 + 2 * d) + -((a * w ^ 2 + d) / (√2 * w)) ^ 2) := (Real.exp_add _ _).symm
      _ < Real.exp (1 / 2 * a * (a * w ^ 2 - 2 * d)) := Real.exp_lt_exp.2 c
      _ ≤ _ := by nlinarith
  unfold gaussianPink at h
  simp only [add_sub_cancel_left, sub_sub_cancel_left] at h
  rw [show a * w ^ 2 + 2 * d - d = a * w ^ 2 + d by ring, show a * w ^ 2 - 2 * d + d = a * w ^ 2 - d by ring,
    show a * w ^ 2 + 2 * -d = a * w ^ 2 - 2 * d by ring, show a * w ^ 2 - 2 * -d = a * w ^ 2 + 2 * d by ring,
    show a * w ^ 2 - 2 * d - -d = a * w ^ 2 - d by ring, show a * w ^ 2 + 2 * d + -d = a * w ^ 2 + d by ring,
    show 1 / 2 * (a * a) / (a + a) = a / 4 by field_simp; ring] at h
  have : (a / 4 - 1) * (Real.exp (1 / 2 * a * (a * w ^ 2 + 2 * d)) * erfc ((a * w ^ 2 + d) / (√2 * w)) -
      Real.exp (1 / 2 * a * (a * w ^ 2 - 2 * d)) * erfc ((a * w ^ 2 - d) / (√2 * w))) = 0 := by linarith
  rcases mul_eq_zero.1 this with h1 | h1
  · exact ha4 (by linarith)
  · linarith

/-- Functions with the two bounds exist (the complementary error function is one of them). -/
example : ∃ erfc : ℝ → ℝ, (∀ y, 0 ≤ y → erfc y ≤ Real.exp (-y ^ 2)) ∧ ∀ z, z ≤ 0 → 1 ≤ erfc z := by
  refine ⟨fun y => if y ≤ 0 then 1 else Real.exp (-y ^ 2), fun y hy => ?_, fun z hz => by simp [hz]⟩
  by_cases h : y ≤ 0
  · have : y = 0 := le_antisymm h hy
    simp [this]
  · simp [h]

/-! ### Derivatives -/

theorem unitGaussian_deriv_center {x0 w x : ℝ} (hw : w ≠ 0) :
    HasDerivAt (fun t => unitGaussian t w x) (unitGaussian x0 w x * ((x - x0) / (w / gaussWidth) ^ 2)) x0 := by
  have hg := gaussWidth_pos.ne'
  unfold unitGaussian
  have h1 : HasDerivAt (fun t : ℝ => -((x - t) ^ 2) / (2 * (w / gaussWidth) ^ 2))
      ((x - x0) / (w / gaussWidth) ^ 2) x0 := by
    have := ((((hasDerivAt_id' x0).const_sub x).pow 2).neg).div_const (2 * (w / gaussWidth) ^ 2)
    refine HasDerivAt.congr_deriv this ?_
    simp
    field_simp
  exact h1.exp

theorem unitGaussian_deriv_width {x0 w x : ℝ} (hw : w ≠ 0) :
    HasDerivAt (fun t => unitGaussian x0 t x)
      (unitGaussian x0 w x * ((x - x0) ^ 2 / (w / gaussWidth) ^ 3) / gaussWidth) w := by
  have hg := gaussWidth_pos.ne'
  unfold unitGaussian
  have h1 : HasDerivAt (fun t : ℝ => -((x - x0) ^ 2) / (2 * (t / gaussWidth) ^ 2))
      ((x - x0) ^ 2 / (w / gaussWidth) ^ 3 / gaussWidth) w := by
    have h2 : HasDerivAt (fun t : ℝ => 2 * (t / gaussWidth) ^ 2) (2 * (2 * (w / gaussWidth) * (1 / gaussWidth))) w := by
      have := ((((hasDerivAt_id' w).div_const gaussWidth).pow 2).const_mul 2)
      refine HasDerivAt.congr_deriv this ?_
      simp
    have := (hasDerivAt_const w (-((x - x0) ^ 2))).div h2 (by positivity)
    refine HasDerivAt.congr_deriv this ?_
    field_simp
    ring
  have := h1.exp
  refine HasDerivAt.congr_deriv this ?_
  ring

theorem unitLorentzian_deriv_center {x0 w x : ℝ} (hw : w ≠ 0) :
    HasDerivAt (fun t => unitLorentzian t w x)
      (unitLorentzian x0 w x * (2 * (x - x0) / ((x - x0) ^ 2 + (w / lorentzWidth) ^ 2))) x0 := by
  have hl : lorentzWidth ≠ 0 := by unfold lorentzWidth; norm_num
  have hp : (x - x0) ^ 2 + (w / lorentzWidth) ^ 2 ≠ 0 := by positivity
  unfold unitLorentzian
  have h2 : HasDerivAt (fun t : ℝ => (x - t) ^ 2 + (w / lorentzWidth) ^ 2) (-(2 * (x - x0))) x0 := by
    have := (((hasDerivAt_id' x0).const_sub x).pow 2).add_const ((w / lorentzWidth) ^ 2)
    refine HasDerivAt.congr_deriv this ?_
    simp
  have := (hasDerivAt_const x0 ((w / lorentzWidth) ^ 2)).div h2 hp
  refine HasDerivAt.congr_deriv this ?_
  field_simp
  ring

theorem unitLorentzian_deriv_width {x0 w x : ℝ} (hw : w ≠ 0) :
    HasDerivAt (fun t => unitLorentzian x0 t x)
      (unitLorentzian x0 w x * (2 * (x - x0) ^ 2 / (w / lorentzWidth * ((x - x0) ^ 2 + (w / lorentzWidth) ^ 2))) /
        lorentzWidth) w := by
  have hl : lorentzWidth ≠ 0 := by unfold lorentzWidth; norm_num
  have hp : (x - x0) ^ 2 + (w / lorentzWidth) ^ 2 ≠ 0 := by positivity
  unfold unitLorentzian
  have h1 : HasDerivAt (fun t : ℝ => (t / lorentzWidth) ^ 2) (2 * (w / lorentzWidth) * (1 / lorentzWidth)) w := by
    have := ((hasDerivAt_id' w).div_const lorentzWidth).pow 2
    refine HasDerivAt.congr_deriv this ?_
    simp
  have h2 := h1.const_add ((x - x0) ^ 2)
  have := h1.div h2 hp
  refine HasDerivAt.congr_deriv this ?_
  field_simp
  ring

/-- C76: row `i` of `gaussian1d_deriv` is the derivative of `gaussian1d` in parameter `i`. -/
theorem gaussian1d_deriv_exact {p : Nat → ℝ} (hw : p 2 ≠ 0) (x : ℝ) {i : Nat} (hi : i < 5) :
    HasDerivAt (fun t => gaussian1d (Function.update p i t) x) (gaussian1dDeriv p x i) (p i) := by
  interval_cases i
  · simp only [gaussian1d, gaussianNoBg, gaussian1dDeriv, gaussianNoBgDeriv, Function.update]
    simpa using (((hasDerivAt_id (p 0)).mul_const (unitGaussian (p 1) (p 2) x)).add_const (p 3)).add_const (p 4 * x)
  · simp only [gaussian1d, gaussianNoBg, gaussian1dDeriv, gaussianNoBgDeriv, Function.update]
    have := (((unitGaussian_deriv_center (x0 := p 1) (x := x) hw).const_mul (p 0)).add_const (p 3)).add_const (p 4 * x)
    simpa [mul_assoc] using this
  · simp only [gaussian1d, gaussianNoBg, gaussian1dDeriv, gaussianNoBgDeriv, Function.update]
    have := (((unitGaussian_deriv_width (x0 := p 1) (x := x) hw).const_mul (p 0)).add_const (p 3)).add_const (p 4 * x)
    simpa [mul_assoc, mul_div_assoc] using this
  · simp only [gaussian1d, gaussianNoBg, gaussian1dDeriv, gaussianNoBgDeriv, Function.update]
    simpa using ((hasDerivAt_id (p 3)).const_add (p 0 * unitGaussian (p 1) (p 2) x)).add_const (p 4 * x)
  · simp only [gaussian1d, gaussianNoBg, gaussian1dDeriv, gaussianNoBgDeriv, Function.update]
    simpa using ((hasDerivAt_id (p 4)).mul_const x).const_add (p 0 * unitGaussian (p 1) (p 2) x + p 3)

/-- C76: row `i` of `lorentzian1d_deriv` is the derivative of `lorentzian1d` in parameter `i`. -/
theorem lorentzian1d_deriv_exact {p : Nat → ℝ} (hw : p 2 ≠ 0) (x : ℝ) {i : Nat} (hi : i < 5) :
    HasDerivAt (fun t => lorentzian1d (Function.update p i t) x) (lorentzian1dDeriv p x i) (p i) := by
  interval_cases i
  · simp only [lorentzian1d, lorentzianNoBg, lorentzian1dDeriv, lorentzianNoBgDeriv, Function.update]
    simpa using (((hasDerivAt_id (p 0)).mul_const (unitLorentzian (p 1) (p 2) x)).add_const (p 3)).add_const (p 4 * x)
  · simp only [lorentzian1d, lorentzianNoBg, lorentzian1dDeriv, lorentzianNoBgDeriv, Function.update]
    have := (((unitLorentzian_deriv_center (x0 := p 1) (x := x) hw).const_mul (p 0)).add_const (p 3)).add_const (p 4 * x)
    simpa [mul_assoc] using this
  · simp only [lorentzian1d, lorentzianNoBg, lorentzian1dDeriv, lorentzianNoBgDeriv, Function.update]
    have := (((unitLorentzian_deriv_width (x0 := p 1) (x := x) hw).const_mul (p 0)).add_const (p 3)).add_const (p 4 * x)
    simpa [mul_assoc, mul_div_assoc] using this
  · simp only [lorentzian1d, lorentzianNoBg, lorentzian1dDeriv, lorentzianNoBgDeriv, Function.update]
    simpa using ((hasDerivAt_id (p 3)).const_add (p 0 * unitLorentzian (p 1) (p 2) x)).add_const (p 4 * x)
  · simp only [lorentzian1d, lorentzianNoBg, lorentzian1dDeriv, lorentzianNoBgDeriv, Function.update]
    simpa using ((hasDerivAt_id (p 4)).mul_const x).const_add (p 0 * unitLorentzian (p 1) (p 2) x + p 3)

/-! ### Two and three dimensions -/

theorem unitPvoigt_shift (x0 w n x : ℝ) : unitPvoigt x0 w n x = unitPvoigt 0 w n (x - x0) := by
  unfold unitPvoigt unitGaussian unitLorentzian; simp

theorem unitGaussian_shift (x0 w x : ℝ) : unitGaussian x0 w x = unitGaussian 0 w (x - x0) := by
  unfold unitGaussian; simp

theorem coord_along (theta x0 y0 x y : ℝ) :
    (coordTransform theta x0 y0 x y).2.2.1 - (coordTransform theta x0 y0 x y).1 = along theta x0 y0 x y := by
  unfold coordTransform along; ring

theorem coord_across (theta x0 y0 x y : ℝ) :
    (coordTransform theta x0 y0 x y).2.2.2 - (coordTransform theta x0 y0 x y).2.1 = across theta x0 y0 x y := by
  unfold coordTransform across; ring

theorem unitGaussian_half {w : ℝ} (hw : 0 < w) (u : ℝ) :
    unitGaussian 0 w u = Real.exp (-(Real.log 2 * (2 * u / w) ^ 2)) := by
  have := unitPvoigt_eq (x0 := 0) 1 u hw
  simpa [unitPvoigt, prof] using this

/-- C75: the rotated Gaussian is above half of its height exactly inside the ellipse whose axes, turned by the angle
parameter, are the two widths; its height is the first parameter. -/
theorem gaussian2dRot_ellipse {p : Nat → ℝ} (hA : 0 < p 0) (hx : 0 < p 3) (hy : 0 < p 4) (x y : ℝ) :
    gaussian2dRotNoBg p (p 1) (p 2) = p 0 ∧ (p 0 / 2 ≤ gaussian2dRotNoBg p x y ↔
      (2 * along (p 5) (p 1) (p 2) x y / p 3) ^ 2 + (2 * across (p 5) (p 1) (p 2) x y / p 4) ^ 2 ≤ 1) := by
  have hl : 0 < Real.log 2 := Real.log_pos (by norm_num)
  have e : ∀ x y, gaussian2dRotNoBg p x y = p 0 * Real.exp (-(Real.log 2 *
      ((2 * along (p 5) (p 1) (p 2) x y / p 3) ^ 2 + (2 * across (p 5) (p 1) (p 2) x y / p 4) ^ 2))) := by
    intro x y
    unfold gaussian2dRotNoBg gaussian2dNoBg
    simp only [Function.update]
    simp only [show (0:ℕ) ≠ 2 by decide, show (0:ℕ) ≠ 1 by decide, show (1:ℕ) ≠ 2 by decide, show (3:ℕ) ≠ 2 by decide,
      show (3:ℕ) ≠ 1 by decide, show (4:ℕ) ≠ 2 by decide, show (4:ℕ) ≠ 1 by decide, dite_true, dite_false]
    rw [unitGaussian_shift, unitGaussian_shift (coordTransform _ _ _ _ _).2.1, coord_along, coord_across,
      unitGaussian_half hx, unitGaussian_half hy, mul_assoc, ← Real.exp_add]
    congr 2; ring
  constructor
  · rw [e]; simp [along, across]
  · rw [e, show p 0 / 2 = p 0 * (1 / 2) by ring, mul_le_mul_iff_right₀ hA,
      show (1 / 2 : ℝ) = Real.exp (-(Real.log 2 * 1)) by
        rw [mul_one, Real.exp_neg, Real.exp_log (by norm_num)]; norm_num,
      Real.exp_le_exp, neg_le_neg_iff, mul_le_mul_iff_right₀ hl]

/-- C75: with angle zero the rotated Gaussian is the one with axes along the coordinates. -/
theorem gaussian2dRot_zero {p : Nat → ℝ} (h : p 5 = 0) (x y : ℝ) : gaussian2dRotNoBg p x y = gaussian2dNoBg p x y := by
  unfold gaussian2dRotNoBg gaussian2dNoBg coordTransform
  simp [h, Function.update]

/-- C75: the rotated split pseudo-Voigt is the product of two split peaks along the turned axes, each side and axis with
its own width and mixing parameters. -/
theorem splitPvoigt2dRot_product (p : Nat → ℝ) (x y : ℝ) :
    splitPvoigt2dRotNoBg p x y = p 0 *
      splitPvoigtNoBg (fun i => [1, 0, p 3, p 4, p 7, p 8].getD i 0) (along (p 11) (p 1) (p 2) x y) *
      splitPvoigtNoBg (fun i => [1, 0, p 5, p 6, p 9, p 10].getD i 0) (across (p 11) (p 1) (p 2) x y) := by
  unfold splitPvoigt2dRotNoBg splitPvoigt2dNoBg splitPvoigtNoBg
  rw [← coord_along, ← coord_across]
  generalize coordTransform (p 11) (p 1) (p 2) x y = t
  obtain ⟨a, b, c, d⟩ := t
  simp only [Function.update]
  simp only [show (0:ℕ) ≠ 2 by decide, show (0:ℕ) ≠ 1 by decide, show (1:ℕ) ≠ 2 by decide, show (3:ℕ) ≠ 2 by decide,
    show (3:ℕ) ≠ 1 by decide, show (4:ℕ) ≠ 2 by decide, show (4:ℕ) ≠ 1 by decide, show (5:ℕ) ≠ 2 by decide,
    show (5:ℕ) ≠ 1 by decide, show (6:ℕ) ≠ 2 by decide, show (6:ℕ) ≠ 1 by decide, show (7:ℕ) ≠ 2 by decide,
    show (7:ℕ) ≠ 1 by decide, show (8:ℕ) ≠ 2 by decide, show (8:ℕ) ≠ 1 by decide, show (9:ℕ) ≠ 2 by decide,
    show (9:ℕ) ≠ 1 by decide, show (10:ℕ) ≠ 2 by decide, show (10:ℕ) ≠ 1 by decide, dite_true, dite_false]
  simp only [List.getD_cons_zero, List.getD_cons_succ, one_mul, ge_iff_le, sub_nonneg]
  rw [unitPvoigt_shift a, unitPvoigt_shift a, unitPvoigt_shift b, unitPvoigt_shift b]
  by_cases h1 : a ≤ c <;> by_cases h2 : b ≤ d <;> simp [h1, h2, not_lt.2, not_le.1]

/-- C75: the three-dimensional Gaussian is above half of its height exactly inside the ellipsoid of the three widths. -/
theorem gaussian3d_ellipsoid {p : Nat → ℝ} (hA : 0 < p 0) (hx : 0 < p 4) (hy : 0 < p 5) (hz : 0 < p 6) (x y z : ℝ) :
    gaussian3dNoBg p (p 1) (p 2) (p 3) = p 0 ∧ (p 0 / 2 ≤ gaussian3dNoBg p x y z ↔
      (2 * (x - p 1) / p 4) ^ 2 + (2 * (y - p 2) / p 5) ^ 2 + (2 * (z - p 3) / p 6) ^ 2 ≤ 1) := by
  have hl : 0 < Real.log 2 := Real.log_pos (by norm_num)
  have e : ∀ x y z, gaussian3dNoBg p x y z = p 0 * Real.exp (-(Real.log 2 *
      ((2 * (x - p 1) / p 4) ^ 2 + (2 * (y - p 2) / p 5) ^ 2 + (2 * (z - p 3) / p 6) ^ 2))) := by
    intro x y z
    unfold gaussian3dNoBg
    rw [unitGaussian_shift, unitGaussian_shift (p 2), unitGaussian_shift (p 3), unitGaussian_half hx,
      unitGaussian_half hy, unitGaussian_half hz, mul_assoc, mul_assoc, ← Real.exp_add, ← Real.exp_add]
    congr 2; ring
  constructor
  · rw [e]; simp
  · rw [e, show p 0 / 2 = p 0 * (1 / 2) by ring, mul_le_mul_iff_right₀ hA,
      show (1 / 2 : ℝ) = Real.exp (-(Real.log 2 * 1)) by
        rw [mul_one, Real.exp_neg, Real.exp_log (by norm_num)]; norm_num,
      Real.exp_le_exp, neg_le_neg_iff, mul_le_mul_iff_right₀ hl]

/-- C75: backgrounds of the two- and three-dimensional functions are planes with the last parameters. -/
theorem with_background_nd (p : Nat → ℝ) (x y z : ℝ) :
    gaussian2d p x y = gaussian2dNoBg p x y + (p 5 + p 6 * x + p 7 * y) ∧
      gaussian2dRot p x y = gaussian2dRotNoBg p x y + (p 6 + p 7 * x + p 8 * y) ∧
      splitPvoigt2dRot p x y = splitPvoigt2dRotNoBg p x y + (p 12 + p 13 * x + p 14 * y) ∧
      gaussian3d p x y z = gaussian3dNoBg p x y z + (p 7 + p 8 * x + p 9 * y + p 10 * z) := ⟨rfl, rfl, rfl, rfl⟩

/-! ### Several peaks -/

theorem noBg_congr (t : PkType) {f g : Nat → ℝ} (h : ∀ i < t.nparams, f i = g i) (x : ℝ) : t.noBg f x = t.noBg g x := by
  cases t <;> simp only [PkType.nparams] at h <;>
    simp [PkType.noBg, gaussianNoBg, lorentzianNoBg, pvoigtNoBg, splitPvoigtNoBg, h]

theorem flatten_getD {m : Nat} {ps : List (List ℝ)} (h : ∀ q ∈ ps, q.length = m) (c : List ℝ) {k i : Nat}
    (hk : k < ps.length) (hi : i < m) : (ps.flatten ++ c).getD (k * m + i) 0 = (ps.getD k []).getD i 0 := by
  induction ps generalizing k with
  | nil => simp at hk
  | cons q ps ih =>
    have hq := h q (by simp)
    rw [List.flatten_cons, List.append_assoc]
    cases k with
    | zero =>
      rw [List.getD_eq_getElem?_getD, List.getElem?_append_left (by omega)]
      simp
    | succ k =>
      have hk' : k < ps.length := by simpa using hk
      have e : (k + 1) * m + i - q.length = k * m + i := by rw [hq, Nat.add_mul]; omega
      rw [List.getD_eq_getElem?_getD, List.getElem?_append_right (by rw [hq, Nat.add_mul]; omega), e,
        ← List.getD_eq_getElem?_getD, ih (fun q hq => h q (by simp [hq])) hk']
      simp

theorem flatten_length {m : Nat} {ps : List (List ℝ)} (h : ∀ q ∈ ps, q.length = m) :
    ps.flatten.length = ps.length * m := by
  induction ps with
  | nil => simp
  | cons q ps ih =>
    rw [List.flatten_cons, List.length_append, h q (by simp), ih fun q hq => h q (by simp [hq])]
    simp [Nat.add_mul]; omega

theorem fold_range_sum (f : Nat → ℝ) (n : Nat) (a : ℝ) :
    (List.range n).foldl (fun s k => s + f k) a = a + ((List.range n).map f).sum := by
  induction n with
  | zero => simp
  | succ n ih => rw [List.range_succ, List.foldl_append, ih]; simp [add_assoc]

theorem map_range_getD {β : Type} (ps : List (List ℝ)) (f : List ℝ → β) :
    (List.range ps.length).map (fun k => f (ps.getD k [])) = ps.map f := by
  apply List.ext_getElem
  · simp
  · intro i h1 h2
    simp at h1
    simp [List.getD_eq_getElem?_getD, h1]

theorem mpeakNoBg_value (t : PkType) {ps : List (List ℝ)} (h : ∀ q ∈ ps, q.length = t.nparams) (c : List ℝ) (x : ℝ) :
    mpeakNoBg (ps.flatten ++ c) x t ps.length = some ((ps.map fun q => t.noBg (params q) x).sum) := by
  unfold mpeakNoBg
  have hl := flatten_length h
  rw [if_pos]
  · rw [fold_range_sum, zero_add, Option.some.injEq, ← map_range_getD ps fun q => t.noBg (params q) x]
    congr 1
    apply List.map_congr_left
    intro k hk
    refine noBg_congr t (fun i hi => ?_) x
    exact flatten_getD h c (List.mem_range.1 hk) hi
  · rw [List.length_take, List.length_append, hl, Nat.mul_comm]; omega

theorem fromEnd_append (l c : List ℝ) {k : Nat} (h0 : 0 < k) (hk : k ≤ c.length) :
    fromEnd (l ++ c) k = c[c.length - k]? := by
  unfold fromEnd
  rw [if_neg (by simp; omega), List.length_append, List.getElem?_append_right (by omega)]
  congr 1; omega

/-- The number of background parameters. -/
def BgType.nparams : BgType → Nat
  | .constant => 1
  | .linear => 2
  | .quadratic => 3
  | .other => 0

/-- C77: with the parameters of the peaks one after the other, followed by the coefficients of the background, the
multi-peak function is the sum of the peaks and the background polynomial. -/
theorem mpeak_value (t : PkType) {ps : List (List ℝ)} (h : ∀ q ∈ ps, q.length = t.nparams) (b : BgType) {c : List ℝ}
    (hc : c.length = b.nparams) (x : ℝ) :
    mpeak1d (ps.flatten ++ c) x t ps.length b = some ((ps.map fun q => t.noBg (params q) x).sum + poly c x) := by
  unfold mpeak1d
  rw [mpeakNoBg_value t h c x]
  cases b with
  | constant =>
    match c, hc with
    | [c0], _ => simp [fromEnd_append, poly]
  | linear =>
    match c, hc with
    | [c0, c1], _ => simp [fromEnd_append, poly]; ring
  | quadratic =>
    match c, hc with
    | [c0, c1, c2], _ => simp [fromEnd_append, poly]; ring
  | other =>
    match c, hc with
    | [], _ => simp [poly]

/-- C77: the order of the peaks does not matter. -/
theorem mpeak_order (t : PkType) {ps qs : List (List ℝ)} (h : ∀ q ∈ ps, q.length = t.nparams) (hp : ps.Perm qs)
    (b : BgType) {c : List ℝ} (hc : c.length = b.nparams) (x : ℝ) :
    mpeak1d (ps.flatten ++ c) x t ps.length b = mpeak1d (qs.flatten ++ c) x t qs.length b := by
  rw [mpeak_value t h b hc, mpeak_value t (fun q hq => h q (hp.mem_iff.2 hq)) b hc]
  congr 2
  exact (hp.map _).sum_eq

/-- Disagreement: `estimate_mpk_parms_1d` offers a cubic background and appends its four coefficients, but the
multi-peak function ignores them: its value does not depend on them. -/
theorem mpeak_cubic_ignored (t : PkType) {ps : List (List ℝ)} (h : ∀ q ∈ ps, q.length = t.nparams) (c d : List ℝ)
    (x : ℝ) : mpeak1d (ps.flatten ++ c) x t ps.length .other = mpeak1d (ps.flatten ++ d) x t ps.length .other := by
  unfold mpeak1d
  rw [mpeakNoBg_value t h c x, mpeakNoBg_value t h d x]

/-- Two pseudo-Voigt peaks on a linear background: an instance of `mpeak_value`. -/
example (x : ℝ) : mpeak1d [2, 0, 1, 1/2, 3, 5, 2, 1/4, 10, -1] x .pvoigt 2 .linear =
    some (pvoigtNoBg (params [2, 0, 1, 1/2]) x + pvoigtNoBg (params [3, 5, 2, 1/4]) x + (10 - x)) := by
  have := mpeak_value .pvoigt (ps := [[2, 0, 1, 1/2], [3, 5, 2, 1/4]]) (by simp [PkType.nparams]) .linear
    (c := [10, -1]) rfl x
  simp only [List.flatten_cons, List.flatten_nil, List.append_nil, List.cons_append, List.nil_append,
    List.length_cons, List.length_nil, List.map_cons, List.map_nil, List.sum_cons, List.sum_nil, PkType.noBg,
    poly, List.foldr] at this
  rw [this]
  congr 1; ring

/-- A peak that meets the hypotheses. -/
example : IsPeak (splitPvoigtNoBg (params [2, 1, 1, 3, 1/2, 1/4])) 2 1 (1 / 2) (3 / 2) :=
  splitPvoigt_isPeak (p := params [2, 1, 1, 3, 1/2, 1/4]) (by simp [params]) (by simp [params]) (by simp [params])
    (by simp [params]; norm_num) (by simp [params]; norm_num)

end Hexrd.Peaks
