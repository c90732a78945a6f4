import Verif.Model.Special
import Mathlib.Analysis.SpecialFunctions.Complex.LogDeriv
import Mathlib.Analysis.SpecialFunctions.Exponential
import Mathlib.Algebra.BigOperators.Field
import Mathlib.Tactic.Linarith
import Mathlib.Tactic.LinearCombination
import Mathlib.Tactic.FieldSimp
import Mathlib.Tactic.Positivity
import Mathlib.Tactic.NormNum

/-! The complementary error function and the exponential integral as they are computed. -/

namespace Hexrd.Special

/-- `t` times the polynomial of `erfc`. -/
noncomputable def tail (t : ℝ) : ℝ := (((((1.061405429 * t + -1.453152027) * t) + 1.421413741) * t + -0.284496736) * t + 0.254829592) * t

theorem tail_pos (t : ℝ) (h : 0 < t) : 0 < tail t := by
  unfold tail
  apply mul_pos _ h
  nlinarith [sq_nonneg (t * (t - 0.68)), sq_nonneg (t - 0.15), sq_nonneg t, sq_nonneg (t * t)]

theorem tail_slope (u : ℝ) : 0 < 0.254829592 + 2 * -0.284496736 * u + 3 * 1.421413741 * u ^ 2 + 4 * -1.453152027 * u ^ 3 + 5 * 1.061405429 * u ^ 4 := by
  nlinarith [sq_nonneg (u * (u - 0.55)), sq_nonneg (u - 0.107), sq_nonneg u, sq_nonneg (u * u)]

theorem tail_bend (u : ℝ) : 0 < 1.421413741 / 4 + -1.453152027 * u + 2.5 * 1.061405429 * u ^ 2 := by
  nlinarith [sq_nonneg (u - 0.274)]

theorem tail_mono (s t : ℝ) (h : s < t) : tail s < tail t := by
  have h1 := tail_slope ((s + t) / 2)
  have h2 := tail_bend ((s + t) / 2)
  have hd : 0 < t - s := sub_pos.2 h
  have e : tail t - tail s = (t - s) * ((0.254829592 + 2 * -0.284496736 * ((s + t) / 2) + 3 * 1.421413741 * ((s + t) / 2) ^ 2 +
      4 * -1.453152027 * ((s + t) / 2) ^ 3 + 5 * 1.061405429 * ((s + t) / 2) ^ 4) +
      (t - s) ^ 2 * (1.421413741 / 4 + -1.453152027 * ((s + t) / 2) + 2.5 * 1.061405429 * ((s + t) / 2) ^ 2) +
      1.061405429 * (t - s) ^ 4 / 16) := by
    unfold tail; ring
  have : 0 < tail t - tail s := by rw [e]; positivity
  linarith

theorem tail_one : tail 1 = 0.999999999 := by unfold tail; norm_num

theorem erfc_pos (x : ℝ) (h : 0 < x) : erfc x = tail (1 / (1 + 0.3275911 * x)) * Real.exp (-x * x) := by
  unfold erfc tail
  simp only [if_pos h, abs_of_pos h]
  ring

/-- `erfc(-x) = 2 - erfc(x)` for every `x`, and `erfc(0) = 1`. -/
theorem erfc_reflect (x : ℝ) : erfc (-x) = 2 - erfc x := by
  unfold erfc
  rcases lt_trichotomy x 0 with h | h | h
  · simp only [abs_neg, neg_pos, if_pos h, if_neg (not_lt.2 h.le)]
    ring
  · subst h; norm_num
  · simp only [abs_neg, neg_pos, if_pos h, if_neg (not_lt.2 h.le), neg_lt_zero]
    ring

theorem erfc_zero : erfc 0 = 1 := by
  have := erfc_reflect 0
  rw [neg_zero] at this
  linarith

theorem scale_pos (x : ℝ) (h : 0 ≤ x) : 0 < 1 / (1 + 0.3275911 * x) ∧ 1 / (1 + 0.3275911 * x) ≤ 1 := by
  have : 1 ≤ 1 + 0.3275911 * x := by nlinarith
  exact ⟨by positivity, by rw [div_le_one (by linarith)]; exact this⟩

/-- On the positive side it falls, from less than one to zero. -/
theorem erfc_falls (x y : ℝ) (hx : 0 < x) (h : x < y) : 0 < erfc y ∧ erfc y < erfc x ∧ erfc x < 1 := by
  have hy := hx.trans h
  obtain ⟨hs1, hs2⟩ := scale_pos x hx.le
  obtain ⟨ht1, -⟩ := scale_pos y hy.le
  have hst : 1 / (1 + 0.3275911 * y) < 1 / (1 + 0.3275911 * x) := by
    apply one_div_lt_one_div_of_lt
    · positivity
    · linarith
  have hP := tail_mono _ _ hst
  have hPy := tail_pos _ ht1
  have hPx := tail_pos _ hs1
  have hE : Real.exp (-y * y) < Real.exp (-x * x) := Real.exp_lt_exp.2 (by nlinarith)
  have hE1 : Real.exp (-x * x) ≤ 1 := Real.exp_le_one_iff.2 (by nlinarith)
  have hE0 := Real.exp_pos (-y * y)
  have h1 : tail (1 / (1 + 0.3275911 * x)) < 1 := by
    rcases hs2.lt_or_eq with h | h
    · have := tail_mono _ _ h; rw [tail_one] at this; linarith
    · rw [h, tail_one]; norm_num
  rw [erfc_pos x hx, erfc_pos y hy]
  refine ⟨by positivity, ?_, ?_⟩
  · exact mul_lt_mul hP hE.le hE0 hPx.le
  · calc tail (1 / (1 + 0.3275911 * x)) * Real.exp (-x * x) ≤ tail (1 / (1 + 0.3275911 * x)) * 1 := by
          exact mul_le_mul_of_nonneg_left hE1 hPx.le
      _ < 1 := by rw [mul_one]; exact h1

/-- It falls everywhere, and lies between zero and two. -/
theorem erfc_strictAnti : StrictAnti erfc ∧ ∀ x, 0 < erfc x ∧ erfc x < 2 := by
  have hneg : ∀ x, x < 0 → 1 < erfc x ∧ erfc x < 2 := by
    intro x hx
    have h := erfc_falls (-x) (-x + 1) (by linarith) (by linarith)
    have e := erfc_reflect x
    constructor <;> linarith [h.1, h.2.1, h.2.2]
  have hpos : ∀ x, 0 < x → 0 < erfc x ∧ erfc x < 1 := by
    intro x hx
    have h := erfc_falls x (x + 1) hx (by linarith)
    exact ⟨by linarith [h.1, h.2.1], h.2.2⟩
  constructor
  · intro x y hxy
    rcases lt_trichotomy x 0 with hx | hx | hx
    · rcases lt_trichotomy y 0 with hy | hy | hy
      · have h := erfc_falls (-y) (-x) (by linarith) (by linarith)
        have e1 := erfc_reflect x
        have e2 := erfc_reflect y
        linarith [h.2.1]
      · rw [hy, erfc_zero]; exact (hneg x hx).1
      · linarith [(hneg x hx).1, (hpos y hy).2]
    · rw [hx, erfc_zero]; exact (hpos y (by linarith)).2
    · exact (erfc_falls x y hx hxy).2.1
  · intro x
    rcases lt_trichotomy x 0 with hx | hx | hx
    · exact ⟨by linarith [(hneg x hx).1], (hneg x hx).2⟩
    · rw [hx, erfc_zero]; norm_num
    · exact ⟨(hpos x hx).1, by linarith [(hpos x hx).2]⟩

/-- The sum of the first `n` terms of the series. -/
noncomputable def partialSum (z : ℂ) (n : ℕ) : ℂ := ∑ k ∈ Finset.range n, (-z) ^ (k + 1) / ((k + 1) * (k + 1).factorial)

theorem seriesLoop_partial (z : ℂ) (fuel k : ℕ) (hk : 2 ≤ k) :
    ∃ n, k - 1 ≤ n ∧ n ≤ k - 1 + fuel ∧
      seriesLoop z fuel k ((-z) ^ (k - 1) / (k - 1).factorial) (partialSum z (k - 1)) = partialSum z n ∧
      (n < k - 1 + fuel → ‖(-z) ^ n / (n * n.factorial)‖ ≤ 2.220446049250313e-16 * max 1 ‖partialSum z n‖) := by
  induction fuel generalizing k with
  | zero => exact ⟨k - 1, le_rfl, le_rfl, rfl, fun h => absurd h (by simp)⟩
  | succ fuel ih =>
    obtain ⟨m, rfl⟩ : ∃ m, k = m + 1 := ⟨k - 1, by omega⟩
    have hm : m ≠ 0 := by omega
    have ht : (-z) ^ m / m.factorial * (-z / ((m + 1 : ℕ) : ℂ)) = (-z) ^ (m + 1) / (m + 1).factorial := by
      rw [Nat.factorial_succ]
      push_cast
      have h1 : (m.factorial : ℂ) ≠ 0 := by exact_mod_cast Nat.factorial_ne_zero m
      have h2 : (m : ℂ) + 1 ≠ 0 := by exact_mod_cast Nat.succ_ne_zero m
      field_simp
      ring
    have ha : (-z) ^ (m + 1) / (m + 1).factorial / ((m + 1 : ℕ) : ℂ) = (-z) ^ (m + 1) / (((m + 1 : ℕ) : ℂ) * (m + 1).factorial) := by
      rw [div_div, mul_comm]
    have hs : partialSum z m + (-z) ^ (m + 1) / (((m + 1 : ℕ) : ℂ) * (m + 1).factorial) = partialSum z (m + 1) := by
      unfold partialSum
      rw [Finset.sum_range_succ]
      push_cast
      rfl
    unfold seriesLoop
    simp only [Nat.add_sub_cancel, ht, ha, hs]
    split
    · next h => exact ⟨m + 1, by omega, by omega, rfl, fun _ => h⟩
    · obtain ⟨n, h1, h2, h3, h4⟩ := ih (m + 2) (by omega)
      refine ⟨n, by omega, by omega, ?_, fun h => h4 (by omega)⟩
      simpa using h3

/-- The value is that of a partial sum of the series, and if it has fewer than a thousand terms the last of them is below the limit. -/
theorem exp1Series_partial_sum (z : ℂ) : ∃ n, 1 ≤ n ∧ n ≤ 1000 ∧
    exp1Series z = -(0.577215664901532860606512090082402431 : ℝ) - Complex.log z - partialSum z n ∧
    (n < 1000 → ‖(-z) ^ n / (n * n.factorial)‖ ≤ 2.220446049250313e-16 * max 1 ‖partialSum z n‖) := by
  obtain ⟨n, h1, h2, h3, h4⟩ := seriesLoop_partial z 999 2 le_rfl
  refine ⟨n, by omega, by omega, ?_, fun h => h4 (by omega)⟩
  unfold exp1Series
  rw [← h3]
  simp [partialSum]

/-- The derivative of a partial sum. -/
theorem partialSum_deriv (z : ℂ) (hz : z ≠ 0) (n : ℕ) :
    HasDerivAt (fun z => partialSum z n) ((∑ k ∈ Finset.range n, (-z) ^ (k + 1) / (k + 1).factorial) / z) z := by
  unfold partialSum
  rw [Finset.sum_div]
  apply HasDerivAt.fun_sum
  intro k _
  have h1 : HasDerivAt (fun z : ℂ => (-z) ^ (k + 1)) (((k + 1 : ℕ) : ℂ) * (-z) ^ k * (-1)) z := by
    simpa using (hasDerivAt_neg z).fun_pow (k + 1)
  have h2 := h1.div_const (((k : ℂ) + 1) * (k + 1).factorial)
  have h3 : (k : ℂ) + 1 ≠ 0 := by exact_mod_cast Nat.succ_ne_zero k
  have h4 : ((k + 1).factorial : ℂ) ≠ 0 := by exact_mod_cast Nat.factorial_ne_zero (k + 1)
  have e : (-z) ^ (k + 1) / (k + 1).factorial / z = ((k + 1 : ℕ) : ℂ) * (-z) ^ k * (-1) / (((k : ℂ) + 1) * (k + 1).factorial) := by
    push_cast
    rw [pow_succ]
    field_simp
  rw [e]
  exact h2

/-- With `n` terms the derivative is `-1/z` times the first `n + 1` terms of the series of `exp(-z)`, off the negative axis. -/
theorem exp1_deriv (z : ℂ) (hz : z ∈ Complex.slitPlane) (c : ℂ) (n : ℕ) :
    HasDerivAt (fun z => c - Complex.log z - partialSum z n) (-(∑ k ∈ Finset.range (n + 1), (-z) ^ k / k.factorial) / z) z := by
  have h0 : z ≠ 0 := Complex.slitPlane_ne_zero hz
  have h1 := ((hasDerivAt_const z c).sub (Complex.hasDerivAt_log hz)).sub (partialSum_deriv z h0 n)
  have e : -(∑ k ∈ Finset.range (n + 1), (-z) ^ k / k.factorial) / z =
      0 - z⁻¹ - (∑ k ∈ Finset.range n, (-z) ^ (k + 1) / (k + 1).factorial) / z := by
    rw [Finset.sum_range_succ']
    simp
    field_simp
    ring
  rw [e]
  exact h1

/-- So it tends to `-exp(-z)/z`, the derivative of the exponential integral. -/
theorem exp1_deriv_limit (z : ℂ) :
    Filter.Tendsto (fun n => -(∑ k ∈ Finset.range (n + 1), (-z) ^ k / k.factorial) / z) Filter.atTop (nhds (-Complex.exp (-z) / z)) := by
  have h := (NormedSpace.expSeries_div_hasSum_exp (-z)).tendsto_sum_nat
  rw [← Complex.exp_eq_exp_ℂ] at h
  exact ((h.comp (Filter.tendsto_add_atTop_nat 1)).neg).div_const z

/-- The continued fraction `1/(z+1 - 1²/(z+3 - 2²/(z+5 - …)))` of `exp(z) E1(z)` with `n` levels above the end `w`. -/
noncomputable def frac (z : ℂ) : ℕ → ℂ → ℂ
  | 0, w => 1 / w
  | n + 1, w => frac z n (z + (2 * n + 1) - ((n : ℂ) + 1) ^ 2 / w)

/-- No denominator of that fraction is zero. -/
def Levels (z : ℂ) : ℕ → ℂ → Prop
  | 0, w => w ≠ 0
  | n + 1, w => w ≠ 0 ∧ Levels z n (z + (2 * n + 1) - ((n : ℂ) + 1) ^ 2 / w)

/-- Solutions of the recurrence of the convergents, from two first values. -/
noncomputable def rec (z p q : ℂ) : ℕ → ℂ
  | 0 => p
  | 1 => q
  | n + 2 => (z + (2 * (n + 1) + 1)) * rec z p q (n + 1) - ((n : ℂ) + 1) ^ 2 * rec z p q n

/-- The fraction in terms of the recurrence. -/
theorem frac_eq (z : ℂ) (n : ℕ) (w : ℂ) (hw : Levels z (n + 1) w) :
    frac z (n + 1) w = (w * rec z 0 1 (n + 1) - ((n : ℂ) + 1) ^ 2 * rec z 0 1 n) / (w * rec z 1 (z + 1) (n + 1) - ((n : ℂ) + 1) ^ 2 * rec z 1 (z + 1) n) := by
  have key : ∀ (a b c d v : ℂ), v ≠ 0 → (a - b / v) / (c - d / v) = (v * a - b) / (v * c - d) := by
    intro a b c d v hv
    rw [← mul_div_mul_left (a - b / v) (c - d / v) hv, mul_sub, mul_sub, mul_div_cancel₀ _ hv, mul_div_cancel₀ _ hv]
  induction n generalizing w with
  | zero =>
    have := key 1 0 (z + 1) 1 w hw.1
    simp only [zero_div, sub_zero, mul_one] at this
    simp [frac, rec]
    rw [← one_div, ← one_div, this]
  | succ n ih =>
    have e : frac z (n + 1 + 1) w = frac z (n + 1) (z + (2 * ((n + 1 : ℕ) : ℂ) + 1) - (((n + 1 : ℕ) : ℂ) + 1) ^ 2 / w) := rfl
    have r1 : ∀ p q, rec z p q (n + 1 + 1) = (z + (2 * (n + 1) + 1)) * rec z p q (n + 1) - ((n : ℂ) + 1) ^ 2 * rec z p q n := fun p q => rfl
    rw [e]
    · rw [ih _ hw.2, r1, r1]
      have := key ((z + (2 * (n + 1) + 1)) * rec z 0 1 (n + 1) - ((n : ℂ) + 1) ^ 2 * rec z 0 1 n) ((((n + 1 : ℕ) : ℂ) + 1) ^ 2 * rec z 0 1 (n + 1))
        ((z + (2 * (n + 1) + 1)) * rec z 1 (z + 1) (n + 1) - ((n : ℂ) + 1) ^ 2 * rec z 1 (z + 1) n) ((((n + 1 : ℕ) : ℂ) + 1) ^ 2 * rec z 1 (z + 1) (n + 1)) w hw.1
      rw [← this]
      congr 1 <;> (push_cast; ring)

/-- The state of the loop in terms of the recurrence, while no value is zero. -/
theorem lentz_state (tau z : ℂ) (n : ℕ) (hN : ∀ k ≤ n + 1, rec z tau 1 k ≠ 0) (hD : ∀ k ≤ n + 1, rec z 1 (z + 1) k ≠ 0) :
    (lentz tau z n).1 = z + (2 * n + 1) ∧ (lentz tau z n).2.1 = rec z tau 1 (n + 1) / rec z tau 1 n ∧
      (lentz tau z n).2.2.1 = rec z 1 (z + 1) n / rec z 1 (z + 1) (n + 1) ∧
      (lentz tau z n).2.2.2 = rec z tau 1 (n + 1) / rec z 1 (z + 1) (n + 1) := by
  induction n with
  | zero => simp [lentz, rec]
  | succ n ih =>
    obtain ⟨h1, h2, h3, h4⟩ := ih (fun k hk => hN k (by omega)) fun k hk => hD k (by omega)
    have hN0 := hN n (by omega)
    have hN1 := hN (n + 1) (by omega)
    have hD0 := hD n (by omega)
    have hD1 := hD (n + 1) (by omega)
    have hD2 := hD (n + 2) le_rfl
    have r1 : ∀ p q, rec z p q (n + 1 + 1) = (z + (2 * (n + 1) + 1)) * rec z p q (n + 1) - ((n : ℂ) + 1) ^ 2 * rec z p q n := fun p q => rfl
    have hb : (lentz tau z (n + 1)).1 = z + (2 * ((n + 1 : ℕ) : ℂ) + 1) := by
      show (lentz tau z n).1 + 2 = _
      rw [h1]; push_cast; ring
    have hd : (lentz tau z (n + 1)).2.2.1 = rec z 1 (z + 1) (n + 1) / rec z 1 (z + 1) (n + 1 + 1) := by
      show 1 / (-(((n + 1) * (n + 1) : ℕ) : ℂ) * (lentz tau z n).2.2.1 + ((lentz tau z n).1 + 2)) = _
      rw [h1, h3, ← one_div_div (rec z 1 (z + 1) (n + 1 + 1)), r1]
      congr 1
      field_simp
      push_cast
      ring
    have hc : (lentz tau z (n + 1)).2.1 = rec z tau 1 (n + 1 + 1) / rec z tau 1 (n + 1) := by
      show ((lentz tau z n).1 + 2) + (-(((n + 1) * (n + 1) : ℕ) : ℂ)) / (lentz tau z n).2.1 = _
      rw [h1, h2, r1]
      field_simp
      push_cast
      ring
    refine ⟨hb, hc, hd, ?_⟩
    have hh : (lentz tau z (n + 1)).2.2.2 = (lentz tau z n).2.2.2 * ((lentz tau z (n + 1)).2.1 * (lentz tau z (n + 1)).2.2.1) := rfl
    rw [hh, hc, hd, h4]
    field_simp

theorem rec_linear (z tau : ℂ) (n : ℕ) : rec z tau 1 n = rec z 0 1 n + tau * rec z 1 0 n := by
  have h : ∀ n, rec z tau 1 n = rec z 0 1 n + tau * rec z 1 0 n ∧ rec z tau 1 (n + 1) = rec z 0 1 (n + 1) + tau * rec z 1 0 (n + 1) := by
    intro n
    induction n with
    | zero => simp [rec]
    | succ n ih =>
      refine ⟨ih.2, ?_⟩
      have r1 : ∀ p q, rec z p q (n + 1 + 1) = (z + (2 * (n + 1) + 1)) * rec z p q (n + 1) - ((n : ℂ) + 1) ^ 2 * rec z p q n := fun p q => rfl
      rw [r1, r1, r1, ih.1, ih.2]
      ring
  exact (h n).1

/-- After `n` steps the loop has the convergent of the continued fraction, up to `tau` times a factor that does not depend on `tau`. -/
theorem lentz_convergent (tau z : ℂ) (n : ℕ) (hN : ∀ k ≤ n + 1, rec z tau 1 k ≠ 0) (hD : ∀ k ≤ n + 1, rec z 1 (z + 1) k ≠ 0)
    (hL : Levels z n (z + (2 * n + 1))) :
    (lentz tau z n).2.2.2 = frac z n (z + (2 * n + 1)) + tau * (rec z 1 0 (n + 1) / rec z 1 (z + 1) (n + 1)) := by
  rw [(lentz_state tau z n hN hD).2.2.2, rec_linear]
  cases n with
  | zero => simp [frac, rec]
  | succ n =>
    rw [frac_eq z n _ hL]
    have r1 : ∀ p q, rec z p q (n + 1 + 1) = (z + (2 * (n + 1) + 1)) * rec z p q (n + 1) - ((n : ℂ) + 1) ^ 2 * rec z p q n := fun p q => rfl
    have e : ∀ p q, (z + (2 * ((n + 1 : ℕ) : ℂ) + 1)) * rec z p q (n + 1) - ((n : ℂ) + 1) ^ 2 * rec z p q n = rec z p q (n + 1 + 1) := by
      intro p q; rw [r1]; push_cast; ring
    rw [e, e, add_div, mul_div_assoc]

/-- For real `x ≥ 0` and small `tau` the conditions hold at every step. -/
theorem levels_real (x : ℝ) (hx : 0 ≤ x) (n : ℕ) (w : ℝ) (hw : (n : ℝ) < w) : Levels x n w := by
  induction n generalizing w with
  | zero => exact Complex.ofReal_ne_zero.2 (by simpa using hw.ne')
  | succ n ih =>
    push_cast at hw
    have hn : (0 : ℝ) ≤ n := Nat.cast_nonneg n
    have hw0 : 0 < w := by linarith
    refine ⟨Complex.ofReal_ne_zero.2 hw0.ne', ?_⟩
    have h := ih (x + (2 * n + 1) - ((n : ℝ) + 1) ^ 2 / w) (by
      have : ((n : ℝ) + 1) ^ 2 / w < n + 1 := by rw [div_lt_iff₀ hw0]; nlinarith
      linarith)
    push_cast at h
    exact h

theorem rec_real (x p q : ℝ) (hx : 0 ≤ x) (hp : 0 < p) (hq : p ≤ q) (n : ℕ) :
    ∃ a b : ℝ, rec x p q n = a ∧ rec x p q (n + 1) = b ∧ 0 < a ∧ ((n : ℝ) + 1) * a ≤ b := by
  induction n with
  | zero => exact ⟨p, q, rfl, rfl, hp, by simpa using hq⟩
  | succ n ih =>
    obtain ⟨a, b, ha, hb, hpos, hle⟩ := ih
    have hn : (0 : ℝ) ≤ n := Nat.cast_nonneg n
    have hb0 : 0 < b := by nlinarith
    refine ⟨b, (x + (2 * (n + 1) + 1)) * b - ((n : ℝ) + 1) ^ 2 * a, hb, ?_, hb0, ?_⟩
    · have r1 : rec x p q (n + 1 + 1) = ((x : ℂ) + (2 * (n + 1) + 1)) * rec x p q (n + 1) - ((n : ℂ) + 1) ^ 2 * rec x p q n := rfl
      rw [r1, ha, hb]
      push_cast
      ring
    · push_cast
      have h1 : ((n : ℝ) + 1) * (((n : ℝ) + 1) * a) ≤ ((n : ℝ) + 1) * b := mul_le_mul_of_nonneg_left hle (by linarith)
      have h2 : 0 ≤ x * b := mul_nonneg hx hb0.le
      nlinarith

/-- So for real `x ≥ 0` and `0 < tau ≤ 1` the loop has the convergent up to a multiple of `tau`, after every number of steps. -/
theorem lentz_real (x tau : ℝ) (hx : 0 ≤ x) (h0 : 0 < tau) (h1 : tau ≤ 1) (n : ℕ) :
    (lentz tau x n).2.2.2 = frac x n (x + (2 * n + 1)) + tau * (rec x 1 0 (n + 1) / rec x 1 (x + 1) (n + 1)) := by
  apply lentz_convergent
  · intro k _
    obtain ⟨a, -, ha, -, hpos, -⟩ := rec_real x tau 1 hx h0 h1 k
    rw [Complex.ofReal_one] at ha
    rw [ha]
    exact Complex.ofReal_ne_zero.2 hpos.ne'
  · intro k _
    obtain ⟨a, -, ha, -, hpos, -⟩ := rec_real x 1 (x + 1) hx one_pos (by linarith) k
    push_cast at ha
    rw [ha]
    exact Complex.ofReal_ne_zero.2 hpos.ne'
  · have := levels_real x hx n (x + (2 * n + 1)) (by have : (0 : ℝ) ≤ n := Nat.cast_nonneg n; linarith)
    push_cast at this
    exact this

end Hexrd.Special
