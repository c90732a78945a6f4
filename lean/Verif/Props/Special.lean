import Verif.Model.Special
import Mathlib.Analysis.SpecialFunctions.Trigonometric.Complex
import Mathlib.Analysis.SpecialFunctions.ExpDeriv
import Mathlib.Tactic.Linarith
import Mathlib.Tactic.LinearCombination
import Mathlib.Tactic.FieldSimp
import Mathlib.Tactic.Positivity
import Mathlib.Tactic.NormNum

/-! The function of Faddeeva, `w(z) = exp(-z²) erfc(-iz)`, as it is computed: the identities that hold without error. -/

namespace Hexrd.Special

open Complex (I)
open ComplexConjugate

theorem hStep_pos : 0 < hStep := by unfold hStep; exact Real.sqrt_pos.2 (by positivity)

theorem hCap_pos : 0 < hCap := div_pos Real.pi_pos hStep_pos

theorem cexpParts_eq (a b : ℝ) : cexpParts a b = Complex.exp (a + b * I) := by
  apply Complex.ext
  · rw [Complex.exp_re]; simp [cexpParts]
  · rw [Complex.exp_im]; simp [cexpParts]

theorem expNegZ2_eq (z : ℂ) : expNegZ2 z = Complex.exp (-z ^ 2) := by
  unfold expNegZ2
  rw [cexpParts_eq]
  congr 1
  apply Complex.ext <;> (simp [pow_two]; try ring)

/-- The correction of the midpoint rule, in both of its forms. -/
theorem correction_plus (z : ℂ) : trapCorrection z true = 2 * Complex.exp (-z ^ 2) / (1 + Complex.exp (-2 * I * hCap * z)) := by
  have hb : (cexpParts (2 * hCap * z.im) (-2 * hCap * z.re)) = Complex.exp (-2 * I * hCap * z) := by
    rw [cexpParts_eq]; congr 1; apply Complex.ext <;> simp
  have hi : (cexpParts (-2 * hCap * z.im) (2 * hCap * z.re)) = (Complex.exp (-2 * I * hCap * z))⁻¹ := by
    rw [cexpParts_eq, ← Complex.exp_neg]; congr 1; apply Complex.ext <;> simp
  have hab : cexpParts (z.im * z.im - z.re * z.re - 2 * hCap * z.im) (-2 * z.re * z.im + 2 * hCap * z.re) =
      Complex.exp (-z ^ 2) * (Complex.exp (-2 * I * hCap * z))⁻¹ := by
    rw [cexpParts_eq, ← Complex.exp_neg, ← Complex.exp_add]; congr 1; apply Complex.ext <;> simp [pow_two] <;> ring
  have h0 : Complex.exp (-2 * I * hCap * z) ≠ 0 := Complex.exp_ne_zero _
  unfold trapCorrection
  simp only [if_true, hb, hi, hab, expNegZ2_eq]
  split
  · generalize Complex.exp (-2 * I * hCap * z) = b at h0 ⊢
    have : 1 + b⁻¹ = (1 + b) * b⁻¹ := by field_simp; ring
    rw [this, ← mul_assoc, mul_div_mul_right _ _ (inv_ne_zero h0)]
  · rfl

/-- The correction of the trapezoidal rule, in both of its forms. -/
theorem correction_minus (z : ℂ) : trapCorrection z false = 2 * Complex.exp (-z ^ 2) / (1 - Complex.exp (-2 * I * hCap * z)) := by
  have hb : (cexpParts (2 * hCap * z.im) (-2 * hCap * z.re)) = Complex.exp (-2 * I * hCap * z) := by
    rw [cexpParts_eq]; congr 1; apply Complex.ext <;> simp
  have hi : (cexpParts (-2 * hCap * z.im) (2 * hCap * z.re)) = (Complex.exp (-2 * I * hCap * z))⁻¹ := by
    rw [cexpParts_eq, ← Complex.exp_neg]; congr 1; apply Complex.ext <;> simp
  have hab : cexpParts (z.im * z.im - z.re * z.re - 2 * hCap * z.im) (-2 * z.re * z.im + 2 * hCap * z.re) =
      Complex.exp (-z ^ 2) * (Complex.exp (-2 * I * hCap * z))⁻¹ := by
    rw [cexpParts_eq, ← Complex.exp_neg, ← Complex.exp_add]; congr 1; apply Complex.ext <;> simp [pow_two] <;> ring
  have h0 : Complex.exp (-2 * I * hCap * z) ≠ 0 := Complex.exp_ne_zero _
  unfold trapCorrection
  simp only [Bool.false_eq_true, if_false, hb, hi, hab, expNegZ2_eq]
  split
  · generalize Complex.exp (-2 * I * hCap * z) = b at h0 ⊢
    have : b⁻¹ - 1 = (1 - b) * b⁻¹ := by field_simp
    rw [this, ← mul_assoc, mul_div_mul_right _ _ (inv_ne_zero h0)]
  · rfl

theorem conj_exp (z : ℂ) : conj (Complex.exp z) = Complex.exp (conj z) := (Complex.exp_conj z).symm

theorem correction_conj (z : ℂ) (p : Bool) : conj (trapCorrection z p) = trapCorrection (-conj z) p := by
  have h1 : conj (-z ^ 2) = -(-conj z) ^ 2 := by simp
  have h3 : conj (2 : ℂ) = 2 := Complex.conj_ofNat 2
  have h2 : conj (-2 * I * hCap * z) = -2 * I * hCap * (-conj z) := by simp [h3]
  cases p
  · rw [correction_minus, correction_minus, map_div₀, map_mul, map_sub, map_one, conj_exp, conj_exp, h1, h2, h3]
  · rw [correction_plus, correction_plus, map_div₀, map_mul, map_add, map_one, conj_exp, conj_exp, h1, h2, h3]

theorem conj_imag (c : ℝ) : conj (⟨0, c⟩ : ℂ) = -⟨0, c⟩ := by
  apply Complex.ext <;> simp

theorem midpoint_conj (z : ℂ) : conj (wofzMidpoint z) = wofzMidpoint (-conj z) := by
  unfold wofzMidpoint
  rw [map_mul, map_mul, map_sum, conj_imag]
  congr 1
  · ring
  · apply Finset.sum_congr rfl
    intro k _
    rw [map_div₀, map_sub, map_mul, map_mul, Complex.conj_ofReal, Complex.conj_ofReal]
    congr 1
    ring

theorem midpoint_neg (z : ℂ) : wofzMidpoint (-z) = -wofzMidpoint z := by
  unfold wofzMidpoint
  rw [← neg_mul, neg_mul_neg]
  simp

/-- The trapezoidal rule without its correction. -/
noncomputable def trapBase (z : ℂ) : ℂ :=
  ⟨0, 1 / hCap⟩ / z + (⟨0, 2 / hCap⟩ * z) * (∑ k ∈ Finset.range 11, (Real.exp (-(hStep * (k + 1)) * (hStep * (k + 1))) : ℂ) /
    (z * z - (hStep * (k + 1) : ℝ) * (hStep * (k + 1) : ℝ)))

theorem trapBase_conj (z : ℂ) : conj (trapBase z) = trapBase (-conj z) := by
  unfold trapBase
  rw [map_add, map_div₀, map_mul, map_mul, map_sum, conj_imag, conj_imag]
  congr 1
  · rw [neg_div, div_neg]
  · congr 1
    · ring
    · apply Finset.sum_congr rfl
      intro k _
      rw [map_div₀, map_sub, map_mul, map_mul, Complex.conj_ofReal, Complex.conj_ofReal]
      congr 1
      ring

theorem trapBase_neg (z : ℂ) : trapBase (-z) = -trapBase z := by
  unfold trapBase
  rw [neg_mul_neg, div_neg, mul_neg, neg_mul]
  ring

/-- An exponential on the unit circle that is `1`. -/
theorem exp_one (z : ℂ) (h : Complex.exp (-2 * I * hCap * z) = 1) : z.im = 0 ∧ ∃ n : ℤ, z.re = n * hStep := by
  obtain ⟨n, hn⟩ := Complex.exp_eq_one_iff.1 h
  have hr := congrArg Complex.re hn
  have hi := congrArg Complex.im hn
  simp at hr hi
  have hc := hCap_pos
  refine ⟨by rcases hr with h | h <;> [linarith; exact h], -n, ?_⟩
  have hp := Real.pi_pos.ne'
  have hh := hStep_pos.ne'
  unfold hCap at hi
  field_simp at hi
  push_cast
  linarith

/-- An exponential on the unit circle that is `-1`. -/
theorem exp_neg_one (z : ℂ) (h : Complex.exp (-2 * I * hCap * z) = -1) : z.im = 0 ∧ ∃ n : ℤ, z.re = (n + 0.5) * hStep := by
  have h' : Complex.exp (-2 * I * hCap * (z - (0.5 * hStep : ℝ))) = 1 := by
    have e : -2 * I * hCap * (z - (0.5 * hStep : ℝ)) = -2 * I * hCap * z + Real.pi * I := by
      have : (hCap : ℂ) * hStep = Real.pi := by
        rw [← Complex.ofReal_mul]
        congr 1
        unfold hCap
        field_simp [hStep_pos.ne']
      push_cast
      linear_combination I * this
    rw [e, Complex.exp_add, h, Complex.exp_pi_mul_I]; norm_num
  obtain ⟨h1, n, hn⟩ := exp_one _ h'
  rw [Complex.sub_im, Complex.ofReal_im, sub_zero] at h1
  rw [Complex.sub_re, Complex.ofReal_re] at hn
  exact ⟨h1, n, by linarith⟩

/-- A square that is that of a real number. -/
theorem real_of_sq (z : ℂ) (t : ℝ) (h : z * z - (t : ℂ) * t = 0) : z.im = 0 ∧ (z.re = t ∨ z.re = -t) := by
  have : (z - t) * (z + t) = 0 := by linear_combination h
  rcases mul_eq_zero.1 this with h | h
  · have e : z = t := by linear_combination h
    rw [e]; exact ⟨Complex.ofReal_im t, Or.inl (Complex.ofReal_re t)⟩
  · have e : z = -(t : ℂ) := by linear_combination h
    rw [e]; simp

/-- The three cases of the first quadrant. -/
theorem first_cases (z : ℂ) (hx : 0 ≤ z.re) (hy : 0 ≤ z.im) :
    (wofzFirst z = wofzMidpoint z ∧ 0 < z.im ∧ ∀ k : ℕ, z * z - (hStep * (k + 0.5) : ℝ) * (hStep * (k + 0.5) : ℝ) ≠ 0) ∨
    (wofzFirst z = trapBase z + trapCorrection z false ∧ z ≠ 0 ∧ 1 - Complex.exp (-2 * I * hCap * z) ≠ 0 ∧ z.im < z.re ∧
      ∀ k : ℕ, z * z - (hStep * (k + 1) : ℝ) * (hStep * (k + 1) : ℝ) ≠ 0) ∨
    (wofzFirst z = wofzMidpoint z + trapCorrection z true ∧ 1 + Complex.exp (-2 * I * hCap * z) ≠ 0 ∧
      ∀ k : ℕ, z * z - (hStep * (k + 0.5) : ℝ) * (hStep * (k + 0.5) : ℝ) ≠ 0) := by
  have hh := hStep_pos
  unfold wofzFirst
  simp only
  split
  · next h =>
    have hpos : 0 < z.im := lt_of_lt_of_le hCap_pos (le_trans (le_max_right _ _) h)
    refine Or.inl ⟨rfl, hpos, ?_⟩
    intro k hk
    exact hpos.ne' (real_of_sq z _ hk).1
  · split
    · next h1 h2 =>
      have key : ∀ n : ℤ, z.re ≠ n * hStep := by
        intro n hn
        have := h2.2
        rw [hn, mul_div_assoc, div_self hh.ne', mul_one, Int.floor_intCast] at this
        norm_num at this
      refine Or.inr (Or.inl ⟨rfl, ?_, ?_, h2.1, ?_⟩)
      · rintro rfl
        exact key 0 (by simp)
      · intro h
        obtain ⟨-, n, hn⟩ := exp_one z (by linear_combination -h)
        exact key n hn
      · intro k hk
        rcases (real_of_sq z _ hk).2 with h | h
        · exact key (k + 1) (by rw [h]; push_cast; ring)
        · exact key (-(k + 1)) (by rw [h]; push_cast; ring)
    · next h1 h2 =>
      have key : ∀ n : ℤ, z.im = 0 → z.re ≠ (n + 0.5) * hStep := by
        intro n hz hn
        apply h2
        have hdiv : z.re / hStep = n + 0.5 := by rw [hn, mul_div_assoc, div_self hh.ne', mul_one]
        refine ⟨?_, ?_⟩
        · rw [hz]
          rcases hx.lt_or_eq with h | h
          · exact h
          · exfalso
            rw [← h] at hn
            rcases mul_eq_zero.1 hn.symm with h' | h'
            · have h3 : ((2 * n + 1 : ℤ) : ℝ) = 0 := by push_cast; linarith
              have h4 : (2 * n + 1 : ℤ) = 0 := by exact_mod_cast h3
              omega
            · exact hh.ne' h'
        · have hf : ⌊(n : ℝ) + 0.5⌋ = n := by rw [Int.floor_eq_iff]; constructor <;> norm_num
          rw [hdiv, hf]
          norm_num
      refine Or.inr (Or.inr ⟨rfl, ?_, ?_⟩)
      · intro h
        obtain ⟨hz, n, hn⟩ := exp_neg_one z (by linear_combination h)
        exact key n hz hn
      · intro k hk
        obtain ⟨hz, h | h⟩ := real_of_sq z _ hk
        · exact key k hz (by rw [h]; push_cast; ring)
        · exact key (-(k + 1)) hz (by rw [h]; push_cast; ring)

/-- On the imaginary axis the value is real. -/
theorem first_imag (z : ℂ) (hx : z.re = 0) (hy : 0 ≤ z.im) : conj (wofzFirst z) = wofzFirst z := by
  have hz : -conj z = z := by apply Complex.ext <;> simp [hx]
  rcases first_cases z hx.ge hy with ⟨h, -⟩ | ⟨-, -, -, h, -⟩ | ⟨h, -⟩
  · rw [h, midpoint_conj, hz]
  · rw [hx] at h; exact absurd h (not_lt.2 hy)
  · rw [h, map_add, midpoint_conj, correction_conj, hz]

/-- On the real axis the real part is the Gaussian. -/
theorem first_real (z : ℂ) (hx : 0 ≤ z.re) (hy : z.im = 0) : wofzFirst z + conj (wofzFirst z) = 2 * Complex.exp (-z ^ 2) := by
  have hz : conj z = z := by apply Complex.ext <;> simp [hy]
  have hb := Complex.exp_ne_zero (-2 * I * hCap * z)
  have hneg : Complex.exp (-2 * I * hCap * -z) = (Complex.exp (-2 * I * hCap * z))⁻¹ := by rw [← Complex.exp_neg]; congr 1; ring
  rcases first_cases z hx hy.ge with ⟨-, h, -⟩ | ⟨h, -, hne, -⟩ | ⟨h, hne, -⟩
  · exact absurd hy h.ne'
  · rw [h, map_add, trapBase_conj, correction_conj, hz, trapBase_neg, correction_minus, correction_minus, hneg, neg_sq]
    generalize Complex.exp (-2 * I * hCap * z) = b at hb hne ⊢
    have hne' : b - 1 ≠ 0 := fun h => hne (by linear_combination -h)
    have e : 1 - b⁻¹ = (b - 1) / b := by field_simp
    rw [e]
    field_simp
    ring
  · rw [h, map_add, midpoint_conj, correction_conj, hz, midpoint_neg, correction_plus, correction_plus, hneg, neg_sq]
    generalize Complex.exp (-2 * I * hCap * z) = b at hb hne ⊢
    have hne' : b + 1 ≠ 0 := fun h => hne (by linear_combination h)
    have e : 1 + b⁻¹ = (b + 1) / b := by field_simp
    rw [e]
    field_simp
    ring

theorem flip_eq (z : ℂ) : (⟨z.re, -z.im⟩ : ℂ) = conj z := rfl

theorem wofz_pp (z : ℂ) (hx : 0 ≤ z.re) (hy : 0 ≤ z.im) : wofz z = wofzFirst z := by
  simp [wofz, not_lt.2 hx, not_lt.2 hy]

theorem wofz_np (z : ℂ) (hx : z.re < 0) (hy : 0 ≤ z.im) : wofz z = conj (wofzFirst (-conj z)) := by
  have : (⟨-z.re, z.im⟩ : ℂ) = -conj z := by apply Complex.ext <;> simp
  simp [wofz, hx, not_lt.2 hy, this, flip_eq]

theorem wofz_pn (z : ℂ) (hx : 0 ≤ z.re) (hy : z.im < 0) : wofz z = 2 * Complex.exp (-z ^ 2) - conj (wofzFirst (conj z)) := by
  simp [wofz, not_lt.2 hx, hy, flip_eq, expNegZ2_eq]

theorem wofz_nn (z : ℂ) (hx : z.re < 0) (hy : z.im < 0) : wofz z = 2 * Complex.exp (-z ^ 2) - wofzFirst (-z) := by
  simp [wofz, hx, hy, expNegZ2_eq]

/-- No denominator is zero in the case that is used, anywhere in the first quadrant. -/
theorem first_no_pole (z : ℂ) (hx : 0 ≤ z.re) (hy : 0 ≤ z.im) :
    (wofzFirst z = wofzMidpoint z ∧ ∀ k : ℕ, z * z - (hStep * (k + 0.5) : ℝ) * (hStep * (k + 0.5) : ℝ) ≠ 0) ∨
    (wofzFirst z = wofzModifiedTrapezoid z ∧ z ≠ 0 ∧ 1 - Complex.exp (-2 * I * hCap * z) ≠ 0 ∧
      ∀ k : ℕ, z * z - (hStep * (k + 1) : ℝ) * (hStep * (k + 1) : ℝ) ≠ 0) ∨
    (wofzFirst z = wofzModifiedMidpoint z ∧ 1 + Complex.exp (-2 * I * hCap * z) ≠ 0 ∧
      ∀ k : ℕ, z * z - (hStep * (k + 0.5) : ℝ) * (hStep * (k + 0.5) : ℝ) ≠ 0) := by
  rcases first_cases z hx hy with ⟨h, -, h1⟩ | ⟨h, h0, h1, -, h2⟩ | ⟨h, h1, h2⟩
  · exact Or.inl ⟨h, h1⟩
  · exact Or.inr (Or.inl ⟨h, h0, h1, h2⟩)
  · exact Or.inr (Or.inr ⟨h, h1, h2⟩)

/-- Reflection in the imaginary axis: `w(-z̄)` is the conjugate of `w(z)`, for every `z`. -/
theorem wofz_conj (z : ℂ) : wofz (-conj z) = conj (wofz z) := by
  have hre : (-conj z).re = -z.re := by simp
  have him : (-conj z).im = z.im := by simp
  have hcc : -conj (-conj z) = z := by simp
  have he : conj (2 * Complex.exp (-z ^ 2)) = 2 * Complex.exp (-(-conj z) ^ 2) := by
    rw [map_mul, conj_exp]; simp [Complex.conj_ofNat]
  rcases lt_trichotomy z.re 0 with hx | hx | hx
  · by_cases hy : z.im < 0
    · rw [wofz_pn _ (by rw [hre]; linarith) (by rw [him]; exact hy), wofz_nn z hx hy, map_sub, he]
      simp
    · rw [wofz_pp _ (by rw [hre]; linarith) (by rw [him]; linarith), wofz_np z hx (not_lt.1 hy), Complex.conj_conj]
  · have hz : -conj z = z := by apply Complex.ext <;> simp [hx]
    rw [hz]
    by_cases hy : z.im < 0
    · rw [wofz_pn z hx.ge hy, map_sub, he, hz, Complex.conj_conj]
      rw [first_imag (conj z) (by simpa using hx) (by simpa using hy.le)]
    · rw [wofz_pp z hx.ge (not_lt.1 hy), first_imag z hx (not_lt.1 hy)]
  · by_cases hy : z.im < 0
    · rw [wofz_nn _ (by rw [hre]; linarith) (by rw [him]; exact hy), wofz_pn z hx.le hy, map_sub, he, Complex.conj_conj, neg_neg]
    · rw [wofz_np _ (by rw [hre]; linarith) (by rw [him]; linarith), wofz_pp z hx.le (not_lt.1 hy), hcc]

/-- Reflection in the origin, for the upper half. -/
theorem wofz_neg_upper (z : ℂ) (hy : 0 ≤ z.im) : wofz z + wofz (-z) = 2 * Complex.exp (-z ^ 2) := by
  have hre : (-z).re = -z.re := by simp
  have him : (-z).im = -z.im := by simp
  rcases hy.lt_or_eq with hy | hy
  · rcases lt_or_ge 0 z.re with hx | hx
    · rw [wofz_pp z hx.le hy.le, wofz_nn (-z) (by rw [hre]; linarith) (by rw [him]; linarith), neg_neg, neg_sq]; ring
    · rw [wofz_pn (-z) (by rw [hre]; linarith) (by rw [him]; linarith), neg_sq, map_neg]
      rcases hx.lt_or_eq with hx | hx
      · rw [wofz_np z hx hy.le]; ring
      · have hz : -conj z = z := by apply Complex.ext <;> simp [hx]
        rw [hz, wofz_pp z hx.ge hy.le, first_imag z hx hy.le]; ring
  · have hc : conj z = z := by apply Complex.ext <;> simp [← hy]
    rcases lt_trichotomy z.re 0 with hx | hx | hx
    · rw [wofz_np z hx hy.le, wofz_pp (-z) (by rw [hre]; linarith) (by rw [him, ← hy]; simp), hc, add_comm,
        first_real (-z) (by rw [hre]; linarith) (by rw [him, ← hy]; simp), neg_sq]
    · have hz : z = 0 := Complex.ext hx hy.symm
      subst hz
      have h1 := first_imag 0 rfl le_rfl
      have h2 := first_real 0 le_rfl rfl
      rw [neg_zero, wofz_pp 0 le_rfl le_rfl]
      rw [h1] at h2
      exact h2
    · rw [wofz_pp z hx.le hy.le, wofz_np (-z) (by rw [hre]; linarith) (by rw [him, ← hy]; simp)]
      rw [map_neg, neg_neg, hc, first_real z hx.le hy.symm]

/-- Reflection in the origin: `w(z) + w(-z) = 2 exp(-z²)`, for every `z`. -/
theorem wofz_neg (z : ℂ) : wofz z + wofz (-z) = 2 * Complex.exp (-z ^ 2) := by
  rcases le_total 0 z.im with hy | hy
  · exact wofz_neg_upper z hy
  · have := wofz_neg_upper (-z) (by rw [Complex.neg_im]; linarith)
    rw [neg_neg, neg_sq] at this
    rw [← this, add_comm]

/-- On the real axis the real part is the Gaussian, without error. -/
theorem wofz_real (x : ℝ) : (wofz x).re = Real.exp (-x ^ 2) := by
  have h1 := wofz_neg x
  have h2 := wofz_conj x
  rw [Complex.conj_ofReal] at h2
  rw [h2] at h1
  have h3 := congrArg Complex.re h1
  rw [Complex.add_re, Complex.conj_re] at h3
  have h4 : (2 * Complex.exp (-(x : ℂ) ^ 2)).re = 2 * Real.exp (-x ^ 2) := by
    rw [show (2 : ℂ) * Complex.exp (-(x : ℂ) ^ 2) = ((2 * Real.exp (-x ^ 2) : ℝ) : ℂ) by push_cast; rfl]
    exact Complex.ofReal_re _
  rw [h4] at h3
  linarith

/-- On the imaginary axis the value is real. -/
theorem wofz_imag (y : ℝ) : (wofz (y * I)).im = 0 := by
  have h := wofz_conj (y * I)
  have hz : -conj ((y : ℂ) * I) = y * I := by simp
  rw [hz] at h
  exact Complex.conj_eq_iff_im.1 h.symm

theorem wofz_zero : wofz 0 = 1 := by
  have := wofz_neg 0
  rw [neg_zero] at this
  have h : Complex.exp (-(0 : ℂ) ^ 2) = 1 := by simp
  rw [h] at this
  linear_combination this / 2

end Hexrd.Special
