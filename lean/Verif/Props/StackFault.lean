import Verif.Spec.StackFault
import Mathlib.Tactic.Ring
import Mathlib.Tactic.FieldSimp
import Mathlib.Tactic.NormNum
import Mathlib.Tactic.Linarith
import Mathlib.Tactic.LinearCombination

/-! # C166: shifts and widths by stacking faults -/
namespace Hexrd.StackFault

theorem sign_spec (l : ℤ) : (3 ∣ l - sign l) ∧ (sign l = 0 ∨ sign l = 1 ∨ sign l = -1) := by
  unfold sign
  split <;> omega

theorem sign_unique (l s : ℤ) (h : 3 ∣ l - s) (hs : s = 0 ∨ s = 1 ∨ s = -1) : sign l = s := by
  have := sign_spec l
  omega

/-- **C166** the sum in the shift is the published one. -/
theorem lfact_eq (star : List H) : lfact star = Spec.signedSum star := by
  unfold lfact Spec.signedSum Spec.broadened
  induction star with
  | nil => rfl
  | cons g star ih =>
    rw [List.map_cons, List.sum_cons, ih, List.filter_cons]
    have e : Spec.level g = layer g := rfl
    obtain ⟨h1, h2⟩ := sign_spec (layer g)
    by_cases h : 3 ∣ layer g
    · have : sign (layer g) = 0 := by omega
      simp [e, h, this]
    · by_cases h' : 3 ∣ layer g - 1
      · have : sign (layer g) = 1 := by omega
        simp [e, h, h', this]
      · have : sign (layer g) = -1 := by omega
        simp [e, h, h', this]

/-- **C166** the shift of a peak at `tth` degrees is the published one. -/
theorem shift_published (alpha tth : ℝ) (h : H) (star : List H) :
    sfShift alpha tth (shiftFactor h star) = Spec.shift alpha (tth / 2 * (Real.pi / 180)) h star := by
  unfold sfShift shiftFactor Spec.shift
  rw [lfact_eq, show 1 / 2 * tth * (Real.pi / 180) = tth / 2 * (Real.pi / 180) by ring]
  have e : ((h2 h : ℤ) : ℝ) = Spec.square h := by unfold h2 Spec.square; push_cast; ring
  rw [e]
  simp only [div_eq_mul_inv, mul_inv]
  ring

/-- **C166** the order of the equivalents does not matter. -/
theorem factors_perm (h : H) (s t : List H) (p : s.Perm t) : shiftFactor h s = shiftFactor h t ∧ broadFactor h s = broadFactor h t := by
  have e1 : lfact s = lfact t := (p.map _).sum_eq
  have e2 : labs s = labs t := (p.map _).sum_eq
  simp [shiftFactor, broadFactor, e1, e2, p.length_eq]

theorem layer_order (n : ℤ) (g : H) : layer (Spec.order n g) = n * layer g := by unfold layer Spec.order; ring

theorem sign_mul (m l : ℤ) : sign (m * l) = sign m * sign l := by
  obtain ⟨⟨a, ha⟩, h2⟩ := sign_spec m
  obtain ⟨⟨b, hb⟩, h4⟩ := sign_spec l
  refine sign_unique _ _ ⟨a * l + sign m * b, ?_⟩ ?_
  · linear_combination l * ha + sign m * hb
  · rcases h2 with h | h | h <;> rcases h4 with h' | h' | h' <;> simp [h, h']

theorem lfact_order (n : ℤ) (star : List H) : lfact (star.map (Spec.order n)) = n * sign n * lfact star := by
  unfold lfact
  induction star with
  | nil => simp
  | cons g star ih =>
    simp only [List.map_cons, List.sum_cons, layer_order, sign_mul] at ih ⊢
    linear_combination ih

theorem labs_order (n : ℤ) (star : List H) : labs (star.map (Spec.order n)) = |n| * labs star := by
  unfold labs
  induction star with
  | nil => simp
  | cons g star ih =>
    simp only [List.map_cons, List.sum_cons, layer_order, abs_mul] at ih ⊢
    linear_combination ih

theorem h2_order (n : ℤ) (h : H) : h2 (Spec.order n h) = n ^ 2 * h2 h := by unfold h2 Spec.order; ring

/-- **C166** the reflection of order `n` has the factor of the first order divided by `n`, with the opposite sign if `n = 3N - 1`, and
none if three divides `n`. So the first and the second order are shifted in opposite directions. -/
theorem shift_order (n : ℤ) (hn : n ≠ 0) (h : H) (star : List H) :
    (3 ∣ n → shiftFactor (Spec.order n h) (star.map (Spec.order n)) = 0) ∧
    (3 ∣ n - 1 → shiftFactor (Spec.order n h) (star.map (Spec.order n)) = shiftFactor h star / n) ∧
    (3 ∣ n + 1 → shiftFactor (Spec.order n h) (star.map (Spec.order n)) = -(shiftFactor h star / n)) := by
  have hr : (n : ℝ) ≠ 0 := by exact_mod_cast hn
  have key : shiftFactor (Spec.order n h) (star.map (Spec.order n)) = sign n * (shiftFactor h star / n) := by
    unfold shiftFactor
    rw [lfact_order, h2_order, List.length_map]
    push_cast
    simp only [div_eq_mul_inv, mul_inv, pow_two]
    have : (n : ℝ) * (n : ℝ)⁻¹ = 1 := mul_inv_cancel₀ hr
    linear_combination (90 * √3 * (Real.pi⁻¹ * Real.pi⁻¹) * sign n * lfact star * (n : ℝ)⁻¹ * (h2 h : ℝ)⁻¹ * (star.length : ℝ)⁻¹) * this
  refine ⟨fun h => ?_, fun h => ?_, fun h => ?_⟩
  · rw [key, sign_unique n 0 (by omega) (by simp)]; simp
  · rw [key, sign_unique n 1 (by omega) (by simp)]; simp
  · rw [key, sign_unique n (-1) (by omega) (by simp)]; simp

/-- **C166** counting the opposite of every equivalent as well changes neither factor. -/
theorem friedel (h : H) (star : List H) :
    shiftFactor h (star ++ star.map (Spec.order (-1))) = shiftFactor h star ∧
    broadFactor h (star ++ star.map (Spec.order (-1))) = broadFactor h star := by
  have e1 : lfact (star ++ star.map (Spec.order (-1))) = 2 * lfact star := by
    have h1 : lfact (star ++ star.map (Spec.order (-1))) = lfact star + lfact (star.map (Spec.order (-1))) := by simp [lfact]
    rw [h1, lfact_order, sign_unique (-1) (-1) (by omega) (by simp)]; ring
  have e2 : labs (star ++ star.map (Spec.order (-1))) = 2 * labs star := by
    have h1 : labs (star ++ star.map (Spec.order (-1))) = labs star + labs (star.map (Spec.order (-1))) := by simp [labs]
    rw [h1, labs_order]; simp; ring
  have e3 : ((star ++ star.map (Spec.order (-1))).length : ℝ) = 2 * star.length := by simp; ring
  unfold shiftFactor broadFactor
  rw [e1, e2, e3]
  push_cast
  constructor
  · rw [show 90 * √3 / Real.pi ^ 2 * (2 * (lfact star : ℝ)) = 2 * (90 * √3 / Real.pi ^ 2 * lfact star) by ring,
      show (h2 h : ℝ) * (2 * star.length) = 2 * (h2 h * star.length) by ring, mul_div_mul_left _ _ (by norm_num)]
  · rw [show (h2 h : ℝ) * (2 * star.length) = 2 * (h2 h * star.length) by ring, mul_div_mul_left _ _ (by norm_num)]

/-- **C166 is false** for the width: the factor that is used grows with the order of the reflection. -/
theorem width_order_fails (n : ℤ) (hn : n ≠ 0) (h : H) (star : List H) :
    broadFactor (Spec.order n h) (star.map (Spec.order n)) = |(n : ℝ)| * broadFactor h star := by
  have hr : |(n : ℝ)| ≠ 0 := by simpa using hn
  unfold broadFactor
  rw [h2_order, labs_order, List.length_map]
  push_cast
  rw [← sq_abs (n : ℝ)]
  simp only [div_eq_mul_inv, mul_inv]
  have : |(n : ℝ)| * |(n : ℝ)|⁻¹ = 1 := mul_inv_cancel₀ hr
  linear_combination (|(n : ℝ)| * (h2 h : ℝ) * star.length * (labs star : ℝ)⁻¹) * this

theorem absSum_order (n : ℤ) (hn : ¬ (3 ∣ n)) (star : List H) : Spec.absSum (star.map (Spec.order n)) = |n| * Spec.absSum star := by
  unfold Spec.absSum Spec.broadened
  induction star with
  | nil => simp
  | cons g star ih =>
    have e : Spec.level (Spec.order n g) = n * Spec.level g := layer_order n g
    by_cases h : 3 ∣ Spec.level g
    · have h' : 3 ∣ n * Spec.level g := Dvd.dvd.mul_left h n
      simpa [List.filter_cons, e, h, h'] using ih
    · have h' : ¬ 3 ∣ n * Spec.level g := fun hc => by
        have h1 := sign_mul n (Spec.level g)
        rw [sign_unique _ 0 (by simpa using hc) (by simp)] at h1
        have h2 := sign_spec n
        have h3 := sign_spec (Spec.level g)
        rcases mul_eq_zero.1 h1.symm with h4 | h4
        · exact hn (by simpa [h4] using h2.1)
        · exact h (by simpa [h4] using h3.1)
      simp only [List.map_cons, List.filter_cons, e, h, h', not_false_eq_true, decide_true, if_true, List.sum_cons, abs_mul] at ih ⊢
      rw [ih]; ring

/-- The published factor is the same for every order that is not a multiple of three. -/
theorem published_width_order (n : ℤ) (hn : ¬ (3 ∣ n)) (h : H) (star : List H) :
    Spec.inverseSize (Spec.order n h) (star.map (Spec.order n)) = Spec.inverseSize h star := by
  have h0 : n ≠ 0 := by rintro rfl; simp at hn
  have hr : |(n : ℝ)| ≠ 0 := by simpa using h0
  have e : √(Spec.square (Spec.order n h)) = |(n : ℝ)| * √(Spec.square h) := by
    rw [show Spec.square (Spec.order n h) = (n : ℝ) ^ 2 * Spec.square h by unfold Spec.square Spec.order; push_cast; ring,
      Real.sqrt_mul (sq_nonneg _), Real.sqrt_sq_eq_abs]
  unfold Spec.inverseSize
  rw [e, absSum_order n hn, List.length_map, mul_assoc]
  push_cast
  rw [mul_div_mul_left _ _ hr]

/-- The star of 111. -/
def star111 : List H := [(1, 1, 1), (1, 1, -1), (1, -1, 1), (-1, 1, 1), (-1, -1, 1), (-1, 1, -1), (1, -1, -1), (-1, -1, -1)]

/-- The star of 200. -/
def star200 : List H := [(2, 0, 0), (0, 2, 0), (0, 0, 2), (-2, 0, 0), (0, -2, 0), (0, 0, -2)]

/-- **C166 is false** for the width: 111 and 200 are given the same factor, while the published ones are as √3/4 to 1. -/
theorem width_fails : broadFactor (1, 1, 1) star111 = 2 ∧ broadFactor (2, 0, 0) star200 = 2 ∧
    Spec.inverseSize (1, 1, 1) star111 = √3 / 4 ∧ Spec.inverseSize (2, 0, 0) star200 = 1 := by
  have a1 : labs star111 = 12 := by decide
  have a2 : labs star200 = 12 := by decide
  have b1 : Spec.absSum star111 = 6 := by decide
  have b2 : Spec.absSum star200 = 12 := by decide
  have c1 : (star111.length : ℝ) = 8 := by norm_num [star111]
  have c2 : (star200.length : ℝ) = 6 := by norm_num [star200]
  have s4 : √(4 : ℝ) = 2 := by rw [show (4 : ℝ) = 2 ^ 2 by norm_num]; exact Real.sqrt_sq (by norm_num)
  have s3 : √(3 : ℝ) ^ 2 = 3 := Real.sq_sqrt (by norm_num)
  have s3' : √(3 : ℝ) ≠ 0 := by positivity
  refine ⟨?_, ?_, ?_, ?_⟩
  · unfold broadFactor; rw [a1, c1]; norm_num [h2]
  · unfold broadFactor; rw [a2, c2]; norm_num [h2]
  · unfold Spec.inverseSize
    rw [b1, c1, show Spec.square (1, 1, 1) = 3 by norm_num [Spec.square], div_eq_div_iff (by positivity) (by norm_num)]
    push_cast; linear_combination (-8) * s3
  · unfold Spec.inverseSize
    rw [b2, c2, show Spec.square (2, 0, 0) = 4 by norm_num [Spec.square], s4]; norm_num

/-- **C166** the well-known factors 1/4 for 111 and -1/2 for 200. -/
theorem shift_known : shiftFactor (1, 1, 1) star111 = 90 * √3 / Real.pi ^ 2 * (1 / 4) ∧
    shiftFactor (2, 0, 0) star200 = 90 * √3 / Real.pi ^ 2 * (-1 / 2) := by
  have a1 : lfact star111 = 6 := by decide
  have a2 : lfact star200 = -12 := by decide
  have c1 : (star111.length : ℝ) = 8 := by norm_num [star111]
  have c2 : (star200.length : ℝ) = 6 := by norm_num [star200]
  constructor
  · unfold shiftFactor; rw [a1, c1, mul_div_assoc]; norm_num [h2]
  · unfold shiftFactor; rw [a2, c2, mul_div_assoc]; norm_num [h2]

/-- **C166** the factors are given for the face-centred group 225 only, one of each kind for every reflection, in their order. -/
theorem factors_each (sgnum : ℕ) (star : H → List H) (hkls : List H) : ((factors sgnum star hkls).isSome ↔ sgnum = 225) ∧
    ∀ a b, factors sgnum star hkls = some (a, b) → a.length = hkls.length ∧ b.length = hkls.length ∧
      ∀ (i : ℕ) (h : H), hkls[i]? = some h → a[i]? = some (shiftFactor h (star h)) ∧ b[i]? = some (broadFactor h (star h)) := by
  unfold factors
  constructor
  · split <;> simp_all
  · intro a b he
    split at he
    · simp at he
    · simp only [Option.some.injEq, Prod.mk.injEq] at he
      obtain ⟨rfl, rfl⟩ := he
      refine ⟨by simp, by simp, fun i h hi => ?_⟩
      simp [List.getElem?_map, hi]

theorem select_map {α β : Type} (f : α → β) (m : List Bool) : ∀ l : List α, select m (l.map f) = (select m l).map f := by
  induction m with
  | nil => intro l; cases l <;> rfl
  | cons b m ih => intro l; cases l <;> cases b <;> simp [select, ih]

/-- **C166** after the reflections that cannot be reached and those outside the limits are dropped, the factors still belong to the
reflections beside them. -/
theorem select_aligned (sgnum : ℕ) (star : H → List H) (hkls : List H) (allowed limit : List Bool) (a b : List ℝ)
    (h : factors sgnum star hkls = some (a, b)) :
    factors sgnum star (select limit (select allowed hkls)) = some (select limit (select allowed a), select limit (select allowed b)) := by
  unfold factors at h ⊢
  split at h
  · simp at h
  · rename_i hs
    simp only [Option.some.injEq, Prod.mk.injEq] at h
    obtain ⟨rfl, rfl⟩ := h
    simp [hs, select_map]

/-- `x[mask]` keeps what is marked, in its order. -/
theorem select_eq {α : Type} (m : List Bool) : ∀ l : List α, select m l = ((m.zip l).filter fun p => p.1).map Prod.snd := by
  induction m with
  | nil => intro l; cases l <;> rfl
  | cons b m ih => intro l; cases l <;> cases b <;> simp [select, ih]

/-- **C166** without faults nothing is shifted or widened, and both effects are proportional to the probabilities. -/
theorem faults_linear (c alpha beta tth lam a f : ℝ) : sfShift (c * alpha) tth f = c * sfShift alpha tth f ∧
    sfWidth (c * alpha) (c * beta) lam a f = c * sfWidth alpha beta lam a f ∧ sfShift 0 tth f = 0 ∧ sfWidth 0 0 lam a f = 0 := by
  unfold sfShift sfWidth
  refine ⟨by ring, by ring, by ring, by ring⟩

/-- **C166** both kinds of faults widen a line, their effects add up, and a stacking fault counts one and a half times a twin. -/
theorem faults_widen (alpha beta beta' lam a f : ℝ) (hl : 0 < lam) (ha : 0 < a) (hf : 0 < f) :
    sfWidth alpha beta lam a f = sfWidth alpha 0 lam a f + sfWidth 0 beta lam a f ∧ 2 * sfWidth alpha 0 lam a f = 3 * sfWidth 0 alpha lam a f ∧
    (beta < beta' → sfWidth alpha beta lam a f < sfWidth alpha beta' lam a f) := by
  refine ⟨by unfold sfWidth; ring, by unfold sfWidth; ring, fun h => ?_⟩
  have hk : 0 < (f * lam / a) * (180 / Real.pi) := by positivity
  have : sfWidth alpha beta' lam a f - sfWidth alpha beta lam a f = 0.9 * (beta' - beta) * ((f * lam / a) * (180 / Real.pi)) := by
    unfold sfWidth; ring
  have : 0 < 0.9 * (beta' - beta) * ((f * lam / a) * (180 / Real.pi)) := mul_pos (mul_pos (by norm_num) (by linarith)) hk
  linarith

example : select [true, false, true] [1, 2, 3] = [1, 3] := rfl

end Hexrd.StackFault
