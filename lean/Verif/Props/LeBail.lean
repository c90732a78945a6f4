import Verif.Model.LeBail
import Verif.Spec.LeBail
import Verif.Props.Stephens
import Mathlib.Algebra.BigOperators.Field
import Mathlib.Algebra.Order.BigOperators.Group.Finset
import Mathlib.Tactic.Linarith
import Mathlib.Tactic.FieldSimp
import Mathlib.Tactic.Positivity

/-! C118, C119: extraction of intensities, residuals and masked regions of powder patterns. -/

namespace Hexrd.LeBail

open Hexrd.LeBail.Spec

/-! ### Extraction -/

theorem trapz_congr (n : Nat) (x : Nat → ℝ) {f g : Nat → ℝ} (h : ∀ j < n, f j = g j) : trapz n x f = trapz n x g := by
  unfold trapz
  refine Finset.sum_congr rfl fun i hi => ?_
  rw [Finset.mem_range] at hi
  rw [h i (by omega), h (i + 1) (by omega)]

theorem trapz_sum (n m : Nat) (x : Nat → ℝ) (f : Nat → Nat → ℝ) :
    ∑ r ∈ Finset.range m, trapz n x (f r) = trapz n x fun j => ∑ r ∈ Finset.range m, f r j := by
  unfold trapz
  rw [Finset.sum_comm]
  refine Finset.sum_congr rfl fun i _ => ?_
  rw [← Finset.sum_add_distrib, Finset.mul_sum, Finset.sum_div]

theorem trapz_smul (n : Nat) (x f : Nat → ℝ) (c : ℝ) : trapz n x (fun j => c * f j) = c * trapz n x f := by
  unfold trapz
  rw [Finset.mul_sum]
  refine Finset.sum_congr rfl fun i _ => ?_
  ring

/-- C118: the extraction shares the measured intensity out among the reflections: if the simulated pattern is nowhere zero, each reflection
gets a value, and the values add up to the integral of that part of the measured pattern that is not background, point by point in the
proportion of the simulated pattern. -/
theorem extraction_shares (n m : Nat) (x yo bkg ic : Nat → ℝ) (pv : Nat → Nat → ℝ) (h : ∀ j < n, simulated m ic pv bkg j ≠ 0) :
    ∃ iobs : Nat → ℝ, (∀ r, calcIobs n x yo (simulated m ic pv bkg) (ic r) (pv r) = some (iobs r)) ∧
      ∑ r ∈ Finset.range m, iobs r = trapz n x fun j => yo j * (1 - bkg j / simulated m ic pv bkg j) := by
  refine ⟨fun r => trapz n x fun j => yo j * (ic r * pv r j) / simulated m ic pv bkg j, fun r => by unfold calcIobs; rw [if_pos h], ?_⟩
  rw [trapz_sum]
  refine trapz_congr n x fun j hj => ?_
  have := h j hj
  have e : ∑ r ∈ Finset.range m, ic r * pv r j = simulated m ic pv bkg j - bkg j := by unfold simulated; ring
  rw [← Finset.sum_div, ← Finset.mul_sum, e]
  field_simp

/-- C118: without background nothing of the measured intensity is lost. -/
theorem extraction_total (n m : Nat) (x yo ic : Nat → ℝ) (pv : Nat → Nat → ℝ) (h : ∀ j < n, simulated m ic pv (fun _ => 0) j ≠ 0) :
    ∃ iobs : Nat → ℝ, (∀ r, calcIobs n x yo (simulated m ic pv fun _ => 0) (ic r) (pv r) = some (iobs r)) ∧
      ∑ r ∈ Finset.range m, iobs r = trapz n x yo := by
  obtain ⟨iobs, h1, h2⟩ := extraction_shares n m x yo (fun _ => 0) ic pv h
  exact ⟨iobs, h1, by rw [h2]; simp⟩

/-- C118: where the simulated pattern is the measured one, the intensities are a fixed point, for profiles with the integral one. -/
theorem extraction_fixed (n m : Nat) (x bkg ic : Nat → ℝ) (pv : Nat → Nat → ℝ) (h : ∀ j < n, simulated m ic pv bkg j ≠ 0) (r : Nat)
    (ha : trapz n x (pv r) = 1) :
    calcIobs n x (simulated m ic pv bkg) (simulated m ic pv bkg) (ic r) (pv r) = some (ic r) := by
  unfold calcIobs
  rw [if_pos h, Option.some_inj]
  have : trapz n x (fun j => simulated m ic pv bkg j * (ic r * pv r j) / simulated m ic pv bkg j) = trapz n x fun j => ic r * pv r j :=
    trapz_congr n x fun j hj => by have := h j hj; field_simp
  rw [this, trapz_smul, ha, mul_one]

/-- C118: no negative intensities arise, and a reflection without intensity never gets any. -/
theorem extraction_nonneg (n : Nat) (x yo yc pv : Nat → ℝ) (ic : ℝ) (hx : ∀ i, i + 1 < n → x i ≤ x (i + 1)) (hyo : ∀ j < n, 0 ≤ yo j)
    (hyc : ∀ j < n, 0 < yc j) (hpv : ∀ j < n, 0 ≤ pv j) (hic : 0 ≤ ic) :
    ∃ i, calcIobs n x yo yc ic pv = some i ∧ 0 ≤ i ∧ (ic = 0 → i = 0) := by
  refine ⟨_, if_pos fun j hj => (hyc j hj).ne', ?_, ?_⟩
  · refine Finset.sum_nonneg fun i hi => ?_
    rw [Finset.mem_range] at hi
    have a := hx i (by omega)
    have q : ∀ j < n, 0 ≤ yo j * (ic * pv j) / yc j := fun j hj =>
      div_nonneg (mul_nonneg (hyo j hj) (mul_nonneg hic (hpv j hj))) (hyc j hj).le
    have := q i (by omega)
    have := q (i + 1) (by omega)
    have : 0 ≤ x (i + 1) - x i := by linarith
    positivity
  · rintro rfl
    simp [trapz]

/-- C118, where it fails: if the simulated pattern is zero at a point, no intensity is determined. -/
theorem extraction_fails (n : Nat) (x yo yc pv : Nat → ℝ) (ic : ℝ) : calcIobs n x yo yc ic pv = none ↔ ∃ j < n, yc j = 0 := by
  unfold calcIobs
  split
  · rename_i h
    constructor
    · intro h'; cases h'
    · rintro ⟨j, hj, e⟩; exact absurd e (h j hj)
  · rename_i h
    push Not at h
    exact ⟨fun _ => h, fun _ => rfl⟩

/-- C118, where it fails: after a change of the cell has brought reflections into the range of the pattern, the intensities of those beyond
the former number are not determined. -/
theorem iobsArray_fails (nIcalc nTth : Nat) (value : Nat → Option ℝ) (hv : ∀ r, value r ≠ none) :
    (∀ r < nTth, iobsArray nIcalc nTth value r ≠ none) ↔ nTth ≤ nIcalc := by
  unfold iobsArray
  constructor
  · intro h
    by_contra hc
    have := h nIcalc (by omega)
    rw [if_neg (by omega)] at this
    exact this rfl
  · intro h r hr
    rw [if_pos (by omega)]
    exact hv r

/-- Concrete case: two points and two reflections. -/
example : ∀ j < 2, simulated 2 (fun _ => 1) (fun r j => if r = j then 1 else 1 / 2) (fun _ => 1) j ≠ 0 := by
  intro j _
  unfold simulated
  rw [Finset.sum_range_succ, Finset.sum_range_succ, Finset.sum_range_zero]
  dsimp only
  split <;> split <;> norm_num

/-! ### Residuals -/

theorem weight_nonneg (y : ℝ) : 0 ≤ weight y := by
  unfold weight
  split
  · exact le_rfl
  · rename_i h
    have := not_le.1 h
    positivity

theorem weight_mul_sq (y : ℝ) : weight y * y ^ 2 = max y 0 := by
  unfold weight
  split
  · rename_i h; rw [max_eq_right h, zero_mul]
  · rename_i h
    have h := not_le.1 h
    rw [max_eq_left h.le]
    field_simp

theorem weight_eq_zero {y : ℝ} : weight y = 0 ↔ y ≤ 0 := by
  unfold weight
  split
  · rename_i h; exact ⟨fun _ => h, fun _ => rfl⟩
  · rename_i h
    have h' := not_le.1 h
    constructor
    · intro e; have : 0 < 1 / y := by positivity
      linarith
    · intro e; exact absurd e h

/-- C118: the vector that is minimised has the weighted sum of squares as the sum of its squares. -/
theorem errvec_squares (n : Nat) (sim expt : Nat → ℝ) :
    ∑ j ∈ Finset.range n, errvec (fun j => weight (expt j)) sim expt j ^ 2 = wss n (fun j => weight (expt j)) sim expt := by
  unfold wss errvec
  refine Finset.sum_congr rfl fun j _ => ?_
  rw [mul_pow, Real.sq_sqrt (weight_nonneg _)]

theorem wss_nonneg (n : Nat) (sim expt : Nat → ℝ) : 0 ≤ wss n (fun j => weight (expt j)) sim expt :=
  Finset.sum_nonneg fun j _ => mul_nonneg (weight_nonneg _) (sq_nonneg _)

theorem wss_zero (n : Nat) (sim expt : Nat → ℝ) :
    wss n (fun j => weight (expt j)) sim expt = 0 ↔ ∀ j < n, 0 < expt j → sim j = expt j := by
  unfold wss
  rw [Finset.sum_eq_zero_iff_of_nonneg fun j _ => mul_nonneg (weight_nonneg _) (sq_nonneg _)]
  constructor
  · intro h j hj hp
    have := h j (Finset.mem_range.2 hj)
    rcases mul_eq_zero.1 this with e | e
    · exact absurd (weight_eq_zero.1 e) (not_le.2 hp)
    · have := pow_eq_zero_iff (two_ne_zero) |>.1 e
      linarith
  · intro h j hj
    rcases le_or_gt (expt j) 0 with e | e
    · rw [weight_eq_zero.2 e, zero_mul]
    · rw [h j (Finset.mem_range.1 hj) e]; ring

theorem den_eq (n : Nat) (expt : Nat → ℝ) :
    ∑ j ∈ Finset.range n, weight (expt j) * expt j ^ 2 = ∑ j ∈ Finset.range n, max (expt j) 0 :=
  Finset.sum_congr rfl fun j _ => weight_mul_sq _

theorem den_pos (n : Nat) (expt : Nat → ℝ) : 0 < ∑ j ∈ Finset.range n, max (expt j) 0 ↔ ∃ j < n, 0 < expt j := by
  constructor
  · intro h
    by_contra hc
    push Not at hc
    have : ∑ j ∈ Finset.range n, max (expt j) 0 = 0 := Finset.sum_eq_zero fun j hj => max_eq_right (hc j (Finset.mem_range.1 hj))
    linarith
  · rintro ⟨j, hj, hp⟩
    refine Finset.sum_pos' (fun i _ => le_max_right _ _) ⟨j, Finset.mem_range.2 hj, ?_⟩
    rw [max_eq_left hp.le]; exact hp

/-- C118: the residual `r` that is reported is positive, and its square is the weighted sum of squares over the sum of the positive
intensities. It is reported if and only if some intensity is positive and the fit is not perfect at all of these. -/
theorem rwp_spec (n : Nat) (sim expt : Nat → ℝ) :
    (∀ r, rwp n (fun j => weight (expt j)) sim expt = some r →
      0 < r ∧ r ^ 2 * ∑ j ∈ Finset.range n, max (expt j) 0 = wss n (fun j => weight (expt j)) sim expt) ∧
    (rwp n (fun j => weight (expt j)) sim expt ≠ none ↔ (∃ j < n, 0 < expt j) ∧ ∃ j < n, 0 < expt j ∧ sim j ≠ expt j) := by
  have hw := wss_nonneg n sim expt
  have hz := wss_zero n sim expt
  have hd := den_pos n expt
  unfold rwp
  simp only [den_eq]
  generalize wss n (fun j => weight (expt j)) sim expt = s at *
  generalize ∑ j ∈ Finset.range n, max (expt j) 0 = d at *
  constructor
  · intro r h
    split at h
    · rename_i h1
      split at h
      · rename_i h2
        cases h
        refine ⟨Real.sqrt_pos.2 h2, ?_⟩
        rw [Real.sq_sqrt h2.le]
        field_simp
      · cases h
    · cases h
  · rw [← hd]
    constructor
    · intro h
      split at h
      · rename_i h1
        split at h
        · rename_i h2
          refine ⟨h1, ?_⟩
          by_contra hc
          push Not at hc
          rw [hz.2 hc] at h2
          simp at h2
        · exact absurd rfl h
      · exact absurd rfl h
    · rintro ⟨h1, j, hj, hp, hne⟩
      have : 0 < s := lt_of_le_of_ne hw fun e => hne (hz.1 e.symm j hj hp)
      rw [if_pos h1, if_pos (by positivity)]
      simp

/-- C118: the residual over the pattern without background and the goodness of fit. -/
theorem rwpb_gof_spec (n p : Nat) (w sim expt bkg : Nat → ℝ) :
    (∀ r, rwpb n w sim expt bkg = some r → 0 < r ∧ r ^ 2 * ∑ j ∈ Finset.range n, w j * (expt j - bkg j) ^ 2 = wss n w sim expt) ∧
    (∀ g, gof n p w sim expt = some g ↔ p < n ∧ g * (n - p) = wss n w sim expt) := by
  refine ⟨?_, ?_⟩
  · intro r h
    unfold rwpb at h
    dsimp only at h
    split at h
    · rename_i h1
      split at h
      · rename_i h2
        cases h
        refine ⟨Real.sqrt_pos.2 h2, ?_⟩
        rw [Real.sq_sqrt h2.le]
        field_simp
      · cases h
    · cases h
  · intro g
    unfold gof
    split
    · rename_i h
      have : (0 : ℝ) < n - p := sub_pos.2 (by exact_mod_cast h)
      rw [Option.some_inj, div_eq_iff this.ne']
      exact ⟨fun e => ⟨h, e.symm⟩, fun e => e.2.symm⟩
    · rename_i h
      exact ⟨fun e => by (cases e), fun e => absurd e.1 h⟩

/-- Disagreement: a perfect fit has the residual infinity, the worst. -/
theorem perfect_fit (n : Nat) (expt : Nat → ℝ) (_h : ∃ j < n, 0 < expt j) :
    rwp n (fun j => weight (expt j)) expt expt = none ∧ wss n (fun j => weight (expt j)) expt expt = 0 := by
  have h0 : wss n (fun j => weight (expt j)) expt expt = 0 := (wss_zero n expt expt).2 fun _ _ _ => rfl
  refine ⟨?_, h0⟩
  by_contra hc
  obtain ⟨-, j, -, -, hne⟩ := (rwp_spec n expt expt).2.1 hc
  exact hne rfl

/-- C118: the residual does not depend on the scale of the intensities. -/
theorem rwp_scale (n : Nat) (sim expt : Nat → ℝ) {c : ℝ} (hc : 0 < c) :
    rwp n (fun j => weight (c * expt j)) (fun j => c * sim j) (fun j => c * expt j) = rwp n (fun j => weight (expt j)) sim expt := by
  have hwt : ∀ y, weight (c * y) = weight y / c := by
    intro y
    unfold weight
    by_cases h : y ≤ 0
    · rw [if_pos h, if_pos (by nlinarith), zero_div]
    · rw [if_neg h, if_neg (by have := not_le.1 h; rw [not_le]; positivity)]
      have := not_le.1 h
      field_simp
  have e1 : wss n (fun j => weight (c * expt j)) (fun j => c * sim j) (fun j => c * expt j) =
      c * wss n (fun j => weight (expt j)) sim expt := by
    unfold wss
    rw [Finset.mul_sum]
    refine Finset.sum_congr rfl fun j _ => ?_
    simp only [hwt]
    field_simp
  have e2 : ∑ j ∈ Finset.range n, weight (c * expt j) * (c * expt j) ^ 2 = c * ∑ j ∈ Finset.range n, weight (expt j) * expt j ^ 2 := by
    rw [Finset.mul_sum]
    refine Finset.sum_congr rfl fun j _ => ?_
    rw [hwt]
    field_simp
  unfold rwp
  simp only [e1, e2, mul_pos_iff_of_pos_left hc, mul_div_mul_left _ _ hc.ne']

/-! ### The loop -/

theorem cycles_spec (del : ℝ) (r : Nat → Option ℝ) (left : Nat) (prev : Option ℝ) (k : Nat) (hl : 0 < left) :
    let c := cycles del r left prev k
    k < c ∧ c ≤ k + left ∧
      (∀ i, k ≤ i → i + 1 < c → goesOn del (if i = k then prev else r (i - 1)) (r i)) ∧
      (c < k + left → ¬ goesOn del (if c = k + 1 then prev else r (c - 2)) (r (c - 1))) := by
  induction left generalizing prev k with
  | zero => omega
  | succ left ih =>
    simp only [cycles]
    split
    · rename_i hg
      rcases Nat.eq_zero_or_pos left with rfl | hpos
      · simp only [cycles]
        refine ⟨by omega, by omega, ?_, by omega⟩
        intro i h1 h2; omega
      · obtain ⟨a, b, c, d⟩ := ih (r k) (k + 1) hpos
        refine ⟨by omega, by omega, ?_, ?_⟩
        · intro i h1 h2
          rcases Nat.eq_or_lt_of_le h1 with rfl | h1
          · rw [if_pos rfl]; exact hg
          · have := c i h1 h2
            rw [if_neg (by omega)]
            by_cases hi : i = k + 1
            · rw [if_pos hi] at this; rw [hi]; simpa [hi] using this
            · rwa [if_neg hi] at this
        · intro hlt
          have := d (by omega)
          rw [if_neg (by omega)]
          by_cases hi : cycles del r left (r k) (k + 1) = k + 1 + 1
          · rw [if_pos hi] at this; rw [hi] at this ⊢; simpa using this
          · rwa [if_neg hi] at this
    · rename_i hg
      refine ⟨by omega, by omega, ?_, ?_⟩
      · intro i h1 h2; omega
      · intro _
        rw [if_pos rfl]; simpa using hg

/-- C118: the extraction ends after at most the given number of cycles; it ends before only when the residual changes by no more than the
given amount in its last cycle, or is infinite before and after it. The residual before the first cycle counts as one. -/
theorem extraction_ends (del : ℝ) (maxIter : Nat) (r : Nat → Option ℝ) (hd : del < 1) (hm : 0 < maxIter) :
    let c := extraction del maxIter r
    0 < c ∧ c ≤ maxIter ∧ (∀ i, i + 1 < c → goesOn del (if i = 0 then some 1 else r (i - 1)) (r i)) ∧
      (c < maxIter → ¬ goesOn del (if c = 1 then some 1 else r (c - 2)) (r (c - 1))) := by
  have := cycles_spec del r maxIter (some 1) 0 hm
  unfold extraction
  rw [if_pos hd]
  simpa using this

/-- Disagreement: with a limit of one percent or more no cycle is run, and there are no intensities to return. -/
theorem extraction_none (del : ℝ) (maxIter : Nat) (r : Nat → Option ℝ) (hd : 1 ≤ del) : extraction del maxIter r = 0 := by
  unfold extraction
  rw [if_neg (not_lt.2 hd)]

example : extraction 0.05 100 (fun i => if i = 0 then some 0.5 else some 0.4999) = 2 := by
  have a : goesOn 0.05 (some 1) (some 0.5) := by unfold goesOn; dsimp only; rw [abs_of_nonpos] <;> norm_num
  have b : ¬ goesOn 0.05 (some 0.5) (some 0.4999) := by unfold goesOn; dsimp only; rw [abs_of_nonpos] <;> norm_num
  unfold extraction
  rw [if_pos (by norm_num), cycles, if_pos rfl, if_pos a, cycles, if_neg (by decide : ¬ (0 + 1 = 0)), if_neg b]

/-! ### Regions -/

def covered (g : List (Nat × Nat)) (i : Nat) : Prop := ∃ p ∈ g, p.1 ≤ i ∧ i < p.2

theorem flips_covered (bs : List Bool) (k i : Nat) :
    (covered (pairUp (flips false k bs)) i ↔ k ≤ i ∧ bs[i - k]? = some true) ∧
    (∀ s ≤ k, covered (pairUp (s :: flips true k bs)) i ↔ (s ≤ i ∧ i < k) ∨ (k ≤ i ∧ bs[i - k]? = some true)) := by
  induction bs generalizing k with
  | nil =>
    refine ⟨by simp [flips, pairUp, covered], ?_⟩
    intro s hs
    simp [flips, pairUp, covered]
  | cons b bs ih =>
    obtain ⟨h1, h2⟩ := ih (k + 1)
    have step : (k ≤ i ∧ (b :: bs)[i - k]? = some true) ↔ (i = k ∧ b = true) ∨ (k + 1 ≤ i ∧ bs[i - (k + 1)]? = some true) := by
      rcases lt_trichotomy i k with h | h | h
      · constructor
        · rintro ⟨a, -⟩; omega
        · rintro (⟨a, -⟩ | ⟨a, -⟩) <;> omega
      · subst h
        constructor
        · rintro ⟨-, a⟩; left; simpa using a
        · rintro (⟨-, a⟩ | ⟨a, -⟩)
          · simpa using a
          · omega
      · obtain ⟨d, rfl⟩ : ∃ d, i = k + 1 + d := ⟨i - (k + 1), by omega⟩
        have e : k + 1 + d - k = d + 1 := by omega
        have e' : k + 1 + d - (k + 1) = d := by omega
        rw [e, e', List.getElem?_cons_succ]
        constructor
        · rintro ⟨-, a⟩; right; exact ⟨by omega, a⟩
        · rintro (⟨a, -⟩ | ⟨-, a⟩)
          · omega
          · exact ⟨by omega, a⟩
    refine ⟨?_, ?_⟩
    · rw [step]
      cases b with
      | false => simp only [flips]; simpa using h1
      | true =>
        have := h2 k (by omega)
        simp only [flips]
        simp only [Bool.true_bne, Bool.not_false, if_true, List.singleton_append]
        rw [this]
        constructor
        · rintro (⟨a, b⟩ | h)
          · left; exact ⟨by omega, trivial⟩
          · right; exact h
        · rintro (⟨a, -⟩ | h)
          · left; omega
          · right; exact h
    · intro s hs
      rw [step]
      cases b with
      | true =>
        have := h2 s (by omega)
        simp only [flips]
        simp only [bne_self_eq_false, Bool.false_eq_true, if_false, List.nil_append]
        rw [this]
        constructor
        · rintro (⟨a, b⟩ | h)
          · rcases Nat.lt_or_ge i k with c | c
            · left; exact ⟨a, c⟩
            · right; left; exact ⟨by omega, trivial⟩
          · right; right; exact h
        · rintro (⟨a, b⟩ | ⟨a, -⟩ | h)
          · left; omega
          · left; omega
          · right; exact h
      | false =>
        simp only [flips]
        simp only [Bool.false_bne, if_true, List.singleton_append, pairUp, covered, List.mem_cons]
        constructor
        · rintro ⟨p, rfl | hp, a, b⟩
          · left; exact ⟨a, b⟩
          · right; right; exact h1.1 ⟨p, hp, a, b⟩
        · rintro (⟨a, b⟩ | ⟨-, h⟩ | h)
          · exact ⟨_, .inl rfl, a, b⟩
          · cases h
          · obtain ⟨p, hp, a, b⟩ := h1.2 h
            exact ⟨p, .inr hp, a, b⟩

theorem getElem?_step (b : Bool) (bs : List Bool) {k i : Nat} (h : k + 1 ≤ i) : (b :: bs)[i - k]? = bs[i - (k + 1)]? := by
  obtain ⟨d, rfl⟩ : ∃ d, i = k + 1 + d := ⟨i - (k + 1), by omega⟩
  have e : k + 1 + d - k = d + 1 := by omega
  have e' : k + 1 + d - (k + 1) = d := by omega
  rw [e, e', List.getElem?_cons_succ]

theorem flips_bounds (bs : List Bool) (k : Nat) :
    (∀ p ∈ pairUp (flips false k bs), k ≤ p.1 ∧ p.1 < p.2 ∧ p.2 ≤ k + bs.length ∧ bs[p.2 - k]? ≠ some true ∧
      ∀ i, i + 1 = p.1 → k ≤ i → bs[i - k]? = some false) ∧
    (∀ s < k, ∀ p ∈ pairUp (s :: flips true k bs), (p.1 = s ∨ (k < p.1 ∧ ∀ i, i + 1 = p.1 → k ≤ i → bs[i - k]? = some false)) ∧
      p.1 < p.2 ∧ k ≤ p.2 ∧ p.2 ≤ k + bs.length ∧ bs[p.2 - k]? ≠ some true) := by
  induction bs generalizing k with
  | nil =>
    refine ⟨by simp [flips, pairUp], ?_⟩
    intro s hs p hp
    simp only [flips, if_true, pairUp, List.mem_singleton] at hp
    subst hp
    simp; omega
  | cons b bs ih =>
    obtain ⟨h1, h2⟩ := ih (k + 1)
    have hA : ∀ p ∈ pairUp (flips false (k + 1) bs), b = false → k + 1 ≤ p.1 ∧ p.1 < p.2 ∧ p.2 ≤ k + (b :: bs).length ∧
        (b :: bs)[p.2 - k]? ≠ some true ∧ ∀ i, i + 1 = p.1 → k ≤ i → (b :: bs)[i - k]? = some false := by
      intro p hp hb
      obtain ⟨a1, a2, a3, a4, a5⟩ := h1 p hp
      refine ⟨a1, a2, by simp; omega, by rwa [getElem?_step _ _ (by omega)], ?_⟩
      intro i hi hk
      rcases Nat.eq_or_lt_of_le hk with rfl | hk
      · simp [hb]
      · rw [getElem?_step _ _ hk]; exact a5 i hi hk
    have hB : ∀ s ≤ k, ∀ p ∈ pairUp (s :: flips true (k + 1) bs), b = true → (p.1 = s ∨ (k + 1 < p.1 ∧
        ∀ i, i + 1 = p.1 → k ≤ i → (b :: bs)[i - k]? = some false)) ∧ p.1 < p.2 ∧ k + 1 ≤ p.2 ∧ p.2 ≤ k + (b :: bs).length ∧
        (b :: bs)[p.2 - k]? ≠ some true := by
      intro s hs p hp hb
      obtain ⟨a1, a2, a3, a4, a5⟩ := h2 s (by omega) p hp
      refine ⟨?_, a2, a3, by simp; omega, by rwa [getElem?_step _ _ (by omega)]⟩
      rcases a1 with a1 | ⟨a1, a1'⟩
      · exact .inl a1
      · refine .inr ⟨a1, fun i hi _ => ?_⟩
        rw [getElem?_step _ _ (by omega)]
        exact a1' i hi (by omega)
    refine ⟨?_, ?_⟩
    · intro p hp
      cases b with
      | false =>
        have hp' : p ∈ pairUp (flips false (k + 1) bs) := by simpa [flips] using hp
        obtain ⟨a1, a2⟩ := hA p hp' rfl
        exact ⟨by omega, a2⟩
      | true =>
        have hp' : p ∈ pairUp (k :: flips true (k + 1) bs) := by simpa [flips] using hp
        obtain ⟨a1, a2, a3, a4, a5⟩ := hB k le_rfl p hp' rfl
        refine ⟨by rcases a1 with a | a <;> omega, a2, a4, a5, fun i hi hk => ?_⟩
        rcases a1 with a | a
        · omega
        · exact a.2 i hi hk
    · intro s hs p hp
      cases b with
      | true =>
        have hp' : p ∈ pairUp (s :: flips true (k + 1) bs) := by simpa [flips] using hp
        obtain ⟨a1, a2, a3, a4, a5⟩ := hB s (by omega) p hp' rfl
        refine ⟨?_, a2, by omega, a4, a5⟩
        rcases a1 with a | a
        · exact .inl a
        · exact .inr ⟨by omega, a.2⟩
      | false =>
        have hp' : p = (s, k) ∨ p ∈ pairUp (flips false (k + 1) bs) := by simpa [flips, pairUp] using hp
        rcases hp' with rfl | hp'
        · refine ⟨.inl rfl, hs, le_rfl, by simp, by simp⟩
        · obtain ⟨a1, a2, a3, a4, a5⟩ := hA p hp' rfl
          exact ⟨.inr ⟨by omega, a5⟩, a2, by omega, a3, a4⟩

/-- C119: the regions of a masked pattern are the longest runs of used points, and every used point is in one of them. -/
theorem regions_spec {α : Type} (values : List α) (used : List Bool) :
    (∀ p ∈ (separateRegions values used).2, IsRegion used p.1 p.2) ∧
    (∀ i, used[i]? = some true ↔ ∃ p ∈ (separateRegions values used).2, p.1 ≤ i ∧ i < p.2) := by
  have hc : ∀ i, covered (pairUp (flips false 0 used)) i ↔ used[i]? = some true := fun i => by simpa using (flips_covered used 0 i).1
  refine ⟨?_, fun i => (hc i).symm⟩
  intro p hp
  obtain ⟨-, a2, a3, a4, a5⟩ := (flips_bounds used 0).1 p hp
  exact ⟨a2, by simpa using a3, fun i h1 h2 => (hc i).1 ⟨p, hp, h1, h2⟩, fun i hi => by simpa using a5 i hi (Nat.zero_le _), by simpa using a4⟩

theorem assign_length {α : Type} {out : List (Option α)} {a b : Nat} {s : List α} (hab : a ≤ b) (hb : b ≤ out.length)
    (hs : s.length = b - a) : (assign out a b s).length = out.length := by
  unfold assign
  simp
  omega

theorem assign_get {α : Type} {out : List (Option α)} {a b : Nat} {s : List α} (hab : a ≤ b) (hb : b ≤ out.length)
    (hs : s.length = b - a) (i : Nat) : (assign out a b s)[i]? = if a ≤ i ∧ i < b then s[i - a]?.map some else out[i]? := by
  have l1 : (out.take a).length = a := by simp; omega
  have l2 : (out.take a ++ s.map some).length = b := by simp; omega
  unfold assign
  rcases Nat.lt_or_ge i b with h | h
  · rw [List.getElem?_append_left (by omega)]
    rcases Nat.lt_or_ge i a with h' | h'
    · rw [List.getElem?_append_left (by omega), if_neg (by omega), List.getElem?_take, if_pos h']
    · rw [List.getElem?_append_right (by omega), if_pos ⟨h', h⟩, l1, List.getElem?_map]
  · rw [List.getElem?_append_right (by omega), if_neg (by omega), l2, List.getElem?_drop]
    congr 1
    omega

theorem zip_pieces {α β : Type} (f : α → β) (l : List α) : (l.map f).zip l = l.map fun p => (f p, p) := by
  induction l with
  | nil => rfl
  | cons a l ih => simp [ih]

theorem join_fold {α : Type} (values : List α) (g : List (Nat × Nat)) (out : List (Option α)) (hl : out.length = values.length)
    (hg : ∀ p ∈ g, p.1 ≤ p.2 ∧ p.2 ≤ values.length) (hout : ∀ (i : Nat) (v : α), out[i]? = some (some v) → values[i]? = some v) :
    let res := (g.map fun p => ((values.take p.2).drop p.1, p)).foldl (fun out p => assign out p.2.1 p.2.2 p.1) out
    res.length = values.length ∧ ∀ i, (covered g i → res[i]? = values[i]?.map some) ∧ (¬ covered g i → res[i]? = out[i]?) := by
  induction g generalizing out with
  | nil => exact ⟨hl, fun i => ⟨fun h => by (obtain ⟨p, hp, -⟩ := h; cases hp), fun _ => rfl⟩⟩
  | cons p g ih =>
    obtain ⟨h1, h2⟩ := hg p List.mem_cons_self
    have hs : ((values.take p.2).drop p.1).length = p.2 - p.1 := by simp; omega
    have hget := assign_get (out := out) h1 (by omega) hs
    have hval : ∀ i, p.1 ≤ i → i < p.2 → ((values.take p.2).drop p.1)[i - p.1]? = values[i]? := by
      intro i a b
      rw [List.getElem?_drop, List.getElem?_take, show p.1 + (i - p.1) = i by omega, if_pos b]
    have hlen := assign_length (out := out) h1 (by omega) hs
    simp only [List.map_cons, List.foldl_cons]
    obtain ⟨a, b⟩ := ih (assign out p.1 p.2 ((values.take p.2).drop p.1)) (by omega) (fun q hq => hg q (List.mem_cons_of_mem _ hq)) (by
      intro i v hv
      rw [hget] at hv
      split at hv
      · rename_i hi
        rw [hval i hi.1 hi.2] at hv
        simpa using hv
      · exact hout i v hv)
    refine ⟨a, fun i => ?_⟩
    obtain ⟨b1, b2⟩ := b i
    by_cases hc : covered g i
    · refine ⟨fun _ => b1 hc, fun hn => absurd ?_ hn⟩
      obtain ⟨q, hq, hq'⟩ := hc
      exact ⟨q, List.mem_cons_of_mem _ hq, hq'⟩
    · rw [b2 hc, hget]
      constructor
      · rintro ⟨q, hq, hq'⟩
        rcases List.mem_cons.1 hq with rfl | hq
        · rw [if_pos hq', hval i hq'.1 hq'.2]
        · exact absurd ⟨q, hq, hq'⟩ hc
      · intro hn
        rw [if_neg]
        exact fun hp => hn ⟨p, List.mem_cons_self, hp⟩

/-- C119: joining the regions of a pattern gives the pattern back, with NaN exactly at the points that are not used. -/
theorem join_separate {α : Type} (values : List α) (used : List Bool) (h : used.length = values.length) :
    joinRegions (separateRegions values used).1 (separateRegions values used).2 values.length = masked values used := by
  have hg := (flips_bounds used 0).1
  have hc : ∀ i, covered (pairUp (flips false 0 used)) i ↔ used[i]? = some true := fun i => by simpa using (flips_covered used 0 i).1
  obtain ⟨a, b⟩ := join_fold values (pairUp (flips false 0 used)) (List.replicate values.length none) (by simp)
    (fun p hp => ⟨(hg p hp).2.1.le, by have := (hg p hp).2.2.1; omega⟩) (by
      intro i v hv
      rw [List.getElem?_replicate] at hv
      split at hv <;> simp at hv)
  have e : joinRegions (separateRegions values used).1 (separateRegions values used).2 values.length =
      ((pairUp (flips false 0 used)).map fun p => ((values.take p.2).drop p.1, p)).foldl (fun out p => assign out p.2.1 p.2.2 p.1)
        (List.replicate values.length none) := by
    unfold joinRegions separateRegions
    rw [zip_pieces]
  rw [e]
  apply List.ext_getElem?
  intro i
  unfold masked
  rw [List.getElem?_zipWith]
  obtain ⟨b1, b2⟩ := b i
  rcases Nat.lt_or_ge i values.length with hi | hi
  · rw [List.getElem?_eq_getElem hi, List.getElem?_eq_getElem (by omega : i < used.length)]
    by_cases hu : used[i] = true
    · have := b1 ((hc i).2 (by rw [List.getElem?_eq_getElem (by omega), hu]))
      rw [this]
      simp [hi, hu]
    · have := b2 (fun hh => hu (by have := (hc i).1 hh; rw [List.getElem?_eq_getElem (by omega)] at this; simpa using this))
      rw [this]
      simp [hi, hu]
  · rw [List.getElem?_eq_none (by omega), List.getElem?_eq_none hi]

theorem assign_map {α β : Type} (f : α → β) (out : List (Option α)) (a b : Nat) (s : List α) :
    assign (out.map (Option.map f)) a b (s.map f) = (assign out a b s).map (Option.map f) := by
  unfold assign
  simp [List.map_take, List.map_drop, Function.comp_def]

/-- C119: what is computed region by region and joined, such as a background, is what is computed at every used point. -/
theorem join_map {α β : Type} (f : α → β) (values : List α) (used : List Bool) (h : used.length = values.length) :
    joinRegions ((separateRegions values used).1.map (List.map f)) (separateRegions values used).2 values.length =
      (masked values used).map (Option.map f) := by
  rw [← join_separate values used h]
  unfold joinRegions
  have e : List.replicate values.length (none : Option β) = (List.replicate values.length (none : Option α)).map (Option.map f) := by simp
  rw [e]
  generalize List.replicate values.length (none : Option α) = out
  generalize (separateRegions values used).1 = ps
  generalize (separateRegions values used).2 = g
  induction ps generalizing g out with
  | nil => simp
  | cons p ps ih =>
    cases g with
    | nil => simp
    | cons q g =>
      simp only [List.map_cons, List.zip_cons_cons, List.foldl_cons]
      rw [assign_map, ih]

example : separateRegions [10, 11, 12, 13, 14, 15] [true, false, true, true, false, true] = ([[10], [12, 13], [15]], [(0, 1), (2, 4), (5, 6)]) := by
  decide

/-! ### Background and steps -/

/-- C119: a new degree of the background keeps the coefficients up to it, and those that are new are zero. -/
theorem resizeBkg_spec (degree : Nat) (coef : List ℝ) :
    (resizeBkg degree coef).length = degree + 1 ∧ ∀ i ≤ degree, (resizeBkg degree coef).getD i 0 = coef.getD i 0 := by
  unfold resizeBkg
  split
  · refine ⟨by simp; omega, fun i hi => ?_⟩
    simp only [List.getD_eq_getElem?_getD, List.getElem?_take]
    rw [if_pos (by omega)]
  · split
    · refine ⟨by simp; omega, fun i hi => ?_⟩
      simp only [List.getD_eq_getElem?_getD]
      rcases Nat.lt_or_ge i coef.length with h | h
      · rw [List.getElem?_append_left h]
      · rw [List.getElem?_append_right h, List.getElem?_eq_none h, List.getElem?_replicate]
        split <;> rfl
    · exact ⟨by omega, fun _ _ => rfl⟩

/-- Disagreement: the step of a pattern with equidistant points is too small by one part in the number of points. -/
theorem tthStep_fails (a s : ℝ) (n : Nat) (hn : 1 < n) (hs : 0 < s) : tthStep a (a + (n - 1) * s) n = s * (1 - 1 / n) ∧
    tthStep a (a + (n - 1) * s) n < s := by
  have hn' : (1 : ℝ) < n := by exact_mod_cast hn
  have e : tthStep a (a + (n - 1) * s) n = s * (1 - 1 / n) := by
    unfold tthStep
    rw [if_pos hn]
    field_simp
    ring
  refine ⟨e, ?_⟩
  rw [e]
  have : 0 < 1 / (n : ℝ) := by positivity
  nlinarith

/-! ### Several phases -/

/-- C119, what holds: the first phase gets the broadening of its own parameters. -/
theorem updateShkl_first (p : Phase) (ps : List Phase) (d : Fin 15 → ℝ) :
    (updateShkl [] d (p :: ps)).head? = some (Stephens.fill p.names p.value p.eqConst) := by
  unfold updateShkl
  simp only [List.nil_append, List.head?_cons, Option.some_inj]
  unfold Stephens.fill
  congr 1
  funext i
  split
  · rename_i h; exact if_pos h
  · rfl

open Hexrd.SpaceGroup in
/-- Disagreement: a cubic phase after a triclinic phase has the mixed terms of that phase, and its broadening is not cubic: (110) and its
equivalent (1 -1 0) have different widths, although all parameters of the cubic phase are zero. -/
theorem updateShkl_leaks : ∃ s t, updateShkl [] (fun _ => 0)
      [⟨(Stephens.rqdShkl .triclinic).1, (Stephens.rqdShkl .triclinic).2, fun i => if i = 6 then 1 else 0⟩,
        ⟨(Stephens.rqdShkl .cubic).1, (Stephens.rqdShkl .cubic).2, fun _ => 0⟩] = [s, t] ∧
    Stephens.gammaSqr t 1 1 0 = 2 ∧ Stephens.gammaSqr t 1 (-1) 0 = -2 := by
  refine ⟨_, _, rfl, ?_, ?_⟩ <;>
  · simp [Stephens.gammaSqr, Stephens.fill, Stephens.rqdShkl, Stephens.constrain]

end Hexrd.LeBail
