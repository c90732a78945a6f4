import Verif.Spec.Composition
import Mathlib.Algebra.BigOperators.Ring.List
import Mathlib.Algebra.Order.BigOperators.Group.List
import Mathlib.Algebra.BigOperators.Group.Finset.Basic
import Mathlib.Algebra.Order.BigOperators.Group.Finset
import Mathlib.Tactic.Positivity
import Mathlib.Tactic.FieldSimp
import Mathlib.Tactic.Linarith
import Mathlib.Analysis.Real.Pi.Bounds

/-!
# C123: densities and scattering factors of a chemical composition
-/

namespace Hexrd.Composition

open Spec

variable {ε : Type}

theorem foldl_sum (l : Formula ε) (g : ε × ℝ → ℝ) (a : ℝ) : l.foldl (fun r e => r + g e) a = a + (l.map g).sum := by
  induction l generalizing a with
  | nil => simp
  | cons e l ih => rw [List.foldl_cons, ih, List.map_cons, List.sum_cons]; ring

theorem sum_div (l : List ℝ) (c : ℝ) : (l.map (· / c)).sum = l.sum / c := by
  induction l with
  | nil => simp
  | cons a l ih => rw [List.map_cons, List.sum_cons, ih, List.sum_cons]; ring

theorem normalize_fold (f : Formula ε) (g : ε → ℝ) : (normalize f).foldl (fun r e => r + e.2 * g e.1) 0 = mean g f := by
  rw [foldl_sum _ (fun e => e.2 * g e.1), zero_add]
  unfold normalize mean
  dsimp only
  rw [List.map_map, ← sum_div, List.map_map]
  congr 1
  apply List.map_congr_left
  intro e _
  simp only [Function.comp]
  ring

/-- C123: the abundances add up to one, are in the same proportions, and stay the same when normalised again or when all are multiplied by
a number. -/
theorem normalize_spec (f : Formula ε) (h : Ok f) : ((normalize f).map Prod.snd).sum = 1 ∧ (normalize f).map Prod.fst = f.map Prod.fst ∧
    Ok (normalize f) ∧ normalize (normalize f) = normalize f ∧ ∀ k : ℝ, k ≠ 0 → normalize (f.map fun e => (e.1, k * e.2)) = normalize f := by
  have hs := h.2.ne'
  have h1 : ((normalize f).map Prod.snd).sum = 1 := by
    unfold normalize
    dsimp only
    rw [List.map_map, show (Prod.snd ∘ fun e : ε × ℝ => (e.1, e.2 / (f.map Prod.snd).sum)) = (· / (f.map Prod.snd).sum) ∘ Prod.snd from rfl,
      ← List.map_map, sum_div, div_self hs]
  refine ⟨h1, ?_, ⟨?_, by rw [h1]; exact one_pos⟩, ?_, fun k hk => ?_⟩
  · unfold normalize; dsimp only; rw [List.map_map]; rfl
  · unfold normalize
    intro e he
    obtain ⟨e', he', rfl⟩ := List.mem_map.1 he
    exact div_nonneg (h.1 e' he') h.2.le
  · generalize normalize f = g at h1
    unfold normalize
    dsimp only
    rw [h1]
    simp
  · have hsum : ((f.map fun e => (e.1, k * e.2)).map Prod.snd).sum = k * (f.map Prod.snd).sum := by
      rw [List.map_map, ← List.sum_map_mul_left]; rfl
    unfold normalize
    dsimp only
    rw [hsum, List.map_map]
    apply List.map_congr_left
    intro e _
    simp only [Function.comp]
    rw [mul_div_mul_left _ _ hk]

theorem molecularMass_eq (w : ε → ℝ) (f : Formula ε) : molecularMass w f = (f.map fun e => e.2 * w e.1).sum := by
  unfold molecularMass
  rw [foldl_sum _ (fun e => e.2 * w e.1), zero_add]

/-- C123: the number density is the number of formula units per cubic nanometre: times the mass of a unit it is the density (in grams per
cubic centimetre, with 10²¹ cubic nanometres). -/
theorem numberDensity_spec (w : ε → ℝ) (d : ℝ) (f : Formula ε) (hw : ∀ e ∈ f, 0 < w e.1) (h : Ok f) :
    0 < molecularMass w f ∧ numberDensity w d f * 1e21 * (molecularMass w f / avogadro) = d := by
  have hm : 0 < molecularMass w f := by
    rw [molecularMass_eq]
    by_contra hn
    have hnn : ∀ x ∈ f.map (fun e => e.2 * w e.1), 0 ≤ x := by
      intro x hx
      obtain ⟨e, he, rfl⟩ := List.mem_map.1 hx
      exact mul_nonneg (h.1 e he) (hw e he).le
    have h0 : (f.map fun e => e.2 * w e.1).sum = 0 := le_antisymm (not_lt.1 hn) (List.sum_nonneg hnn)
    have hall : ∀ x ∈ f.map (fun e => e.2 * w e.1), x = 0 := fun x hx => List.all_zero_of_le_zero_le_of_sum_eq_zero hnn h0 hx
    have : (f.map Prod.snd).sum = 0 := by
      apply List.sum_eq_zero
      intro x hx
      obtain ⟨e, he, rfl⟩ := List.mem_map.1 hx
      have := hall _ (List.mem_map_of_mem (f := fun e : ε × ℝ => e.2 * w e.1) he)
      exact (mul_eq_zero.1 this).resolve_right (hw e he).ne'
    exact h.2.ne' this
  refine ⟨hm, ?_⟩
  unfold numberDensity avogadro
  field_simp
  norm_num
  ring

/-- C123: the two densities agree: atoms per cubic ångström are formula units per cubic nanometre, times the atoms of a unit, over a
thousand, up to the digits of Avogadro's number (2014 and 2019 values). -/
theorem densities_agree (w : ε → ℝ) (d : ℝ) (f : Formula ε) (hw : ∀ e ∈ f, 0 < w e.1) (h : Ok f) :
    atomsPerA3 w f d = numberDensity w d f * (f.map Prod.snd).sum / 1000 * (0.602214129 / 0.602214076) := by
  have hm := (numberDensity_spec w d f hw h).1
  have hs := h.2
  unfold atomsPerA3 numberDensity avogadro
  dsimp only
  rw [normalize_fold f w, mean, ← molecularMass_eq]
  field_simp
  norm_num
  ring

/-- **False of the documentation** ("number density is the number of atoms per unit volume"): the number is that of the formula units. -/
theorem numberDensity_fails : ∃ (f : Formula Bool) (w : Bool → ℝ) (d : ℝ), Ok f ∧ (∀ e ∈ f, 0 < w e.1) ∧
    numberDensity w d f * 2 < atomsPerA3 w f d * 1000 := by
  refine ⟨[(true, 2), (false, 1)], fun _ => 1, 1, ⟨by simp, by norm_num⟩, by simp, ?_⟩
  rw [densities_agree _ _ _ (by simp) ⟨by simp, by norm_num⟩]
  have e : numberDensity (fun _ => 1) 1 [(true, 2), (false, 1)] = 1e-21 * 6.02214076e23 / 3 := by
    unfold numberDensity avogadro molecularMass
    norm_num
  rw [e]
  norm_num

/-- The two means of the factors. -/
theorem factor_means (g : ε → ℝ) (f : Formula ε) : fSquaredMean g f = mean (fun e => g e ^ 2) f ∧ fMeanSquared g f = mean g f ^ 2 := by
  unfold fSquaredMean fMeanSquared
  rw [normalize_fold f (fun e => g e ^ 2), normalize_fold f g]
  exact ⟨rfl, rfl⟩

/-- C123: the square of the mean is at most the mean of the squares; their difference is the mean squared deviation. -/
theorem variance (g : ε → ℝ) (f : Formula ε) (h : Ok f) : fSquaredMean g f - fMeanSquared g f = mean (fun e => (g e - mean g f) ^ 2) f ∧
    0 ≤ mean (fun e => (g e - mean g f) ^ 2) f := by
  have hs := h.2
  obtain ⟨e1, e2⟩ := factor_means g f
  constructor
  · rw [e1, e2]
    have hsum : ∀ m : ℝ, (f.map fun e => e.2 * (g e.1 - m) ^ 2).sum =
        (f.map fun e => e.2 * g e.1 ^ 2).sum - 2 * m * (f.map fun e => e.2 * g e.1).sum + m ^ 2 * (f.map Prod.snd).sum := by
      intro m
      clear e1 e2 hs h
      induction f with
      | nil => simp
      | cons e f ih => simp only [List.map_cons, List.sum_cons, ih]; ring
    have hm : (f.map fun e => e.2 * g e.1).sum = mean g f * (f.map Prod.snd).sum := by unfold mean; field_simp
    generalize mean g f = m at hm
    unfold mean
    rw [hsum m, hm]
    field_simp
    ring
  · unfold mean
    apply div_nonneg _ hs.le
    apply List.sum_nonneg
    intro x hx
    obtain ⟨e, he, rfl⟩ := List.mem_map.1 hx
    exact mul_nonneg (h.1 e he) (sq_nonneg _)

/-- The mean of one kind of atom is its value. -/
theorem mean_one (g : ε → ℝ) (a : ε) (v : ℝ) (hv : v ≠ 0) : mean g [(a, v)] = g a := by
  unfold mean; simp; field_simp

theorem coherent_eq (t : Scat) (q : ℝ) : coherent t q = t.const + ∑ j, t.amp j * Real.exp (-t.rate j * (q / (4 * Real.pi))) := by
  unfold coherent
  simp only [List.finRange, Fin.sum_univ_five]
  simp [List.ofFn, Fin.foldr, Fin.foldr.loop]
  ring

/-- C123 (no momentum transfer): without momentum transfer the factor is the tabulated one. What is missing: see `coherent_fails`. -/
theorem coherent_partial (t : Scat) : coherent t 0 = waasmaier t.amp t.rate t.const 0 := by
  rw [coherent_eq]; unfold waasmaier; simp

/-- **False of the code**: the exponent has sin(theta)/lambda instead of its square, so for every momentum transfer between 0 and 4 pi the
factor is too small (for any table of non-negative amplitudes and rates, with one of each positive). -/
theorem coherent_fails (t : Scat) (q : ℝ) (h0 : 0 < q) (h1 : q < 4 * Real.pi) (ha : ∀ j, 0 ≤ t.amp j) (hr : ∀ j, 0 ≤ t.rate j)
    (hp : ∃ j, 0 < t.amp j ∧ 0 < t.rate j) : coherent t q < waasmaier t.amp t.rate t.const q := by
  rw [coherent_eq]
  unfold waasmaier
  have hpi := Real.pi_pos
  have hs0 : 0 < q / (4 * Real.pi) := by positivity
  have hs1 : q / (4 * Real.pi) < 1 := by rw [div_lt_one (by positivity)]; exact h1
  have hsq : (q / (4 * Real.pi)) ^ 2 < q / (4 * Real.pi) := by nlinarith
  have hle : ∀ j, t.amp j * Real.exp (-t.rate j * (q / (4 * Real.pi))) ≤ t.amp j * Real.exp (-t.rate j * (q / (4 * Real.pi)) ^ 2) := by
    intro j
    apply mul_le_mul_of_nonneg_left _ (ha j)
    rw [Real.exp_le_exp]
    nlinarith [hr j]
  obtain ⟨j, hj1, hj2⟩ := hp
  have := Finset.sum_lt_sum (s := Finset.univ) (fun i _ => hle i) ⟨j, Finset.mem_univ _, by
    apply mul_lt_mul_of_pos_left _ hj1
    rw [Real.exp_lt_exp]
    nlinarith⟩
  linarith

/-- **False of the code**: the incoherent scattering of an element is squared; that of a single element with the factor 3 is 9. For a
composition the shares are squared too. -/
theorem incoherent_fails : ∃ (f : Formula Unit) (inc : Unit → ℝ), Ok f ∧ mean inc f = 3 ∧ incoherent inc f = 9 := by
  refine ⟨[((), 2)], fun _ => 3, ⟨by simp, by norm_num⟩, mean_one _ _ _ (by norm_num), ?_⟩
  unfold incoherent normalize
  norm_num

/-! ### The hypotheses can be met: water -/

example : fSquaredMean (fun b : Bool => if b then 1 else 8) [(true, 2), (false, 1)] - fMeanSquared (fun b : Bool => if b then 1 else 8) [(true, 2), (false, 1)] =
    mean (fun b : Bool => ((if b then 1 else 8) - mean (fun b : Bool => if b then 1 else 8) [(true, 2), (false, 1)]) ^ 2) [(true, 2), (false, 1)] :=
  (variance _ _ ⟨by simp, by norm_num⟩).1

end Hexrd.Composition
