import Verif.Spec.Diffuse
import Verif.Props.Params
import Verif.Props.Pattern
import Verif.Props.PowderPeak
import Verif.Props.LeBail
import Mathlib.MeasureTheory.Integral.IntervalIntegral.FundThmCalculus
import Mathlib.Analysis.SpecialFunctions.Log.Deriv
import Mathlib.Analysis.SpecialFunctions.Integrals.Basic

/-!
# C122: amorphous and thermal diffuse scattering
-/

namespace Hexrd.Diffuse

open Hexrd.Params (Name Par Pars fixed addAll)
open Hexrd.Pattern (Pts interp)
open Hexrd.Pattern.Spec (Increasing Covered LinAt)
open Hexrd.PowderPeak (splitUnitGaussian splitUnitPv)
open Spec

/-! ## Thermal diffuse scattering -/

/-- C122: the sphere that replaces the Brillouin zone has the volume of the zone: the number of lattice points of the cubic cell, four for
the face centred and two for the body centred lattice. -/
theorem agm_volume : 4 / 3 * Real.pi * agm 225 ^ 3 = 4 ∧ 4 / 3 * Real.pi * agm 229 ^ 3 = 2 := by
  have h : ∀ y : ℝ, 0 ≤ y → (y ^ (1 / 3 : ℝ)) ^ 3 = y := by
    intro y hy
    rw [← Real.rpow_natCast, ← Real.rpow_mul hy]
    norm_num
  have hp := Real.pi_pos
  unfold agm
  rw [if_neg (by norm_num), if_pos rfl, h _ (by positivity), h _ (by positivity)]
  constructor
  · field_simp
  · field_simp; norm_num

theorem agm_pos (n : ℕ) : 0 < agm n := by
  have hp := Real.pi_pos
  unfold agm
  split <;> positivity

/-- The mean of the strength over the sphere of the zone is one. -/
theorem zone_mean {am : ℝ} (h : 0 < am) : (∫ r in (0 : ℝ)..am, zone am r * (4 * Real.pi * r ^ 2)) = 4 / 3 * Real.pi * am ^ 3 := by
  have : ∫ r in (0 : ℝ)..am, zone am r * (4 * Real.pi * r ^ 2) = ∫ _ in (0 : ℝ)..am, 4 / 3 * Real.pi * am ^ 2 := by
    apply intervalIntegral.integral_congr_ae
    have hne : ∀ᵐ r : ℝ ∂MeasureTheory.volume, r ≠ am := by
      rw [MeasureTheory.ae_iff]
      simp
    filter_upwards [hne] with r hr hm
    rw [Set.uIoc_of_le h.le] at hm
    unfold zone
    rw [if_pos (lt_of_le_of_ne hm.2 hr)]
    have : r ≠ 0 := hm.1.ne'
    field_simp
  rw [this, intervalIntegral.integral_const, sub_zero, smul_eq_mul]
  ring

/-- C122: the contribution of a ring of reflections is, for each reflection of the ring, the mean over all orientations of the strength of
the zone around it. -/
theorem warren_mean {am x X : ℝ} (hx : 0 < x) (hX : 0 < X) (hne : x ≠ X) (ha : 0 < am) (ham : am ≤ x + X) :
    ∃ w, warren am x X = some w ∧ am ^ 2 * (1 / X) / (6 * x) * w = sphereMean (zone am) x X := by
  have hd : x - X ≠ 0 := sub_ne_zero.2 hne
  have hd' : 0 < |x - X| := abs_pos.2 hd
  unfold warren
  rw [if_neg hd]
  refine ⟨_, rfl, ?_⟩
  have hxX : 0 < 2 * x * X := by positivity
  have hlow : |x - X| ^ 2 = x ^ 2 + X ^ 2 - 2 * x * X := by rw [sq_abs]; ring
  have hr : ∀ c : ℝ, c ≤ 1 → |x - X| ^ 2 ≤ x ^ 2 + X ^ 2 - 2 * x * X * c := by
    intro c hc; rw [hlow]; nlinarith
  have hz : ∀ c : ℝ, c ≤ 1 → ((am ^ 2 ≤ x ^ 2 + X ^ 2 - 2 * x * X * c → zone am √(x ^ 2 + X ^ 2 - 2 * x * X * c) = 0) ∧
      (x ^ 2 + X ^ 2 - 2 * x * X * c < am ^ 2 → zone am √(x ^ 2 + X ^ 2 - 2 * x * X * c) = am ^ 2 / (3 * (x ^ 2 + X ^ 2 - 2 * x * X * c)))) := by
    intro c hc
    have h0 : 0 ≤ x ^ 2 + X ^ 2 - 2 * x * X * c := (sq_nonneg _).trans (hr c hc)
    unfold zone
    constructor
    · intro h
      rw [if_neg (not_lt.2 (Real.le_sqrt_of_sq_le h))]
    · intro h
      rw [if_pos ((Real.sqrt_lt' ha).2 h), Real.sq_sqrt h0]
  unfold sphereMean
  by_cases hc : 1 < am / |x - X|
  · rw [if_pos hc]
    have hlt : |x - X| < am := (one_lt_div hd').1 hc
    set c0 := (x ^ 2 + X ^ 2 - am ^ 2) / (2 * x * X) with hc0
    have hsq : |x - X| ^ 2 < am ^ 2 := by nlinarith
    have hc0' : 2 * x * X * c0 = x ^ 2 + X ^ 2 - am ^ 2 := by rw [hc0]; field_simp
    have hle1 : c0 < 1 := by
      rw [hc0, div_lt_one hxX]; rw [hlow] at hsq; linarith
    have hge : -1 ≤ c0 := by
      rw [hc0, le_div_iff₀ hxX]; nlinarith
    have hpos : ∀ c ∈ Set.uIcc c0 1, 0 < x ^ 2 + X ^ 2 - 2 * x * X * c := by
      intro c hcm
      rw [Set.uIcc_of_le hle1.le] at hcm
      exact lt_of_lt_of_le (by positivity) (hr c hcm.2)
    have hderiv : ∀ c ∈ Set.uIcc c0 1, HasDerivAt (fun c => -(am ^ 2 / (6 * x * X)) * Real.log (x ^ 2 + X ^ 2 - 2 * x * X * c))
        (am ^ 2 / (3 * (x ^ 2 + X ^ 2 - 2 * x * X * c))) c := by
      intro c hcm
      have hp := hpos c hcm
      have h1 : HasDerivAt (fun c : ℝ => x ^ 2 + X ^ 2 - 2 * x * X * c) (-(2 * x * X)) c := by
        have := ((hasDerivAt_id c).const_mul (2 * x * X)).const_sub (x ^ 2 + X ^ 2)
        simpa using this
      have h2 := (h1.log hp.ne').const_mul (-(am ^ 2 / (6 * x * X)))
      refine h2.congr_deriv ?_
      have h3 := hp.ne'
      have h4 := hx.ne'
      have h5 := hX.ne'
      generalize x ^ 2 + X ^ 2 - 2 * x * X * c = u at h3 ⊢
      field_simp
      ring
    have hcont : IntervalIntegrable (fun c => am ^ 2 / (3 * (x ^ 2 + X ^ 2 - 2 * x * X * c))) MeasureTheory.volume c0 1 := by
      apply ContinuousOn.intervalIntegrable
      apply ContinuousOn.div continuousOn_const (by fun_prop)
      intro c hcm
      have := hpos c hcm
      positivity
    have hI2 : ∫ c in c0..1, zone am √(x ^ 2 + X ^ 2 - 2 * x * X * c) = ∫ c in c0..1, am ^ 2 / (3 * (x ^ 2 + X ^ 2 - 2 * x * X * c)) := by
      apply intervalIntegral.integral_congr_ae
      refine Filter.Eventually.of_forall fun c hcm => ?_
      rw [Set.uIoc_of_le hle1.le] at hcm
      refine (hz c hcm.2).2 ?_
      have : 2 * x * X * c0 < 2 * x * X * c := mul_lt_mul_of_pos_left hcm.1 hxX
      linarith
    have hI1 : ∫ c in (-1 : ℝ)..c0, zone am √(x ^ 2 + X ^ 2 - 2 * x * X * c) = 0 := by
      rw [show (0 : ℝ) = ∫ _ in (-1 : ℝ)..c0, (0 : ℝ) by simp]
      apply intervalIntegral.integral_congr_ae
      refine Filter.Eventually.of_forall fun c hcm => ?_
      rw [Set.uIoc_of_le hge] at hcm
      refine (hz c (hcm.2.trans hle1.le)).1 ?_
      have : 2 * x * X * c ≤ 2 * x * X * c0 := mul_le_mul_of_nonneg_left hcm.2 hxX.le
      linarith
    have hint1 : IntervalIntegrable (fun c => zone am √(x ^ 2 + X ^ 2 - 2 * x * X * c)) MeasureTheory.volume (-1) c0 := by
      refine (intervalIntegrable_const (c := (0 : ℝ))).congr ?_
      intro c hcm
      rw [Set.uIoc_of_le hge] at hcm
      refine ((hz c (hcm.2.trans hle1.le)).1 ?_).symm
      have : 2 * x * X * c ≤ 2 * x * X * c0 := mul_le_mul_of_nonneg_left hcm.2 hxX.le
      linarith
    have hint2 : IntervalIntegrable (fun c => zone am √(x ^ 2 + X ^ 2 - 2 * x * X * c)) MeasureTheory.volume c0 1 := by
      refine hcont.congr ?_
      intro c hcm
      rw [Set.uIoc_of_le hle1.le] at hcm
      refine ((hz c hcm.2).2 ?_).symm
      have : 2 * x * X * c0 < 2 * x * X * c := mul_lt_mul_of_pos_left hcm.1 hxX
      linarith
    rw [← intervalIntegral.integral_add_adjacent_intervals hint1 hint2, hI1, hI2, intervalIntegral.integral_eq_sub_of_hasDerivAt hderiv hcont]
    have e1 : x ^ 2 + X ^ 2 - 2 * x * X * 1 = |x - X| ^ 2 := by rw [hlow]; ring
    have e2 : x ^ 2 + X ^ 2 - 2 * x * X * c0 = am ^ 2 := by rw [hc0']; ring
    rw [e1, e2, Real.log_pow, Real.log_pow, Real.log_div ha.ne' hd'.ne']
    push_cast
    field_simp
    ring
  · rw [if_neg hc, mul_zero]
    have hge : am ≤ |x - X| := by
      rw [one_lt_div hd'] at hc; exact not_lt.1 hc
    have : ∫ c in (-1 : ℝ)..1, zone am √(x ^ 2 + X ^ 2 - 2 * x * X * c) = 0 := by
      rw [show (0 : ℝ) = ∫ _ in (-1 : ℝ)..1, (0 : ℝ) by simp]
      apply intervalIntegral.integral_congr
      intro c hcm
      rw [Set.uIcc_of_le (by norm_num)] at hcm
      refine (hz c hcm.2).1 ((pow_le_pow_left₀ ha.le hge 2).trans (hr c hcm.2))
    rw [this, mul_zero]

theorem zone_nonneg (am r : ℝ) : 0 ≤ zone am r := by unfold zone; split <;> positivity

/-- C122: each contribution is the number of reflections of the ring times that mean. -/
theorem contribution_mean {am a glen q : ℝ} (j : ℕ) (ha : 0 < a) (hg : 1e-8 < glen) (hq : 0 < q) (hm : 0 < am)
    (hne : 10 * a * q / Real.pi / 2 ≠ glen * a) (ham : am ≤ 10 * a * q / Real.pi / 2 + glen * a) :
    contribution am a glen j q = some (j * sphereMean (zone am) (10 * a * q / Real.pi / 2) (glen * a)) := by
  have hg0 : 0 < glen := lt_trans (by norm_num) hg
  have hp := Real.pi_pos
  have hx : 0 < 10 * a * q / Real.pi / 2 := by positivity
  obtain ⟨w, hw, hW⟩ := warren_mean hx (mul_pos hg0 ha) hne hm ham
  unfold contribution
  dsimp only
  rw [if_neg hx.ne', if_neg (by rw [abs_of_pos hg0]; exact not_le.2 hg), hw, Option.map_some, ← hW]
  congr 1
  ring

/-- The term of the direct beam is the strength around the origin, continued beyond the zone. -/
theorem contribution_zero {am a q : ℝ} (j : ℕ) (ha : 0 < a) (hq : 0 < q) (h : 10 * a * q / Real.pi / 2 < am) :
    contribution am a 0 j q = some (zone am (10 * a * q / Real.pi / 2)) := by
  have hp := Real.pi_pos
  have hx : 0 < 10 * a * q / Real.pi / 2 := by positivity
  unfold contribution zone
  dsimp only
  rw [if_neg hx.ne', if_pos (by norm_num), if_pos h, div_div]

/-- **False of the code**: outside the zone of the direct beam, its term goes on. -/
theorem contribution_zero_fails : ∃ (am a q c : ℝ), 0 < am ∧ 0 < a ∧ am < 10 * a * q / Real.pi / 2 ∧ contribution am a 0 1 q = some c ∧
    zone am (10 * a * q / Real.pi / 2) < c := by
  have hp := Real.pi_pos
  have e : 10 * 1 * (2 * Real.pi) / Real.pi / 2 = 10 := by field_simp
  refine ⟨1, 1, 2 * Real.pi, 1 ^ 2 / 3 / 10 ^ 2, one_pos, one_pos, ?_, ?_, ?_⟩
  · rw [e]; norm_num
  · unfold contribution
    dsimp only
    rw [e, if_neg (by norm_num), if_pos (by norm_num)]
  · rw [e]; unfold zone; rw [if_neg (by norm_num)]; norm_num

/-- C122: the bracket is not negative, and zero without displacements. Where the zones contribute their mean, one, it is the whole of the
intensity the displacements take from the reflections. -/
theorem bracket_spec {ms c : ℝ} (hm : 0 ≤ ms) (hc : 0 ≤ c) : 0 ≤ bracket ms c ∧ bracket 0 c = 0 ∧ bracket ms 1 = 1 - Real.exp (-2 * ms) ∧
    ∀ d, c ≤ d → bracket ms c ≤ bracket ms d := by
  have he : 0 < Real.exp (-2 * ms) := Real.exp_pos _
  have h1 : Real.exp (-2 * ms) * (1 + ms) ^ 2 ≤ 1 := by
    have h := Real.add_one_le_exp ms
    have e : Real.exp (-2 * ms) * Real.exp ms ^ 2 = 1 := by
      rw [← Real.exp_nat_mul, ← Real.exp_add]; simp
    rw [← e]
    apply mul_le_mul_of_nonneg_left _ he.le
    exact pow_le_pow_left₀ (by linarith) (by linarith) 2
  have h2 : 0 ≤ Real.exp (-2 * ms) * (2 * ms + ms ^ 2) := by positivity
  unfold bracket
  refine ⟨by nlinarith, by simp, by ring, fun d hd => ?_⟩
  have := mul_le_mul_of_nonneg_left (sub_le_sub_right hd 1) h2
  linarith

theorem bracket_pos {ms c : ℝ} (hm : 0 < ms) (hc : 0 ≤ c) : 0 < bracket ms c := by
  have he : 0 < Real.exp (-2 * ms) := Real.exp_pos _
  have h1 : Real.exp (-2 * ms) * (1 + ms) ^ 2 < 1 := by
    have h := Real.add_one_lt_exp hm.ne'
    have e : Real.exp (-2 * ms) * Real.exp ms ^ 2 = 1 := by
      rw [← Real.exp_nat_mul, ← Real.exp_add]; simp
    rw [← e]
    apply mul_lt_mul_of_pos_left _ he
    exact pow_lt_pow_left₀ (by linarith) (by linarith) two_ne_zero
  have h2 : 0 ≤ Real.exp (-2 * ms) * (2 * ms + ms ^ 2) := by positivity
  unfold bracket
  nlinarith

/-- The same displacements as in the structure factors (C113): the factor is that of the intensities of the reflections. -/
theorem exp2M_temperature (u s : ℝ) (g : Fin 3 → ℝ) : Real.exp (-2 * mOf u s) = StructFac.temperature (.iso u) g (s ^ 2) ^ 2 := by
  unfold StructFac.temperature mOf
  rw [← Real.exp_nat_mul]
  congr 1
  push_cast
  ring

theorem warren_nonneg {am x X w : ℝ} (h : warren am x X = some w) : 0 ≤ w := by
  unfold warren at h
  split at h
  · cases h
  · cases h
    split
    · next h1 => exact (Real.log_pos h1).le
    · exact le_refl _

theorem contribution_nonneg {am a glen q c : ℝ} {j : ℕ} (ha : 0 ≤ a) (hg : 0 ≤ glen) (hq : 0 ≤ q) (h : contribution am a glen j q = some c) :
    0 ≤ c := by
  have hp := Real.pi_pos
  unfold contribution at h
  dsimp only at h
  split at h
  · cases h
  split at h
  · cases h; positivity
  · obtain ⟨w, hw, rfl⟩ := Option.map_eq_some_iff.1 h
    have := warren_nonneg hw
    positivity

theorem foldl_add_nonneg (l : List ℝ) (a : ℝ) (ha : 0 ≤ a) (h : ∀ v ∈ l, 0 ≤ v) : 0 ≤ l.foldl (· + ·) a := by
  induction l generalizing a with
  | nil => exact ha
  | cons v l ih =>
    rw [List.foldl_cons]
    exact ih _ (add_nonneg ha (h v (by simp))) fun w hw => h w (by simp [hw])

theorem mapM_nonneg {α : Type*} (f : α → Option ℝ) (L : List α) (l : List ℝ) (h : L.mapM f = some l) (hf : ∀ x ∈ L, ∀ y, f x = some y → 0 ≤ y) :
    ∀ v ∈ l, 0 ≤ v := by
  induction L generalizing l with
  | nil => cases h; simp
  | cons x L ih =>
    rw [List.mapM_cons] at h
    obtain ⟨y, hy, h⟩ := Option.bind_eq_some_iff.1 h
    obtain ⟨ys, hys, h⟩ := Option.bind_eq_some_iff.1 h
    cases h
    intro v hv
    rcases List.mem_cons.1 hv with rfl | hv
    · exact hf x (by simp) _ hy
    · exact ih ys hys (fun z hz => hf z (by simp [hz])) v hv

theorem sumC_nonneg {am a q c : ℝ} {hkls : List (ℝ × ℕ)} (ha : 0 ≤ a) (hq : 0 ≤ q) (hh : ∀ g ∈ hkls, 0 ≤ g.1) (h : sumC am a hkls q = some c) :
    0 ≤ c := by
  unfold sumC at h
  obtain ⟨c0, h0, h⟩ := Option.bind_eq_some_iff.1 h
  obtain ⟨cs, hcs, h⟩ := Option.bind_eq_some_iff.1 h
  cases h
  refine foldl_add_nonneg _ _ (contribution_nonneg ha (le_refl 0) hq h0) ?_
  exact mapM_nonneg _ _ _ hcs fun g hg y hy => contribution_nonneg ha (hh g hg) hq hy

/-- C122: the diffuse signal is not negative, whatever the elements. -/
theorem calcTDS_nonneg {n : ℕ} {a vol lam q t : ℝ} {els : List ((StructFac.Site × ℕ) × ℝ)} {hkls : List (ℝ × ℕ)} (ha : 0 ≤ a) (hv : 0 ≤ vol)
    (hl : 0 ≤ lam) (hq : 0 ≤ q) (hu : ∀ e ∈ els, 0 ≤ e.2) (hh : ∀ g ∈ hkls, 0 ≤ g.1) (h : calcTDS n a vol lam els hkls q = some t) : 0 ≤ t := by
  unfold calcTDS at h
  dsimp only at h
  obtain ⟨c, hc, h⟩ := Option.bind_eq_some_iff.1 h
  cases h
  have hc0 := sumC_nonneg ha hq hh hc
  apply mul_nonneg (by positivity)
  have key : ∀ l : List (ℝ × ℝ), (∀ e ∈ l, 0 ≤ e.1 ∧ 0 ≤ e.2) → 0 ≤ thermal l c := by
    intro l hl
    unfold thermal
    rcases List.eq_nil_or_concat l with rfl | ⟨l, e, rfl⟩
    · exact le_refl _
    · rw [List.concat_eq_append, List.foldl_append]
      have := hl e (by simp)
      exact mul_nonneg this.1 (bracket_spec this.2 hc0).1
  apply key
  intro e he
  obtain ⟨h1, h2⟩ := List.of_mem_zip he
  constructor
  · unfold formFactors at h1
    split at h1
    · obtain ⟨f, -, hf⟩ := List.mem_map.1 h1
      rw [← hf]
      positivity
    · cases h1
  · obtain ⟨f, hf, hf2⟩ := List.mem_map.1 h2
    rw [← hf2]
    unfold mOf
    have := hu f hf
    positivity

/-- C122 (a single element): the signal is the number of atoms times the squared form factor times the bracket. What is missing: materials
of several elements, see `calcTDS_fails`. -/
theorem calcTDS_partial (n : ℕ) (a vol lam q : ℝ) (e : (StructFac.Site × ℕ) × ℝ) (hkls : List (ℝ × ℕ)) :
    calcTDS n a vol lam [e] hkls q = (sumC (agm n) a hkls q).map fun c => vol / lam ^ 3 * total [e] (q / 4 / Real.pi) c := by
  unfold calcTDS total
  dsimp only
  rcases sumC (agm n) a hkls q with _ | c
  · rfl
  · simp [formFactors, thermal]

/-- **False of the code**: with two elements, the diffuse signal is not the sum. The first element, whose atoms are the only ones displaced,
does not contribute. -/
theorem calcTDS_fails : ∃ (els : List ((StructFac.Site × ℕ) × ℝ)) (q t c : ℝ), calcTDS 225 1 1 1 els [] q = some t ∧
    sumC (agm 225) 1 [] q = some c ∧ t = 0 ∧ 0 < total els (q / 4 / Real.pi) c := by
  have hp := Real.pi_pos
  let e : StructFac.Site := ⟨1, [], .iso 0, fun _ => 0, 1, fun _ => 0, 0, 0, 0, 0, 0⟩
  have hff : ∀ s, StructFac.formFactor e s = 1 := by
    intro s
    unfold StructFac.formFactor
    apply Complex.ext <;> simp [e]
  have e1 : 4 * Real.pi / 4 / Real.pi = 1 := by field_simp
  have e2 : 10 * 1 * (4 * Real.pi) / Real.pi / 2 = 20 := by field_simp; norm_num
  have hC : sumC (agm 225) 1 [] (4 * Real.pi) = some (agm 225 ^ 2 / 3 / 20 ^ 2) := by
    unfold sumC contribution
    dsimp only
    rw [e2, if_neg (by norm_num), if_pos (by norm_num)]
    rfl
  have hM : 0 < mOf 1 1 := by unfold mOf; positivity
  have hM0 : mOf 0 1 = 0 := by unfold mOf; ring
  refine ⟨[((e, 1), 1), ((e, 1), 0)], 4 * Real.pi, 0, _, ?_, hC, rfl, ?_⟩
  · unfold calcTDS
    dsimp only
    rw [hC, e1]
    simp [formFactors, thermal, hM0, bracket]
  · unfold total
    rw [e1]
    have h2 : ∀ c, bracket 0 c = 0 := fun c => by simp [bracket]
    simp only [List.map_cons, List.map_nil, hff, hM0, h2, List.sum_cons, List.sum_nil]
    have := bracket_pos hM (show 0 ≤ agm 225 ^ 2 / 3 / 20 ^ 2 by positivity)
    simpa using this

/-! ## Amorphous scattering -/

theorem minOf_le (l : List ℝ) : ∀ v ∈ l, minOf l ≤ v := by
  induction l with
  | nil => simp
  | cons a l ih =>
    cases l with
    | nil => simp [minOf]
    | cons b l =>
      intro v hv
      rcases List.mem_cons.1 hv with rfl | hv
      · exact min_le_left _ _
      · exact (min_le_right _ _).trans (ih v hv)

theorem interpOut_in (m : ℝ) (pts : Pts) (hi : Increasing pts) (h2 : 2 ≤ pts.length) (x : ℝ) (hx : Covered pts x) :
    LinAt pts x (interpOut m pts x) := by
  have : interpOut m pts x = interp pts x := by
    unfold interpOut
    obtain ⟨a, ha⟩ : ∃ a, pts.head? = some a := by
      cases pts with
      | nil => simp at h2
      | cons a l => exact ⟨a, rfl⟩
    obtain ⟨b, hb⟩ : ∃ b, pts.getLast? = some b := by
      rcases List.eq_nil_or_concat pts with rfl | ⟨l, b, rfl⟩
      · simp at h2
      · exact ⟨b, by simp⟩
    rw [ha, hb]
    dsimp only
    obtain ⟨⟨p, hp, hpx⟩, ⟨q, hq, hqx⟩⟩ := hx
    rw [if_neg, if_neg]
    · rw [not_lt]
      obtain ⟨l, hl⟩ := List.getLast?_eq_some_iff.1 hb
      rw [hl] at hq hi
      rcases List.mem_append.1 hq with hq | hq
      · exact hqx.trans ((List.pairwise_append.1 hi).2.2 q hq b (by simp)).le
      · rw [List.mem_singleton.1 hq] at hqx; exact hqx
    · rw [not_lt]
      obtain ⟨l, hl⟩ := List.head?_eq_some_iff.1 ha
      rw [hl] at hp hi
      rcases List.mem_cons.1 hp with rfl | hp
      · exact hpx
      · exact ((List.pairwise_cons.1 hi).1 p hp).le.trans hpx
  rw [this]
  exact Hexrd.Pattern.interp_spec pts hi h2 x hx

theorem interpOut_out (m : ℝ) (pts : Pts) (x : ℝ) (hx : (∀ p ∈ pts, x < p.1) ∨ ∀ p ∈ pts, p.1 < x) : interpOut m pts x = m := by
  unfold interpOut
  rcases ha : pts.head? with _ | a
  · rfl
  rcases hb : pts.getLast? with _ | b
  · rfl
  dsimp only
  have ma : a ∈ pts := List.mem_of_mem_head? ha
  have mb : b ∈ pts := List.mem_of_mem_getLast? hb
  rcases hx with hx | hx
  · rw [if_pos (hx a ma)]
  · split
    · rfl
    · rw [if_pos (hx b mb)]

/-- The shifted data. -/
theorem zip_shift (tth sm : List ℝ) (s m : ℝ) : (tth.map fun t => t + s).zip (sm.map fun v => v - m) =
    (tth.zip sm).map fun p => (p.1 + s, p.2 - m) := by
  induction tth generalizing sm with
  | nil => rfl
  | cons t tth ih =>
    cases sm with
    | nil => rfl
    | cons v sm => simp [ih]

theorem zip_increasing (tth sm : List ℝ) (h : tth.Pairwise (· < ·)) : Increasing (tth.zip sm) := by
  induction tth generalizing sm with
  | nil => simp [Increasing]
  | cons t tth ih =>
    cases sm with
    | nil => simp [Increasing]
    | cons v sm =>
      have h' := List.pairwise_cons.1 h
      refine List.pairwise_cons.2 ⟨fun p hp => h'.1 _ (List.of_mem_zip hp).1, ih sm h'.2⟩

/-- C122: a measured component, moved by its shift and scaled about its minimum: within the moved range, at each point the value is the
interpolated one at the point less the shift; outside it is the minimum. -/
theorem expTerm_spec (smooth : List ℝ → List ℝ) (tth : List ℝ) (c : Comp) (x : ℝ) (h : tth.Pairwise (· < ·))
    (h2 : 2 ≤ tth.length) (hl : (smooth c.data).length = tth.length) :
    ((∃ t ∈ tth, t + c.shift ≤ x) → (∃ t ∈ tth, x ≤ t + c.shift) → ∃ v, LinAt (tth.zip (smooth c.data)) (x - c.shift) v ∧
      expTerm smooth tth c x = c.scale * (v - minOf (smooth c.data)) + minOf (smooth c.data)) ∧
    (((∀ t ∈ tth, x < t + c.shift) ∨ ∀ t ∈ tth, t + c.shift < x) → expTerm smooth tth c x = minOf (smooth c.data)) := by
  unfold expTerm
  dsimp only
  rw [zip_shift]
  generalize smooth c.data = sm at hl
  generalize minOf sm = m
  set pts := (tth.zip sm).map fun p => (p.1 + c.shift, p.2 - m) with hpts
  have hinc : Increasing pts := by
    rw [hpts]
    unfold Increasing
    rw [List.pairwise_map]
    exact (zip_increasing tth sm h).imp fun hab => by simpa using hab
  have hlen : 2 ≤ pts.length := by rw [hpts, List.length_map, List.length_zip, hl, min_self]; exact h2
  have hmem : ∀ t ∈ tth, ∃ p ∈ pts, p.1 = t + c.shift := by
    intro t ht
    have : t ∈ (tth.zip sm).map Prod.fst := by rw [List.map_fst_zip (by omega)]; exact ht
    obtain ⟨p, hp, rfl⟩ := List.mem_map.1 this
    exact ⟨_, List.mem_map.2 ⟨p, hp, rfl⟩, rfl⟩
  have hmem' : ∀ p ∈ pts, ∃ t ∈ tth, p.1 = t + c.shift := by
    intro p hp
    obtain ⟨q, hq, rfl⟩ := List.mem_map.1 hp
    exact ⟨q.1, (List.of_mem_zip hq).1, rfl⟩
  constructor
  · rintro ⟨t, ht, htx⟩ ⟨u, hu, hux⟩
    obtain ⟨p, hp, hp1⟩ := hmem t ht
    obtain ⟨q, hq, hq1⟩ := hmem u hu
    obtain ⟨l1, a, b, l2, e, ha, hb, hv⟩ := interpOut_in 0 pts hinc hlen x ⟨⟨p, hp, by rw [hp1]; exact htx⟩, ⟨q, hq, by rw [hq1]; exact hux⟩⟩
    refine ⟨interpOut 0 pts x + m, ?_, by ring⟩
    rw [hpts] at e
    obtain ⟨k1, k2, ek, e1, e2⟩ := List.map_eq_append_iff.1 e
    obtain ⟨a', k3, rfl, rfl, e3⟩ := List.map_eq_cons_iff.1 e2
    obtain ⟨b', k4, rfl, rfl, e4⟩ := List.map_eq_cons_iff.1 e3
    refine ⟨k1, a', b', k4, ek, by dsimp only at ha; linarith, by dsimp only at hb; linarith, ?_⟩
    rw [hv]
    dsimp only
    rw [show b'.2 - m - (a'.2 - m) = b'.2 - a'.2 by ring, show b'.1 + c.shift - (a'.1 + c.shift) = b'.1 - a'.1 by ring]
    ring
  · intro hx
    rw [interpOut_out, mul_zero, zero_add]
    rcases hx with hx | hx
    · left; intro p hp; obtain ⟨t, ht, e⟩ := hmem' p hp; rw [e]; exact hx t ht
    · right; intro p hp; obtain ⟨t, ht, e⟩ := hmem' p hp; rw [e]; exact hx t ht

def nExp : Name := ['e', 'x', 'p', 'e', 'r', 'i', 'm', 'e', 'n', 't', 'a', 'l']
def nGauss : Name := ['s', 'p', 'l', 'i', 't', '_', 'g', 'a', 'u', 's', 's', 'i', 'a', 'n']
def nPv : Name := ['s', 'p', 'l', 'i', 't', '_', 'p', 'v']

theorem map_getElem_eq (tth sm : List ℝ) (f : ℝ → ℝ) (hl : sm.length = tth.length) (h : ∀ p ∈ tth.zip sm, f p.1 = p.2) : tth.map f = sm := by
  induction tth generalizing sm with
  | nil => simpa using hl
  | cons t tth ih =>
    cases sm with
    | nil => simp at hl
    | cons v sm =>
      rw [List.map_cons, h (t, v) (by simp), ih sm (by simpa using hl) fun p hp => h p (by simp [hp])]

/-- C122: a single measured component with scale one and no shift is the smoothed measurement. -/
theorem lineout_same (smooth : List ℝ → List ℝ) (tth : List ℝ) (c : Comp) (h : tth.Pairwise (· < ·)) (h2 : 2 ≤ tth.length)
    (hl : (smooth c.data).length = tth.length) (h1 : c.scale = 1) (h0 : c.shift = 0) :
    lineout smooth tth nExp [c] = some (smooth c.data) := by
  unfold lineout
  rw [show kindOf nExp = some .experimental from rfl]
  dsimp only
  congr 1
  apply map_getElem_eq _ _ _ hl
  intro p hp
  have hp1 := (List.of_mem_zip hp).1
  obtain ⟨v, hv, e⟩ := (expTerm_spec smooth tth c p.1 h h2 hl).1 ⟨p.1, hp1, by rw [h0]; simp⟩ ⟨p.1, hp1, by rw [h0]; simp⟩
  simp only [List.map_cons, List.map_nil, List.sum_cons, List.sum_nil, add_zero]
  rw [e, h1, one_mul, sub_add_cancel]
  rw [h0, sub_zero] at hv
  exact Hexrd.Pattern.linAt_unique _ (zip_increasing tth _ h) _ _ _ hv (Hexrd.Pattern.linAt_knot _ (zip_increasing tth _ h) (by
    rw [List.length_zip, hl, min_self]; exact h2) p hp)

/-- **False of the code**: the scale does not multiply the measured signal, only what exceeds its minimum: with scale zero the signal is
still there. -/
theorem scale_fails : ∃ (tth : List ℝ) (c : Comp), c.scale = 0 ∧ tth.Pairwise (· < ·) ∧ 2 ≤ tth.length ∧ c.data.length = tth.length ∧
    lineout id tth nExp [c] = some (tth.map fun _ => 5) := by
  refine ⟨[0, 1], ⟨['c', '1'], 0, 0, 0, [], [5, 6]⟩, rfl, by simp, by simp, rfl, ?_⟩
  unfold lineout
  rw [show kindOf nExp = some .experimental from rfl]
  simp only [expTerm, minOf, List.map_cons, List.map_nil, zero_mul, zero_add, List.sum_cons, List.sum_nil, id]
  norm_num

/-- C122: data on another grid are interpolated between their points and continued by their minimum. -/
theorem regrid_spec (tth : List ℝ) (v : Pts) (hv : Increasing v) (h2 : 2 ≤ v.length) : (regrid tth v).length = tth.length ∧
    ∀ i (hi : i < tth.length), (Covered v tth[i] → LinAt v tth[i] ((regrid tth v).getD i 0)) ∧
      (((∀ p ∈ v, tth[i] < p.1) ∨ ∀ p ∈ v, p.1 < tth[i]) → ∀ p ∈ v, (regrid tth v).getD i 0 ≤ p.2) := by
  have hlen : (regrid tth v).length = tth.length := by unfold regrid; simp
  refine ⟨hlen, fun i hi => ?_⟩
  have e : (regrid tth v).getD i 0 = interpOut (minOf (v.map Prod.snd)) v tth[i] := by
    rw [List.getD_eq_getElem _ _ (by omega)]
    unfold regrid
    rw [List.getElem_map]
  rw [e]
  refine ⟨interpOut_in _ v hv h2 _, fun h p hp => ?_⟩
  rw [interpOut_out _ _ _ h]
  exact minOf_le _ _ (List.mem_map_of_mem hp)

theorem mapM_some_map {α β : Type*} (f : α → β) (l : List α) : (l.mapM fun x => some (f x)) = some (l.map f) :=
  Hexrd.Params.mapM_map _ f l fun _ _ => rfl

/-- C122: the signal of split Gaussian peaks is the sum of the peaks times their scales. -/
theorem gauss_lineout (smooth : List ℝ → List ℝ) (tth : List ℝ) (cs : List Comp) (w : Comp → ℝ × ℝ) (hw : ∀ c ∈ cs, c.fwhm = [(w c).1, (w c).2]) :
    lineout smooth tth nGauss cs = some (tth.map fun x => (cs.map fun c => c.scale * splitUnitGaussian c.center (w c).1 (w c).2 x).sum) := by
  unfold lineout
  rw [show kindOf nGauss = some .splitGaussian from rfl]
  dsimp only
  rw [← mapM_some_map]
  congr 1
  funext x
  rw [Hexrd.Params.mapM_map _ (fun c => c.scale * splitUnitGaussian c.center (w c).1 (w c).2 x) cs]
  · rfl
  · intro c hc
    unfold peakAt
    rw [hw c hc]
    rfl

/-- The split Gaussian has its widths: half of its height at half a width on either side, and less than its height away from the centre. -/
theorem gauss_half {x0 wl wr : ℝ} (hl : 0 < wl) (hr : 0 < wr) : splitUnitGaussian x0 wl wr (x0 - wl / 2) = 1 / 2 ∧
    splitUnitGaussian x0 wl wr (x0 + wr / 2) = 1 / 2 ∧ ∀ x, x ≠ x0 → 0 < splitUnitGaussian x0 wl wr x ∧ splitUnitGaussian x0 wl wr x < 1 := by
  have hlog : Real.exp (-(Real.log 2)) = 1 / 2 := by rw [Real.exp_neg, Real.exp_log (by norm_num)]; norm_num
  have hg : ∀ {w : ℝ}, 0 < w → ∀ x, x ≠ x0 → 0 < Hexrd.Peaks.unitGaussian x0 w x ∧ Hexrd.Peaks.unitGaussian x0 w x < 1 := by
    intro w hw x hx
    rw [Hexrd.Peaks.unitGaussian_shift, Hexrd.Peaks.unitGaussian_half hw]
    refine ⟨Real.exp_pos _, ?_⟩
    rw [Real.exp_lt_one_iff, neg_lt_zero]
    have hd : x - x0 ≠ 0 := sub_ne_zero.2 hx
    have := Real.log_pos (show (1 : ℝ) < 2 by norm_num)
    positivity
  unfold splitUnitGaussian Hexrd.PowderPeak.heaviside
  refine ⟨?_, ?_, fun x hx => ?_⟩
  · rw [if_neg (by linarith), if_neg (by linarith), if_pos (by linarith), Hexrd.Peaks.unitGaussian_shift, Hexrd.Peaks.unitGaussian_half hl]
    rw [show (2 * (x0 - wl / 2 - x0) / wl) ^ 2 = 1 by field_simp; ring]
    rw [mul_one (Real.log 2), hlog]; ring
  · rw [if_pos (by linarith), if_neg (by linarith), if_neg (by linarith), Hexrd.Peaks.unitGaussian_shift x0 wr, Hexrd.Peaks.unitGaussian_half hr]
    rw [show (2 * (x0 + wr / 2 - x0) / wr) ^ 2 = 1 by field_simp; ring]
    rw [mul_one (Real.log 2), hlog]; ring
  · rcases lt_or_gt_of_ne hx with h | h
    · rw [if_neg (by linarith), if_neg (by linarith), if_pos (by linarith)]
      have := hg hl x hx
      constructor <;> linarith
    · rw [if_pos (by linarith), if_neg (by linarith), if_neg (by linarith)]
      have := hg hr x hx
      constructor <;> linarith

/-- **False of the code**: a type of model in capitals is accepted, and there is no signal for it. -/
theorem case_fails : ∃ t, setModelType t = some t ∧ ∀ smooth tth cs, lineout smooth tth t cs = none :=
  ⟨['S', 'p', 'l', 'i', 't', '_', 'P', 'V'], by decide, fun _ _ _ => rfl⟩

/-- **False of the code**: widths of the wrong number are neither taken nor refused. -/
theorem fwhm_fails : ∃ old new, old ≠ new ∧ setFwhm .splitPv old new = old :=
  ⟨[[5, 5, 5, 5]], [[5, 5]], by simp, by simp [setFwhm]⟩

/-- C122: the degree of crystallinity is the share of the crystalline part in the area above the background. -/
theorem doc_spec (n : ℕ) (x cryst am bkg : ℕ → ℝ) (hx : ∀ i, i + 1 < n → x i ≤ x (i + 1)) (hc : ∀ j < n, 0 ≤ cryst j) (ha : ∀ j < n, 0 ≤ am j)
    (hpos : 0 < LeBail.trapz n x cryst + LeBail.trapz n x am) :
    doc (LeBail.trapz n x) (some am) (fun j => cryst j + am j + bkg j) bkg =
      LeBail.trapz n x cryst / (LeBail.trapz n x cryst + LeBail.trapz n x am) ∧
    0 ≤ doc (LeBail.trapz n x) (some am) (fun j => cryst j + am j + bkg j) bkg ∧
    doc (LeBail.trapz n x) (some am) (fun j => cryst j + am j + bkg j) bkg ≤ 1 := by
  have hadd : LeBail.trapz n x (fun j => cryst j + am j + bkg j - bkg j) = LeBail.trapz n x cryst + LeBail.trapz n x am := by
    unfold LeBail.trapz
    rw [← Finset.sum_add_distrib]
    exact Finset.sum_congr rfl fun i _ => by ring
  have hnn : ∀ f : ℕ → ℝ, (∀ j < n, 0 ≤ f j) → 0 ≤ LeBail.trapz n x f := by
    intro f hf
    unfold LeBail.trapz
    refine Finset.sum_nonneg fun i hi => ?_
    have hi' : i + 1 < n := by have := Finset.mem_range.1 hi; omega
    have h1 := hx i hi'
    have h2 := hf i (by omega)
    have h3 := hf (i + 1) hi'
    have : 0 ≤ x (i + 1) - x i := by linarith
    positivity
  have e : doc (LeBail.trapz n x) (some am) (fun j => cryst j + am j + bkg j) bkg =
      LeBail.trapz n x cryst / (LeBail.trapz n x cryst + LeBail.trapz n x am) := by
    unfold doc
    dsimp only
    rw [hadd]
    field_simp
    ring
  rw [e]
  have h1 := hnn cryst hc
  have h2 := hnn am ha
  refine ⟨rfl, by positivity, ?_⟩
  rw [div_le_one hpos]
  linarith

/-! ### Parameters -/

def allFields : List Name := [fScale, fShift, fCenter] ++ fWidths .splitGaussian ++ fWidths .splitPv

theorem suffix_fields : ∀ f ∈ allFields, ∀ g ∈ allFields, (['_', 'a', 'm', 'o', 'r', 'p', 'h', 'o', 'u', 's', '_'] ++ f) <:+
    (['_', 'a', 'm', 'o', 'r', 'p', 'h', 'o', 'u', 's', '_'] ++ g) → f = g := by decide +kernel

theorem amName_inj {k l f g : Name} (hf : f ∈ allFields) (hg : g ∈ allFields) (h : amName k f = amName l g) : k = l ∧ f = g := by
  have hfg : f = g := by
    unfold amName at h
    rcases List.suffix_or_suffix_of_suffix (List.suffix_append k _) (h ▸ List.suffix_append l _) with hs | hs
    · exact suffix_fields f hf g hg hs
    · exact (suffix_fields g hg f hf hs).symm
  subst hfg
  exact ⟨List.append_cancel_right h, rfl⟩

/-- The fields of one component with their parameters. -/
noncomputable def amFields (k : Kind) (c : Comp) : List (Name × Par) :=
  [(fScale, fixed c.scale (some 0) none)]
  ++ (match k with
    | .experimental => [(fShift, fixed c.shift none none)]
    | _ => [(fCenter, fixed c.center none none)])
  ++ (fWidths k).zipIdx.map fun f => (f.1, fixed (c.fwhm.getD f.2 0) (some 0) none)

theorem amEntries_eq (k : Kind) (c : Comp) : amEntries k c = (amFields k c).map fun f => (amName c.key f.1, f.2) := by
  cases k <;> rfl

theorem amFields_names (k : Kind) (c : Comp) : ((amFields k c).map Prod.fst).Nodup ∧ ∀ f ∈ amFields k c, f.1 ∈ allFields := by
  cases k
  · have : (amFields .experimental c).map Prod.fst = [fScale, fShift] := rfl
    exact ⟨by rw [this]; decide, fun f hf => by
      have h := List.mem_map_of_mem (f := Prod.fst) hf
      rw [this] at h
      have : ∀ n ∈ [fScale, fShift], n ∈ allFields := by decide
      exact this _ h⟩
  · have : (amFields .splitGaussian c).map Prod.fst = [fScale, fCenter] ++ fWidths .splitGaussian := rfl
    exact ⟨by rw [this]; decide, fun f hf => by
      have h := List.mem_map_of_mem (f := Prod.fst) hf
      rw [this] at h
      have : ∀ n ∈ [fScale, fCenter] ++ fWidths .splitGaussian, n ∈ allFields := by decide
      exact this _ h⟩
  · have : (amFields .splitPv c).map Prod.fst = [fScale, fCenter] ++ fWidths .splitPv := rfl
    exact ⟨by rw [this]; decide, fun f hf => by
      have h := List.mem_map_of_mem (f := Prod.fst) hf
      rw [this] at h
      have : ∀ n ∈ [fScale, fCenter] ++ fWidths .splitPv, n ∈ allFields := by decide
      exact this _ h⟩

/-- Parameters of different components, or different ones of a component, have different names. -/
theorem am_unique (k : Kind) (cs : List Comp) (hk : (cs.map Comp.key).Nodup) (c : Comp) (hc : c ∈ cs) (f : Name × Par) (hf : f ∈ amFields k c) :
    amPars k cs (amName c.key f.1) = some { f.2 with value := Params.clip f.2.lo f.2.hi f.2.value } := by
  unfold amPars
  refine Params.addAll_unique _ (amName c.key f.1, f.2) ?_ ?_
  · exact List.mem_flatMap.2 ⟨c, hc, by rw [amEntries_eq]; exact List.mem_map.2 ⟨f, hf, rfl⟩⟩
  · intro g hg hn
    obtain ⟨d, hd, hg⟩ := List.mem_flatMap.1 hg
    rw [amEntries_eq] at hg
    obtain ⟨e, he, rfl⟩ := List.mem_map.1 hg
    dsimp only at hn ⊢
    obtain ⟨h1, h2⟩ := amName_inj ((amFields_names k d).2 e he) ((amFields_names k c).2 f hf) hn
    have hdc : d = c := List.inj_on_of_nodup_map hk hd hc h1
    subst hdc
    have : e = f := List.inj_on_of_nodup_map (amFields_names k d).1 he hf h2
    rw [this]

/-- C122: setting the parameters generated from the components back changes nothing, for scales and widths that are not negative. -/
theorem amSet_same (k : Kind) (cs : List Comp) (hk : (cs.map Comp.key).Nodup) (c : Comp) (hc : c ∈ cs) (hs : 0 ≤ c.scale)
    (hw : k = .experimental ∨ (∀ w ∈ c.fwhm, 0 ≤ w) ∧ c.fwhm.length = (fWidths k).length) : amSet k (amPars k cs) c = c := by
  have key : ∀ f ∈ amFields k c, ∀ d, ((amPars k cs (amName c.key f.1)).map Par.value).getD d = Params.clip f.2.lo f.2.hi f.2.value := by
    intro f hf d
    rw [am_unique k cs hk c hc f hf]; rfl
  have hscale := fun d => key (fScale, fixed c.scale (some 0) none) (by unfold amFields; simp) d
  have hclip : ∀ v : ℝ, 0 ≤ v → Params.clip (some 0) none v = v := fun v hv => Params.clip_above hv
  have hfree : ∀ v : ℝ, Params.clip none none v = v := fun v => rfl
  obtain ⟨ckey, cscale, cshift, ccenter, cf, cdata⟩ := c
  dsimp only at hs hw hscale
  unfold amSet
  dsimp only
  have e1 : ∀ d, ((amPars k cs (amName ckey fScale)).map Par.value).getD d = cscale := fun d => (hscale d).trans (hclip _ hs)
  cases k
  · have e2 := fun d => key (fShift, fixed cshift none none) (by unfold amFields; simp) d
    dsimp only [fixed] at e2
    dsimp only
    rw [e1, e2, hfree]
  · obtain ⟨hw1, hw2⟩ := hw.resolve_left (by simp)
    obtain ⟨w0, w1, rfl⟩ : ∃ w0 w1, cf = [w0, w1] := List.length_eq_two.1 hw2
    have e2 := fun d => key (fCenter, fixed ccenter none none) (by unfold amFields; simp) d
    have e3 := fun d => key (['f', 'w', 'h', 'm', '_', 'l'], fixed w0 (some 0) none) (by unfold amFields; simp [fWidths]) d
    have e4 := fun d => key (['f', 'w', 'h', 'm', '_', 'r'], fixed w1 (some 0) none) (by unfold amFields; simp [fWidths]) d
    dsimp only [fixed] at e2 e3 e4
    dsimp only
    rw [e1, e2, hfree]
    simp only [fWidths, List.zipIdx_cons, List.zipIdx_nil, List.map_cons, List.map_nil, e3, e4]
    rw [hclip _ (hw1 w0 (by simp)), hclip _ (hw1 w1 (by simp))]
  · obtain ⟨hw1, hw2⟩ := hw.resolve_left (by simp)
    obtain ⟨w0, w1, w2, w3, rfl⟩ : ∃ w0 w1 w2 w3, cf = [w0, w1, w2, w3] := by
      match cf, hw2 with
      | [a, b, c, d], _ => exact ⟨a, b, c, d, rfl⟩
    have e2 := fun d => key (fCenter, fixed ccenter none none) (by unfold amFields; simp) d
    have e3 := fun d => key (['f', 'w', 'h', 'm', '_', 'g', '_', 'l'], fixed w0 (some 0) none) (by unfold amFields; simp [fWidths]) d
    have e4 := fun d => key (['f', 'w', 'h', 'm', '_', 'l', '_', 'l'], fixed w1 (some 0) none) (by unfold amFields; simp [fWidths]) d
    have e5 := fun d => key (['f', 'w', 'h', 'm', '_', 'g', '_', 'r'], fixed w2 (some 0) none) (by unfold amFields; simp [fWidths]) d
    have e6 := fun d => key (['f', 'w', 'h', 'm', '_', 'l', '_', 'r'], fixed w3 (some 0) none) (by unfold amFields; simp [fWidths]) d
    dsimp only [fixed] at e2 e3 e4 e5 e6
    dsimp only
    rw [e1, e2, hfree]
    simp only [fWidths, List.zipIdx_cons, List.zipIdx_nil, List.map_cons, List.map_nil, e3, e4, e5, e6]
    rw [hclip _ (hw1 w0 (by simp)), hclip _ (hw1 w1 (by simp)), hclip _ (hw1 w2 (by simp)), hclip _ (hw1 w3 (by simp))]

/-! ### The hypotheses can be met -/

/-- Nickel-like numbers: lattice parameter 0.35 nm, the reflection 111 at distance √3, a point one half of the zone away from it. -/
example : ∃ w, warren 1 (3 / 2) 2 = some w ∧ 1 ^ 2 * (1 / 2) / (6 * (3 / 2)) * w = sphereMean (zone 1) (3 / 2) 2 :=
  warren_mean (by norm_num) (by norm_num) (by norm_num) (by norm_num) (by norm_num)

example : lineout id [1, 2, 4] nExp [⟨['c'], 1, 0, 0, [], [3, 1, 2]⟩] = some [3, 1, 2] :=
  lineout_same id _ ⟨['c'], 1, 0, 0, [], [3, 1, 2]⟩ (by simp; norm_num) (by simp) rfl rfl rfl

example : amSet .splitGaussian (amPars .splitGaussian [⟨['a'], 1, 0, 30, [5, 4], []⟩, ⟨['b'], 2, 0, 40, [3, 1], []⟩]) ⟨['b'], 2, 0, 40, [3, 1], []⟩ =
    ⟨['b'], 2, 0, 40, [3, 1], []⟩ :=
  amSet_same _ _ (by simp) _ (by simp) (by norm_num) (.inr ⟨by simp, rfl⟩)

end Hexrd.Diffuse
