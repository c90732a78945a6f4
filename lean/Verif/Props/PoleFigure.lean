import Verif.Spec.PoleFigure
import Verif.Props.HarmonicSeries

/-! C126: pole figure data. -/
namespace Hexrd.PoleFigure

open Hexrd.Texture Hexrd.Texture.Spec Spec
open scoped Matrix

theorem len_sq (v : V3) : len v ^ 2 = v 0 ^ 2 + v 1 ^ 2 + v 2 ^ 2 := Real.sq_sqrt (by positivity)

theorem len_pos {v : V3} (hv : v ≠ 0) : 0 < len v := by
  refine Real.sqrt_pos.2 ?_
  by_contra h
  apply hv
  have h0 := sq_nonneg (v 0)
  have h1 := sq_nonneg (v 1)
  have h2 := sq_nonneg (v 2)
  have e0 : v 0 = 0 := pow_eq_zero_iff (two_ne_zero) |>.1 (by linarith)
  have e1 : v 1 = 0 := pow_eq_zero_iff (two_ne_zero) |>.1 (by linarith)
  have e2 : v 2 = 0 := pow_eq_zero_iff (two_ne_zero) |>.1 (by linarith)
  ext i
  fin_cases i <;> assumption

theorem unit_comp {v : V3} (hv : IsUnit3 v) : |v 2| ≤ 1 := by
  unfold IsUnit3 at hv
  rw [← sq_le_one_iff_abs_le_one]
  nlinarith [sq_nonneg (v 0), sq_nonneg (v 1)]

theorem sanitize_unit {v : V3} (hv : IsUnit3 v) : sanitize v = v := by
  rw [sanitize, if_neg (not_lt.2 (unit_comp hv))]

theorem unit_div {v : V3} (hv : v ≠ 0) : IsUnit3 (fun k => v k / len v) := by
  have h := len_pos hv
  have e := len_sq v
  unfold IsUnit3
  rw [div_pow, div_pow, div_pow, ← add_div, ← add_div, ← e, div_self (by positivity)]

theorem unit_rot {R : Matrix (Fin 3) (Fin 3) ℝ} (hR : Rᵀ * R = 1) {v : V3} (hv : IsUnit3 v) : IsUnit3 (R *ᵥ v) := by
  have e : (R *ᵥ v) ⬝ᵥ (R *ᵥ v) = v ⬝ᵥ v := by
    rw [Matrix.dotProduct_mulVec, ← Matrix.mulVec_transpose, Matrix.mulVec_mulVec, hR, Matrix.one_mulVec]
  unfold IsUnit3 at *
  simp only [dotProduct, Fin.sum_univ_three] at e
  linear_combination e + hv

/-- The angles of a unit vector describe it. -/
theorem angles_direction {v : V3} (hv : IsUnit3 v) : direction (angles v) = v := by
  have hs := sin_angles v hv
  have hc := cos_angles v hv
  have hr : ‖transverse v‖ * Real.cos (angles v).2 = v 0 := by
    have := Complex.norm_mul_cos_arg (transverse v)
    simpa [angles, transverse] using this
  have hi : ‖transverse v‖ * Real.sin (angles v).2 = v 1 := by
    have := Complex.norm_mul_sin_arg (transverse v)
    simpa [angles, transverse] using this
  ext k
  fin_cases k
  · simp only [direction, hs]; exact hr
  · simp only [direction, hs]; exact hi
  · simp only [direction, hc]; rfl

theorem anglesOf_unit {v w : V3} (hv : v ≠ 0) (hw : w = fun k => v k / len v) : AnglesOf (angles w) v := by
  subst hw
  have h := len_pos hv
  refine ⟨Real.arccos_nonneg _, Real.arccos_le_pi _, Complex.neg_pi_lt_arg _, Complex.arg_le_pi _, ?_⟩
  rw [angles_direction (unit_div hv)]
  ext k
  simp only [Pi.smul_apply, smul_eq_mul]
  field_simp

theorem len_rot {R : Matrix (Fin 3) (Fin 3) ℝ} (hR : Rᵀ * R = 1) (v : V3) : len (R *ᵥ v) = len v := by
  have e : (R *ᵥ v) ⬝ᵥ (R *ᵥ v) = v ⬝ᵥ v := by
    rw [Matrix.dotProduct_mulVec, ← Matrix.mulVec_transpose, Matrix.mulVec_mulVec, hR, Matrix.one_mulVec]
  simp only [dotProduct, Fin.sum_univ_three] at e
  rw [len, len]
  congr 1
  linear_combination e

theorem forall2_map {α β : Type} {r : α → β → Prop} (l : List α) (f : α → β) (h : ∀ x ∈ l, r x (f x)) :
    List.Forall₂ r l (l.map f) := by
  induction l with
  | nil => exact .nil
  | cons a l ih => exact .cons (h a List.mem_cons_self) (ih fun x hx => h x (List.mem_cons_of_mem _ hx))

/-- The stored form of a row. -/
noncomputable def unitRow (r : Row) : Row := ⟨fun k => r.v k / len r.v, r.i⟩

theorem pole_eq (R : Matrix (Fin 3) (Fin 3) ℝ) (hR : Rᵀ * R = 1) (rows : List Row) (h : ∀ r ∈ rows, r.v ≠ 0) :
    pole R rows = some ⟨rows.map unitRow, rows.map fun r => angles (unitRow r).v,
      rows.map fun r => angles (R *ᵥ (unitRow r).v)⟩ := by
  have e : rows.mapM normalise = some (rows.map unitRow) := by
    apply mapM_some
    intro r hr
    rw [normalise, if_neg (len_pos (h r hr)).ne']
    rfl
  have e2 : (rows.map unitRow).map (fun r => { r with v := sanitize r.v }) = rows.map unitRow := by
    rw [List.map_map]
    apply List.map_congr_left
    intro r hr
    rw [Function.comp_apply, sanitize_unit (v := (unitRow r).v) (unit_div (h r hr))]
  rw [pole, e, Option.map_some]
  simp only [e2]
  rw [List.map_map, List.map_map]
  congr 2
  apply List.map_congr_left
  intro r hr
  rw [Function.comp_apply, sanitize_unit (unit_rot hR (v := (unitRow r).v) (unit_div (h r hr)))]

/-- C126: for directions that are not zero and a rotation of the sample, the stored rows are
the unit vectors of the given directions with the same intensities, the angles are those of
the directions, and the rotated angles those of the rotated directions. -/
theorem pole_spec (R : Matrix (Fin 3) (Fin 3) ℝ) (hR : Rᵀ * R = 1) (rows : List Row) (h : ∀ r ∈ rows, r.v ≠ 0) :
    ∃ p, pole R rows = some p ∧
      List.Forall₂ (fun r r' => len r'.v = 1 ∧ r.v = len r.v • r'.v ∧ r'.i = r.i) rows p.rows ∧
      List.Forall₂ (fun r a => AnglesOf a r.v) rows p.angs ∧
      List.Forall₂ (fun r a => AnglesOf a (R *ᵥ r.v)) rows p.rotated := by
  refine ⟨_, pole_eq R hR rows h, ?_, ?_, ?_⟩
  · refine forall2_map _ _ fun r hr => ⟨?_, ?_, rfl⟩
    · have := unit_div (h r hr)
      unfold IsUnit3 at this
      rw [len]
      exact Real.sqrt_eq_one.2 this
    · have := len_pos (h r hr)
      ext k
      simp only [unitRow, Pi.smul_apply, smul_eq_mul]
      field_simp
  · exact forall2_map _ _ fun r hr => anglesOf_unit (h r hr) rfl
  · refine forall2_map _ _ fun r hr => anglesOf_unit ?_ ?_
    · intro e
      have := len_pos (h r hr)
      rw [← len_rot hR, e] at this
      simp [len] at this
    · rw [len_rot hR]
      have : (unitRow r).v = (len r.v)⁻¹ • r.v := by
        ext k
        simp only [unitRow, Pi.smul_apply, smul_eq_mul]
        ring
      rw [this, Matrix.mulVec_smul]
      ext k
      simp only [Pi.smul_apply, smul_eq_mul]
      ring

/-- C126: storing the data changes the arrays of the caller to unit vectors; storing these
again gives the same. -/
theorem pole_again (R : Matrix (Fin 3) (Fin 3) ℝ) (hR : Rᵀ * R = 1) (rows : List Row) (h : ∀ r ∈ rows, r.v ≠ 0) (p : Pole)
    (e : pole R rows = some p) : pole R p.rows = some p := by
  rw [pole_eq R hR rows h, Option.some.injEq] at e
  subst e
  have hu : ∀ r ∈ rows, unitRow (unitRow r) = unitRow r := by
    intro r hr
    have : len (unitRow r).v = 1 := by
      have := unit_div (h r hr)
      unfold IsUnit3 at this
      rw [len]
      exact Real.sqrt_eq_one.2 this
    rw [unitRow, this]
    simp
  rw [pole_eq R hR]
  · simp only [List.map_map]
    congr 2
    · exact List.map_congr_left fun r hr => hu r hr
    · exact List.map_congr_left fun r hr => by simp only [Function.comp_apply, hu r hr]
    · exact List.map_congr_left fun r hr => by simp only [Function.comp_apply, hu r hr]
  · intro r hr
    obtain ⟨r', hr', rfl⟩ := List.mem_map.1 hr
    intro e
    have := unit_div (h r' hr')
    rw [show (fun k => r'.v k / len r'.v) = 0 from e] at this
    simp [IsUnit3] at this

/-- C126: the lengths of the given directions do not matter. -/
theorem pole_scale (R : Matrix (Fin 3) (Fin 3) ℝ) (hR : Rᵀ * R = 1) (rows : List Row) (h : ∀ r ∈ rows, r.v ≠ 0)
    (t : Row → ℝ) (ht : ∀ r ∈ rows, 0 < t r) :
    pole R (rows.map fun r => ⟨t r • r.v, r.i⟩) = pole R rows := by
  have hl : ∀ r ∈ rows, len (t r • r.v) = t r * len r.v := by
    intro r hr
    rw [len, len, ← Real.sqrt_sq (ht r hr).le, ← Real.sqrt_mul (sq_nonneg _), Real.sqrt_sq (ht r hr).le]
    congr 1
    simp only [Pi.smul_apply, smul_eq_mul]
    ring
  have hu : ∀ r ∈ rows, unitRow ⟨t r • r.v, r.i⟩ = unitRow r := by
    intro r hr
    have h1 := ht r hr
    have h2 := len_pos (h r hr)
    simp only [unitRow, hl r hr, Row.mk.injEq, and_true]
    ext k
    simp only [Pi.smul_apply, smul_eq_mul]
    field_simp
  rw [pole_eq R hR rows h, pole_eq R hR]
  · simp only [List.map_map]
    congr 2
    · exact List.map_congr_left fun r hr => hu r hr
    · exact List.map_congr_left fun r hr => by simp only [Function.comp_apply, hu r hr]
    · exact List.map_congr_left fun r hr => by simp only [Function.comp_apply, hu r hr]
  · intro r hr
    obtain ⟨r', hr', rfl⟩ := List.mem_map.1 hr
    exact smul_ne_zero (ht r' hr').ne' (h r' hr')

/-! ## Weights and residual -/

/-- C126: the weight of an intensity is its inverse, and 0 for less than 1/100 in absolute value. -/
theorem weight_spec (m : ℝ) : weight (some m) = if |m| < 1 / 100 then 0 else 1 / m := by
  simp only [weight]
  by_cases h0 : m = 0
  · simp [h0]
  · have hp : 0 < |m| := abs_pos.2 h0
    rw [if_neg h0]
    have : 100 < |1 / m| ↔ |m| < 1 / 100 := by
      rw [abs_div, abs_one, lt_div_iff₀ hp, lt_div_iff₀ (by norm_num : (0 : ℝ) < 100), mul_comm]
    simp only [this]

/-- C126: the weights are those of the stored intensities, in the same order. -/
theorem weights_aligned {K : Type} (s t : PF K) (val : List (K × List Row)) (e : setData s val = some t) :
    t.weights = (measured t).map weight ∧ t.poles.map Prod.fst = val.map Prod.fst ∧ t.rmat = s.rmat := by
  rw [setData, Option.map_eq_some_iff] at e
  obtain ⟨ps, e, rfl⟩ := e
  refine ⟨?_, ?_, rfl⟩
  · simp only [measured, List.map_flatMap, List.map_map]
    rfl
  · simp only
    induction val generalizing ps with
    | nil => simp only [List.mapM_nil] at e; cases e; rfl
    | cons kv val ih =>
      rw [List.mapM_cons] at e
      obtain ⟨p, e1, e⟩ := Option.bind_eq_some_iff.1 e
      obtain ⟨l, e2, e⟩ := Option.bind_eq_some_iff.1 e
      cases e
      obtain ⟨q, _, rfl⟩ := Option.map_eq_some_iff.1 e1
      rw [List.map_cons, List.map_cons, ih l e2]

/-- C126: an entry of the residual is missing exactly if the intensity is NaN, or at most -1/100
and not met by the calculation. -/
theorem entry_none (m : Option ℝ) (c : ℝ) :
    entry (weight m) m c = none ↔ m = none ∨ ∃ x, m = some x ∧ x ≤ -(1 / 100) ∧ x ≠ c := by
  cases m with
  | none => simp [entry]
  | some x =>
    simp only [entry, Option.bind_some, reduceCtorEq, false_or, Option.some.injEq, exists_eq_left']
    rw [weight_spec]
    by_cases h : |x| < 1 / 100
    · rw [if_pos h]
      simp only [zero_mul, lt_irrefl, if_false, reduceCtorEq, false_iff, not_and, not_not]
      intro hx
      have := (abs_lt.1 h).1
      linarith
    · rw [if_neg h]
      rcases lt_or_ge x 0 with hx | hx
      · have hx' : x ≤ -(1 / 100) := by
          rw [abs_of_neg hx] at h
          linarith
        have hneg : 1 / x < 0 := one_div_neg.2 hx
        by_cases hc : x = c
        · simp [hc]
        · have : 0 < (x - c) ^ 2 := by
            have := sub_ne_zero.2 hc
            positivity
          have h2 : 1 / x * (x - c) ^ 2 < 0 := mul_neg_of_neg_of_pos hneg this
          rw [if_pos h2]
          simp [hc]
          linarith
      · have h2 : ¬ 1 / x * (x - c) ^ 2 < 0 := not_lt.2 (by positivity)
        rw [if_neg h2]
        simp only [reduceCtorEq, false_iff, not_and, not_not]
        intro hx'
        linarith

theorem entry_chi (m c : ℝ) (hm : 0 ≤ m) : ∃ e, entry (weight (some m)) (some m) c = some e ∧ 0 ≤ e ∧ e ^ 2 = chi m c := by
  have h0 : 0 ≤ weight (some m) * (m - c) ^ 2 := by
    rw [weight_spec]
    split
    · simp
    · positivity
  refine ⟨√(weight (some m) * (m - c) ^ 2), ?_, Real.sqrt_nonneg _, ?_⟩
  · simp [entry, not_lt.2 h0]
  · rw [Real.sq_sqrt h0, weight_spec, chi, abs_of_nonneg hm]
    split
    · simp
    · ring

/-- C126: for non-negative measured intensities the residual has one entry per point, and the
sum of squares that the refinement minimises is the sum of the squared deviations relative to the
measured intensities, without those below 1/100. -/
theorem residual_chi (ms cs : List ℝ) (hl : ms.length = cs.length) (hne : ms ≠ []) (hm : ∀ m ∈ ms, 0 ≤ m) :
    ∃ l, residual ((ms.map some).map weight) (ms.map some) cs = .inr l ∧ l.length = ms.length ∧
      (l.map (· ^ 2)).sum = ((ms.zip cs).map fun x => chi x.1 x.2).sum := by
  have key : ∀ (ms cs : List ℝ), ms.length = cs.length → (∀ m ∈ ms, 0 ≤ m) →
      ∃ l : List ℝ, ((((ms.map some).map weight).zip ((ms.map some).zip cs)).map fun x => entry x.1 x.2.1 x.2.2) = l.map some ∧
        l.length = ms.length ∧ (l.map (· ^ 2)).sum = ((ms.zip cs).map fun x => chi x.1 x.2).sum := by
    intro ms
    induction ms with
    | nil => intro cs _ _; exact ⟨[], by simp, rfl, by simp⟩
    | cons m ms ih =>
      intro cs hl hm
      cases cs with
      | nil => cases hl
      | cons c cs =>
        obtain ⟨l, e1, e2, e3⟩ := ih cs (by simpa using hl) fun x hx => hm x (List.mem_cons_of_mem _ hx)
        obtain ⟨e, h1, _, h3⟩ := entry_chi m c (hm m List.mem_cons_self)
        refine ⟨e :: l, ?_, by simp [e2], ?_⟩
        · simp only [List.map_cons, List.zip_cons_cons, h1]
          rw [e1]
        · simp only [List.map_cons, List.sum_cons, List.zip_cons_cons, h3, e3]
  obtain ⟨l, e1, e2, e3⟩ := key ms cs hl hm
  refine ⟨l, ?_, e2, e3⟩
  rw [residual]
  simp only [e1]
  have hl' : l ≠ [] := by
    rintro rfl
    apply hne
    exact List.length_eq_zero_iff.1 e2.symm
  rw [if_neg]
  · simp
  · cases l with
    | nil => exact absurd rfl hl'
    | cons a l => simp

/-- C126: if nothing is usable, and in particular without data, the residual is the number 1e10. -/
theorem residual_unusable (ms : List (Option ℝ)) (cs : List ℝ)
    (h : ∀ x ∈ ms.zip cs, x.1 = none ∨ ∃ m, x.1 = some m ∧ m ≤ -(1 / 100) ∧ m ≠ x.2) :
    residual (ms.map weight) ms cs = .inl (10 ^ 10) := by
  rw [residual, if_pos]
  rw [List.all_eq_true]
  intro e he
  obtain ⟨x, hx, rfl⟩ := List.mem_map.1 he
  rw [Option.isNone_iff_eq_none]
  have : ∀ (ms : List (Option ℝ)) (cs : List ℝ) x, x ∈ (ms.map weight).zip (ms.zip cs) →
      x.1 = weight x.2.1 ∧ x.2 ∈ ms.zip cs := by
    intro ms
    induction ms with
    | nil => intro cs x hx; simp at hx
    | cons m ms ih =>
      intro cs x hx
      cases cs with
      | nil => simp at hx
      | cons c cs =>
        rw [List.map_cons, List.zip_cons_cons, List.zip_cons_cons, List.mem_cons] at hx
        rcases hx with rfl | hx
        · simp
        · obtain ⟨a, b⟩ := ih cs x hx
          exact ⟨a, by rw [List.zip_cons_cons]; exact List.mem_cons_of_mem _ b⟩
  obtain ⟨a, b⟩ := this ms cs x hx
  rw [a, entry_none]
  exact h _ b

/-! ## Projection -/

/-- C126: every direction is drawn within the unit disc. -/
theorem stereo_bounds (t : ℝ) (h0 : 0 ≤ t) (h1 : t ≤ Real.pi) : 0 ≤ stereoRadius t ∧ stereoRadius t ≤ 1 := by
  have hs := Real.sin_nonneg_of_nonneg_of_le_pi h0 h1
  have hc := abs_nonneg (Real.cos t)
  constructor
  · exact div_nonneg hs (by linarith)
  · rw [stereoRadius, div_le_one (by linarith)]
    linarith [Real.sin_le_one t]

/-- C126: opposite polar angles are drawn at the same radius. -/
theorem stereo_opposite (t : ℝ) : stereoRadius (Real.pi - t) = stereoRadius t := by
  rw [stereoRadius, stereoRadius, Real.sin_pi_sub, Real.cos_pi_sub, abs_neg]

/-- C126: a direction of the upper hemisphere can be read off its point in the plot: the
projection is the stereographic one. -/
theorem stereo_inverse (t rho : ℝ) (h0 : 0 ≤ t) (h1 : t ≤ Real.pi / 2) : fromDisc (stereoRadius t) rho = direction (t, rho) := by
  have hc : 0 ≤ Real.cos t := Real.cos_nonneg_of_neg_pi_div_two_le_of_le (by linarith [Real.pi_pos]) h1
  have hp : 1 + Real.cos t ≠ 0 := by linarith
  have hs := Real.sin_sq_add_cos_sq t
  have e : 1 + stereoRadius t ^ 2 = 2 / (1 + Real.cos t) := by
    rw [stereoRadius, abs_of_nonneg hc]
    field_simp
    linear_combination hs
  have e2 : 1 - stereoRadius t ^ 2 = 2 * Real.cos t / (1 + Real.cos t) := by
    rw [stereoRadius, abs_of_nonneg hc]
    field_simp
    linear_combination -hs
  have e3 : stereoRadius t = Real.sin t / (1 + Real.cos t) := by rw [stereoRadius, abs_of_nonneg hc]
  ext k
  fin_cases k
  · simp only [fromDisc, direction, e]
    simp only [e3]
    simp
    field_simp
  · simp only [fromDisc, direction, e]
    simp only [e3]
    simp
    field_simp
  · simp only [fromDisc, direction, e, e2]
    simp
    field_simp

/-! ## Densest grid -/

/-- C126: the densest grid is a reflection with the most points, the first of them; there is
none exactly if there are no points at all. -/
theorem densest_spec {K : Type} (s : PF K) :
    (densest s = none ∧ ∀ kp ∈ s.poles, kp.2.rows = []) ∨
    ∃ a kp b, s.poles = a ++ kp :: b ∧ densest s = some kp.1 ∧
      (∀ x ∈ a, x.2.rows.length < kp.2.rows.length) ∧ ∀ x ∈ b, x.2.rows.length ≤ kp.2.rows.length := by
  have key : ∀ (l pre : List (K × Pole)) (acc : Option K × ℕ),
      ((acc = (none, 0) ∧ ∀ kp ∈ pre, kp.2.rows = []) ∨
        ∃ a kp b, pre = a ++ kp :: b ∧ acc = (some kp.1, kp.2.rows.length) ∧
          (∀ x ∈ a, x.2.rows.length < kp.2.rows.length) ∧ ∀ x ∈ b, x.2.rows.length ≤ kp.2.rows.length) →
      ((l.foldl (fun acc kp => if acc.2 < kp.2.rows.length then (some kp.1, kp.2.rows.length) else acc) acc = (none, 0) ∧
          ∀ kp ∈ pre ++ l, kp.2.rows = []) ∨
        ∃ a kp b, pre ++ l = a ++ kp :: b ∧
          l.foldl (fun acc kp => if acc.2 < kp.2.rows.length then (some kp.1, kp.2.rows.length) else acc) acc =
            (some kp.1, kp.2.rows.length) ∧
          (∀ x ∈ a, x.2.rows.length < kp.2.rows.length) ∧ ∀ x ∈ b, x.2.rows.length ≤ kp.2.rows.length) := by
    intro l
    induction l with
    | nil => intro pre acc h; simpa using h
    | cons x l ih =>
      intro pre acc h
      rw [List.foldl_cons, show pre ++ x :: l = (pre ++ [x]) ++ l by simp]
      apply ih
      rcases h with ⟨rfl, h⟩ | ⟨a, kp, b, rfl, rfl, h1, h2⟩
      · by_cases hx : 0 < x.2.rows.length
        · right
          refine ⟨pre, x, [], rfl, if_pos hx, ?_, by simp⟩
          intro y hy
          rw [h y hy]
          exact hx
        · left
          refine ⟨if_neg hx, ?_⟩
          intro y hy
          rw [List.mem_append, List.mem_singleton] at hy
          rcases hy with hy | rfl
          · exact h y hy
          · exact List.length_eq_zero_iff.1 (by omega)
      · right
        by_cases hx : kp.2.rows.length < x.2.rows.length
        · refine ⟨a ++ kp :: b, x, [], by simp, if_pos hx, ?_, by simp⟩
          intro y hy
          rw [List.mem_append, List.mem_cons] at hy
          rcases hy with hy | rfl | hy
          · exact (h1 y hy).trans hx
          · exact hx
          · exact (h2 y hy).trans_lt hx
        · refine ⟨a, kp, b ++ [x], by simp, if_neg hx, h1, ?_⟩
          intro y hy
          rw [List.mem_append, List.mem_singleton] at hy
          rcases hy with hy | rfl
          · exact h2 y hy
          · omega
  have := key s.poles [] (none, 0) (Or.inl ⟨rfl, by simp⟩)
  rw [List.nil_append] at this
  rcases this with ⟨h1, h2⟩ | ⟨a, kp, b, h1, h2, h3⟩
  · exact Or.inl ⟨by rw [densest, h1], h2⟩
  · exact Or.inr ⟨a, kp, b, h1, by rw [densest, h2], h3⟩

/-! ## Stale angles -/

/-- Half a turn about the x axis. -/
def half : Matrix (Fin 3) (Fin 3) ℝ := !![1, 0, 0; 0, -1, 0; 0, 0, -1]

/-- C126 fails if the rotation of the sample is set after the data: the rotated angles stay
those of the old rotation. Here the direction z, turned upside down, keeps the polar angle 0. -/
theorem rotation_stale_fails :
    ∃ s t : PF Unit, setData ⟨1, [], []⟩ [((), [⟨![0, 0, 1], some 1⟩])] = some s ∧ t = setRmat s half ∧
      halfᵀ * half = 1 ∧ ∃ p a, t.poles = [((), p)] ∧ p.rotated = [a] ∧ ¬ AnglesOf a (t.rmat *ᵥ ![0, 0, 1]) := by
  have hne : ∀ r ∈ [(⟨![0, 0, 1], some 1⟩ : Row)], r.v ≠ 0 := by
    intro r hr e
    rw [List.mem_singleton] at hr
    subst hr
    have := congrFun e 2
    simp at this
  have e := pole_eq 1 (by simp) [⟨![0, 0, 1], some 1⟩] hne
  have es : ∃ P Q w, setData (K := Unit) ⟨1, [], []⟩ [((), [⟨![0, 0, 1], some 1⟩])] =
      some ⟨1, [((), ⟨P, Q, [angles ((1 : Matrix (Fin 3) (Fin 3) ℝ) *ᵥ (unitRow ⟨![0, 0, 1], some 1⟩).v)]⟩)], w⟩ := by
    rw [setData, List.mapM_cons, e]
    exact ⟨_, _, _, rfl⟩
  obtain ⟨P, Q, w, es⟩ := es
  refine ⟨_, _, es, rfl, ?_, _, _, rfl, rfl, ?_⟩
  · ext i j
    fin_cases i <;> fin_cases j <;> simp [half, Matrix.mul_apply, Fin.sum_univ_three]
  · rintro ⟨h0, _, _, _, h⟩
    have h2 := congrFun h 2
    have hl : len ![0, 0, 1] = 1 := by simp [len]
    have hl' : len (half *ᵥ ![0, 0, 1]) = 1 := by simp [len, half, Matrix.mulVec, dotProduct, Fin.sum_univ_three]
    simp only [setRmat, unitRow, hl, Matrix.one_mulVec, hl', angles, direction, Pi.smul_apply] at h2
    simp [half, Matrix.mulVec, dotProduct, Fin.sum_univ_three] at h2
    norm_num at h2

/-- The keys with angles of a run of calculations, each with a greatest degree. -/
def runs {K : Type} [DecidableEq K] (cache : Cache K) (l : List (ℕ × List (K × (ℝ × ℝ)))) : Cache K :=
  l.foldl (fun c x => precompute c x.1 x.2) cache

theorem precompute_known {K : Type} [DecidableEq K] (cache : Cache K) (n : ℕ) (l : List (K × (ℝ × ℝ))) (k : K)
    (v : (ℝ × ℝ) × ℕ) (h : cache k = some v) : precompute cache n l k = some v := by
  unfold precompute
  induction l generalizing cache with
  | nil => exact h
  | cons x l ih =>
    rw [List.foldl_cons]
    apply ih
    simp [h]

theorem precompute_new {K : Type} [DecidableEq K] (cache : Cache K) (n : ℕ) (l : List (K × (ℝ × ℝ))) (k : K)
    (h : cache k = none) (a : ℝ × ℝ) (ha : (l.find? fun x => x.1 = k).map Prod.snd = some a) :
    precompute cache n l k = some (a, n) := by
  unfold precompute
  induction l generalizing cache with
  | nil => cases ha
  | cons x l ih =>
    rw [List.foldl_cons]
    by_cases hx : x.1 = k
    · rw [List.find?_cons_of_pos (by simpa using hx)] at ha
      simp only [Option.map_some, Option.some.injEq] at ha
      refine precompute_known _ n l k _ ?_
      simp [hx, h, ha]
    · rw [List.find?_cons_of_neg (by simpa using hx)] at ha
      refine ih _ ?_ ha
      rw [if_neg (fun c => hx c.1.symm)]
      exact h

/-- C126 fails for a cell that changes: the harmonics of a reflection are those of its
direction at the first calculation, through any later calculations with whatever directions
and greatest degrees. -/
theorem cache_first_fails {K : Type} [DecidableEq K] (n : ℕ) (l : List (K × (ℝ × ℝ))) (k : K) (a : ℝ × ℝ)
    (ha : (l.find? fun x => x.1 = k).map Prod.snd = some a) (later : List (ℕ × List (K × (ℝ × ℝ)))) :
    runs (fun _ => none) ((n, l) :: later) k = some (a, n) := by
  rw [runs, List.foldl_cons]
  have h := precompute_new (fun _ => none) n l k rfl a ha
  generalize precompute (fun _ => none) n l = c at h
  induction later generalizing c with
  | nil => exact h
  | cons x later ih =>
    rw [List.foldl_cons]
    exact ih _ (precompute_known _ _ _ _ _ h)

/-- C126: so long as neither the directions nor the greatest degree change, the intensity on
a ring is that of the series. -/
theorem ring_intensity {K : Type} [DecidableEq K] (n : ℕ) (l : List (K × (ℝ × ℝ))) (k : K) (a : ℝ × ℝ)
    (ha : (l.find? fun x => x.1 = k).map Prod.snd = some a) (m : ℕ) (p : Params) (csym ssym : Sym) (s : ℝ × ℝ) :
    ringIntensity (runs (fun _ => none) (List.replicate (m + 1) (n, l))) p csym ssym n k s = intensity p csym ssym n a s := by
  rw [ringIntensity, List.replicate_succ, cache_first_fails n l k a ha, Option.bind_some, if_pos]
  rw [List.all_eq_true]
  intro d hd
  obtain ⟨i, hi, rfl⟩ := List.mem_map.1 hd
  rw [List.mem_range] at hi
  simp only [decide_eq_true_eq]
  omega

/-- C126 fails for a greatest degree that is raised by 2 or more after a calculation: the
harmonics of the reflection are missing. -/
theorem degree_raise_fails {K : Type} [DecidableEq K] (n n' : ℕ) (l l' : List (K × (ℝ × ℝ))) (k : K) (a : ℝ × ℝ)
    (ha : (l.find? fun x => x.1 = k).map Prod.snd = some a) (hn : n + 2 ≤ n') (p : Params) (csym ssym : Sym) (s : ℝ × ℝ) :
    ringIntensity (runs (fun _ => none) [(n, l), (n', l')]) p csym ssym n' k s = none := by
  rw [ringIntensity, cache_first_fails n l k a ha, Option.bind_some, if_neg]
  rw [List.all_eq_true]
  intro h
  have := h (2 * (n' / 2 - 1 + 1)) (List.mem_map.2 ⟨n' / 2 - 1, by rw [List.mem_range]; omega, rfl⟩)
  simp only [decide_eq_true_eq] at this
  omega

/-- Concrete case for the residual: one count of 1 calculated as 3 and a small one. -/
example : ∃ l, residual [weight (some 1), weight (some 0.001)] [some 1, some 0.001] [3, 5] = .inr l ∧ l.length = 2 ∧
    (l.map (· ^ 2)).sum = 4 := by
  obtain ⟨l, h1, h2, h3⟩ := residual_chi [1, 0.001] [3, 5] rfl (by simp) (by
    intro m hm
    simp only [List.mem_cons, List.not_mem_nil, or_false] at hm
    rcases hm with rfl | rfl <;> norm_num)
  refine ⟨l, h1, h2, ?_⟩
  rw [h3]
  simp [chi]
  norm_num

end Hexrd.PoleFigure
