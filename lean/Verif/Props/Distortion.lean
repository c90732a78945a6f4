import Verif.Model.Distortion
import Mathlib.Tactic.Linarith
import Mathlib.Tactic.Positivity
import Mathlib.Tactic.Ring
import Mathlib.Tactic.FieldSimp
import Mathlib.Tactic.NormNum
import Mathlib.Tactic.LinearCombination

/-!
# Properties of the distortion maps

C68.
-/
namespace Hexrd.Distortion

/-! ### `Dexela_2923` -/

theorem quadrant_cases (q : Pt) : quadrant q = 0 ∨ quadrant q = 2 ∨ quadrant q = 4 ∨ quadrant q = 6 := by
  unfold quadrant
  split_ifs <;> simp

/-- C68 for `Dexela_2923`: `apply_inverse` undoes `apply` at a point exactly if the parameters of the quadrant of the
distorted point are those of the quadrant of the point. -/
theorem dexela_inverse_partial (p : Nat → ℝ) (q : Pt) (hp : ¬ trivial 8 p) :
    dexelaApplyInv p (dexelaApply p q) = q ↔
      p (quadrant (dexelaApply p q)) = p (quadrant q) ∧ p (quadrant (dexelaApply p q) + 1) = p (quadrant q + 1) := by
  unfold dexelaApplyInv
  rw [if_neg hp]
  simp only [dexelaApply, if_neg hp]
  unfold dexelaInv
  rw [Prod.ext_iff]
  simp only [dexelaMap]
  constructor
  · rintro ⟨h1, h2⟩; exact ⟨by linarith, by linarith⟩
  · rintro ⟨h1, h2⟩; rw [h1, h2]; exact ⟨by ring, by ring⟩

/-- C68 for `Dexela_2923`: `apply` undoes `apply_inverse` at a point exactly in the same case. -/
theorem dexela_apply_partial (p : Nat → ℝ) (q : Pt) (hp : ¬ trivial 8 p) :
    dexelaApply p (dexelaApplyInv p q) = q ↔
      p (quadrant (dexelaApplyInv p q)) = p (quadrant q) ∧ p (quadrant (dexelaApplyInv p q) + 1) = p (quadrant q + 1) := by
  unfold dexelaApply
  rw [if_neg hp]
  simp only [dexelaApplyInv, if_neg hp]
  unfold dexelaMap
  rw [Prod.ext_iff]
  simp only [dexelaInv]
  constructor
  · rintro ⟨h1, h2⟩; exact ⟨by linarith, by linarith⟩
  · rintro ⟨h1, h2⟩; rw [h1, h2]; exact ⟨by ring, by ring⟩

/-- C68 for `Dexela_2923`: if no quadrant is moved across the axes, `apply_inverse` undoes `apply` everywhere. -/
theorem dexela_outward (p : Nat → ℝ) (q : Pt) (h0 : 0 ≤ p 0) (h1 : 0 ≤ p 1) (h2 : p 2 ≤ 0) (h3 : 0 ≤ p 3) (h4 : p 4 ≤ 0)
    (h5 : p 5 ≤ 0) (h6 : 0 ≤ p 6) (h7 : p 7 ≤ 0) : dexelaApplyInv p (dexelaApply p q) = q := by
  by_cases hp : trivial 8 p
  · simp [dexelaApplyInv, dexelaApply, hp]
  · rw [dexela_inverse_partial p q hp]
    have : quadrant (dexelaApply p q) = quadrant q := by
      unfold dexelaApply
      rw [if_neg hp]
      unfold dexelaMap
      by_cases a : q.1 < 0 <;> by_cases b : q.2 < 0 <;> simp only [quadrant, a, b, if_true, if_false]
      · rw [if_pos (by linarith), if_pos (by linarith)]
      · rw [if_pos (by linarith), if_neg (by linarith)]
      · rw [if_neg (by linarith), if_pos (by linarith)]
      · rw [if_neg (by linarith), if_neg (by linarith)]
    rw [this]
    exact ⟨rfl, rfl⟩

/-- C68 fails for `Dexela_2923` near the axes: two points can even be mapped to the same one, so no inverse exists. -/
theorem dexela_overlap : ∃ p : Nat → ℝ, ∃ q q' : Pt, q ≠ q' ∧ dexelaApply p q = dexelaApply p q' ∧
    dexelaApplyInv p (dexelaApply p q) ≠ q := by
  refine ⟨fun i => if i = 2 then 1 else 0, (-1 / 2, 1), (1 / 2, 1), by norm_num, ?_, ?_⟩
  · have hp : ¬ trivial 8 (fun i => if i = 2 then (1 : ℝ) else 0) := fun h => by simpa using h 2 (by norm_num)
    simp only [dexelaApply, if_neg hp, dexelaMap, quadrant]
    norm_num
  · have hp : ¬ trivial 8 (fun i => if i = 2 then (1 : ℝ) else 0) := fun h => by simpa using h 2 (by norm_num)
    rw [Ne, dexela_inverse_partial _ _ hp]
    simp only [dexelaApply, if_neg hp, dexelaMap, quadrant]
    norm_num

/-! ### `Dexela_2923_quad` -/

/-- C68 for `Dexela_2923_quad`: `apply_inverse` undoes `apply`, if no division by zero occurs. -/
theorem quad_inverse (p : Nat → ℝ) (q : Pt) (h1 : shift (p 1) ≠ 0) (h5 : shift (p 5) ≠ 0)
    (hd : shift (p 1) * shift (p 5) ≠ p 2 * p 4) : quadApplyInv p (quadApply p q) = q := by
  unfold quadApplyInv quadApply
  split
  · rfl
  · have hd' : shift (p 1) * shift (p 5) - p 2 * p 4 ≠ 0 := sub_ne_zero.2 hd
    have hd2 : 1 - (p 2 * p 4) / (shift (p 1) * shift (p 5)) ≠ 0 := by
      rw [show 1 - (p 2 * p 4) / (shift (p 1) * shift (p 5)) =
        (shift (p 1) * shift (p 5) - p 2 * p 4) / (shift (p 1) * shift (p 5)) by field_simp]
      exact div_ne_zero hd' (mul_ne_zero h1 h5)
    unfold quadInv quadMap
    ext
    · simp only
      field_simp
      ring
    · simp only
      field_simp
      ring

/-- C68 for `Dexela_2923_quad`: `apply` undoes `apply_inverse`, if no division by zero occurs. -/
theorem quad_apply (p : Nat → ℝ) (q : Pt) (h1 : shift (p 1) ≠ 0) (h5 : shift (p 5) ≠ 0)
    (hd : shift (p 1) * shift (p 5) ≠ p 2 * p 4) : quadApply p (quadApplyInv p q) = q := by
  unfold quadApplyInv quadApply
  split
  · rfl
  · have hd' : shift (p 1) * shift (p 5) - p 2 * p 4 ≠ 0 := sub_ne_zero.2 hd
    have hd2 : 1 - (p 2 * p 4) / (shift (p 1) * shift (p 5)) ≠ 0 := by
      rw [show 1 - (p 2 * p 4) / (shift (p 1) * shift (p 5)) =
        (shift (p 1) * shift (p 5) - p 2 * p 4) / (shift (p 1) * shift (p 5)) by field_simp]
      exact div_ne_zero hd' (mul_ne_zero h1 h5)
    have hx : (quadMap p (quadInv p q)).1 = q.1 := by
      unfold quadInv quadMap
      simp only
      rw [div_eq_iff hd2]
      field_simp
      ring
    ext
    · exact hx
    · have : (quadMap p (quadInv p q)).2 = ((quadInv p q).2 - p 3 - p 4 * (quadMap p (quadInv p q)).1) / shift (p 5) := rfl
      rw [this, hx]
      unfold quadInv
      simp only
      field_simp
      ring

/-- C68 fails for `Dexela_2923_quad` with singular parameters: two points have the same image under `apply_inverse`. -/
theorem quad_singular : ∃ p : Nat → ℝ, ¬ trivial 6 p ∧ quadApplyInv p (1, 0) = quadApplyInv p (0, 1) := by
  refine ⟨fun i => if i = 1 ∨ i = 5 then 1 - 1e-12 else if i = 0 ∨ i = 3 then 0 else 1, ?_, ?_⟩
  · exact fun h => by have := h 2 (by norm_num); norm_num at this
  · have hp : ¬ trivial 6 (fun i => if i = 1 ∨ i = 5 then (1 : ℝ) - 1e-12 else if i = 0 ∨ i = 3 then 0 else 1) :=
      fun h => by have := h 2 (by norm_num); norm_num at this
    simp only [quadApplyInv, if_neg hp, quadInv, shift]
    norm_num

/-! ### `GE_41RT` -/

theorem sqrtEps_pos : 0 < sqrtEps := Real.sqrt_pos.2 (by positivity)

theorem rhoMax_pos : 0 < rhoMax := by norm_num [rhoMax]

/-- The distortion in the direction with cosine `c`. -/
noncomputable def strength (p : Nat → ℝ) (c : ℝ) : ℝ :=
  -p 0 * (2 * c ^ 2 - 1) - p 1 * (2 * (2 * c ^ 2 - 1) ^ 2 - 1) - p 2

theorem radius_polar {r c s : ℝ} (hr : 0 ≤ r) (h : c ^ 2 + s ^ 2 = 1) : √(r * c * (r * c) + r * s * (r * s)) = r := by
  rw [show r * c * (r * c) + r * s * (r * s) = r ^ 2 * (c ^ 2 + s ^ 2) by ring, h, mul_one, Real.sqrt_sq hr]

theorem exists_polar {q : Pt} (h : 0 < √(q.1 * q.1 + q.2 * q.2)) :
    ∃ c s : ℝ, c ^ 2 + s ^ 2 = 1 ∧ q = (√(q.1 * q.1 + q.2 * q.2) * c, √(q.1 * q.1 + q.2 * q.2) * s) := by
  set r := √(q.1 * q.1 + q.2 * q.2) with hr
  have h2 : r ^ 2 = q.1 * q.1 + q.2 * q.2 := Real.sq_sqrt (by nlinarith [sq_nonneg q.1, sq_nonneg q.2])
  refine ⟨q.1 / r, q.2 / r, ?_, ?_⟩
  · field_simp
    linarith
  · ext <;> simp only <;> field_simp

theorem geMap_polar (p : Nat → ℝ) (h3 : p 3 = 2) (h4 : p 4 = 2) (h5 : p 5 = 2) {r c s : ℝ} (hr : sqrtEps ≤ r)
    (h : c ^ 2 + s ^ 2 = 1) :
    geMap p (r * c, r * s) =
      ((1 - strength p c * (r / rhoMax) ^ 2) * r * c, (1 - strength p c * (r / rhoMax) ^ 2) * r * s) := by
  have hr0 : 0 < r := sqrtEps_pos.trans_le hr
  have hs : s * s = 1 - c ^ 2 := by linarith
  have e1 : r * c * (1 / r) = c := by field_simp
  have e2 : r * s * (1 / r) = s := by field_simp
  unfold geMap
  simp only
  rw [radius_polar hr0.le h, if_neg (not_lt.2 hr), h3, h4, h5, e1, e2, Real.rpow_two]
  have hc2 : c * c - s * s = 2 * c ^ 2 - 1 := by rw [hs]; ring
  have hc4 : (c * c - s * s) * (c * c - s * s) - 2 * s * c * (2 * s * c) = 2 * (2 * c ^ 2 - 1) ^ 2 - 1 := by
    rw [show 2 * s * c * (2 * s * c) = 4 * (s * s) * c ^ 2 by ring, hs]; ring
  rw [hc4, hc2]
  have e : p 0 * (r * (1 / rhoMax)) ^ 2 * (2 * c ^ 2 - 1) + p 1 * (r * (1 / rhoMax)) ^ 2 * (2 * (2 * c ^ 2 - 1) ^ 2 - 1) +
      p 2 * (r * (1 / rhoMax)) ^ 2 + 1 = 1 - strength p c * (r / rhoMax) ^ 2 := by
    unfold strength
    ring
  rw [e]

/-- The solution of the cubic. -/
noncomputable def root (u : ℝ) : ℝ := Real.cos (Real.arccos u / 3 + Real.pi * 4 / 3)

theorem root_cubic {u : ℝ} (h : -1 ≤ u) (h' : u ≤ 1) : 4 * root u ^ 3 - 3 * root u = u := by
  unfold root
  rw [← Real.cos_three_mul, show 3 * (Real.arccos u / 3 + Real.pi * 4 / 3) = Real.arccos u + 2 * Real.pi + 2 * Real.pi by ring,
    Real.cos_add_two_pi, Real.cos_add_two_pi, Real.cos_arccos h h']

theorem root_range {u : ℝ} (h' : u ≤ 0) : 0 ≤ root u ∧ root u ≤ 1 / 2 := by
  have h1 : Real.pi / 2 ≤ Real.arccos u := by
    have := Real.arccos_le_arccos h'
    rwa [Real.arccos_zero] at this
  have h2 := Real.arccos_le_pi u
  have hpi := Real.pi_pos
  have e : root u = -Real.cos (Real.arccos u / 3 + Real.pi / 3) := by
    unfold root
    rw [← Real.cos_add_pi]
    congr 1
    ring
  have e2 : Real.cos (2 * Real.pi / 3) = -(1 / 2) := by
    rw [show 2 * Real.pi / 3 = Real.pi - Real.pi / 3 by ring, Real.cos_pi_sub, Real.cos_pi_div_three]
  rw [e]
  constructor
  · have := Real.cos_nonpos_of_pi_div_two_le_of_le (x := Real.arccos u / 3 + Real.pi / 3) (by linarith) (by linarith)
    linarith
  · have := Real.cos_le_cos_of_nonneg_of_le_pi (x := Real.arccos u / 3 + Real.pi / 3) (y := 2 * Real.pi / 3)
      (by linarith) (by linarith) (by linarith)
    linarith

theorem cubic_inj {x y : ℝ} (hx0 : 0 ≤ x) (hx : x ≤ 1 / 2) (hy0 : 0 ≤ y) (hy : y ≤ 1 / 2)
    (h : 4 * x ^ 3 - 3 * x = 4 * y ^ 3 - 3 * y) : x = y := by
  by_contra hne
  have h1 : (x - y) * (4 * (x ^ 2 + x * y + y ^ 2) - 3) = 0 := by linear_combination h
  rcases mul_eq_zero.1 h1 with h2 | h2
  · exact hne (by linarith)
  · have a : x ^ 2 ≤ 1 / 4 := by nlinarith
    have b : y ^ 2 ≤ 1 / 4 := by nlinarith
    have c : x * y ≤ 1 / 4 := by nlinarith
    have a' : x ^ 2 = 1 / 4 := by linarith
    have b' : y ^ 2 = 1 / 4 := by linarith
    exact hne (by nlinarith)

theorem geInv_polar (p : Nat → ℝ) {r c s : ℝ} (hr : 0 < r) (h : c ^ 2 + s ^ 2 = 1) :
    geInv p (r * c, r * s) =
      let k := rhoMax / √(strength p c)
      let u := (-3 / 2 * √3) * r / k
      if strength p c ≤ 0 ∨ u < -1 then none
      else some ((2 / √3) * k * root u * c, (2 / √3) * k * root u * s) := by
  have e1 : r * c * (1 / r) = c := by field_simp
  unfold geInv
  simp only
  rw [radius_polar hr.le h, e1]
  have hs : -p 0 * (2 * c ^ 2 - 1) - p 1 * (2 * (2 * c ^ 2 - 1) ^ 2 - 1) - p 2 = strength p c := rfl
  rw [hs]
  have hr0 : r ≠ 0 := hr.ne'
  simp only [hr0, false_or]
  split
  · rfl
  · congr 1
    unfold root
    ext <;> simp only <;> field_simp

theorem strength_three (p : Nat → ℝ) (c : ℝ) : strength (fun i => if i < 3 then p i else 0) c = strength p c := by
  simp [strength]

theorem sqrt3 : √(3 : ℝ) ^ 2 = 3 := Real.sq_sqrt (by norm_num)

theorem sqrt3_pos : 0 < √(3 : ℝ) := Real.sqrt_pos.2 (by norm_num)

/-- C68 for `GE_41RT` with exponents 2: wherever `apply_inverse` returns a point, `apply` maps it back; points closer to
the origin than the smallest radius the code distinguishes from zero are left out. -/
theorem ge_apply_inverse (p : Nat → ℝ) (h3 : p 3 = 2) (h4 : p 4 = 2) (h5 : p 5 = 2) (q q' : Pt)
    (hq : sqrtEps ≤ √(q.1 * q.1 + q.2 * q.2)) (h : geApplyInv p q = some q') : geApply p q' = q := by
  unfold geApplyInv at h
  unfold geApply
  split at h
  · rename_i ht
    rw [if_pos ht]
    cases h
    rfl
  · rename_i ht
    rw [if_neg ht]
    have hr0 := sqrtEps_pos.trans_le hq
    obtain ⟨c, s, hcs, hpol⟩ := exists_polar hr0
    set r := √(q.1 * q.1 + q.2 * q.2)
    rw [hpol, geInv_polar _ hr0 hcs] at h
    simp only [strength_three] at h
    split at h
    · cases h
    · rename_i hn
      rw [not_or, not_le, not_lt] at hn
      obtain ⟨hA, hu⟩ := hn
      have hsA := Real.sqrt_pos.2 hA
      set k := rhoMax / √(strength p c) with hk
      have hk0 : 0 < k := div_pos rhoMax_pos hsA
      set u := (-3 / 2 * √3) * r / k with hudef
      have hu0 : u ≤ 0 := by
        rw [hudef, div_nonpos_iff]
        right
        exact ⟨by nlinarith [sqrt3_pos, mul_pos sqrt3_pos hr0], hk0.le⟩
      have hc := root_cubic hu (by linarith)
      have hb := root_range hu0
      have h3' := sqrt3_pos
      have hstr : strength p c / rhoMax ^ 2 = 1 / k ^ 2 := by
        rw [hk, div_pow, Real.sq_sqrt hA.le]
        field_simp
      set t := (2 / √3) * k * root u with ht'
      have ht0 : 0 ≤ t := by rw [ht']; exact mul_nonneg (by positivity) hb.1
      have hx : root u = t * √3 / (2 * k) := by rw [ht']; field_simp
      have hcub : (1 - strength p c * (t / rhoMax) ^ 2) * t = r := by
        have e : strength p c * (t / rhoMax) ^ 2 = t ^ 2 / k ^ 2 := by
          rw [div_pow, mul_div_assoc', mul_comm, mul_div_assoc, hstr]; ring
        rw [e]
        rw [hx, hudef] at hc
        have e3 : √(3:ℝ) ^ 3 = 3 * √3 := by rw [pow_succ, sqrt3]
        have : (t * √3 / (2 * k)) ^ 3 = t ^ 3 * (3 * √3) / (8 * k ^ 3) := by
          rw [div_pow, mul_pow, e3]; ring
        rw [this] at hc
        have hk' : k ≠ 0 := hk0.ne'
        have hc2 : 4 * (t ^ 3 * (3 * √3) / (8 * k ^ 3)) - 3 * (t * √3 / (2 * k)) + 3 / 2 * √3 * r / k = 0 := by
          rw [hc]; ring
        have hc3 : (3 * √3 / (2 * k)) * (t ^ 3 / k ^ 2 - t + r) = 0 := by
          rw [← hc2]; field_simp; ring
        have hc4 := (mul_eq_zero.1 hc3).resolve_left (by positivity)
        have : (1 - t ^ 2 / k ^ 2) * t = t - t ^ 3 / k ^ 2 := by ring
        linarith
      have hle : r ≤ t := by
        rw [← hcub]
        nlinarith [mul_nonneg hA.le (sq_nonneg (t / rhoMax)), mul_nonneg (mul_nonneg hA.le (sq_nonneg (t / rhoMax))) ht0]
      cases h
      rw [geMap_polar p h3 h4 h5 (hq.trans hle) hcs, hcub, ← hpol]

/-- C68 for `GE_41RT` with exponents 2: `apply_inverse` undoes `apply` at every point at which the distortion shrinks and
which lies inside the radius up to which distorted radii grow; `strength` is the shrinkage in the direction of the point. -/
theorem ge_inverse_apply (p : Nat → ℝ) (h3 : p 3 = 2) (h4 : p 4 = 2) (h5 : p 5 = 2) {r c s : ℝ} (hcs : c ^ 2 + s ^ 2 = 1)
    (hr : sqrtEps ≤ r) (hA : 0 < strength p c) (hin : 3 * strength p c * r ^ 2 ≤ rhoMax ^ 2) :
    geApplyInv p (geApply p (r * c, r * s)) = some (r * c, r * s) := by
  have hr0 := sqrtEps_pos.trans_le hr
  have hρ := rhoMax_pos
  unfold geApplyInv geApply
  split
  · rfl
  · rw [geMap_polar p h3 h4 h5 hr hcs]
    have hsA := Real.sqrt_pos.2 hA
    set k := rhoMax / √(strength p c) with hk
    have hk0 : 0 < k := div_pos rhoMax_pos hsA
    have hstr : strength p c / rhoMax ^ 2 = 1 / k ^ 2 := by
      rw [hk, div_pow, Real.sq_sqrt hA.le]
      field_simp
    have hr2 : 3 * r ^ 2 ≤ k ^ 2 := by
      rw [hk, div_pow, Real.sq_sqrt hA.le, le_div_iff₀ hA]
      linarith
    have e : strength p c * (r / rhoMax) ^ 2 = r ^ 2 / k ^ 2 := by
      rw [div_pow, mul_div_assoc', mul_comm, mul_div_assoc, hstr]; ring
    rw [e]
    have h13 : r ^ 2 / k ^ 2 ≤ 1 / 3 := by
      rw [div_le_iff₀ (by positivity)]; linarith
    have hR : 0 < (1 - r ^ 2 / k ^ 2) * r := mul_pos (by linarith) hr0
    rw [geInv_polar _ hR hcs]
    simp only [strength_three]
    rw [← hk]
    set x := √3 * r / (2 * k) with hx
    have h3' := sqrt3_pos
    have hx0 : 0 ≤ x := by positivity
    have hx2 : x ≤ 1 / 2 := by
      have h1 : √3 * r ≤ k := abs_le_of_sq_le_sq' (by rw [mul_pow, sqrt3]; exact hr2) hk0.le |>.2
      rw [hx, div_le_iff₀ (by positivity)]
      linarith
    have hu : -3 / 2 * √3 * ((1 - r ^ 2 / k ^ 2) * r) / k = 4 * x ^ 3 - 3 * x := by
      have e3 : √(3:ℝ) ^ 3 = 3 * √3 := by rw [pow_succ, sqrt3]
      have : x ^ 3 = (3 * √3) * r ^ 3 / (8 * k ^ 3) := by rw [hx, div_pow, mul_pow, e3]; ring
      rw [this, hx]
      field_simp
      ring
    rw [hu]
    have hlo : -1 ≤ 4 * x ^ 3 - 3 * x := by
      have : 0 ≤ (1 - 2 * x) ^ 2 * (x + 1) := by positivity
      nlinarith
    have hhi : 4 * x ^ 3 - 3 * x ≤ 0 := by
      have : x ^ 2 ≤ 1 / 4 := by nlinarith
      nlinarith
    rw [if_neg (by rw [not_or, not_le, not_lt]; exact ⟨hA, hlo⟩)]
    have hroot : root (4 * x ^ 3 - 3 * x) = x :=
      cubic_inj (root_range hhi).1 (root_range hhi).2 hx0 hx2 (root_cubic hlo (by linarith))
    rw [hroot]
    have : 2 / √3 * k * x = r := by rw [hx]; field_simp
    rw [this]

/-- The hypotheses above are met, e.g. for isotropic shrinkage by one part in a hundred at the rim. -/
theorem ge_example : ∃ p : Nat → ℝ, p 3 = 2 ∧ p 4 = 2 ∧ p 5 = 2 ∧ ¬ geTrivial p ∧
    ∀ c : ℝ, 0 < strength p c ∧ 3 * strength p c * 100 ^ 2 ≤ rhoMax ^ 2 := by
  refine ⟨fun i => if i < 2 then 0 else if i = 2 then -1 / 100 else 2, by norm_num, by norm_num, by norm_num, ?_, ?_⟩
  · rintro ⟨-, -, h⟩; norm_num at h
  · intro c; constructor <;> norm_num [strength, rhoMax]

/-- C68 fails for `GE_41RT` where the distortion enlarges: `apply_inverse` returns NaN. -/
theorem ge_enlarging (p : Nat → ℝ) (hp : ¬ geTrivial p) {r c s : ℝ} (hr : 0 < r) (hcs : c ^ 2 + s ^ 2 = 1)
    (hA : strength p c ≤ 0) : geApplyInv p (r * c, r * s) = none := by
  unfold geApplyInv
  rw [if_neg hp, geInv_polar _ hr hcs]
  simp [strength_three, hA]

/-- C68 fails for `GE_41RT` at the origin, whatever the parameters: `apply` keeps it, `apply_inverse` returns NaN. -/
theorem ge_origin (p : Nat → ℝ) (hp : ¬ geTrivial p) :
    geApply p (0, 0) = (0, 0) ∧ geApplyInv p (0, 0) = none := by
  constructor
  · simp [geApply, hp, geMap]
  · simp [geApplyInv, hp, geInv]

/-- C68 fails for `GE_41RT` with other exponents: `apply_inverse` ignores them. -/
theorem ge_exponents : ∃ p : Nat → ℝ, ∃ q : Pt, ¬ geTrivial p ∧ 0 < strength p 1 ∧
    geApplyInv p (geApply p q) ≠ some q := by
  set p2 : Nat → ℝ := fun i => if i < 2 then 0 else if i = 2 then -1 else 2 with hp2
  set p4 : Nat → ℝ := fun i => if i < 2 then 0 else if i = 2 then -1 else 4 with hp4
  have ht2 : ¬ geTrivial p2 := by rintro ⟨-, -, h⟩; norm_num [hp2] at h
  have ht4 : ¬ geTrivial p4 := by rintro ⟨-, -, h⟩; norm_num [hp4] at h
  have heps : sqrtEps ≤ 1 := by
    rw [sqrtEps, Real.sqrt_le_iff]
    norm_num
  have hρ : rhoMax = 204.8 := rfl
  have hq : geApply p4 (rhoMax / 4, 0) = (rhoMax / 4 * (255 / 256), 0) := by
    have hs : √(rhoMax / 4 * (rhoMax / 4) + 0 * 0) = rhoMax / 4 := by
      rw [mul_zero, add_zero, Real.sqrt_mul_self (by norm_num [hρ])]
    have hlt : ¬ rhoMax / 4 < sqrtEps := by rw [not_lt]; refine heps.trans ?_; norm_num [hρ]
    have e : rhoMax / 4 * (1 / rhoMax) = 1 / 4 := by rw [hρ]; norm_num
    unfold geApply
    rw [if_neg ht4]
    unfold geMap
    simp only [hs, if_neg hlt]
    rw [show p4 5 = ((4 : ℕ) : ℝ) by norm_num [hp4], show p4 0 = 0 by norm_num [hp4], show p4 1 = 0 by norm_num [hp4],
      show p4 2 = -1 by norm_num [hp4], e, Real.rpow_natCast, hρ]
    ext <;> norm_num
  refine ⟨p4, (rhoMax / 4, 0), ht4, by norm_num [strength, hp4], ?_⟩
  rw [hq]
  intro h
  have h2 : geApplyInv p2 (rhoMax / 4 * (255 / 256), 0) = some (rhoMax / 4, 0) := by
    rw [← h]
    unfold geApplyInv
    rw [if_neg ht2, if_neg ht4]
    congr 1
    funext i
    simp only [hp2, hp4]
    split_ifs <;> first | rfl | omega
  have h3 := ge_apply_inverse p2 (by norm_num [hp2]) (by norm_num [hp2]) (by norm_num [hp2]) _ _ (by
    simp only [mul_zero, add_zero]
    rw [Real.sqrt_mul_self (by norm_num [hρ])]
    refine heps.trans ?_
    norm_num [hρ]) h2
  have h4 := geMap_polar p2 (by norm_num [hp2]) (by norm_num [hp2]) (by norm_num [hp2]) (r := rhoMax / 4) (c := 1) (s := 0)
    (heps.trans (by norm_num [hρ])) (by norm_num)
  unfold geApply at h3
  rw [if_neg ht2] at h3
  rw [mul_one, mul_zero] at h4
  rw [h4] at h3
  have := congrArg Prod.fst h3
  norm_num [hρ, strength, hp2] at this

/-- C68: trivial parameters leave all points unchanged. -/
theorem trivial_identity (p : Nat → ℝ) (q : Pt) : (trivial 8 p → dexelaApply p q = q ∧ dexelaApplyInv p q = q) ∧
    (trivial 6 p → quadApply p q = q ∧ quadApplyInv p q = q) ∧
    (geTrivial p → geApply p q = q ∧ geApplyInv p q = some q) := by
  refine ⟨fun h => ?_, fun h => ?_, fun h => ?_⟩
  · simp [dexelaApply, dexelaApplyInv, h]
  · simp [quadApply, quadApplyInv, h]
  · simp [geApply, geApplyInv, h]

end Hexrd.Distortion
