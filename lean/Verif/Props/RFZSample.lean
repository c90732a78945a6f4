import Verif.Props.RFZ
import Mathlib.Analysis.SpecialFunctions.Trigonometric.Bounds
import Mathlib.Analysis.SpecialFunctions.Trigonometric.Arctan
import Mathlib.Analysis.Real.Pi.Bounds
import Mathlib.Data.List.Nodup
import Mathlib.Data.List.Perm.Basic
import Mathlib.Tactic.FieldSimp

/-!
C109: the orientations that are sampled.
-/

namespace Hexrd.RFZ
open Hexrd.Rotations Hexrd.Rotations.Spec Quat

theorem tan_small : Real.tan 0.5e-8 ≤ 1e-8 := by
  have h1 := Real.sin_lt (x := 0.5e-8) (by norm_num)
  have h2 := Real.one_sub_sq_div_two_le_cos (x := 0.5e-8)
  have h3 : (0.9 : ℝ) ≤ Real.cos 0.5e-8 := by norm_num at h2 ⊢; linarith
  rw [Real.tan_eq_sin_div_cos, div_le_iff₀ (by linarith)]
  norm_num at h1 ⊢; nlinarith

theorem arctan_small {t : ℝ} (h : 1e-8 ≤ |t|) : 1e-8 ≤ |2 * Real.arctan t| := by
  have key : ∀ t : ℝ, 1e-8 ≤ t → 1e-8 ≤ 2 * Real.arctan t := by
    intro t ht
    have h1 : Real.arctan (Real.tan 0.5e-8) = 0.5e-8 := Real.arctan_tan (by linarith [Real.pi_pos]) (by linarith [Real.pi_gt_three])
    have h2 := Real.arctan_mono (tan_small.trans ht)
    rw [h1] at h2; linarith
  rcases abs_cases t with ⟨h1, h2⟩ | ⟨h1, h2⟩
  · rw [h1] at h; exact (key t h).trans (le_abs_self _)
  · rw [h1] at h
    have := key (-t) h
    rw [Real.arctan_neg] at this
    exact (by linarith : (1e-8 : ℝ) ≤ -(2 * Real.arctan t)).trans (neg_le_abs _)

/-- C109: the quaternion of a Rodrigues vector stands for the same rotation; vectors shorter than 1e-8 become the identity. -/
theorem ro2qu_represents (ro : Ro) (h : ro.x ^ 2 + ro.y ^ 2 + ro.z ^ 2 = 1) :
    if (∃ t, ro.t = some t ∧ |t| < 1e-8) then ro2qu ro = qone else Represents ro (ro2qu ro) := by
  unfold ro2qu ro2ax
  split_ifs with hc
  · obtain ⟨t, ht, h8⟩ := hc
    rw [ht]
    simp only [if_pos h8]
    simp [ax2qu, qone]
  · split
    · next ht =>
      have h1 : ¬ |Real.pi| < 1e-8 := by rw [abs_of_pos Real.pi_pos]; linarith [Real.pi_gt_three]
      have e : Real.pi * 0.5 = Real.pi / 2 := by ring
      simp only [ax2qu, if_neg h1, e, Real.cos_pi_div_two, Real.sin_pi_div_two, mul_one]
      refine ⟨h, ?_, ?_⟩
      · simp [UnitQ, norm2]; linarith
      · rw [ht]; exact Or.inl rfl
    · next t ht =>
      have h8 : ¬ |t| < 1e-8 := fun h8 => hc ⟨t, ht, h8⟩
      rw [if_neg h8]
      have h1 : ¬ |2 * Real.arctan t| < 1e-8 := not_lt.2 (arctan_small (not_lt.1 h8))
      have e : 2 * Real.arctan t * 0.5 = Real.arctan t := by ring
      simp only [ax2qu, if_neg h1, e, h, Real.sqrt_one, div_one, mul_one]
      have hc := Real.cos_arctan_pos t
      have hs : Real.sin (Real.arctan t) = Real.cos (Real.arctan t) * t := by
        have := Real.tan_arctan t
        rw [Real.tan_eq_sin_div_cos, div_eq_iff hc.ne'] at this
        rw [this]; ring
      refine ⟨h, ?_, ?_⟩
      · simp only [UnitQ, norm2]
        have := Real.sin_sq_add_cos_sq (Real.arctan t)
        linear_combination this + Real.sin (Real.arctan t) ^ 2 * h
      · rw [ht]
        refine ⟨hc.ne', ?_, ?_, ?_⟩ <;> simp only [hs] <;> ring

/-- C109: axis and angle are turned into the quaternion of the same rotation, for angles that are neither below 2e-8 nor within
1e-8 of half a turn; an angle within 1e-8 of half a turn becomes half a turn. -/
theorem ro2qu_ax2ro (x y z w : ℝ) (h : x ^ 2 + y ^ 2 + z ^ 2 = 1) (h0 : 2e-8 ≤ w) (h1 : w < Real.pi + 1e-8) :
    ro2qu (ax2ro x y z w) =
      if |w - Real.pi| < 1e-8 then ⟨0, x, y, z⟩
      else ⟨Real.cos (w / 2), x * Real.sin (w / 2), y * Real.sin (w / 2), z * Real.sin (w / 2)⟩ := by
  have hw : ¬ |w| < 1e-8 := by rw [abs_of_pos (by linarith)]; linarith
  unfold ax2ro
  rw [if_neg hw]
  split_ifs with hp
  · have h1 : ¬ |Real.pi| < 1e-8 := by rw [abs_of_pos Real.pi_pos]; linarith [Real.pi_gt_three]
    have e : Real.pi * 0.5 = Real.pi / 2 := by ring
    simp only [ro2qu, ro2ax, ax2qu, if_neg h1, e, Real.cos_pi_div_two, Real.sin_pi_div_two, mul_one]
  · have hlt : w ≤ Real.pi - 1e-8 := by
      by_contra hc
      exact hp (abs_lt.2 ⟨by linarith [not_le.1 hc], by linarith⟩)
    have e0 : w * 0.5 = w / 2 := by ring
    have ht : 1e-8 ≤ Real.tan (w / 2) := (by linarith : (1e-8 : ℝ) ≤ w / 2).trans (Real.le_tan (by linarith) (by linarith))
    have h8 : ¬ |Real.tan (w / 2)| < 1e-8 := by rw [abs_of_nonneg (by linarith)]; linarith
    have ha : 2 * Real.arctan (Real.tan (w / 2)) = w := by
      rw [Real.arctan_tan (by linarith [Real.pi_pos]) (by linarith)]; ring
    simp only [ro2qu, ro2ax, ax2qu, e0, if_neg h8, ha, if_neg hw, h, Real.sqrt_one, div_one, mul_one]

/-! ### The cube -/

theorem maxAbs_ge (p : P3) : |p.x| ≤ maxAbs p ∧ |p.y| ≤ maxAbs p ∧ |p.z| ≤ maxAbs p :=
  ⟨(le_max_left _ _).trans (le_max_left _ _), (le_max_right _ _).trans (le_max_left _ _), le_max_right _ _⟩

theorem maxAbs_of {p : P3} {m : ℝ} (h1 : |p.x| ≤ m) (h2 : |p.y| ≤ m) (h3 : |p.z| = m) : maxAbs p = m := by
  unfold maxAbs
  rw [h3]
  exact max_eq_right (max_le h1 h2)

theorem pref_mul : 2 * pref * (√Real.pi / √24) = 1 := by
  have hp := Real.pi_pos
  have : pref * (√Real.pi / √24) = 1 / 2 := by
    unfold pref
    rw [← Real.sqrt_div' _ (by norm_num), ← Real.sqrt_mul (by positivity)]
    rw [show 6 / Real.pi * (Real.pi / 24) = (1 / 2) ^ 2 by field_simp; norm_num]
    exact Real.sqrt_sq (by norm_num)
  linarith

/-- The polynomial identity behind the spheres. -/
theorem lam_norm {t1 t2 z : ℝ} (hz : z ≠ 0) (hs : Real.pi * (t1 ^ 2 + t2 ^ 2) / (24 * z ^ 2) ≤ 1) :
    (t1 * √(1 - Real.pi * (t1 ^ 2 + t2 ^ 2) / (24 * z ^ 2))) ^ 2 + (t2 * √(1 - Real.pi * (t1 ^ 2 + t2 ^ 2) / (24 * z ^ 2))) ^ 2 +
      (pref * z - √Real.pi * (t1 ^ 2 + t2 ^ 2) / √24 / z) ^ 2 = (pref * z) ^ 2 := by
  have hq := Real.sq_sqrt (sub_nonneg.2 hs)
  set q := √(1 - Real.pi * (t1 ^ 2 + t2 ^ 2) / (24 * z ^ 2))
  set c := t1 ^ 2 + t2 ^ 2 with hc
  have h1 := pref_mul
  have h2 : (√Real.pi / √24) ^ 2 = Real.pi / 24 := by rw [div_pow, Real.sq_sqrt Real.pi_pos.le, Real.sq_sqrt (by norm_num)]
  set k := √Real.pi / √24
  have e : √Real.pi * c / √24 / z = k * (c / z) := by simp only [k]; ring
  have e2 : Real.pi * c / (24 * z ^ 2) * c = Real.pi / 24 * (c / z) ^ 2 := by field_simp
  rw [e]
  have e3 : z * (c / z) = c := by field_simp
  calc _ = c * q ^ 2 + (pref * z) ^ 2 - (2 * pref * k) * (z * (c / z)) + k ^ 2 * (c / z) ^ 2 := by rw [hc]; ring
    _ = _ := by rw [hq, h1, h2, e3, ← e2]; ring

theorem scale_bound {a u v z : ℝ} (ha : |a| ≤ Real.pi / 12) (hu : |u| ≤ |z|) (hz : z ≠ 0)
    (hv : v = (√2 * Real.cos a - 1) ^ 2 + (√2 * Real.sin a) ^ 2) :
    Real.pi * (v * (prek * u / √(√2 - Real.cos a)) ^ 2) / (24 * z ^ 2) ≤ 1 := by
  have h2 := sq2
  have hpi := Real.pi_lt_d2
  have hpp := Real.pi_pos
  have hc1 : 0.96 ≤ Real.cos a := by
    have := Real.one_sub_sq_div_two_le_cos (x := a)
    have h3 := sq_le_of_abs ha
    nlinarith
  have hc2 := Real.cos_le_one a
  have hd : 0 < √2 - Real.cos a := by linarith
  have hcs := Real.sin_sq_add_cos_sq a
  have hv2 : v = 3 - 2 * √2 * Real.cos a := by
    rw [hv]
    have : √2 ^ 2 = 2 := Real.sq_sqrt (by norm_num)
    linear_combination 2 * hcs + (Real.cos a ^ 2 + Real.sin a ^ 2) * this
  have hv3 : v ≤ √2 - Real.cos a := by rw [hv2]; nlinarith
  have hu2 : u ^ 2 ≤ z ^ 2 := sq_le_sq.2 hu
  have hz2 : 0 < z ^ 2 := by positivity
  rw [div_le_one (by positivity), div_pow, Real.sq_sqrt hd.le, mul_pow]
  have h4 : v * (prek ^ 2 * u ^ 2 / (√2 - Real.cos a)) ≤ prek ^ 2 * u ^ 2 := by
    rw [mul_div_assoc', div_le_iff₀ hd]
    nlinarith [mul_nonneg (sq_nonneg prek) (sq_nonneg u)]
  have h5 : prek ^ 2 ≤ 3 := by unfold prek; norm_num
  have h6 : prek ^ 2 * u ^ 2 ≤ 3 * z ^ 2 := mul_le_mul h5 hu2 (sq_nonneg u) (by norm_num)
  have h7 : Real.pi * (v * (prek ^ 2 * u ^ 2 / (√2 - Real.cos a))) ≤ 4 * (3 * z ^ 2) :=
    (mul_le_mul_of_nonneg_left (h4.trans h6) hpp.le).trans (mul_le_mul_of_nonneg_right (by linarith) (by positivity))
  linarith

theorem ratio_bound {x y : ℝ} (h : |y| ≤ |x|) : |Real.pi / 12 * y / x| ≤ Real.pi / 12 := by
  have hp := Real.pi_pos
  rw [abs_div, abs_mul, abs_of_pos (by positivity : 0 < Real.pi / 12)]
  exact div_le_of_le_mul₀ (abs_nonneg _) (by positivity) (mul_le_mul_of_nonneg_left h (by positivity))

theorem pyramidMap_norm (p : P3) (h1 : |p.x| ≤ |p.z|) (h2 : |p.y| ≤ |p.z|) (h8 : ¬ maxAbs p < 1e-8) :
    (pyramidMap p).x ^ 2 + (pyramidMap p).y ^ 2 + (pyramidMap p).z ^ 2 = (pref * p.z) ^ 2 := by
  have hz : p.z ≠ 0 := by
    intro hz
    rw [hz, abs_zero] at h1 h2
    exact h8 (by rw [maxAbs_of (m := 0) h1 h2 (by rw [hz, abs_zero])]; norm_num)
  unfold pyramidMap
  rw [if_neg h8]
  split_ifs with h3 h4
  · simp
  · simp only []
    refine lam_norm hz ?_
    have := scale_bound (v := _) (ratio_bound h4) h1 hz rfl
    refine le_trans (le_of_eq ?_) this
    ring
  · simp only []
    refine lam_norm hz ?_
    have := scale_bound (v := _) (ratio_bound (not_le.1 h4).le) h2 hz rfl
    refine le_trans (le_of_eq ?_) this
    ring

theorem sc_pos : 0 < sc := by
  unfold sc
  have := Real.pi_pos
  positivity

theorem maxAbs_scale (p : P3) : maxAbs ⟨p.x * sc, p.y * sc, p.z * sc⟩ = maxAbs p * sc := by
  have h := sc_pos
  simp only [maxAbs, abs_mul, abs_of_pos h]
  rw [max_mul_of_nonneg _ _ h.le, max_mul_of_nonneg _ _ h.le]

/-- The last coordinate after the reordering is the largest one. -/
theorem pyramid_last (cu : P3) :
    let pyd := getPyramid cu
    let s : P3 := if pyd = 1 ∨ pyd = 2 then cu else if pyd = 3 ∨ pyd = 4 then ⟨cu.y, cu.z, cu.x⟩ else ⟨cu.z, cu.x, cu.y⟩
    |s.x| ≤ |s.z| ∧ |s.y| ≤ |s.z| ∧ |s.z| = maxAbs cu := by
  have perm1 : maxAbs ⟨cu.y, cu.z, cu.x⟩ = maxAbs cu := by
    simp only [maxAbs]; rw [max_comm, ← max_assoc]
  have perm2 : maxAbs ⟨cu.z, cu.x, cu.y⟩ = maxAbs cu := by
    simp only [maxAbs]; rw [max_assoc, max_comm]
  have fin : ∀ s : P3, maxAbs s = maxAbs cu → |s.x| ≤ |s.z| → |s.y| ≤ |s.z| → |s.x| ≤ |s.z| ∧ |s.y| ≤ |s.z| ∧ |s.z| = maxAbs cu :=
    fun s h h1 h2 => ⟨h1, h2, by rw [← h, maxAbs_of h1 h2 rfl]⟩
  simp only []
  by_cases h1 : |cu.x| ≤ cu.z ∧ |cu.y| ≤ cu.z
  · have e : getPyramid cu = 1 := by unfold getPyramid; rw [if_pos h1]
    rw [e, if_pos (by norm_num)]
    exact fin cu rfl (h1.1.trans (le_abs_self _)) (h1.2.trans (le_abs_self _))
  by_cases h2 : |cu.x| ≤ -cu.z ∧ |cu.y| ≤ -cu.z
  · have e : getPyramid cu = 2 := by unfold getPyramid; rw [if_neg h1, if_pos h2]
    rw [e, if_pos (by norm_num)]
    exact fin cu rfl (h2.1.trans (neg_le_abs _)) (h2.2.trans (neg_le_abs _))
  by_cases h3 : |cu.z| ≤ cu.x ∧ |cu.y| ≤ cu.x
  · have e : getPyramid cu = 3 := by unfold getPyramid; rw [if_neg h1, if_neg h2, if_pos h3]
    rw [e, if_neg (by norm_num), if_pos (by norm_num)]
    exact fin _ perm1 (h3.2.trans (le_abs_self _)) (h3.1.trans (le_abs_self _))
  by_cases h4 : |cu.z| ≤ -cu.x ∧ |cu.y| ≤ -cu.x
  · have e : getPyramid cu = 4 := by unfold getPyramid; rw [if_neg h1, if_neg h2, if_neg h3, if_pos h4]
    rw [e, if_neg (by norm_num), if_pos (by norm_num)]
    exact fin _ perm1 (h4.2.trans (neg_le_abs _)) (h4.1.trans (neg_le_abs _))
  have e : ¬ (getPyramid cu = 1 ∨ getPyramid cu = 2) ∧ ¬ (getPyramid cu = 3 ∨ getPyramid cu = 4) := by
    unfold getPyramid
    rw [if_neg h1, if_neg h2, if_neg h3, if_neg h4]
    split_ifs <;> norm_num
  rw [if_neg e.1, if_neg e.2]
  have hz : ¬ (|cu.x| ≤ |cu.z| ∧ |cu.y| ≤ |cu.z|) := by
    rcases abs_cases cu.z with ⟨e, -⟩ | ⟨e, -⟩ <;> rw [e]
    · exact h1
    · exact h2
  have hx : ¬ (|cu.z| ≤ |cu.x| ∧ |cu.y| ≤ |cu.x|) := by
    rcases abs_cases cu.x with ⟨e, -⟩ | ⟨e, -⟩ <;> rw [e]
    · exact h3
    · exact h4
  have hy : |cu.x| ≤ |cu.y| ∧ |cu.z| ≤ |cu.y| := by
    by_contra hc
    rw [not_and_or] at hz hx hc
    push Not at hz hx hc
    rcases hz with hz | hz <;> rcases hx with hx | hx <;> rcases hc with hc | hc <;> linarith
  exact fin _ perm2 hy.2 hy.1

/-- C109: concentric cubes become concentric spheres: the length of the image is a fixed multiple of the largest coordinate, and a
point of the cube of side `π^(2/3)` is always mapped. The small cube at the centre becomes the origin. -/
theorem cu2ho_norm (cu : P3) (h : maxAbs cu ≤ cuA2) :
    ∃ ho, cu2ho cu = some ho ∧ ho.x ^ 2 + ho.y ^ 2 + ho.z ^ 2 =
      if maxAbs cu * sc < 1e-8 then 0 else (pref * sc * maxAbs cu) ^ 2 := by
  have hp := pyramid_last cu
  unfold cu2ho
  rw [if_pos h]
  refine ⟨_, rfl, ?_⟩
  simp only [] at hp ⊢
  generalize (if getPyramid cu = 1 ∨ getPyramid cu = 2 then cu else if getPyramid cu = 3 ∨ getPyramid cu = 4 then (⟨cu.y, cu.z, cu.x⟩ : P3) else ⟨cu.z, cu.x, cu.y⟩) = s at hp ⊢
  obtain ⟨h1, h2, h3⟩ := hp
  have hsc := sc_pos
  have hm : maxAbs ⟨s.x * sc, s.y * sc, s.z * sc⟩ = maxAbs cu * sc := by
    rw [maxAbs_scale, maxAbs_of h1 h2 rfl, h3]
  have key : (pyramidMap ⟨s.x * sc, s.y * sc, s.z * sc⟩).x ^ 2 + (pyramidMap ⟨s.x * sc, s.y * sc, s.z * sc⟩).y ^ 2 +
      (pyramidMap ⟨s.x * sc, s.y * sc, s.z * sc⟩).z ^ 2 = if maxAbs cu * sc < 1e-8 then 0 else (pref * sc * maxAbs cu) ^ 2 := by
    split_ifs with h8
    · unfold pyramidMap
      rw [if_pos (by rw [hm]; exact h8)]
      simp
    · rw [pyramidMap_norm _ ?_ ?_ (by rw [hm]; exact h8)]
      · simp only []
        rw [← h3, mul_pow (pref * sc), sq_abs]; ring
      · simp only [abs_mul]; exact mul_le_mul_of_nonneg_right h1 (abs_nonneg _)
      · simp only [abs_mul]; exact mul_le_mul_of_nonneg_right h2 (abs_nonneg _)
  rw [← key]
  split_ifs <;> ring

/-- The surface of the cube goes to the sphere of radius `(3π/4)^(1/3)`, the half turns. -/
theorem radius : pref * sc * cuA2 = (3 * Real.pi / 4) ^ (1 / 3 : ℝ) := by
  have hp := Real.pi_pos
  have e1 : √(6 / Real.pi) = (6 ^ (1 / 6 : ℝ)) ^ 3 / (Real.pi ^ (1 / 6 : ℝ)) ^ 3 := by
    rw [Real.sqrt_eq_rpow, Real.div_rpow (by norm_num) hp.le, ← Real.rpow_natCast, ← Real.rpow_natCast, ← Real.rpow_mul (by norm_num),
      ← Real.rpow_mul hp.le]
    norm_num
  have e2 : Real.pi ^ (5 / 6 : ℝ) = (Real.pi ^ (1 / 6 : ℝ)) ^ 5 := by
    rw [← Real.rpow_natCast, ← Real.rpow_mul hp.le]; norm_num
  have e3 : (3 * Real.pi / 4) ^ (1 / 3 : ℝ) = (6 ^ (1 / 6 : ℝ)) ^ 2 * (Real.pi ^ (1 / 6 : ℝ)) ^ 2 / 2 := by
    rw [show 3 * Real.pi / 4 = 6 * Real.pi / 2 ^ (3 : ℝ) by norm_num; ring, Real.div_rpow (by positivity) (by norm_num),
      Real.mul_rpow (by norm_num) hp.le, ← Real.rpow_mul (by norm_num), ← Real.rpow_natCast, ← Real.rpow_natCast,
      ← Real.rpow_mul (by norm_num), ← Real.rpow_mul hp.le]
    norm_num
  have p1 : (0 : ℝ) < 6 ^ (1 / 6 : ℝ) := by positivity
  have p2 : 0 < Real.pi ^ (1 / 6 : ℝ) := by positivity
  have p3 : 0 < Real.pi ^ (2 / 3 : ℝ) := by positivity
  unfold pref sc cuA2
  rw [e1, e2, e3]
  field_simp
  norm_num

/-- C109: the image of the cube is in the ball of the homochoric vectors. -/
theorem cu2ho_ball (cu ho : P3) (h : cu2ho cu = some ho) :
    √(ho.x ^ 2 + ho.y ^ 2 + ho.z ^ 2) ≤ (3 * Real.pi / 4) ^ (1 / 3 : ℝ) := by
  have hp := Real.pi_pos
  have hm : maxAbs cu ≤ cuA2 := by
    by_contra hc
    unfold cu2ho at h
    rw [if_neg hc] at h
    cases h
  obtain ⟨ho', h1, h2⟩ := cu2ho_norm cu hm
  rw [h] at h1
  obtain rfl := Option.some.inj h1
  rw [← radius, h2]
  have hk : 0 < pref * sc := by
    have := sc_pos
    unfold pref
    positivity
  have hc : 0 ≤ cuA2 := (abs_nonneg cu.z).trans ((maxAbs_ge cu).2.2.trans hm)
  split_ifs
  · simp; exact mul_nonneg hk.le hc
  · rw [Real.sqrt_sq (mul_nonneg hk.le ((abs_nonneg cu.z).trans (maxAbs_ge cu).2.2))]
    exact mul_le_mul_of_nonneg_left hm hk.le

/-! ### The loops -/

theorem digits {m x y x' y' : ℤ} (h0 : 0 ≤ y) (h1 : y < m) (h2 : 0 ≤ y') (h3 : y' < m) (h : x * m + y = x' * m + y') : x = x' ∧ y = y' := by
  have : x = x' := by
    by_contra hne
    rcases lt_or_gt_of_ne hne with hl | hl
    · have : (x + 1) * m ≤ x' * m := mul_le_mul_of_nonneg_right hl (by omega)
      linarith
    · have : (x' + 1) * m ≤ x * m := mul_le_mul_of_nonneg_right hl (by omega)
      linarith
  subst this
  exact ⟨rfl, by linarith⟩

/-- A cell of the grid. -/
def InGrid (n : ℕ) (c : ℤ × ℤ × ℤ) : Prop := (-n ≤ c.1 ∧ c.1 ≤ n) ∧ (-n ≤ c.2.1 ∧ c.2.1 ≤ n) ∧ -n ≤ c.2.2 ∧ c.2.2 ≤ n

theorem cellIndex_eq (n ii jj kk : ℤ) : cellIndex n ii jj kk = ((ii + n) * (2 * n + 1) + (jj + n)) * (2 * n + 1) + (kk + n) := by
  unfold cellIndex; ring

theorem cellIndex_range {n : ℕ} {a : ℤ × ℤ × ℤ} (ha : InGrid n a) :
    0 ≤ cellIndex n a.1 a.2.1 a.2.2 ∧ cellIndex n a.1 a.2.1 a.2.2 < ((2 * n + 1) ^ 3 : ℕ) := by
  obtain ⟨⟨h1, h2⟩, ⟨h3, h4⟩, h5, h6⟩ := ha
  have hn : (0 : ℤ) ≤ n := by positivity
  rw [cellIndex_eq]
  have m0 : (0 : ℤ) ≤ 2 * n + 1 := by omega
  have a1 : 0 ≤ (a.1 + n) * (2 * n + 1) := mul_nonneg (by omega) m0
  have a2 : (a.1 + n) * (2 * n + 1) ≤ 2 * n * (2 * n + 1) := mul_le_mul_of_nonneg_right (by omega) m0
  constructor
  · have := mul_nonneg (by omega : 0 ≤ (a.1 + n) * (2 * n + 1) + (a.2.1 + n)) m0
    omega
  · have : ((a.1 + n) * (2 * n + 1) + (a.2.1 + n)) * (2 * n + 1) ≤ (2 * n * (2 * n + 1) + 2 * n) * (2 * n + 1) :=
      mul_le_mul_of_nonneg_right (by omega) m0
    push_cast
    nlinarith

theorem cellIndex_inj {n : ℕ} {a b : ℤ × ℤ × ℤ} (ha : InGrid n a) (hb : InGrid n b)
    (h : (cellIndex n a.1 a.2.1 a.2.2).toNat = (cellIndex n b.1 b.2.1 b.2.2).toNat) : a = b := by
  have h' : cellIndex n a.1 a.2.1 a.2.2 = cellIndex n b.1 b.2.1 b.2.2 := by
    have := (cellIndex_range ha).1
    have := (cellIndex_range hb).1
    omega
  rw [cellIndex_eq, cellIndex_eq] at h'
  obtain ⟨⟨h1, h2⟩, ⟨h3, h4⟩, h5, h6⟩ := ha
  obtain ⟨⟨g1, g2⟩, ⟨g3, g4⟩, g5, g6⟩ := hb
  obtain ⟨e1, e2⟩ := digits (by omega) (by omega) (by omega) (by omega) h'
  obtain ⟨e3, e4⟩ := digits (by omega) (by omega) (by omega) (by omega) e1
  exact Prod.ext (by omega) (Prod.ext (by omega) (by omega))

/-- The point of the cube that belongs to a cell. -/
noncomputable def gridPoint (delta shift : ℝ) (c : ℤ × ℤ × ℤ) : P3 := ⟨(c.1 + shift) * delta, (c.2.1 + shift) * delta, (c.2.2 + shift) * delta⟩

/-- The cell gives an orientation. -/
def Kept (toRo : P3 → Ro) (pgnum : ℕ) (delta shift ap2 : ℝ) (c : ℤ × ℤ × ℤ) : Prop :=
  maxAbs (gridPoint delta shift c) ≤ ap2 ∧ insideFZ (toRo (gridPoint delta shift c)) pgnum

open Classical in
theorem step_eq (toRo : P3 → Ro) (pgnum n : ℕ) (delta shift ap2 : ℝ) (res : List (Option (Quat ℝ))) (c : ℤ × ℤ × ℤ) :
    sampleStep toRo pgnum n delta shift ap2 res c = if Kept toRo pgnum delta shift ap2 c then
      res.set (cellIndex n c.1 c.2.1 c.2.2).toNat (some (ro2qu (toRo (gridPoint delta shift c)))) else res := by
  unfold sampleStep Kept gridPoint
  simp only []
  split_ifs with h1 h2 h3 h4 h5
  all_goals first | rfl | (exfalso; tauto)

theorem set_perm {α : Type} (l : List (Option α)) (i : ℕ) (v : α) (h : l[i]? = some none) :
    ((l.set i (some v)).filterMap id).Perm (v :: l.filterMap id) := by
  induction l generalizing i with
  | nil => simp at h
  | cons a l ih =>
    cases i with
    | zero =>
      simp at h
      subst h
      simp
    | succ i =>
      simp at h
      have := ih i h
      cases a with
      | none => simpa using this
      | some a =>
        simp only [List.set_cons_succ, List.filterMap_cons_some (f := id) (b := a) rfl]
        exact (this.cons a).trans (List.Perm.swap _ _ _)

open Classical in
/-- C109: whatever order the parallel loops take the cells in, the result holds exactly the orientations of the grid points that
are in the cube and in the zone, each cell once. -/
theorem sample_perm (toRo : P3 → Ro) (pgnum n : ℕ) (delta shift ap2 : ℝ) (order : List (ℤ × ℤ × ℤ)) (hn : order.Nodup)
    (hg : ∀ c ∈ order, InGrid n c) :
    (sample toRo pgnum n delta shift ap2 order).Perm
      ((order.filter (fun c => Kept toRo pgnum delta shift ap2 c)).map fun c => ro2qu (toRo (gridPoint delta shift c))) := by
  unfold sample
  have key : ∀ (order : List (ℤ × ℤ × ℤ)) (res : List (Option (Quat ℝ))), order.Nodup → (∀ c ∈ order, InGrid n c) →
      (∀ c ∈ order, res[(cellIndex n c.1 c.2.1 c.2.2).toNat]? = some none) →
      ((order.foldl (sampleStep toRo pgnum n delta shift ap2) res).filterMap id).Perm
        (((order.filter (fun c => Kept toRo pgnum delta shift ap2 c)).map fun c => ro2qu (toRo (gridPoint delta shift c))) ++ res.filterMap id) := by
    intro order
    induction order with
    | nil => intro res _ _ _; simp
    | cons c rest ih =>
      intro res hn hg hr
      rw [List.nodup_cons] at hn
      rw [List.foldl_cons, step_eq]
      by_cases hk : Kept toRo pgnum delta shift ap2 c
      · rw [if_pos hk, List.filter_cons_of_pos (by simpa using hk), List.map_cons]
        have h1 := ih (res.set (cellIndex n c.1 c.2.1 c.2.2).toNat (some (ro2qu (toRo (gridPoint delta shift c))))) hn.2
          (fun d hd => hg d (List.mem_cons_of_mem _ hd)) (by
            intro d hd
            rw [List.getElem?_set_ne]
            · exact hr d (List.mem_cons_of_mem _ hd)
            · intro he
              have := cellIndex_inj (hg c List.mem_cons_self) (hg d (List.mem_cons_of_mem _ hd)) he
              exact hn.1 (this ▸ hd))
        refine h1.trans ?_
        refine ((set_perm res _ _ (hr c List.mem_cons_self)).append_left _).trans ?_
        exact List.perm_middle
      · rw [if_neg hk, List.filter_cons_of_neg (by simpa using hk)]
        exact ih res hn.2 (fun d hd => hg d (List.mem_cons_of_mem _ hd)) (fun d hd => hr d (List.mem_cons_of_mem _ hd))
  have h := key order (List.replicate ((2 * n + 1) ^ 3) none) hn hg (by
    intro c hc
    have := cellIndex_range (hg c hc)
    rw [List.getElem?_replicate, if_pos (by omega)])
  simpa using h

/-- C109: the result, with the order of its rows, does not depend on the order of the parallel loops. -/
theorem sample_order (toRo : P3 → Ro) (pgnum n : ℕ) (delta shift ap2 : ℝ) (order order' : List (ℤ × ℤ × ℤ)) (hp : order.Perm order')
    (hg : ∀ c ∈ order, InGrid n c) :
    sample toRo pgnum n delta shift ap2 order = sample toRo pgnum n delta shift ap2 order' := by
  unfold sample
  rw [List.Perm.foldl_eq' hp ?_]
  intro x hx y hy z
  rw [step_eq, step_eq, step_eq, step_eq]
  by_cases e : x = y
  · rw [e]
  · have hne : (cellIndex n x.1 x.2.1 x.2.2).toNat ≠ (cellIndex n y.1 y.2.1 y.2.2).toNat :=
      fun h => e (cellIndex_inj (hg x hx) (hg y hy) h)
    split_ifs
    · exact List.set_comm _ _ hne
    all_goals rfl

/-- The axis of a homochoric vector is a unit vector. -/
theorem ho2ro_axis (fit : ℝ → ℝ) (ho : P3) : (ho2ro fit ho).x ^ 2 + (ho2ro fit ho).y ^ 2 + (ho2ro fit ho).z ^ 2 = 1 := by
  have hnn : 0 ≤ ho.x ^ 2 + ho.y ^ 2 + ho.z ^ 2 := by positivity
  have key : ∀ x y z w : ℝ, x ^ 2 + y ^ 2 + z ^ 2 = 1 → (ax2ro x y z w).x ^ 2 + (ax2ro x y z w).y ^ 2 + (ax2ro x y z w).z ^ 2 = 1 := by
    intro x y z w h
    unfold ax2ro
    split_ifs
    · norm_num
    · exact h
    · exact h
  unfold ho2ro ho2ax
  simp only [Real.sq_sqrt hnn]
  split_ifs with h8
  · apply key; norm_num
  all_goals
    apply key
    simp only [div_pow, Real.sq_sqrt hnn]
    rw [← add_div, ← add_div, div_self (by intro h; rw [h] at h8; norm_num at h8)]

/-- C109: for the point groups with an exact test, every orientation of the sample is in the fundamental zone of the crystal. -/
theorem sample_reduced_partial (sigma : ℕ → ℝ) (hs : ∀ i, sigma i = 1 ∨ sigma i = -1) (fit : ℝ → ℝ) (pg n : ℕ) (delta shift ap2 : ℝ)
    (order : List (ℤ × ℤ × ℤ)) (hn : order.Nodup) (hg : ∀ c ∈ order, InGrid n c)
    (hpg : pg ∈ [1, 2, 3, 4, 5, 9, 10, 11, 12, 13, 14, 15, 16, 17, 21, 22, 23]) (q : Quat ℝ)
    (hq : q ∈ sample (cu2ro fit) pg n delta shift ap2 order) : UnitQ q ∧ Reduced (quatOfLaueGroup sigma (laueOf pg)) q := by
  classical
  have h := (sample_perm (cu2ro fit) pg n delta shift ap2 order hn hg).mem_iff.1 hq
  obtain ⟨c, hc, rfl⟩ := List.mem_map.1 h
  have hk : Kept (cu2ro fit) pg delta shift ap2 c := by simpa using (List.mem_filter.1 hc).2
  have hr := ro2qu_represents (cu2ro fit (gridPoint delta shift c)) (ho2ro_axis fit _)
  split_ifs at hr with h8
  · rw [hr]
    refine ⟨by simp [UnitQ, norm2, qone], ?_⟩
    rw [reduced_group]
    intro g hg
    have hu := (laue_group sigma hs (laueOf pg)).1.unit g hg
    simp only [UnitQ, norm2] at hu
    simp only [qmul, qone, one_mul, zero_mul, sub_zero, abs_one]
    rw [abs_le]
    constructor <;> nlinarith [sq_nonneg g.x, sq_nonneg g.y, sq_nonneg g.z, sq_nonneg g.w]
  · exact ⟨hr.2.1, (inside_exact_partial sigma hs _ _ hr pg hpg).1 hk.2⟩

/-- Two cells of a grid, both kept for the group 1: the sample has two orientations. -/
example (fit : ℝ → ℝ) : (sample (cu2ro fit) 1 1 1 0 2 [(0, 0, 0), (1, 0, 0)]).length = 2 := by
  classical
  have hk : ∀ c ∈ [((0 : ℤ), (0 : ℤ), (0 : ℤ)), (1, 0, 0)], Kept (cu2ro fit) 1 1 0 2 c := by
    intro c hc
    refine ⟨?_, trivial⟩
    simp only [List.mem_cons, List.not_mem_nil, or_false] at hc
    rcases hc with rfl | rfl <;> norm_num [maxAbs, gridPoint]
  have := sample_perm (cu2ro fit) 1 1 1 0 2 [(0, 0, 0), (1, 0, 0)] (by decide) (by
    intro c hc
    simp only [List.mem_cons, List.not_mem_nil, or_false] at hc
    rcases hc with rfl | rfl <;> norm_num [InGrid])
  rw [this.length_eq, List.length_map, List.filter_eq_self.2 (by simpa using hk)]
  rfl

end Hexrd.RFZ
