import Verif.Model.Calib
import Verif.Lemmas.Transforms
import Verif.Lemmas.Quat
import Mathlib.Tactic.LinearCombination
import Mathlib.Tactic.FinCases
import Mathlib.Tactic.FieldSimp

/-!
Every rotation has Euler angles in both conventions and a logarithm.
-/

namespace Hexrd.Calib

open Hexrd.Transforms Hexrd.Transforms.Spec Matrix

theorem polar (x y : ℝ) : ∃ t, x = √(x ^ 2 + y ^ 2) * Real.cos t ∧ y = √(x ^ 2 + y ^ 2) * Real.sin t := by
  refine ⟨Complex.arg ⟨x, y⟩, ?_, ?_⟩
  · have := Complex.norm_mul_cos_arg ⟨x, y⟩
    rw [Complex.norm_def, Complex.normSq_mk, ← sq, ← sq] at this
    exact this.symm
  · have := Complex.norm_mul_sin_arg ⟨x, y⟩
    rw [Complex.norm_def, Complex.normSq_mk, ← sq, ← sq] at this
    exact this.symm

theorem polar_unit {x y : ℝ} (h : x ^ 2 + y ^ 2 = 1) : ∃ t, x = Real.cos t ∧ y = Real.sin t := by
  obtain ⟨t, h1, h2⟩ := polar x y
  rw [h, Real.sqrt_one, one_mul] at h1 h2
  exact ⟨t, h1, h2⟩

theorem isRotation_mul {a b : M} (ha : IsRotation a) (hb : IsRotation b) : IsRotation (a * b) := by
  refine ⟨?_, by rw [det_mul, ha.2, hb.2, one_mul]⟩
  rw [transpose_mul, Matrix.mul_assoc, ← Matrix.mul_assoc aᵀ, ha.1, Matrix.one_mul, hb.1]

theorem isRotation_transpose {a : M} (ha : IsRotation a) : IsRotation aᵀ :=
  ⟨by rw [transpose_transpose]; exact rot_mul_transpose ha.1, by rw [det_transpose]; exact ha.2⟩

theorem rx_isRotation (a : ℝ) : IsRotation (rx a) := by
  have h := Real.sin_sq_add_cos_sq a
  constructor
  · ext i j
    fin_cases i <;> fin_cases j <;> simp [rx, mul_apply, Fin.sum_univ_three] <;> linarith
  · simp [rx, det_fin_three]; linarith

theorem ry_isRotation (a : ℝ) : IsRotation (ry a) := by
  have h := Real.sin_sq_add_cos_sq a
  constructor
  · ext i j
    fin_cases i <;> fin_cases j <;> simp [ry, mul_apply, Fin.sum_univ_three] <;> linarith
  · simp [ry, det_fin_three]; linarith

theorem rz_isRotation (a : ℝ) : IsRotation (rz a) := by
  have h := Real.sin_sq_add_cos_sq a
  constructor
  · ext i j
    fin_cases i <;> fin_cases j <;> simp [rz, mul_apply, Fin.sum_univ_three] <;> linarith
  · simp [rz, det_fin_three]; linarith

theorem two_zero {a b : ℝ} (h : a * a + b * b = 0) : a = 0 ∧ b = 0 := by
  constructor <;> nlinarith [mul_self_nonneg a, mul_self_nonneg b]

theorem block {p q s t : ℝ} (h1 : p * p + s * s = 1) (h2 : p * q + s * t = 0) (hd : p * t - q * s = 1) :
    t = p ∧ q = -s :=
  ⟨by linear_combination (-t) * h1 + s * h2 + p * hd, by linear_combination (-q) * h1 + p * h2 - s * hd⟩

theorem rotation_fix_x {r : M} (h : IsRotation r) (h0 : r 0 0 = 1) : ∃ a, r = rx a := by
  obtain ⟨c00, c11, -, -, -, c12⟩ := rot_entries h.1
  obtain ⟨d00, -⟩ := rot_entries' h.1
  have hd := h.2
  rw [det_fin_three] at hd
  obtain ⟨e1, e2⟩ := two_zero (a := r 1 0) (b := r 2 0) (by rw [h0] at c00; linarith)
  obtain ⟨e3, e4⟩ := two_zero (a := r 0 1) (b := r 0 2) (by rw [h0] at d00; linarith)
  rw [e3] at c11 c12 hd
  rw [e4, e1, e2, h0] at hd
  obtain ⟨h22, h12⟩ := block (p := r 1 1) (q := r 1 2) (s := r 2 1) (t := r 2 2) (by linarith) (by linarith)
    (by linarith)
  obtain ⟨a, ha, hb⟩ := polar_unit (x := r 1 1) (y := r 2 1) (by nlinarith)
  refine ⟨a, ?_⟩
  ext i j
  fin_cases i <;> fin_cases j <;> simp [rx, h0, e1, e2, e3, e4, h22, h12, ha, hb]

theorem rotation_fix_z {r : M} (h : IsRotation r) (h0 : r 2 2 = 1) : ∃ a, r = rz a := by
  obtain ⟨c00, -, c22, c01, -, -⟩ := rot_entries h.1
  obtain ⟨-, -, d22, -⟩ := rot_entries' h.1
  have hd := h.2
  rw [det_fin_three] at hd
  obtain ⟨e1, e2⟩ := two_zero (a := r 0 2) (b := r 1 2) (by rw [h0] at c22; linarith)
  obtain ⟨e3, e4⟩ := two_zero (a := r 2 0) (b := r 2 1) (by rw [h0] at d22; linarith)
  rw [e3] at c00 c01 hd
  rw [e4, e1, e2, h0] at hd
  obtain ⟨h22, h12⟩ := block (p := r 0 0) (q := r 0 1) (s := r 1 0) (t := r 1 1) (by linarith) (by linarith)
    (by linarith)
  obtain ⟨a, ha, hb⟩ := polar_unit (x := r 0 0) (y := r 1 0) (by nlinarith)
  refine ⟨a, ?_⟩
  ext i j
  fin_cases i <;> fin_cases j <;> simp [rz, h0, e1, e2, e3, e4, h22, h12, ha, hb]

theorem exists_xyz {r : M} (h : IsRotation r) : ∃ a : V, rmatOf .xyz a = r := by
  obtain ⟨c00, -⟩ := rot_entries h.1
  obtain ⟨g, g1, g2⟩ := polar (r 0 0) (r 1 0)
  obtain ⟨b, b1, b2⟩ := polar_unit (x := √(r 0 0 ^ 2 + r 1 0 ^ 2)) (y := -r 2 0) (by
    rw [Real.sq_sqrt (by positivity)]; nlinarith)
  have hr : IsRotation ((ry b)ᵀ * ((rz g)ᵀ * r)) :=
    isRotation_mul (isRotation_transpose (ry_isRotation b))
      (isRotation_mul (isRotation_transpose (rz_isRotation g)) h)
  have h00 : ((ry b)ᵀ * ((rz g)ᵀ * r)) 0 0 = 1 := by
    have hb := Real.sin_sq_add_cos_sq b
    have hg := Real.sin_sq_add_cos_sq g
    simp [ry, rz, mul_apply, Fin.sum_univ_three]
    rw [b1] at g1 g2
    rw [g1, g2]
    have : r 2 0 = -Real.sin b := by linarith
    rw [this]
    linear_combination hb + Real.cos b ^ 2 * hg
  obtain ⟨a, ha⟩ := rotation_fix_x hr h00
  refine ⟨![a, b, g], ?_⟩
  simp only [rmatOf, Matrix.cons_val]
  rw [← ha, Matrix.mul_assoc, ← Matrix.mul_assoc (ry b), rot_mul_transpose (ry_isRotation b).1, Matrix.one_mul,
    ← Matrix.mul_assoc, rot_mul_transpose (rz_isRotation g).1, Matrix.one_mul]

theorem exists_zxz {r : M} (h : IsRotation r) : ∃ a : V, rmatOf .zxz a = r := by
  obtain ⟨-, -, c22, -⟩ := rot_entries h.1
  obtain ⟨g, g1, g2⟩ := polar (-r 1 2) (r 0 2)
  obtain ⟨b, b1, b2⟩ := polar_unit (x := r 2 2) (y := √((-r 1 2) ^ 2 + r 0 2 ^ 2)) (by
    rw [Real.sq_sqrt (by positivity)]; nlinarith)
  have hr : IsRotation ((rx b)ᵀ * ((rz g)ᵀ * r)) :=
    isRotation_mul (isRotation_transpose (rx_isRotation b))
      (isRotation_mul (isRotation_transpose (rz_isRotation g)) h)
  have h22 : ((rx b)ᵀ * ((rz g)ᵀ * r)) 2 2 = 1 := by
    have hb := Real.sin_sq_add_cos_sq b
    have hg := Real.sin_sq_add_cos_sq g
    simp [rx, rz, mul_apply, Fin.sum_univ_three]
    rw [b2] at g1 g2
    have : r 1 2 = -(Real.sin b * Real.cos g) := by linarith
    rw [this, g2, b1]
    linear_combination hb + Real.sin b ^ 2 * hg
  obtain ⟨a, ha⟩ := rotation_fix_z hr h22
  refine ⟨![g, b, a], ?_⟩
  simp only [rmatOf, Matrix.cons_val]
  rw [← ha, Matrix.mul_assoc, ← Matrix.mul_assoc (rx b), rot_mul_transpose (rx_isRotation b).1, Matrix.one_mul,
    ← Matrix.mul_assoc, rot_mul_transpose (rz_isRotation g).1, Matrix.one_mul]

section
open Hexrd.Rotations Hexrd.Rotations.Quat

theorem half (a : ℝ) : Real.cos a = Real.cos (a / 2) ^ 2 - Real.sin (a / 2) ^ 2 ∧
    Real.sin a = 2 * Real.sin (a / 2) * Real.cos (a / 2) := by
  have e : a = 2 * (a / 2) := by ring
  constructor
  · conv_lhs => rw [e]
    rw [Real.cos_two_mul']
  · conv_lhs => rw [e]
    rw [Real.sin_two_mul]

theorem exists_quat {r : M} (h : IsRotation r) : ∃ q : Quat ℝ, norm2 q = 1 ∧ rotMat q = r := by
  obtain ⟨a, ha⟩ := exists_xyz h
  have sc := fun t : ℝ => Real.sin_sq_add_cos_sq (t / 2)
  have hx : rotMat (⟨Real.cos (a 0 / 2), Real.sin (a 0 / 2), 0, 0⟩ : Quat ℝ) = rx (a 0) := by
    obtain ⟨h1, h2⟩ := half (a 0)
    have := sc (a 0)
    ext i j
    fin_cases i <;> fin_cases j <;> simp [rotMat, rx, h1, h2] <;> linarith
  have hy : rotMat (⟨Real.cos (a 1 / 2), 0, Real.sin (a 1 / 2), 0⟩ : Quat ℝ) = ry (a 1) := by
    obtain ⟨h1, h2⟩ := half (a 1)
    have := sc (a 1)
    ext i j
    fin_cases i <;> fin_cases j <;> simp [rotMat, ry, h1, h2] <;> linarith
  have hz : rotMat (⟨Real.cos (a 2 / 2), 0, 0, Real.sin (a 2 / 2)⟩ : Quat ℝ) = rz (a 2) := by
    obtain ⟨h1, h2⟩ := half (a 2)
    have := sc (a 2)
    ext i j
    fin_cases i <;> fin_cases j <;> simp [rotMat, rz, h1, h2] <;> linarith
  refine ⟨qmul (qmul ⟨Real.cos (a 2 / 2), 0, 0, Real.sin (a 2 / 2)⟩ ⟨Real.cos (a 1 / 2), 0, Real.sin (a 1 / 2), 0⟩)
    ⟨Real.cos (a 0 / 2), Real.sin (a 0 / 2), 0, 0⟩, ?_, ?_⟩
  · rw [norm2_mul, norm2_mul]
    have e0 : norm2 (⟨Real.cos (a 0 / 2), Real.sin (a 0 / 2), 0, 0⟩ : Quat ℝ) = 1 := by
      simp only [norm2]; linarith [sc (a 0)]
    have e1 : norm2 (⟨Real.cos (a 1 / 2), 0, Real.sin (a 1 / 2), 0⟩ : Quat ℝ) = 1 := by
      simp only [norm2]; linarith [sc (a 1)]
    have e2 : norm2 (⟨Real.cos (a 2 / 2), 0, 0, Real.sin (a 2 / 2)⟩ : Quat ℝ) = 1 := by
      simp only [norm2]; linarith [sc (a 2)]
    rw [e0, e1, e2]; norm_num
  · rw [rotMat_mul_aux, rotMat_mul_aux, hx, hy, hz]
    exact ha

theorem exists_log {r : M} (h : IsRotation r) : ∃ e : V, expmapRmat e = r := by
  obtain ⟨⟨w, x, y, z⟩, hq, hr⟩ := exists_quat h
  simp only [norm2] at hq
  by_cases hv : x ^ 2 + y ^ 2 + z ^ 2 = 0
  · refine ⟨0, ?_⟩
    have hx : x = 0 := by nlinarith [sq_nonneg x, sq_nonneg y, sq_nonneg z]
    have hy : y = 0 := by nlinarith [sq_nonneg x, sq_nonneg y, sq_nonneg z]
    have hz : z = 0 := by nlinarith [sq_nonneg x, sq_nonneg y, sq_nonneg z]
    subst hx hy hz
    have hw : w ^ 2 = 1 := by linarith
    rw [← hr]
    ext i j
    fin_cases i <;> fin_cases j <;> simp [expmapRmat, rotMat, eigenUnit, dot, hw]
  · have hp : 0 < x ^ 2 + y ^ 2 + z ^ 2 := lt_of_le_of_ne (by positivity) (Ne.symm hv)
    have hw1 : -1 < w := by nlinarith
    have hw2 : w < 1 := by nlinarith
    set m := √(x ^ 2 + y ^ 2 + z ^ 2) with hm
    have hmp : 0 < m := Real.sqrt_pos.2 hp
    have hm2 : m ^ 2 = x ^ 2 + y ^ 2 + z ^ 2 := Real.sq_sqrt hp.le
    set p := 2 * Real.arccos w with hpdef
    have hpp : 0 < p := by
      have := Real.arccos_pos.2 hw2
      linarith
    obtain ⟨hc, hs⟩ := half p
    have e2 : p / 2 = Real.arccos w := by rw [hpdef]; ring
    rw [e2, Real.cos_arccos hw1.le hw2.le, Real.sin_arccos] at hc hs
    have e3 : √(1 - w ^ 2) = m := by rw [hm]; congr 1; linarith
    rw [e3] at hc hs
    refine ⟨![p / m * x, p / m * y, p / m * z], ?_⟩
    have hd : dot ![p / m * x, p / m * y, p / m * z] ![p / m * x, p / m * y, p / m * z] = p ^ 2 := by
      simp [dot]
      have : p / m * x * (p / m * x) + p / m * y * (p / m * y) + p / m * z * (p / m * z) =
        p ^ 2 * (x ^ 2 + y ^ 2 + z ^ 2) / m ^ 2 := by field_simp
      rw [this, ← hm2]; field_simp
    have hn : eigenUnit ![p / m * x, p / m * y, p / m * z] = ![x / m, y / m, z / m] := by
      rw [eigenUnit_of_pos (by rw [hd]; positivity), hd, Real.sqrt_sq hpp.le]
      ext i
      fin_cases i <;> simp <;> field_simp
    rw [← hr]
    unfold expmapRmat
    rw [hn, hd, Real.sqrt_sq hpp.le]
    dsimp only
    rw [hc, hs]
    have hw : w ^ 2 = 1 - m ^ 2 := by linarith
    have hi : m * (1 / m) = 1 := by field_simp
    have key : ∀ a b : ℝ, (1 - (w ^ 2 - m ^ 2)) * (a / m) * (b / m) = 2 * a * b := by
      intro a b; rw [hw]; field_simp; ring
    have key2 : ∀ a : ℝ, 2 * m * w * (a / m) = 2 * w * a := by intro a; field_simp
    ext i j
    fin_cases i <;> fin_cases j <;> simp [rotMat, key, key2] <;> linarith

end

end Hexrd.Calib
