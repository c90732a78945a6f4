import Verif.Lemmas.IpfSector
import Mathlib.Analysis.SpecialFunctions.Trigonometric.Inverse
import Mathlib.Tactic.Positivity
import Mathlib.Tactic.LinearCombination

/-! The geometry of a spherical triangle and its barycentre. -/
namespace Hexrd.Ipf

open Matrix Hexrd.UnitCell Spec

/-- Three unit vectors with non-negative scalar products, no angle of the triangle beyond a right one, and not too flat. -/
structure Nice (A B C : V3) : Prop where
  a : A ⬝ᵥ A = 1
  b : B ⬝ᵥ B = 1
  c : C ⬝ᵥ C = 1
  ab : 0 ≤ A ⬝ᵥ B
  bc : 0 ≤ B ⬝ᵥ C
  ca : 0 ≤ C ⬝ᵥ A
  pa : (A ⬝ᵥ B) * (C ⬝ᵥ A) ≤ B ⬝ᵥ C
  pb : (B ⬝ᵥ C) * (A ⬝ᵥ B) ≤ C ⬝ᵥ A
  pc : (C ⬝ᵥ A) * (B ⬝ᵥ C) ≤ A ⬝ᵥ B
  det : 3 / 10 ≤ triple A B C

theorem triple_rot (A B C : V3) : triple B C A = triple A B C := by
  simp only [triple, cross, dotProduct, Fin.sum_univ_three, Matrix.cons_val_zero, Matrix.cons_val_one, Matrix.cons_val]
  ring

theorem Nice.rot {A B C : V3} (h : Nice A B C) : Nice B C A :=
  ⟨h.b, h.c, h.a, h.bc, h.ca, h.ab, h.pb, h.pc, h.pa, by rw [triple_rot]; exact h.det⟩

/-- Lengths and products after the projection on the plane of an edge, in the coordinates of the three vertices. -/
theorem edge_core {a b c g p q : ℝ} (ha : 0 ≤ a) (hb : 0 ≤ b) (hc : 0 ≤ c) (hg : 0 ≤ g) (hg1 : g < 1) (hp : g * q ≤ p)
    (hq : g * p ≤ q) (hQ : a ^ 2 + b ^ 2 + c ^ 2 + 2 * a * b * g + 2 * a * c * p + 2 * b * c * q = 1) :
    g ^ 2 * (1 - c ^ 2 * ((1 + 2 * g * p * q - g ^ 2 - p ^ 2 - q ^ 2) / (1 - g ^ 2))) ≤ (a + b * g + c * p) ^ 2 ∧
    (a + b * g + c * p) ^ 2 ≤ 1 - c ^ 2 * ((1 + 2 * g * p * q - g ^ 2 - p ^ 2 - q ^ 2) / (1 - g ^ 2)) := by
  have hk : 0 < 1 - g ^ 2 := by nlinarith
  set al := a + c * ((p - g * q) / (1 - g ^ 2)) with hal
  set be := b + c * ((q - g * p) / (1 - g ^ 2)) with hbe
  have hal0 : 0 ≤ al := add_nonneg ha (mul_nonneg hc (div_nonneg (by linarith) hk.le))
  have hbe0 : 0 ≤ be := add_nonneg hb (mul_nonneg hc (div_nonneg (by linarith) hk.le))
  have e1 : a + b * g + c * p = al + be * g := by
    rw [hal, hbe]
    field_simp
    ring
  have e2 : a ^ 2 + b ^ 2 + c ^ 2 + 2 * a * b * g + 2 * a * c * p + 2 * b * c * q -
      c ^ 2 * ((1 + 2 * g * p * q - g ^ 2 - p ^ 2 - q ^ 2) / (1 - g ^ 2)) = al ^ 2 + be ^ 2 + 2 * al * be * g := by
    rw [hal, hbe]
    field_simp
    ring
  rw [hQ] at e2
  rw [e1, e2]
  constructor
  · nlinarith [mul_nonneg hk.le (mul_nonneg (mul_nonneg hal0 hbe0) hg), mul_nonneg hk.le (sq_nonneg al)]
  · nlinarith [mul_nonneg hk.le (sq_nonneg be)]

/-- Coordinates of a vector. -/
theorem cramer (A B C d : V3) (hD : triple A B C ≠ 0) :
    d = (triple d B C / triple A B C) • A + (triple A d C / triple A B C) • B + (triple A B d / triple A B C) • C := by
  have key : (triple A B C) • d = triple d B C • A + triple A d C • B + triple A B d • C := by
    ext i
    fin_cases i <;>
      simp only [triple, cross, dotProduct, Fin.sum_univ_three, Matrix.cons_val_zero, Matrix.cons_val_one, Matrix.cons_val,
        Pi.smul_apply, Pi.add_apply, smul_eq_mul, Fin.zero_eta, Fin.mk_one, Fin.reduceFinMk] <;> ring
  have h2 : (triple A B C)⁻¹ • ((triple A B C) • d) = d := by rw [smul_smul, inv_mul_cancel₀ hD, one_smul]
  rw [key, smul_add, smul_add, smul_smul, smul_smul, smul_smul] at h2
  simp only [div_eq_inv_mul]
  exact h2.symm

theorem gram (A B C : V3) (hA : A ⬝ᵥ A = 1) (hB : B ⬝ᵥ B = 1) (hC : C ⬝ᵥ C = 1) :
    triple A B C ^ 2 = 1 + 2 * (A ⬝ᵥ B) * (C ⬝ᵥ A) * (B ⬝ᵥ C) - (A ⬝ᵥ B) ^ 2 - (C ⬝ᵥ A) ^ 2 - (B ⬝ᵥ C) ^ 2 := by
  have h : triple A B C ^ 2 = (A ⬝ᵥ A) * (B ⬝ᵥ B) * (C ⬝ᵥ C) + 2 * (A ⬝ᵥ B) * (C ⬝ᵥ A) * (B ⬝ᵥ C) - (C ⬝ᵥ C) * (A ⬝ᵥ B) ^ 2
      - (B ⬝ᵥ B) * (C ⬝ᵥ A) ^ 2 - (A ⬝ᵥ A) * (B ⬝ᵥ C) ^ 2 := by
    simp only [triple, cross, dotProduct, Fin.sum_univ_three, Matrix.cons_val_zero, Matrix.cons_val_one, Matrix.cons_val]
    ring
  rw [h, hA, hB, hC]
  ring

theorem cross_sq (A B : V3) (hA : A ⬝ᵥ A = 1) (hB : B ⬝ᵥ B = 1) : cross B A ⬝ᵥ cross B A = 1 - (A ⬝ᵥ B) ^ 2 := by
  have h : cross B A ⬝ᵥ cross B A = (A ⬝ᵥ A) * (B ⬝ᵥ B) - (A ⬝ᵥ B) ^ 2 := by
    simp only [cross, dotProduct, Fin.sum_univ_three, Matrix.cons_val_zero, Matrix.cons_val_one, Matrix.cons_val]
    ring
  rw [h, hA, hB]
  ring

theorem norm_sq (v : V3) : norm v ^ 2 = v ⬝ᵥ v := by
  unfold norm
  refine Real.sq_sqrt ?_
  simp only [dotProduct, Fin.sum_univ_three]
  nlinarith [sq_nonneg (v 0), sq_nonneg (v 1), sq_nonneg (v 2)]

theorem Nice.flat {A B C : V3} (h : Nice A B C) : A ⬝ᵥ B < 1 := by
  have hg := gram A B C h.a h.b h.c
  have hd := h.det
  have h1 : 0 < triple A B C ^ 2 := by positivity
  by_contra hc
  have hc : 1 ≤ A ⬝ᵥ B := not_lt.1 hc
  have key : triple A B C ^ 2 * 1 ≤ (1 - (A ⬝ᵥ B) ^ 2) := by
    rw [hg]
    have := h.pa
    have := h.pb
    have h3 := h.ca
    have h4 := h.bc
    nlinarith [sq_nonneg ((C ⬝ᵥ A) - (A ⬝ᵥ B) * (B ⬝ᵥ C)), sq_nonneg ((B ⬝ᵥ C) - (A ⬝ᵥ B) * (C ⬝ᵥ A)), mul_nonneg h3 (sub_nonneg.2 h.pb), mul_nonneg h4 (sub_nonneg.2 h.pa)]
  nlinarith

theorem le_of_sq_le_sq {x y : ℝ} (h : x ^ 2 ≤ y ^ 2) (hy : 0 ≤ y) : x ≤ y := by
  by_contra hc
  nlinarith [not_le.1 hc]

theorem small_c {a b c g p q δ : ℝ} (ha : 0 ≤ a) (hb : 0 ≤ b) (hc : 0 ≤ c) (g0 : 0 ≤ g) (p0 : 0 ≤ p) (q0 : 0 ≤ q)
    (hδ1 : δ ≤ 1 / 100) (hca : c ≤ a + δ) (hcb : c ≤ b + δ)
    (hQ : a ^ 2 + b ^ 2 + c ^ 2 + 2 * a * b * g + 2 * a * c * p + 2 * b * c * q = 1) : c < 7 / 10 := by
  by_contra hcc
  have hcc : 7 / 10 ≤ c := not_lt.1 hcc
  have h1 : 69 / 100 ≤ a := by linarith
  have h2 : 69 / 100 ≤ b := by linarith
  nlinarith [mul_nonneg (mul_nonneg ha hb) g0, mul_nonneg (mul_nonneg ha hc) p0, mul_nonneg (mul_nonneg hb hc) q0]

theorem part_le {g p q : ℝ} (hk : 0 < 1 - g ^ 2) (p0 : 0 ≤ p) (q0 : 0 ≤ q) (pa : g * p ≤ q) (pb : q * g ≤ p) :
    (1 + 2 * g * p * q - g ^ 2 - p ^ 2 - q ^ 2) / (1 - g ^ 2) ≤ 1 := by
  rw [div_le_one hk]
  nlinarith [mul_nonneg p0 (sub_nonneg.2 pb), mul_nonneg q0 (sub_nonneg.2 pa)]

theorem along {a b c δ x y z : ℝ} (hδ : 0 ≤ δ) (hca : c ≤ a + δ) (hcb : c ≤ b + δ) (hx : 0 ≤ x) (hy : 0 ≤ y) (hx1 : x ≤ 1)
    (hy1 : y ≤ 1) (e : 1 = a * x + b * y + c * z) : c * (x + y + z) ≤ 1 + 2 * δ := by
  nlinarith [mul_nonneg (sub_nonneg.2 hca) hx, mul_nonneg (sub_nonneg.2 hcb) hy, mul_nonneg hδ (sub_nonneg.2 hx1),
    mul_nonneg hδ (sub_nonneg.2 hy1)]

theorem long_foot {c E R : ℝ} (hc : 0 ≤ c) (hc7 : c < 7 / 10) (hE0 : 0 ≤ E) (hE1 : E ≤ 1) (hRn : 0 ≤ R) (hR : R ^ 2 = 1 - c ^ 2 * E) :
    7 / 10 < R ∧ R ≤ 1 := by
  have h1 : c ^ 2 * E ≤ 49 / 100 := by nlinarith [mul_nonneg (sq_nonneg c) (sub_nonneg.2 hE1)]
  have h2 : 0 ≤ c ^ 2 * E := by positivity
  constructor <;> nlinarith

theorem last_step {S c E R δ : ℝ} (hc : 0 ≤ c) (hE0 : 0 ≤ E) (hR0 : 0 < R) (hR : R ^ 2 = 1 - c ^ 2 * E) (hs : c * S ≤ 1 + 2 * δ)
    (h : 2 * δ ≤ R) : S - c * E ≤ S * R := by
  have key : S * c * (c * E) ≤ (1 + R) * (c * E) := mul_le_mul_of_nonneg_right (by linarith) (mul_nonneg hc hE0)
  have e : (1 - R) * (1 + R) = c ^ 2 * E := by linarith
  have h3 : S * (1 - R) * (1 + R) ≤ (c * E) * (1 + R) := by
    rw [mul_assoc S, e]
    linarith
  have := le_of_mul_le_mul_right h3 (by linarith)
  linarith

/-- The point of the edge next to a direction of the triangle that is farther from the third vertex than from the other two. -/
theorem foot {A B C d : V3} (h : Nice A B C) {a b c δ : ℝ} (hd : d = a • A + b • B + c • C) (hd1 : d ⬝ᵥ d = 1)
    (ha : 0 ≤ a) (hb : 0 ≤ b) (hc : 0 ≤ c) (hδ : 0 ≤ δ) (hδ1 : δ ≤ 1 / 100) (hca : c ≤ a + δ) (hcb : c ≤ b + δ) :
    let n := (norm (cross B A))⁻¹ • cross B A
    let dp := d - (n ⬝ᵥ d) • n
    0 < norm dp ∧ A ⬝ᵥ B ≤ A ⬝ᵥ ((norm dp)⁻¹ • dp) ∧ A ⬝ᵥ ((norm dp)⁻¹ • dp) ≤ 1 ∧
      (A + B + C) ⬝ᵥ ((norm dp)⁻¹ • dp) ≤ (A + B + C) ⬝ᵥ d := by
  intro n dp
  have hA := h.a
  have hB := h.b
  have hC := h.c
  have hBA : B ⬝ᵥ A = A ⬝ᵥ B := dotProduct_comm _ _
  have hCB : C ⬝ᵥ B = B ⬝ᵥ C := dotProduct_comm _ _
  have hAC : A ⬝ᵥ C = C ⬝ᵥ A := dotProduct_comm _ _
  have g0 := h.ab
  have p0 := h.ca
  have q0 := h.bc
  have pa := h.pa
  have pb := h.pb
  have g1 := h.flat
  have hgram := gram A B C hA hB hC
  have hN := cross_sq A B hA hB
  have hdet := h.det
  have nA : cross B A ⬝ᵥ A = 0 := by
    simp only [cross, dotProduct, Fin.sum_univ_three, Matrix.cons_val_zero, Matrix.cons_val_one, Matrix.cons_val]
    ring
  have nB : cross B A ⬝ᵥ B = 0 := by
    simp only [cross, dotProduct, Fin.sum_univ_three, Matrix.cons_val_zero, Matrix.cons_val_one, Matrix.cons_val]
    ring
  have nC : cross B A ⬝ᵥ C = -triple A B C := by
    simp only [triple, cross, dotProduct, Fin.sum_univ_three, Matrix.cons_val_zero, Matrix.cons_val_one, Matrix.cons_val]
    ring
  have hk : 0 < 1 - (A ⬝ᵥ B) ^ 2 := by nlinarith
  have hw : norm (cross B A) ^ 2 = 1 - (A ⬝ᵥ B) ^ 2 := by rw [norm_sq, hN]
  have hw0 : 0 < norm (cross B A) := by
    have : 0 ≤ norm (cross B A) := Real.sqrt_nonneg _
    rcases this.lt_or_eq with h' | h'
    · exact h'
    · rw [← h', zero_pow two_ne_zero] at hw
      linarith
  have nd : cross B A ⬝ᵥ d = -(c * triple A B C) := by
    rw [hd, dotProduct_add, dotProduct_add, dotProduct_smul, dotProduct_smul, dotProduct_smul, nA, nB, nC]
    simp
  have hAd : A ⬝ᵥ d = a + b * (A ⬝ᵥ B) + c * (C ⬝ᵥ A) := by
    rw [hd, dotProduct_add, dotProduct_add, dotProduct_smul, dotProduct_smul, dotProduct_smul, hA, hAC]
    simp
  have hBd : B ⬝ᵥ d = a * (A ⬝ᵥ B) + b + c * (B ⬝ᵥ C) := by
    rw [hd, dotProduct_add, dotProduct_add, dotProduct_smul, dotProduct_smul, dotProduct_smul, hB, hBA]
    simp
  have hCd : C ⬝ᵥ d = a * (C ⬝ᵥ A) + b * (B ⬝ᵥ C) + c := by
    rw [hd, dotProduct_add, dotProduct_add, dotProduct_smul, dotProduct_smul, dotProduct_smul, hC, hCB]
    simp
  have hQ : a ^ 2 + b ^ 2 + c ^ 2 + 2 * a * b * (A ⬝ᵥ B) + 2 * a * c * (C ⬝ᵥ A) + 2 * b * c * (B ⬝ᵥ C) = 1 := by
    have e : d ⬝ᵥ d = a * (A ⬝ᵥ d) + b * (B ⬝ᵥ d) + c * (C ⬝ᵥ d) := by
      conv_lhs => lhs; rw [hd]
      rw [add_dotProduct, add_dotProduct, smul_dotProduct, smul_dotProduct, smul_dotProduct]
      simp
    rw [hd1, hAd, hBd, hCd] at e
    linarith
  have nn : n ⬝ᵥ n = 1 := by
    show ((norm (cross B A))⁻¹ • cross B A) ⬝ᵥ ((norm (cross B A))⁻¹ • cross B A) = 1
    rw [smul_dotProduct, dotProduct_smul, hN, ← hw, smul_eq_mul, smul_eq_mul]
    field_simp
  have xdp : ∀ x : V3, x ⬝ᵥ dp = x ⬝ᵥ d - (n ⬝ᵥ d) * (n ⬝ᵥ x) := by
    intro x
    show x ⬝ᵥ (d - (n ⬝ᵥ d) • n) = _
    rw [dotProduct_sub, dotProduct_smul, smul_eq_mul, dotProduct_comm x n]
  have nx : ∀ x : V3, n ⬝ᵥ x = (norm (cross B A))⁻¹ * (cross B A ⬝ᵥ x) := by
    intro x
    show ((norm (cross B A))⁻¹ • cross B A) ⬝ᵥ x = _
    rw [smul_dotProduct, smul_eq_mul]
  set E := (1 + 2 * (A ⬝ᵥ B) * (C ⬝ᵥ A) * (B ⬝ᵥ C) - (A ⬝ᵥ B) ^ 2 - (C ⬝ᵥ A) ^ 2 - (B ⬝ᵥ C) ^ 2) / (1 - (A ⬝ᵥ B) ^ 2) with hE
  have hE' : E = triple A B C ^ 2 / norm (cross B A) ^ 2 := by rw [hE, ← hgram, hw]
  have hE0 : 0 ≤ E := by rw [hE']; positivity
  have hE1 : E ≤ 1 := part_le hk p0 q0 pa pb
  have lam2 : (n ⬝ᵥ d) * (n ⬝ᵥ d) = c ^ 2 * E := by
    rw [nx, nd, hE']
    field_simp
  have hR : norm dp ^ 2 = 1 - c ^ 2 * E := by
    rw [norm_sq, xdp, dotProduct_comm dp d, xdp, dotProduct_comm n dp, dotProduct_comm dp n, xdp, nn, hd1, mul_one, sub_self,
      mul_zero, sub_zero, lam2]
  have hAdp : A ⬝ᵥ dp = A ⬝ᵥ d := by rw [xdp, nx A, nA]; ring
  have hSdp : (A + B + C) ⬝ᵥ dp = (A + B + C) ⬝ᵥ d - c * E := by
    rw [xdp, nx, nx (A + B + C), nd, dotProduct_add, dotProduct_add, nA, nB, nC, hE']
    field_simp
    ring
  have hc7 : c < 7 / 10 := small_c ha hb hc g0 p0 q0 hδ1 hca hcb hQ
  have hRn : 0 ≤ norm dp := Real.sqrt_nonneg _
  obtain ⟨hR7, hR1⟩ := long_foot hc hc7 hE0 hE1 hRn hR
  have hR0 : 0 < norm dp := by linarith
  have hAd0 : 0 ≤ A ⬝ᵥ d := by rw [hAd]; positivity
  have hBd0 : 0 ≤ B ⬝ᵥ d := by rw [hBd]; positivity
  have hCd0 : 0 ≤ C ⬝ᵥ d := by rw [hCd]; positivity
  obtain ⟨k1, k2⟩ := edge_core ha hb hc g0 g1 (by linarith : (A ⬝ᵥ B) * (B ⬝ᵥ C) ≤ C ⬝ᵥ A) pa hQ
  rw [← hE, ← hR, ← hAd] at k1 k2
  have hAd1 : A ⬝ᵥ d ≤ 1 := (le_of_sq_le_sq k2 hRn).trans hR1
  have hBd1 : B ⬝ᵥ d ≤ 1 := by
    have k3 := (edge_core hb ha hc g0 g1 (by linarith : (A ⬝ᵥ B) * (C ⬝ᵥ A) ≤ B ⬝ᵥ C) (by linarith : (A ⬝ᵥ B) * (B ⬝ᵥ C) ≤ C ⬝ᵥ A)
      (by linarith)).2
    have e : 1 + 2 * (A ⬝ᵥ B) * (B ⬝ᵥ C) * (C ⬝ᵥ A) - (A ⬝ᵥ B) ^ 2 - (B ⬝ᵥ C) ^ 2 - (C ⬝ᵥ A) ^ 2 =
        1 + 2 * (A ⬝ᵥ B) * (C ⬝ᵥ A) * (B ⬝ᵥ C) - (A ⬝ᵥ B) ^ 2 - (C ⬝ᵥ A) ^ 2 - (B ⬝ᵥ C) ^ 2 := by ring
    rw [e, ← hE] at k3
    have e2 : b + a * (A ⬝ᵥ B) + c * (B ⬝ᵥ C) = B ⬝ᵥ d := by rw [hBd]; ring
    rw [e2, ← hR] at k3
    exact (le_of_sq_le_sq k3 hRn).trans hR1
  have hSd : (A + B + C) ⬝ᵥ d = A ⬝ᵥ d + B ⬝ᵥ d + C ⬝ᵥ d := by rw [add_dotProduct, add_dotProduct]
  have hcS : c * ((A + B + C) ⬝ᵥ d) ≤ 1 + 2 * δ := by
    have e : 1 = a * (A ⬝ᵥ d) + b * (B ⬝ᵥ d) + c * (C ⬝ᵥ d) := by
      rw [hAd, hBd, hCd]
      linarith
    rw [hSd]
    exact along hδ hca hcb hAd0 hBd0 hAd1 hBd1 e
  refine ⟨hR0, ?_, ?_, ?_⟩
  · rw [dotProduct_smul, smul_eq_mul, hAdp, inv_mul_eq_div, le_div_iff₀ hR0]
    refine le_of_sq_le_sq ?_ hAd0
    rw [mul_pow]
    exact k1
  · rw [dotProduct_smul, smul_eq_mul, hAdp, inv_mul_eq_div, div_le_one hR0]
    exact le_of_sq_le_sq k2 hRn
  · rw [dotProduct_smul, smul_eq_mul, hSdp, inv_mul_eq_div, div_le_iff₀ hR0]
    exact last_step hc hE0 hR0 hR hcS (by linarith)

end Hexrd.Ipf
