import Verif.Spec.Ipf
import Verif.Lemmas.CellOps

/-! The operators of the four supergroups of the Laue groups, and their Cartesian form. -/
namespace Hexrd.Ipf

open Matrix Hexrd.SpaceGroup Hexrd.UnitCell Hexrd.UnitCell.Cell

/-- The operators generated for `d2h`, in the order of the code. -/
def d2hOps : List Mat :=
  [⟨-1, 0, 0, 0, -1, 0, 0, 0, 1⟩, ⟨-1, 0, 0, 0, 1, 0, 0, 0, -1⟩, ⟨-1, 0, 0, 0, -1, 0, 0, 0, -1⟩,
   ⟨1, 0, 0, 0, 1, 0, 0, 0, 1⟩, ⟨1, 0, 0, 0, -1, 0, 0, 0, -1⟩, ⟨1, 0, 0, 0, 1, 0, 0, 0, -1⟩, ⟨1, 0, 0, 0, -1, 0, 0, 0, 1⟩,
   ⟨-1, 0, 0, 0, 1, 0, 0, 0, 1⟩]

set_option maxRecDepth 100000 in
theorem generate_d2h : generatePG .d2h = some d2hOps := by decide +kernel

/-- The operators generated for `d4h`, in the order of the code. -/
def d4hOps : List Mat :=
  [⟨-1, 0, 0, 0, 1, 0, 0, 0, -1⟩, ⟨0, -1, 0, 1, 0, 0, 0, 0, 1⟩, ⟨-1, 0, 0, 0, -1, 0, 0, 0, -1⟩, ⟨1, 0, 0, 0, 1, 0, 0, 0, 1⟩,
   ⟨0, 1, 0, 1, 0, 0, 0, 0, -1⟩, ⟨1, 0, 0, 0, -1, 0, 0, 0, 1⟩, ⟨-1, 0, 0, 0, -1, 0, 0, 0, 1⟩, ⟨0, 1, 0, -1, 0, 0, 0, 0, -1⟩,
   ⟨0, 1, 0, 1, 0, 0, 0, 0, 1⟩, ⟨0, 1, 0, -1, 0, 0, 0, 0, 1⟩, ⟨1, 0, 0, 0, 1, 0, 0, 0, -1⟩, ⟨-1, 0, 0, 0, 1, 0, 0, 0, 1⟩,
   ⟨0, -1, 0, 1, 0, 0, 0, 0, -1⟩, ⟨0, -1, 0, -1, 0, 0, 0, 0, 1⟩, ⟨0, -1, 0, -1, 0, 0, 0, 0, -1⟩,
   ⟨1, 0, 0, 0, -1, 0, 0, 0, -1⟩]

set_option maxRecDepth 100000 in
theorem generate_d4h : generatePG .d4h = some d4hOps := by decide +kernel

/-- The operators generated for `oh`, in the order of the code. -/
def ohOps : List Mat :=
  [⟨0, 0, 1, 1, 0, 0, 0, 1, 0⟩, ⟨0, -1, 0, 1, 0, 0, 0, 0, 1⟩, ⟨-1, 0, 0, 0, -1, 0, 0, 0, -1⟩, ⟨0, 1, 0, 0, 0, 1, 1, 0, 0⟩,
   ⟨0, 0, 1, 0, -1, 0, 1, 0, 0⟩, ⟨0, 0, -1, -1, 0, 0, 0, -1, 0⟩, ⟨1, 0, 0, 0, 1, 0, 0, 0, 1⟩, ⟨1, 0, 0, 0, 0, 1, 0, -1, 0⟩,
   ⟨0, -1, 0, 0, 0, -1, -1, 0, 0⟩, ⟨-1, 0, 0, 0, -1, 0, 0, 0, 1⟩, ⟨0, 1, 0, -1, 0, 0, 0, 0, -1⟩,
   ⟨0, 0, -1, 0, 1, 0, 1, 0, 0⟩, ⟨1, 0, 0, 0, 0, -1, 0, -1, 0⟩, ⟨0, 0, -1, 1, 0, 0, 0, -1, 0⟩,
   ⟨0, 0, 1, 0, -1, 0, -1, 0, 0⟩, ⟨0, 1, 0, -1, 0, 0, 0, 0, 1⟩, ⟨1, 0, 0, 0, 1, 0, 0, 0, -1⟩, ⟨0, -1, 0, 0, 0, -1, 1, 0, 0⟩,
   ⟨0, 0, 1, 1, 0, 0, 0, -1, 0⟩, ⟨-1, 0, 0, 0, 0, -1, 0, -1, 0⟩, ⟨0, 1, 0, 0, 0, 1, -1, 0, 0⟩,
   ⟨0, -1, 0, 1, 0, 0, 0, 0, -1⟩, ⟨-1, 0, 0, 0, 0, 1, 0, -1, 0⟩, ⟨0, 0, 1, -1, 0, 0, 0, -1, 0⟩,
   ⟨0, 0, -1, 0, 1, 0, -1, 0, 0⟩, ⟨-1, 0, 0, 0, 0, -1, 0, 1, 0⟩, ⟨-1, 0, 0, 0, 0, 1, 0, 1, 0⟩, ⟨0, 0, 1, -1, 0, 0, 0, 1, 0⟩,
   ⟨0, 0, -1, -1, 0, 0, 0, 1, 0⟩, ⟨1, 0, 0, 0, 0, 1, 0, 1, 0⟩, ⟨1, 0, 0, 0, 0, -1, 0, 1, 0⟩, ⟨0, 0, -1, 1, 0, 0, 0, 1, 0⟩,
   ⟨0, -1, 0, 0, 0, 1, -1, 0, 0⟩, ⟨0, 1, 0, 1, 0, 0, 0, 0, -1⟩, ⟨0, 0, -1, 0, -1, 0, 1, 0, 0⟩,
   ⟨1, 0, 0, 0, -1, 0, 0, 0, -1⟩, ⟨0, -1, 0, -1, 0, 0, 0, 0, 1⟩, ⟨0, 1, 0, 0, 0, -1, 1, 0, 0⟩, ⟨1, 0, 0, 0, -1, 0, 0, 0, 1⟩,
   ⟨0, 0, -1, 0, -1, 0, -1, 0, 0⟩, ⟨0, 0, 1, 0, 1, 0, -1, 0, 0⟩, ⟨-1, 0, 0, 0, 1, 0, 0, 0, 1⟩,
   ⟨-1, 0, 0, 0, 1, 0, 0, 0, -1⟩, ⟨0, 0, 1, 0, 1, 0, 1, 0, 0⟩, ⟨0, -1, 0, 0, 0, 1, 1, 0, 0⟩, ⟨0, -1, 0, -1, 0, 0, 0, 0, -1⟩,
   ⟨0, 1, 0, 0, 0, -1, -1, 0, 0⟩, ⟨0, 1, 0, 1, 0, 0, 0, 0, 1⟩]

set_option maxRecDepth 100000 in
theorem generate_oh : generatePG .oh = some ohOps := by decide +kernel

/-- The operators generated for `d6h`, in the order of the code. -/
def d6hOps : List Mat :=
  [⟨-1, 0, 0, 0, -1, 0, 0, 0, 1⟩, ⟨0, 1, 0, 1, 0, 0, 0, 0, -1⟩, ⟨0, -1, 0, 1, -1, 0, 0, 0, 1⟩,
   ⟨-1, 0, 0, 0, -1, 0, 0, 0, -1⟩, ⟨1, 0, 0, 0, 1, 0, 0, 0, 1⟩, ⟨0, -1, 0, -1, 0, 0, 0, 0, -1⟩,
   ⟨0, 1, 0, -1, 1, 0, 0, 0, 1⟩, ⟨1, 0, 0, 0, 1, 0, 0, 0, -1⟩, ⟨1, -1, 0, 0, -1, 0, 0, 0, -1⟩,
   ⟨0, -1, 0, -1, 0, 0, 0, 0, 1⟩, ⟨-1, 1, 0, 0, 1, 0, 0, 0, -1⟩, ⟨0, 1, 0, 1, 0, 0, 0, 0, 1⟩, ⟨-1, 1, 0, -1, 0, 0, 0, 0, 1⟩,
   ⟨0, 1, 0, -1, 1, 0, 0, 0, -1⟩, ⟨1, 0, 0, 1, -1, 0, 0, 0, -1⟩, ⟨1, -1, 0, 1, 0, 0, 0, 0, 1⟩,
   ⟨0, -1, 0, 1, -1, 0, 0, 0, -1⟩, ⟨1, 0, 0, 1, -1, 0, 0, 0, 1⟩, ⟨-1, 0, 0, -1, 1, 0, 0, 0, 1⟩,
   ⟨1, -1, 0, 1, 0, 0, 0, 0, -1⟩, ⟨-1, 1, 0, -1, 0, 0, 0, 0, -1⟩, ⟨-1, 1, 0, 0, 1, 0, 0, 0, 1⟩,
   ⟨1, -1, 0, 0, -1, 0, 0, 0, 1⟩, ⟨-1, 0, 0, -1, 1, 0, 0, 0, -1⟩]

set_option maxRecDepth 100000 in
theorem generate_d6h : generatePG .d6h = some d6hOps := by decide +kernel

theorem mem_eps (t : ℝ) (h : t = 0 ∨ 1 / 2 ≤ |t|) : t = 0 ∨ Cell.eps ≤ |t| := by
  rcases h with h | h
  · exact Or.inl h
  · right; refine le_trans ?_ h; rw [Cell.eps]; norm_num

/-- The Cartesian form of an operator that commutes in the right way with the structure matrix. -/
theorem cart_of_comm {L : Cell} (hd : 0 < L.dmt.det) (hn : NoTiny L) (m : Mat) (D : M3) (hcomm : L.dsm0 * toReal m = D * L.dsm0)
    (hD : ∀ i j, D i j = 0 ∨ 1 / 2 ≤ |D i j|) : cartSym L m = D := by
  rw [cartSym, ← Matrix.mul_assoc, dsm_eq hn, hcomm, Matrix.mul_assoc, ← dsm_eq hn, dsm_rsm hd hn, Matrix.mul_one]
  exact clip_id _ fun i j => mem_eps _ (hD i j)

theorem sin_90 : Real.sin (radians 90) = 1 := by
  have : radians 90 = Real.pi / 2 := by rw [radians]; ring
  rw [this, Real.sin_pi_div_two]

theorem sin_120 : Real.sin (radians 120) = √3 / 2 := by
  have : radians 120 = Real.pi - Real.pi / 3 := by rw [radians]; ring
  rw [this, Real.sin_pi_sub, Real.sin_pi_div_three]

/-- The structure matrix of a cell with three right angles. -/
theorem dsm0_right {L : Cell} (ha : 0 < L.a) (hb : 0 < L.b) (hc : 0 < L.c) (h1 : L.alpha = 90) (h2 : L.beta = 90) (h3 : L.gamma = 90) :
    0 < L.dmt.det ∧ L.dsm0 = UnitCell.diag L.a L.b L.c := by
  have hca : L.ca = 0 := by rw [ca, h1, cos_90]
  have hcb : L.cb = 0 := by rw [cb, h2, cos_90]
  have hcg : L.cg = 0 := by rw [cg, h3, cos_90]
  have hsg : L.sg = 1 := by rw [sg, h3, sin_90]
  have hdet : L.dmt.det = (L.a * L.b * L.c) ^ 2 := by rw [det_dmt, hca, hcb, hcg]; ring
  have hv : L.vol = L.a * L.b * L.c := by rw [vol, hdet, Real.sqrt_sq (by positivity)]
  refine ⟨by rw [hdet]; positivity, ?_⟩
  ext i j
  fin_cases i <;> fin_cases j <;> simp [dsm0, UnitCell.diag, hca, hcb, hcg, hsg, hv]
  field_simp

/-- The structure matrix of a hexagonal cell. -/
theorem dsm0_hex {L : Cell} (ha : 0 < L.a) (hc : 0 < L.c) (h1 : L.alpha = 90) (h2 : L.beta = 90) (h3 : L.gamma = 120)
    (hab : L.a = L.b) : 0 < L.dmt.det ∧ L.dsm0 = !![L.a, -L.a / 2, 0; 0, L.a * (√3 / 2), 0; 0, 0, L.c] := by
  have hca : L.ca = 0 := by rw [ca, h1, cos_90]
  have hcb : L.cb = 0 := by rw [cb, h2, cos_90]
  have hcg : L.cg = -1 / 2 := by rw [cg, h3, cos_120]
  have hsg : L.sg = √3 / 2 := by rw [sg, h3, sin_120]
  have h3' : √3 ^ 2 = 3 := Real.sq_sqrt (by norm_num)
  have h3p : 0 < √3 := by positivity
  have hdet : L.dmt.det = (L.a * L.b * L.c * (√3 / 2)) ^ 2 := by
    rw [det_dmt, hca, hcb, hcg]
    linear_combination (-(L.a * L.b * L.c) ^ 2 / 4) * h3'
  have hv : L.vol = L.a * L.b * L.c * (√3 / 2) := by
    rw [vol, hdet, Real.sqrt_sq (by rw [← hab]; positivity)]
  refine ⟨by rw [hdet, ← hab]; positivity, ?_⟩
  rw [← hab] at hv
  ext i j
  fin_cases i <;> fin_cases j <;> simp [dsm0, hca, hcb, hcg, hsg, hv, ← hab]
  · ring
  · field_simp

/-- Cartesian form of the operators of the hexagonal supergroup. -/
noncomputable def hexCart (m : Mat) : M3 :=
  !![m.a - m.d / 2, (m.a + 2 * m.b - m.d / 2 - m.e) * √3 / 3, 0; m.d * √3 / 2, m.d / 2 + m.e, 0; 0, 0, m.i]

theorem cart_right {L : Cell} (ha : 0 < L.a) (hb : 0 < L.b) (hc : 0 < L.c) (hn : NoTiny L) (h1 : L.alpha = 90) (h2 : L.beta = 90)
    (h3 : L.gamma = 90) (m : Mat) (hm : m ∈ ohOps) (e1 : L.a = L.b ∨ m.b = 0 ∧ m.d = 0)
    (e2 : L.a = L.c ∨ m.c = 0 ∧ m.g = 0) (e3 : L.b = L.c ∨ m.f = 0 ∧ m.h = 0) : cartSym L m = toReal m := by
  obtain ⟨hd, hD⟩ := dsm0_right ha hb hc h1 h2 h3
  have hent : ∀ t ∈ [m.a, m.b, m.c, m.d, m.e, m.f, m.g, m.h, m.i], t = 0 ∨ t = 1 ∨ t = -1 := by
    clear e1 e2 e3; revert m; decide
  have hr : ∀ t ∈ [m.a, m.b, m.c, m.d, m.e, m.f, m.g, m.h, m.i], (t : ℝ) = 0 ∨ 1 / 2 ≤ |(t : ℝ)| := by
    intro t ht
    rcases hent t ht with rfl | rfl | rfl <;> norm_num
  simp only [List.mem_cons, List.not_mem_nil, or_false, forall_eq_or_imp, forall_eq] at hr
  obtain ⟨r1, r2, r3, r4, r5, r6, r7, r8, r9⟩ := hr
  refine cart_of_comm hd hn m _ ?_ ?_
  · rw [hD]
    have k1 : ∀ t : ℤ, (t = m.b ∨ t = m.d) → L.a * t = t * L.b ∧ L.b * t = t * L.a := by
      rintro t ht
      rcases e1 with e | ⟨e, e'⟩
      · rw [e]; constructor <;> ring
      · have : t = 0 := by rcases ht with rfl | rfl <;> assumption
        subst this; simp
    have k2 : ∀ t : ℤ, (t = m.c ∨ t = m.g) → L.a * t = t * L.c ∧ L.c * t = t * L.a := by
      rintro t ht
      rcases e2 with e | ⟨e, e'⟩
      · rw [e]; constructor <;> ring
      · have : t = 0 := by rcases ht with rfl | rfl <;> assumption
        subst this; simp
    have k3 : ∀ t : ℤ, (t = m.f ∨ t = m.h) → L.b * t = t * L.c ∧ L.c * t = t * L.b := by
      rintro t ht
      rcases e3 with e | ⟨e, e'⟩
      · rw [e]; constructor <;> ring
      · have : t = 0 := by rcases ht with rfl | rfl <;> assumption
        subst this; simp
    ext i j
    fin_cases i <;> fin_cases j <;>
      simp [UnitCell.diag, toReal, Matrix.mul_apply, Fin.sum_univ_three, mul_comm, (k1 m.b (Or.inl rfl)).1, (k1 m.d (Or.inr rfl)).2,
        (k2 m.c (Or.inl rfl)).1, (k2 m.g (Or.inr rfl)).2, (k3 m.f (Or.inl rfl)).1, (k3 m.h (Or.inr rfl)).2]
  · intro i j
    fin_cases i <;> fin_cases j
    exacts [r1, r2, r3, r4, r5, r6, r7, r8, r9]

theorem cart_hex {L : Cell} (ha : 0 < L.a) (hc : 0 < L.c) (hn : NoTiny L) (h1 : L.alpha = 90) (h2 : L.beta = 90)
    (h3 : L.gamma = 120) (hab : L.a = L.b) (m : Mat) (hm : m ∈ d6hOps) : cartSym L m = hexCart m := by
  obtain ⟨hd, hD⟩ := dsm0_hex ha hc h1 h2 h3 hab
  have hz : m.c = 0 ∧ m.f = 0 ∧ m.g = 0 ∧ m.h = 0 := by revert m; decide
  have hs : (2 * m.a - m.d) * (2 * m.a - m.d) ≥ 1 ∧ (m.d + 2 * m.e) * (m.d + 2 * m.e) ≥ 1 ∧ m.i * m.i ≥ 1 ∧
      (2 * m.a + 4 * m.b - m.d - 2 * m.e = 0 ∨ 2 * m.a + 4 * m.b - m.d - 2 * m.e = 3 ∨ 2 * m.a + 4 * m.b - m.d - 2 * m.e = -3) ∧
      (m.d = 0 ∨ m.d = 1 ∨ m.d = -1) := by revert m; decide
  have h3' : √3 * √3 = 3 := Real.mul_self_sqrt (by norm_num)
  have h3l : (1 : ℝ) ≤ √3 := Real.le_sqrt_of_sq_le (by norm_num)
  obtain ⟨z1, z2, z3, z4⟩ := hz
  refine cart_of_comm hd hn m _ ?_ ?_
  · rw [hD]
    ext i j
    fin_cases i <;> fin_cases j <;> simp [toReal, hexCart, Matrix.mul_apply, Fin.sum_univ_three, z1, z2, z3, z4]
    · ring
    · linear_combination (-L.a * (m.a + 2 * m.b - m.d / 2 - m.e) / 6) * h3'
    · ring
    · ring
    · ring
  · obtain ⟨s1, s2, s3, s4, s5⟩ := hs
    have ab : ∀ t : ℝ, 1 ≤ (2 * t) * (2 * t) → 1 / 2 ≤ |t| := by
      intro t ht
      rw [le_abs]
      by_contra hcon
      push Not at hcon
      nlinarith [hcon.1, hcon.2]
    have q : ∀ t : ℝ, (t = √3 / 2 ∨ t = -(√3 / 2)) → 1 / 2 ≤ |t| := by
      rintro t (rfl | rfl)
      · rw [abs_of_nonneg (by positivity)]; linarith
      · rw [abs_neg, abs_of_nonneg (by positivity)]; linarith
    intro i j
    fin_cases i <;> fin_cases j <;> simp only [hexCart]
    · right; apply ab
      have : (((2 * m.a - m.d) * (2 * m.a - m.d) : ℤ) : ℝ) ≥ 1 := by exact_mod_cast s1
      push_cast at this; show 1 ≤ (2 * ((m.a : ℝ) - m.d / 2)) * (2 * ((m.a : ℝ) - m.d / 2)); nlinarith
    · show ((m.a : ℝ) + 2 * m.b - m.d / 2 - m.e) * √3 / 3 = 0 ∨ 1 / 2 ≤ |((m.a : ℝ) + 2 * m.b - m.d / 2 - m.e) * √3 / 3|
      rcases s4 with e | e | e
      · left
        have : ((2 * m.a + 4 * m.b - m.d - 2 * m.e : ℤ) : ℝ) = 0 := by rw [e]; norm_num
        push_cast at this
        linear_combination (√3 / 6) * this
      · right; apply q; left
        have : ((2 * m.a + 4 * m.b - m.d - 2 * m.e : ℤ) : ℝ) = 3 := by rw [e]; norm_num
        push_cast at this
        linear_combination (√3 / 6) * this
      · right; apply q; right
        have : ((2 * m.a + 4 * m.b - m.d - 2 * m.e : ℤ) : ℝ) = -3 := by rw [e]; norm_num
        push_cast at this
        linear_combination (√3 / 6) * this
    · left; rfl
    · show (m.d : ℝ) * √3 / 2 = 0 ∨ 1 / 2 ≤ |(m.d : ℝ) * √3 / 2|
      rcases s5 with e | e | e <;> rw [e]
      · left; simp
      · right; apply q; left; push_cast; ring
      · right; apply q; right; push_cast; ring
    · right; apply ab
      have : (((m.d + 2 * m.e) * (m.d + 2 * m.e) : ℤ) : ℝ) ≥ 1 := by exact_mod_cast s2
      push_cast at this; show 1 ≤ (2 * ((m.d : ℝ) / 2 + m.e)) * (2 * ((m.d : ℝ) / 2 + m.e)); nlinarith
    · left; rfl
    · left; rfl
    · left; rfl
    · right; apply ab
      have : ((m.i * m.i : ℤ) : ℝ) ≥ 1 := by exact_mod_cast s3
      push_cast at this; show 1 ≤ (2 * (m.i : ℝ)) * (2 * (m.i : ℝ)); nlinarith

end Hexrd.Ipf
