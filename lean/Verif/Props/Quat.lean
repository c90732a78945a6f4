import Verif.Lemmas.Quat

/-!
# Quaternions and rotation matrices (C33), the fundamental region (C34), distances of
orientations (C51, C60)
-/
namespace Hexrd.Rotations

open Matrix Quat Spec

/-! ## C33 -/

/-- C33: the rotation matrix of a quaternion turns vectors as the quaternion does. -/
theorem rotMat_acts (q : Quat ℝ) (v : Fin 3 → ℝ) :
    qmul (qmul q (Spec.pure v)) (conj q) = Spec.pure (rotMat q *ᵥ v) := by
  ext <;> simp [qmul, Spec.pure, conj, rotMat, dotProduct, Fin.sum_univ_three] <;> ring

/-- C33: the rotation matrix of a unit quaternion is orthogonal with determinant 1. -/
theorem rotMat_rotation (q : Quat ℝ) (h : UnitQ q) :
    rotMat q * (rotMat q)ᵀ = 1 ∧ (rotMat q)ᵀ * rotMat q = 1 ∧ (rotMat q).det = 1 := by
  have e : norm2 q = 1 := h
  refine ⟨?_, ?_, by rw [rotMat_det, e, one_pow]⟩
  · rw [← rotMat_conj, ← rotMat_mul_aux, mul_conj, rotMat_scalar, e]; simp
  · rw [← rotMat_conj, ← rotMat_mul_aux, conj_mul, rotMat_scalar, e]; simp

/-- C33: the matrix of a product is the product of the matrices. -/
theorem rotMat_mul (p q : Quat ℝ) : rotMat (qmul p q) = rotMat p * rotMat q := rotMat_mul_aux p q

/-- C33: two unit quaternions have the same matrix exactly when they are equal up to sign. -/
theorem rotMat_eq_iff (p q : Quat ℝ) (hp : UnitQ p) (hq : UnitQ q) : rotMat p = rotMat q ↔ SameUpToSign p q := by
  constructor
  · intro h
    have e : ∀ i j, rotMat p i j = rotMat q i j := fun i j => by rw [h]
    have h00 := e 0 0
    have h11 := e 1 1
    have h22 := e 2 2
    have h01 := e 0 1
    have h10 := e 1 0
    have h02 := e 0 2
    have h20 := e 2 0
    have h12 := e 1 2
    have h21 := e 2 1
    simp only [rotMat, Fin.isValue, Matrix.of_apply, Matrix.cons_val', Matrix.cons_val] at h00 h11 h22 h01 h10 h02 h20 h12 h21
    have key : (qmul (conj p) q).w ^ 2 = 1 := by
      simp only [qmul, conj]
      unfold UnitQ norm2 at hp hq
      obtain ⟨a, b, c, d⟩ := p
      obtain ⟨w, x, y, z⟩ := q
      simp only at *
      have ww : a * a = w * w := by nlinarith
      have xx : b * b = x * x := by nlinarith
      have yy : c * c = y * y := by nlinarith
      have zz : d * d = z * z := by nlinarith
      have wx : a * b = w * x := by linarith
      have wy : a * c = w * y := by linarith
      have wz : a * d = w * z := by linarith
      have xy : b * c = x * y := by linarith
      have xz : b * d = x * z := by linarith
      have yz : c * d = y * z := by linarith
      linear_combination (w * w) * ww + (x * x) * xx + (y * y) * yy + (z * z) * zz + 2 * (w * x) * wx + 2 * (w * y) * wy +
        2 * (w * z) * wz + 2 * (x * y) * xy + 2 * (x * z) * xz + 2 * (y * z) * yz +
        (w ^ 2 + x ^ 2 + y ^ 2 + z ^ 2 + 1) * hq
    exact (same_of_cosHalf hp hq (by rw [cosHalf, ← sq_eq_sq₀ (abs_nonneg _) zero_le_one, sq_abs, key, one_pow]))
  · rintro (rfl | rfl)
    · rfl
    · have : qneg q = qsmul (-1) q := by ext <;> simp [qneg, qsmul]
      rw [this, rotMat_smul]; norm_num


/-- C33: the matrices of the two product operators: `quatProductMatrix(h, 'right') @ q` and
`quatProductMatrix(q, 'left') @ h` are both the product `q h`. -/
theorem product_matrices (q h : Quat ℝ) :
    prodMatRight h *ᵥ vec q = vec (qmul q h) ∧ prodMatLeft q *ᵥ vec h = vec (qmul q h) :=
  ⟨prodRight_aux h q, prodLeft_aux q h⟩

/-- C33: `fixQuat` of a quaternion that is not negligible is a unit quaternion with a
scalar part that is not negative, and stands for the same rotation up to the scale of the input. -/
theorem fixQuat_spec (q : Quat ℝ) (h : tenEps < √(norm2 q)) :
    UnitQ (fixQuat q) ∧ 0 ≤ (fixQuat q).w ∧ norm2 q • rotMat (fixQuat q) = rotMat q := by
  have h0 : 0 < √(norm2 q) := lt_of_le_of_lt (by unfold tenEps; positivity) h
  have hn : 0 < norm2 q := Real.sqrt_pos.1 h0
  have hs : √(norm2 q) ^ 2 = norm2 q := Real.sq_sqrt hn.le
  have hu : UnitQ (unitVector q) := by
    unfold unitVector UnitQ
    simp only [if_neg (not_le.2 h)]
    rw [norm2_smul, inv_pow, hs, inv_mul_cancel₀ hn.ne']
  have hr : norm2 q • rotMat (unitVector q) = rotMat q := by
    unfold unitVector
    simp only [if_neg (not_le.2 h)]
    rw [rotMat_smul, smul_smul, inv_pow, hs, mul_inv_cancel₀ hn.ne', one_smul]
  unfold fixQuat
  simp only
  split
  · next hw => exact ⟨by unfold UnitQ; rw [norm2_neg]; exact hu, by simp only [qneg]; linarith, by rw [rotMat_neg]; exact hr⟩
  · next hw => exact ⟨hu, not_lt.1 hw, hr⟩

/-- C33: `invertQuat` gives the inverse rotation, as a unit quaternion with a scalar part that
is not negative. -/
theorem invertQuat_spec (q : Quat ℝ) (h : UnitQ q) :
    UnitQ (invertQuat q) ∧ 0 ≤ (invertQuat q).w ∧ rotMat (invertQuat q) = (rotMat q)ᵀ ∧
      SameUpToSign (qmul q (invertQuat q)) qone ∧ SameUpToSign (qmul (invertQuat q) q) qone := by
  have hc := invertQuat_same h
  have e : norm2 q = 1 := h
  refine ⟨?_, ?_, ?_, ?_, ?_⟩
  · unfold UnitQ; rw [sameUpToSign_norm hc, norm2_conj]; exact h
  · refine (fixQuat_unit ?_).2.1
    unfold UnitQ norm2 at h ⊢; simp only [neg_sq]; exact h
  · rw [rotMat_same hc, rotMat_conj]
  · have := (sameUpToSign_mul hc q).2
    rw [mul_conj, e] at this; exact this
  · have := (sameUpToSign_mul hc q).1
    rw [conj_mul, e] at this; exact this

/-- C33 (not fully provable): `quatProduct(q1, q2)` is the unit quaternion, with positive scalar part,
of the rotation `R(q2) R(q1)`, provided that this rotation is not by half a turn. Without the
condition the claim is false: see `product_half_turn`. -/
theorem quatProduct_spec_partial (q1 q2 : Quat ℝ) (h1 : UnitQ q1) (h2 : UnitQ q2) (h : (qmul q2 q1).w ≠ 0) :
    ∃ r, quatProduct q1 q2 = some r ∧ UnitQ r ∧ 0 < r.w ∧ rotMat r = rotMat q2 * rotMat q1 := by
  have f : ∀ q : Quat ℝ, UnitQ q → fromQuat q = some q := by
    intro q hq
    have e : norm2 q = 1 := hq
    unfold fromQuat; rw [e]; simp [qsmul]
  have hu : norm2 (qmul q2 q1) = 1 := by rw [norm2_mul, h1, h2, one_mul]
  refine ⟨ofRotation (qmul q2 q1), by simp [quatProduct, f q1 h1, f q2 h2], ?_⟩
  have hs : ofRotation (qmul q2 q1) = if (qmul q2 q1).w < 0 then qneg (qmul q2 q1) else qmul q2 q1 := by
    unfold ofRotation npSign
    split
    · ext <;> simp [qsmul, qneg]
    · ext <;> simp [qsmul]
  rw [hs]
  split
  · next hw => exact ⟨by unfold UnitQ; rw [norm2_neg]; exact hu, by simp only [qneg]; linarith, by rw [rotMat_neg, rotMat_mul]⟩
  · next hw => exact ⟨hu, lt_of_le_of_ne (not_lt.1 hw) (Ne.symm h), by rw [rotMat_mul]⟩

/-- C33: whenever the product of two rotations is half a turn, `quatProduct` returns the zero
quaternion, which is no rotation. -/
theorem product_half_turn (q1 q2 : Quat ℝ) (h1 : UnitQ q1) (h2 : UnitQ q2) (h : (qmul q2 q1).w = 0) :
    quatProduct q1 q2 = some ⟨0, 0, 0, 0⟩ := by
  have f : ∀ q : Quat ℝ, UnitQ q → fromQuat q = some q := by
    intro q hq
    have e : norm2 q = 1 := hq
    unfold fromQuat; rw [e]; simp [qsmul]
  simp [quatProduct, f q1 h1, f q2 h2, ofRotation, npSign, h, qsmul]

/-- Non-vacuity of `product_half_turn`: the identity times half a turn about x. -/
example : UnitQ qone ∧ UnitQ ⟨0, 1, 0, 0⟩ ∧ (qmul (⟨0, 1, 0, 0⟩ : Quat ℝ) qone).w = 0 := by
  simp [UnitQ, norm2, qone, qmul]

/-- Non-vacuity of `quatProduct_spec_partial`, `rotMat_rotation` and `rotMat_eq_iff`. -/
example : UnitQ (⟨3 / 5, 0, 4 / 5, 0⟩ : Quat ℝ) ∧
    (qmul (⟨3 / 5, 0, 4 / 5, 0⟩ : Quat ℝ) ⟨3 / 5, 0, 4 / 5, 0⟩).w ≠ 0 := by
  norm_num [UnitQ, norm2, qmul]

/-! ## C34 -/

/-- C34: the result is a unit quaternion equivalent to the input, and its scalar part is the largest
in absolute value among all equivalent quaternions. -/
theorem fundamental_spec (G : List (Quat ℝ)) (hG : IsRotGroup G) (q : Quat ℝ) (hq : UnitQ q) :
    ∃ r, toFundamentalRegion G q = some r ∧ UnitQ r ∧ Equivalent G r q ∧
      ∀ p, Equivalent G p q → |p.w| ≤ r.w := by
  obtain ⟨r, hr, g, hg, hs, hw, hmax⟩ := fundamental_aux G (by obtain ⟨e, he, -⟩ := hG.one; exact List.ne_nil_of_mem he) hG.unit q hq
  refine ⟨r, hr, ?_, ⟨g, hg, hs⟩, ?_⟩
  · unfold UnitQ; rw [sameUpToSign_norm hs, norm2_mul, hq, hG.unit g hg, one_mul]
  · rintro p ⟨k, hk, hp⟩
    rw [sameUpToSign_abs hp]; exact hmax k hk

/-- C34: two equivalent orientations are reduced to equivalent orientations with the same angle. -/
theorem fundamental_class (G : List (Quat ℝ)) (hG : IsRotGroup G) (p q : Quat ℝ) (hq : UnitQ q)
    (h : Equivalent G p q) : ∃ r s, toFundamentalRegion G p = some r ∧ toFundamentalRegion G q = some s ∧
      r.w = s.w ∧ Equivalent G r s := by
  have hp : UnitQ p := equivalent_unit hG hq h
  obtain ⟨r, hr, ur, er, mr⟩ := fundamental_spec G hG p hp
  obtain ⟨s, hs, us, es, ms⟩ := fundamental_spec G hG q hq
  refine ⟨r, s, hr, hs, le_antisymm ?_ ?_, ?_⟩
  · exact le_trans (le_abs_self _) (ms r (equivalent_trans hG er h))
  · exact le_trans (le_abs_self _) (mr s (equivalent_trans hG es (equivalent_symm hG h)))
  · exact equivalent_trans hG (equivalent_trans hG er h) (equivalent_symm hG es)

/-- C34: reducing a reduced orientation does not change the angle. -/
theorem fundamental_idempotent (G : List (Quat ℝ)) (hG : IsRotGroup G) (q r : Quat ℝ) (hq : UnitQ q)
    (h : toFundamentalRegion G q = some r) : ∃ s, toFundamentalRegion G r = some s ∧ s.w = r.w := by
  obtain ⟨r', hr', ur, er, mr⟩ := fundamental_spec G hG q hq
  rw [h] at hr'; cases hr'
  obtain ⟨a, b, ha, hb, hab, -⟩ := fundamental_class G hG r q hq er
  rw [h] at hb; cases hb
  exact ⟨a, ha, hab⟩

/-- The group of half turns about the axes. -/
def halfTurns : List (Quat ℝ) := [⟨1, 0, 0, 0⟩, ⟨0, 1, 0, 0⟩, ⟨0, 0, 1, 0⟩, ⟨0, 0, 0, 1⟩]

/-- Non-vacuity: a group to which the theorems apply. -/
theorem halfTurns_group : IsRotGroup halfTurns := by
  refine ⟨?_, ⟨qone, by simp [halfTurns, qone], Or.inl rfl⟩, ?_, ?_⟩
  · simp [halfTurns, UnitQ, norm2]
  · simp [halfTurns, SameUpToSign, qmul, qneg]
  · simp [halfTurns, SameUpToSign, conj, qneg]

/-! ## C51 and C60 -/

/-- C51: the distance of two unit quaternions is a number, namely the smallest rotation angle between the
first and an equivalent of the second. -/
theorem distance_spec (G : List (Quat ℝ)) (hG : IsRotGroup G) (p q : Quat ℝ) (hp : UnitQ p) (hq : UnitQ q) :
    ∃ d, quatDistance p q G = some d ∧ 0 ≤ d ∧ d ≤ Real.pi ∧
      (∃ g ∈ G, d = 2 * Real.arccos (cosHalf p (qmul q g))) ∧
      ∀ g ∈ G, d ≤ 2 * Real.arccos (cosHalf p (qmul q g)) := by
  obtain ⟨m, hm, hd⟩ := distance_best hG hp hq
  obtain ⟨⟨g, hg, rfl⟩, hmax⟩ := hm
  refine ⟨_, hd, ?_, ?_, ⟨g, hg, rfl⟩, fun k hk => ?_⟩
  · have := Real.arccos_nonneg (cosHalf p (qmul q g)); linarith
  · have := Real.arccos_le_pi_div_two.2 (abs_nonneg (qmul (conj p) (qmul q g)).w); unfold cosHalf; linarith
  · have := Real.arccos_le_arccos (hmax k hk); linarith

/-- C51: the distance is symmetric. -/
theorem distance_symm (G : List (Quat ℝ)) (hG : IsRotGroup G) (p q : Quat ℝ) (hp : UnitQ p) (hq : UnitQ q) :
    quatDistance p q G = quatDistance q p G := by
  obtain ⟨m, hm, hd⟩ := distance_best hG hp hq
  obtain ⟨n, hn, hd'⟩ := distance_best hG hq hp
  rw [hd, hd', best_unique hn (best_symm hG hm)]

/-- C51: the distance does not change when an orientation is replaced by an equivalent one. -/
theorem distance_equivalent (G : List (Quat ℝ)) (hG : IsRotGroup G) (p p' q q' : Quat ℝ) (hp : UnitQ p)
    (hq : UnitQ q) (h1 : Equivalent G p' p) (h2 : Equivalent G q' q) :
    quatDistance p' q' G = quatDistance p q G := by
  have hp' := equivalent_unit hG hp h1
  have hq' := equivalent_unit hG hq h2
  obtain ⟨m, hm, hd⟩ := distance_best hG hp hq
  obtain ⟨n, hn, hd'⟩ := distance_best hG hp' hq'
  have a := best_equiv hG h2 hm
  have b := best_symm hG (best_equiv hG h1 (best_symm hG a))
  rw [hd, hd', best_unique hn b]

/-- C51: the distance is zero exactly for equivalent orientations. -/
theorem distance_zero (G : List (Quat ℝ)) (hG : IsRotGroup G) (p q : Quat ℝ) (hp : UnitQ p) (hq : UnitQ q) :
    quatDistance p q G = some 0 ↔ Equivalent G p q := by
  obtain ⟨m, ⟨⟨g, hg, rfl⟩, hmax⟩, hd⟩ := distance_best hG hp hq
  have hu : ∀ g ∈ G, UnitQ (qmul q g) := fun g hg => by unfold UnitQ; rw [norm2_mul, hq, hG.unit g hg, one_mul]
  rw [hd, Option.some_inj]
  constructor
  · intro h
    have h1 : 1 ≤ cosHalf p (qmul q g) := Real.arccos_eq_zero.1 (by linarith)
    exact ⟨g, hg, same_of_cosHalf hp (hu g hg) (le_antisymm (cosHalf_le_one hp (hu g hg)) h1)⟩
  · rintro ⟨k, hk, h⟩
    have e : cosHalf p (qmul q k) = 1 := cosHalf_same hp h
    have := hmax k hk
    rw [Real.arccos_eq_zero.2 (by linarith)]; simp

/-- C51: the distance satisfies the triangle inequality. -/
theorem distance_triangle (G : List (Quat ℝ)) (hG : IsRotGroup G) (p q r : Quat ℝ) (hp : UnitQ p) (hq : UnitQ q)
    (hr : UnitQ r) : ∃ a b c, quatDistance p r G = some a ∧ quatDistance p q G = some b ∧ quatDistance q r G = some c ∧
      a ≤ b + c := by
  obtain ⟨a, ⟨⟨g, hg, rfl⟩, ha⟩, da⟩ := distance_best hG hp hr
  obtain ⟨b, ⟨⟨h, hh, rfl⟩, hb⟩, db⟩ := distance_best hG hp hq
  obtain ⟨c, ⟨⟨k, hk, rfl⟩, hc⟩, dc⟩ := distance_best hG hq hr
  refine ⟨_, _, _, da, db, dc, ?_⟩
  obtain ⟨l, hl, hs⟩ := hG.mul k hk h hh
  have uh : UnitQ h := hG.unit h hh
  have uk : UnitQ k := hG.unit k hk
  have e : cosHalf p (qmul r l) = cosHalf p (qmul (qmul r k) h) := by
    rw [mul_assoc']; exact cosHalf_congr (sameUpToSign_mul hs r).2
  have e2 : cosHalf q (qmul r k) = cosHalf (qmul q h) (qmul (qmul r k) h) := (cosHalf_mul_right uh).symm
  have t := arccos_triangle (p := p) (q := qmul q h) (r := qmul (qmul r k) h) hp
    (by unfold UnitQ; rw [norm2_mul, hq, uh, one_mul])
    (by unfold UnitQ; rw [norm2_mul, norm2_mul, hr, uk, uh]; norm_num)
  have m := Real.arccos_le_arccos (ha l hl)
  rw [e] at m; rw [e2]; linarith

/-- C60: the angle returned by `misorientation` with crystal symmetries agrees with `quat_distance`. -/
theorem misorientation_eq_distance (G : List (Quat ℝ)) (hG : IsRotGroup G) (p q : Quat ℝ) (hp : UnitQ p)
    (hq : UnitQ q) : misorientationAngle p q G [qone] = quatDistance p q G := by
  obtain ⟨m, hm, hd⟩ := distance_best hG hp hq
  obtain ⟨n, hn, hd'⟩ := misorientation_best hG hp hq
  rw [hd, hd', best_unique hn hm]

/-- C60: the rotation angle left after `toFundamentalRegion` is the distance to the reference orientation. -/
theorem fundamental_angle (G : List (Quat ℝ)) (hG : IsRotGroup G) (q r : Quat ℝ) (hq : UnitQ q)
    (h : toFundamentalRegion G q = some r) : quatDistance qone q G = some (2 * Real.arccos r.w) := by
  have h1 : UnitQ qone := by simp [UnitQ, norm2, qone]
  obtain ⟨m, ⟨⟨g, hg, rfl⟩, hmax⟩, hd⟩ := distance_best hG h1 hq
  obtain ⟨r', hr', ur, er, mr⟩ := fundamental_spec G hG q hq
  rw [h] at hr'; cases hr'
  have e1 : ∀ p : Quat ℝ, cosHalf qone p = |p.w| := by intro p; simp [cosHalf, conj, qone, qmul]
  rw [hd]
  obtain ⟨k, hk, hs⟩ := er
  have e2 : r.w = cosHalf qone (qmul q k) := by
    rw [e1, ← sameUpToSign_abs hs, abs_of_nonneg]
    exact le_trans (abs_nonneg _) (mr r ⟨k, hk, hs⟩)
  have : r.w = cosHalf qone (qmul q g) := by
    apply le_antisymm
    · rw [e2]; exact hmax k hk
    · rw [e1]; exact mr _ ⟨g, hg, Or.inl rfl⟩
  rw [this]

end Hexrd.Rotations
