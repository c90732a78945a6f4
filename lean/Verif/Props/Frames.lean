import Verif.Lemmas.Transforms

/-!
C50: the frame matrices are proper rotations, the beam frame is the one the documentation describes, and
rotating about an axis preserves lengths and the component along the axis.
-/

namespace Hexrd.Transforms

open Matrix Spec

theorem vec_two (a b c : ℝ) : (![a, b, c] : V) 2 = c := rfl

/-- C50: the sample rotation is a proper rotation for all tilts and oscillation angles … -/
theorem sampleRmat_isRotation (chi ome : ℝ) : IsRotation (sampleRmat chi ome) := by
  have hc := Real.sin_sq_add_cos_sq chi
  have ho := Real.sin_sq_add_cos_sq ome
  generalize hs1 : Real.sin chi = s at *
  generalize hc1 : Real.cos chi = c at *
  generalize hs2 : Real.sin ome = p at *
  generalize hc2 : Real.cos ome = q at *
  apply isRotation_of_entries <;> simp [sampleRmat, hs1, hc1, hs2, hc2] <;> grind

/-- … namely the oscillation about the second axis followed by the tilt about the first. -/
theorem sampleRmat_eq (chi ome : ℝ) : sampleRmat chi ome = rotX chi * rotY ome := by
  ext i j
  fin_cases i <;> fin_cases j <;> simp [sampleRmat, rotX, rotY, Matrix.mul_apply, Fin.sum_univ_three]

/-- With an array of omegas there is one rotation per omega, in order. -/
theorem sampleRmats_spec (chi : ℝ) (omes : List ℝ) :
    (sampleRmats chi omes).length = omes.length ∧
      ∀ k (h : k < omes.length), (sampleRmats chi omes)[k]? = some (rotX chi * rotY omes[k]) := by
  refine ⟨by simp [sampleRmats], fun k h => ?_⟩
  simp [sampleRmats, List.getElem?_eq_getElem h, sampleRmat_eq]

/-- C50: the detector rotation is a proper rotation for all tilts … -/
theorem detectorRmat_isRotation (t : V) : IsRotation (detectorRmat t) := by
  have h0 := Real.sin_sq_add_cos_sq (t 0)
  have h1 := Real.sin_sq_add_cos_sq (t 1)
  have h2 := Real.sin_sq_add_cos_sq (t 2)
  generalize hs0 : Real.sin (t 0) = s0 at *
  generalize hc0 : Real.cos (t 0) = c0 at *
  generalize hs1 : Real.sin (t 1) = s1 at *
  generalize hc1 : Real.cos (t 1) = c1 at *
  generalize hs2 : Real.sin (t 2) = s2 at *
  generalize hc2 : Real.cos (t 2) = c2 at *
  apply isRotation_of_entries <;> simp [detectorRmat, hs0, hc0, hs1, hc1, hs2, hc2] <;> grind

/-- … namely the three tilts about the fixed axes X, then Y, then Z. -/
theorem detectorRmat_eq (t : V) : detectorRmat t = rotZ (t 2) * rotY (t 1) * rotX (t 0) := by
  ext i j
  fin_cases i <;> fin_cases j <;>
    simp [detectorRmat, rotX, rotY, rotZ, Matrix.mul_apply, Fin.sum_univ_three] <;> ring

theorem isBeamFrame_ofCols {b e bh yh : V} (hb : IsDirection bh b) (hy : IsDirection yh (cross e b)) :
    IsBeamFrame b e (ofCols (cross bh yh) yh (fun i => -bh i)) := by
  obtain ⟨hbu, c, hc, eb⟩ := hb
  obtain ⟨hyu, d, hd, ey⟩ := hy
  rw [IsUnit3, ← dot_eq] at hbu hyu
  have e0 := congrFun ey 0
  have e1 := congrFun ey 1
  have e2 := congrFun ey 2
  have b0 := congrFun eb 0
  have b1 := congrFun eb 1
  have b2 := congrFun eb 2
  simp [cross] at e0 e1 e2 b0 b1 b2
  have e0' := e0
  have e1' := e1
  have e2' := e2
  rw [b1, b2] at e0'
  rw [b0, b2] at e1'
  rw [b0, b1] at e2'
  have hby : dot bh yh = 0 := by
    have : d * dot bh yh = 0 := by
      simp only [dot]
      linear_combination bh 0 * (-e0') + bh 1 * (-e1') + bh 2 * (-e2')
    rcases mul_eq_zero.1 this with h | h
    · exact absurd h hd.ne'
    · exact h
  have hey : dot e yh = 0 := by
    have : d * dot e yh = 0 := by
      simp only [dot]
      linear_combination e 0 * (-e0) + e 1 * (-e1) + e 2 * (-e2)
    rcases mul_eq_zero.1 this with h | h
    · exact absurd h hd.ne'
    · exact h
  refine ⟨ofCols_isRotation hbu hyu hby, ⟨?_, c, hc, ?_⟩, ?_, ?_⟩
  · rw [IsUnit3, ← dot_eq]
    simp only [dot] at hbu
    simp [ofCols, dot]; linarith
  · ext i
    fin_cases i <;> simp [ofCols] <;> assumption
  · rw [← dot_eq]
    simp only [dot] at hey ⊢
    simp [ofCols]; linarith
  · rw [← dot_eq]
    have : c * dot e (cross bh yh) = d := by
      simp only [dot] at hyu
      simp only [dot, cross]
      simp
      linear_combination e0' * yh 0 + e1' * yh 1 + e2' * yh 2 + d * hyu
    have hpos : 0 < dot e (cross bh yh) := by
      by_contra hn
      push Not at hn
      have := mul_nonneg hc.le (neg_nonneg.2 hn)
      linarith
    simp only [dot] at hpos ⊢
    simpa [ofCols] using hpos

/-- C50: the beam frame is a proper rotation whose third axis is opposite to the beam, whose second axis is
perpendicular to the azimuth reference and whose first axis is on its side. -/
theorem beamRmat_isBeamFrame {b e : V} {r : M} (h : beamRmat b e = some r) : IsBeamFrame b e r := by
  unfold beamRmat at h
  simp only at h
  by_cases hb : (unitRow b).2 = true
  · by_cases hy : (unitRow (cross e b)).2 = true
    · simp [hb, hy] at h
      rw [← h]
      exact isBeamFrame_ofCols (unitRow_isDirection hb) (unitRow_isDirection hy)
    · simp [hb, hy] at h
  · simp [hb] at h

theorem unitRow_snd (v : V) : (unitRow v).2 = true ↔ √(dot v v) > epsf := by
  unfold unitRow; split <;> simp_all

/-- The request is refused exactly when the beam, or its cross product with the azimuth reference, has length at
most the machine epsilon. -/
theorem beamRmat_refused_iff (b e : V) :
    beamRmat b e = none ↔ √(b ⬝ᵥ b) ≤ epsf ∨ √((e ⨯₃ b) ⬝ᵥ (e ⨯₃ b)) ≤ epsf := by
  have hc : e ⨯₃ b = cross e b := by rw [cross_apply]; rfl
  rw [hc, ← dot_eq, ← dot_eq]
  unfold beamRmat
  simp only
  by_cases hb : (unitRow b).2 = true
  · have hb' := (unitRow_snd b).1 hb
    by_cases hy : (unitRow (cross e b)).2 = true
    · have hy' := (unitRow_snd _).1 hy
      simp [hb, hy]
      exact ⟨hb', hy'⟩
    · have hy' := mt (unitRow_snd _).2 hy
      simp [hb, hy]
      exact Or.inr (not_lt.1 hy')
  · have hb' := mt (unitRow_snd b).2 hb
    simp [hb]
    exact Or.inl (not_lt.1 hb')

/-- The C++ code builds the same kind of frame, and refuses nothing: it only needs beam and reference not to be
collinear. -/
theorem eigenBeamFrame_isBeamFrame {b e : V} (h : e ⨯₃ b ≠ 0) : IsBeamFrame b e (eigenBeamFrame b e) := by
  have hc : e ⨯₃ b = cross e b := by rw [cross_apply]; rfl
  rw [hc] at h
  have hy : 0 < dot (cross e b) (cross e b) :=
    lt_of_le_of_ne (dot_self_nonneg _) fun h0 => h (dot_self_eq_zero h0.symm)
  have hb : 0 < dot b b := by
    refine lt_of_le_of_ne (dot_self_nonneg _) fun h0 => h ?_
    rw [dot_self_eq_zero h0.symm]
    ext i; fin_cases i <;> simp [cross]
  exact isBeamFrame_ofCols (eigenUnit_isDirection hb) (eigenUnit_isDirection hy)

/-- A beam frame is determined by the beam and the azimuth reference. -/
theorem isBeamFrame_unique {b e : V} {r r' : M} (h : IsBeamFrame b e r) (h' : IsBeamFrame b e r') : r = r' := by
  obtain ⟨⟨ho, hdet⟩, hb, hy, hx⟩ := h
  obtain ⟨⟨ho', hdet'⟩, hb', hy', hx'⟩ := h'
  have hz := isDirection_unique hb hb'
  have z0 : r 0 2 = r' 0 2 := by have := congrFun hz 0; simpa using this
  have z1 : r 1 2 = r' 1 2 := by have := congrFun hz 1; simpa using this
  have z2 : r 2 2 = r' 2 2 := by have := congrFun hz 2; simpa using this
  obtain ⟨a00, a11, a22, a01, a02, a12⟩ := rot_entries ho
  obtain ⟨b00, b11, b22, b01, b02, b12⟩ := rot_entries ho'
  rw [← dot_eq] at hy hx hy' hx'
  simp only [dot] at hy hx hy' hx'
  rw [Matrix.det_fin_three] at hdet hdet'
  -- y' is a combination of x and y, perpendicular to e, hence along y
  have c1 := rot_entries' ho
  obtain ⟨c00, c11, c22, c01, c02, c12⟩ := c1
  -- coordinates of y' in the frame r
  set p := r 0 0 * r' 0 1 + r 1 0 * r' 1 1 + r 2 0 * r' 2 1 with hp
  set q := r 0 1 * r' 0 1 + r 1 1 * r' 1 1 + r 2 1 * r' 2 1 with hq
  have hzy : r 0 2 * r' 0 1 + r 1 2 * r' 1 1 + r 2 2 * r' 2 1 = 0 := by rw [z0, z1, z2]; linarith
  have y0 : r' 0 1 = p * r 0 0 + q * r 0 1 := by
    rw [hp, hq]; linear_combination (-r' 0 1) * c00 + (-r' 1 1) * c01 + (-r' 2 1) * c02 + r 0 2 * hzy
  have y1 : r' 1 1 = p * r 1 0 + q * r 1 1 := by
    rw [hp, hq]; linear_combination (-r' 0 1) * c01 + (-r' 1 1) * c11 + (-r' 2 1) * c12 + r 1 2 * hzy
  have y2 : r' 2 1 = p * r 2 0 + q * r 2 1 := by
    rw [hp, hq]; linear_combination (-r' 0 1) * c02 + (-r' 1 1) * c12 + (-r' 2 1) * c22 + r 2 2 * hzy
  have hp0 : p = 0 := by
    have : p * (e 0 * r 0 0 + e 1 * r 1 0 + e 2 * r 2 0) = 0 := by
      rw [y0, y1, y2] at hy'
      linear_combination hy' - q * hy
    rcases mul_eq_zero.1 this with h | h
    · exact h
    · exact absurd h hx.ne'
  rw [hp0] at y0 y1 y2
  have hq2 : q ^ 2 = 1 := by
    rw [y0, y1, y2] at b11
    linear_combination b11 - q ^ 2 * a11
  -- x = y × z in both frames
  have det' : r' 0 0 = r' 1 1 * r' 2 2 - r' 2 1 * r' 1 2 ∧ r' 1 0 = r' 2 1 * r' 0 2 - r' 0 1 * r' 2 2 ∧
      r' 2 0 = r' 0 1 * r' 1 2 - r' 1 1 * r' 0 2 := by
    clear y0 y1 y2 hzy hp hq hp0 hq2 p q z0 z1 z2 hz hb hb' hx hy hx' hy' c00 c11 c22 c01 c02 c12 a00 a11 a22 a01 a02 a12
    refine ⟨?_, ?_, ?_⟩ <;> grind
  have det0 : r 0 0 = r 1 1 * r 2 2 - r 2 1 * r 1 2 ∧ r 1 0 = r 2 1 * r 0 2 - r 0 1 * r 2 2 ∧
      r 2 0 = r 0 1 * r 1 2 - r 1 1 * r 0 2 := by
    clear y0 y1 y2 hzy hp hq hp0 hq2 p q z0 z1 z2 hz hb hb' hx hy hx' hy' b00 b11 b22 b01 b02 b12 c00 c11 c22 c01 c02 c12
    refine ⟨?_, ?_, ?_⟩ <;> grind
  have x0 : r' 0 0 = q * r 0 0 := by rw [det'.1, y1, y2, ← z1, ← z2, det0.1]; ring
  have x1 : r' 1 0 = q * r 1 0 := by rw [det'.2.1, y0, y2, ← z0, ← z2, det0.2.1]; ring
  have x2 : r' 2 0 = q * r 2 0 := by rw [det'.2.2, y0, y1, ← z0, ← z1, det0.2.2]; ring
  have hq1 : q = 1 := by
    have hqp : 0 < q := by
      rw [x0, x1, x2] at hx'
      have e1 : e 0 * (q * r 0 0) + e 1 * (q * r 1 0) + e 2 * (q * r 2 0)
          = q * (e 0 * r 0 0 + e 1 * r 1 0 + e 2 * r 2 0) := by ring
      rw [e1] at hx'
      exact (pos_iff_pos_of_mul_pos hx').2 hx
    have hm : (q - 1) * (q + 1) = 0 := by linear_combination hq2
    rcases mul_eq_zero.1 hm with h | h
    · exact sub_eq_zero.1 h
    · exact absurd hqp (not_lt.2 (by rw [eq_neg_of_add_eq_zero_left h]; norm_num))
  rw [hq1] at y0 y1 y2 x0 x1 x2
  ext i j
  fin_cases i <;> fin_cases j <;> simp <;> linarith

/-- Where the C code does not refuse, the C++ code builds the same matrix. -/
theorem eigenBeamFrame_eq_beamRmat {b e : V} {r : M} (h : beamRmat b e = some r) : eigenBeamFrame b e = r := by
  refine isBeamFrame_unique (eigenBeamFrame_isBeamFrame fun h0 => ?_) (beamRmat_isBeamFrame h)
  have := mt (beamRmat_refused_iff b e).2 (by simp [h])
  push Not at this
  rw [h0] at this
  simp at this
  linarith [epsf_pos, this.2]

/-- Any proper rotation is the beam frame of its own (reversed) third and first columns, so `xy_to_gvec`, which
receives only those two columns, recovers the frame it was given. -/
theorem beamRmat_of_columns {r : M} (h : IsRotation r) :
    beamRmat (fun i => -r i 2) (fun i => r i 0) = some r := by
  obtain ⟨a00, a11, a22, a01, a02, a12⟩ := rot_entries h.1
  have hdet := h.2
  rw [Matrix.det_fin_three] at hdet
  have hz : dot (fun i => -r i 2) (fun i => -r i 2) = 1 := by simp only [dot]; linarith
  have hyx : cross (fun i => r i 0) (fun i => -r i 2) = fun i => r i 1 := by
    ext i; fin_cases i <;> simp [cross] <;> grind
  have hy : dot (fun i => r i 1) (fun i => r i 1) = 1 := by simp only [dot]; linarith
  have eps1 : (1 : ℝ) > epsf := by unfold epsf; norm_num
  have u1 : unitRow (fun i => -r i 2) = (fun i => -r i 2, true) := by
    rw [unitRow_of_gt (by rw [hz, Real.sqrt_one]; exact eps1), hz, Real.sqrt_one]; simp
  have u2 : unitRow (fun i => r i 1) = (fun i => r i 1, true) := by
    rw [unitRow_of_gt (by rw [hy, Real.sqrt_one]; exact eps1), hy, Real.sqrt_one]; simp
  unfold beamRmat
  simp only [hyx, u1, u2, Bool.not_true, Bool.false_eq_true, if_false]
  congr 1
  ext i j
  fin_cases i <;> fin_cases j <;> simp [ofCols, cross] <;> grind

theorem isRotation_one : IsRotation (1 : M) := by
  simp [IsRotation]

/-- The default beam `-z` and azimuth reference `x` give the identity frame. -/
theorem beamRmat_default : beamRmat ![0, 0, -1] ![1, 0, 0] = some 1 := by
  have := beamRmat_of_columns isRotation_one
  have h1 : (![0, 0, -1] : V) = fun i => -(1 : M) i 2 := by
    ext i; fin_cases i <;> simp [Matrix.one_apply]
  have h2 : (![1, 0, 0] : V) = fun i => (1 : M) i 0 := by
    ext i; fin_cases i <;> simp [Matrix.one_apply]
  rw [h1, h2]; exact this

/-! ### Exponential map, half turns, rotation about an axis -/

theorem eigenUnit_norm {e : V} (h : e ≠ 0) : dot (eigenUnit e) (eigenUnit e) = 1 := by
  have hp : 0 < dot e e := lt_of_le_of_ne (dot_self_nonneg _) fun h0 => h (dot_self_eq_zero h0.symm)
  rw [eigenUnit_of_pos hp, unit_of_sqrt hp]

theorem expmap_zero : expmapRmat 0 = 1 := by
  have : dot (0 : V) 0 = 0 := by simp [dot]
  ext i j
  fin_cases i <;> fin_cases j <;> simp [expmapRmat, this, eigenUnit]

theorem rodrigues_isRotation {n : V} {c s : ℝ} (hn : dot n n = 1) (hc : s ^ 2 + c ^ 2 = 1) :
    IsRotation !![(1 - c) * n 0 * n 0 + c, (1 - c) * n 0 * n 1 - s * n 2, (1 - c) * n 0 * n 2 + s * n 1;
     (1 - c) * n 0 * n 1 + s * n 2, (1 - c) * n 1 * n 1 + c, (1 - c) * n 1 * n 2 - s * n 0;
     (1 - c) * n 0 * n 2 - s * n 1, (1 - c) * n 1 * n 2 + s * n 0, (1 - c) * n 2 * n 2 + c] := by
  simp only [dot] at hn
  generalize n 0 = x at *
  generalize n 1 = y at *
  generalize n 2 = z at *
  apply isRotation_of_entries <;> simp <;> grind

/-- C50: the matrix of an exponential map is a proper rotation. -/
theorem expmapRmat_isRotation (e : V) : IsRotation (expmapRmat e) := by
  by_cases h : e = 0
  · rw [h, expmap_zero]; exact isRotation_one
  have hn := eigenUnit_norm h
  exact rodrigues_isRotation hn (Real.sin_sq_add_cos_sq (√(dot e e)))

/-- Its axis is fixed … -/
theorem expmapRmat_axis (e : V) : expmapRmat e *ᵥ e = e := by
  by_cases h : e = 0
  · rw [h]; simp
  have hp : 0 < dot e e := lt_of_le_of_ne (dot_self_nonneg _) fun h0 => h (dot_self_eq_zero h0.symm)
  obtain ⟨hu, c, -, he⟩ := eigenUnit_isDirection hp
  rw [IsUnit3, ← dot_eq] at hu
  have e0 := congrFun he 0
  have e1 := congrFun he 1
  have e2 := congrFun he 2
  simp only [dot] at hu
  simp only [Pi.smul_apply, smul_eq_mul] at e0 e1 e2
  rw [← mulV_eq]
  have key : ∀ n : V, n = eigenUnit e → mulV (expmapRmat e) e = e := by
    intro n hn
    rw [← hn] at e0 e1 e2 hu
    ext i
    fin_cases i <;> simp [mulV, expmapRmat, ← hn] <;> rw [e0, e1, e2] <;>
      generalize Real.cos _ = cc <;> generalize Real.sin _ = ss <;> grind
  exact key _ rfl

/-- … and it turns about that axis by the length of the vector, counter-clockwise seen from its tip: this is the
rotation computed by `rotate_vecs_about_axis`. -/
theorem expmapRmat_eq_rotateVec {e : V} (h : e ≠ 0) (v : V) :
    rotateVec (√(e ⬝ᵥ e)) e v = some (expmapRmat e *ᵥ v) := by
  have hp : 0 < dot e e := lt_of_le_of_ne (dot_self_nonneg _) fun h0 => h (dot_self_eq_zero h0.symm)
  have hs : √(dot e e) ≠ 0 := (Real.sqrt_pos.2 hp).ne'
  rw [← dot_eq, ← mulV_eq]
  simp only [rotateVec, if_neg hs]
  congr 1
  have he := eigenUnit_of_pos hp
  have hss := Real.mul_self_sqrt hp.le
  ext i
  fin_cases i <;> simp [mulV, expmapRmat, he, cross] <;> field_simp <;> simp only [dot] <;> ring

/-- In particular about the first axis it is the elementary rotation. -/
theorem expmapRmat_x (a : ℝ) : expmapRmat ![a, 0, 0] = rotX a := by
  have hd : dot ![a, 0, 0] ![a, 0, 0] = a ^ 2 := by simp [dot]; ring
  by_cases h : a = 0
  · subst h
    have : (![0, 0, 0] : V) = 0 := by ext i; fin_cases i <;> simp
    rw [this, expmap_zero]
    ext i j; fin_cases i <;> fin_cases j <;> simp [rotX]
  have hp : 0 < dot ![a, 0, 0] ![a, 0, 0] := by rw [hd]; positivity
  have hu : eigenUnit ![a, 0, 0] = ![a / |a|, 0, 0] := by
    rw [eigenUnit_of_pos hp, hd, Real.sqrt_sq_eq_abs]
    ext i; fin_cases i <;> simp
  have ha : |a| ≠ 0 := abs_ne_zero.2 h
  have hsq : a / |a| * (a / |a|) = 1 := by
    rw [div_mul_div_comm, abs_mul_abs_self]; exact div_self (mul_ne_zero h h)
  have hc : Real.cos |a| = Real.cos a := Real.cos_abs a
  have hsn : Real.sin |a| * (a / |a|) = Real.sin a := by
    rcases abs_cases a with ⟨h1, -⟩ | ⟨h1, -⟩
    · rw [h1, div_self h]; ring
    · rw [h1, Real.sin_neg, div_neg, div_self h]; ring
  ext i j
  fin_cases i <;> fin_cases j <;>
    simp [expmapRmat, hu, hd, Real.sqrt_sq_eq_abs, rotX, hc] <;>
    first
      | done
      | linear_combination hsn
      | linear_combination -hsn
      | linear_combination (1 - Real.cos a) * hsq

/-- C50: the half-turn matrix of an axis is a proper rotation exactly when the axis is a unit vector. -/
theorem binaryRmat_isRotation_iff (a : V) : IsRotation (binaryRmat a) ↔ IsUnit3 a := by
  rw [IsUnit3, ← dot_eq]
  constructor
  · rintro ⟨h, hd⟩
    obtain ⟨h00, h11, h22, h01, h02, h12⟩ := rot_entries h
    rw [Matrix.det_fin_three] at hd
    simp [binaryRmat] at h00 h11 h22 h01 h02 h12 hd
    simp only [dot]
    have e0 : a 0 * a 0 * (dot a a - 1) = 0 := by simp only [dot]; linear_combination h00 / 4
    have e1 : a 1 * a 1 * (dot a a - 1) = 0 := by simp only [dot]; linear_combination h11 / 4
    have e2 : a 2 * a 2 * (dot a a - 1) = 0 := by simp only [dot]; linear_combination h22 / 4
    by_contra hne
    have hne' : dot a a - 1 ≠ 0 := by
      intro h0; apply hne; simp only [dot] at h0; linarith
    have z0 := mul_self_eq_zero.1 ((mul_eq_zero.1 e0).resolve_right hne')
    have z1 := mul_self_eq_zero.1 ((mul_eq_zero.1 e1).resolve_right hne')
    have z2 := mul_self_eq_zero.1 ((mul_eq_zero.1 e2).resolve_right hne')
    rw [z0, z1, z2] at hd
    norm_num at hd
  · intro h
    simp only [dot] at h
    apply isRotation_of_entries <;> simp [binaryRmat] <;> grind

/-- It keeps the axis and reverses everything perpendicular to it. -/
theorem binaryRmat_spec {a : V} (h : IsUnit3 a) :
    binaryRmat a *ᵥ a = a ∧ ∀ v, a ⬝ᵥ v = 0 → binaryRmat a *ᵥ v = -v := by
  rw [IsUnit3, ← dot_eq] at h
  simp only [dot] at h
  refine ⟨?_, fun v hv => ?_⟩
  · rw [← mulV_eq]; ext i
    fin_cases i <;> simp [mulV, binaryRmat] <;> grind
  · rw [← dot_eq] at hv
    simp only [dot] at hv
    rw [← mulV_eq]; ext i
    fin_cases i <;> simp [mulV, binaryRmat] <;> grind

/-- A non-unit axis does not give a rotation. -/
theorem binaryRmat_nonunit : ¬ IsRotation (binaryRmat ![2, 0, 0]) := by
  rw [binaryRmat_isRotation_iff, IsUnit3, ← dot_eq]; norm_num [dot, vec_two]

/-- C50: rotating about any non-zero axis preserves the length and the component along the axis; in the plane
perpendicular to the axis it turns by the given angle. -/
theorem rotateVec_spec {axis : V} (h : axis ≠ 0) (angle : ℝ) (v : V) :
    ∃ w, rotateVec angle axis v = some w ∧ w ⬝ᵥ w = v ⬝ᵥ v ∧ axis ⬝ᵥ w = axis ⬝ᵥ v ∧
      (axis ⬝ᵥ v = 0 → v ⬝ᵥ w = Real.cos angle * (v ⬝ᵥ v) ∧
        axis ⬝ᵥ (v ⨯₃ w) = Real.sin angle * √(axis ⬝ᵥ axis) * (v ⬝ᵥ v)) := by
  have hp : 0 < dot axis axis :=
    lt_of_le_of_ne (dot_self_nonneg _) fun h0 => h (dot_self_eq_zero h0.symm)
  have hs0 : 0 < √(dot axis axis) := Real.sqrt_pos.2 hp
  have hs : √(dot axis axis) ≠ 0 := hs0.ne'
  have hss : √(dot axis axis) * √(dot axis axis) = dot axis axis := Real.mul_self_sqrt hp.le
  have hc := Real.sin_sq_add_cos_sq angle
  simp only [← dot_eq]
  refine ⟨_, by simp only [rotateVec, if_neg hs]; rfl, ?_, ?_, ?_⟩
  · generalize Real.cos angle = c at *
    generalize Real.sin angle = s at *
    generalize hr : √(dot axis axis) = r at *
    have e : ∀ j, c * v j + s / r * cross axis v j + (1 - c) * dot axis v * axis j / (r * r)
        = (c * r * r * v j + s * r * cross axis v j + (1 - c) * dot axis v * axis j) / (r * r) := by
      intro j; field_simp
    simp only [e]
    have e2 : ∀ w : V, dot (fun j => w j / (r * r)) (fun j => w j / (r * r)) = dot w w / (r * r) ^ 2 := by
      intro w; simp only [dot]; field_simp
    rw [e2 (fun j => c * r * r * v j + s * r * cross axis v j + (1 - c) * dot axis v * axis j)]
    rw [div_eq_iff (by positivity)]
    have l1 := dot_cross_self axis v
    have l2 := dot_cross_left axis v
    have l3 := dot_cross_right axis v
    have e3 : dot (fun j => c * r * r * v j + s * r * cross axis v j + (1 - c) * dot axis v * axis j)
        (fun j => c * r * r * v j + s * r * cross axis v j + (1 - c) * dot axis v * axis j)
        = (c * r * r) ^ 2 * dot v v + (s * r) ^ 2 * dot (cross axis v) (cross axis v)
          + ((1 - c) * dot axis v) ^ 2 * dot axis axis
          + 2 * (c * r * r) * (s * r) * dot v (cross axis v)
          + 2 * (c * r * r) * ((1 - c) * dot axis v) * dot axis v
          + 2 * (s * r) * ((1 - c) * dot axis v) * dot axis (cross axis v) := by
      simp only [dot]; ring
    rw [e3, l1, l2, l3, ← hss]
    have hc' : s ^ 2 = 1 - c ^ 2 := by linarith
    generalize dot v v = vv at *
    generalize dot axis v = av at *
    have : s ^ 2 = 1 - c ^ 2 := hc'
    calc _ = (c * r * r) ^ 2 * vv + s ^ 2 * r ^ 2 * (r * r * vv - av ^ 2)
          + ((1 - c) * av) ^ 2 * (r * r) + 2 * (c * r * r) * ((1 - c) * av) * av := by ring
      _ = _ := by rw [this]; ring
  · have e : dot axis (fun j => Real.cos angle * v j + Real.sin angle / √(dot axis axis) * cross axis v j +
        (1 - Real.cos angle) * dot axis v * axis j / (√(dot axis axis) * √(dot axis axis)))
        = Real.cos angle * dot axis v + Real.sin angle / √(dot axis axis) * dot axis (cross axis v) +
          (1 - Real.cos angle) * dot axis v * dot axis axis / (√(dot axis axis) * √(dot axis axis)) := by
      simp only [dot]; ring
    rw [e, dot_cross_left, hss]
    field_simp
    ring
  · intro hz
    rw [hz]
    have hcross : ∀ w : V, v ⨯₃ w = cross v w := by intro w; rw [cross_apply]; rfl
    rw [hcross]
    constructor
    · have e : dot v (fun j => Real.cos angle * v j + Real.sin angle / √(dot axis axis) * cross axis v j +
          (1 - Real.cos angle) * 0 * axis j / (√(dot axis axis) * √(dot axis axis)))
          = Real.cos angle * dot v v + Real.sin angle / √(dot axis axis) * dot v (cross axis v) := by
        simp only [dot]; ring
      rw [e, dot_cross_right]; ring
    · have e : dot axis (cross v (fun j => Real.cos angle * v j +
          Real.sin angle / √(dot axis axis) * cross axis v j +
          (1 - Real.cos angle) * 0 * axis j / (√(dot axis axis) * √(dot axis axis))))
          = Real.sin angle / √(dot axis axis) * (dot axis axis * dot v v - dot axis v ^ 2) := by
        simp [dot, cross]; ring
      rw [e, hz]
      field_simp
      linear_combination -(Real.sin angle * dot v v) * hss

/-- A concrete case: a quarter turn about a tilted, non-unit axis. -/
example : ∃ w, rotateVec (Real.pi / 2) ![0, 0, 2] ![3, 0, 1] = some w ∧ w ⬝ᵥ w = 10 ∧
    ![0, 0, 2] ⬝ᵥ w = 2 := by
  obtain ⟨w, h1, h2, h3, -⟩ := rotateVec_spec (axis := ![0, 0, 2])
    (fun h => by simpa using congrFun h 2) (Real.pi / 2) ![3, 0, 1]
  refine ⟨w, h1, ?_, ?_⟩
  · rw [h2, ← dot_eq]; norm_num [dot, vec_two]
  · rw [h3, ← dot_eq]; norm_num [dot, vec_two]

/-- A concrete case for the beam frame: a beam tilted towards `x`. -/
example : ∃ r, beamRmat ![3, 0, -4] ![1, 0, 0] = some r := by
  by_contra h
  rw [not_exists] at h
  have := (beamRmat_refused_iff ![3, 0, -4] ![1, 0, 0]).1 (Option.eq_none_iff_forall_ne_some.2 h)
  have h25 : √(25 : ℝ) = 5 := by rw [show (25 : ℝ) = 5 ^ 2 by norm_num]; exact Real.sqrt_sq (by norm_num)
  have h16 : √(16 : ℝ) = 4 := by rw [show (16 : ℝ) = 4 ^ 2 by norm_num]; exact Real.sqrt_sq (by norm_num)
  have hc : (![1, 0, 0] : V) ⨯₃ ![3, 0, -4] = cross ![1, 0, 0] ![3, 0, -4] := by rw [cross_apply]; rfl
  rw [hc, ← dot_eq, ← dot_eq] at this
  norm_num [dot, cross, h25, h16, epsf, vec_two] at this

end Hexrd.Transforms
