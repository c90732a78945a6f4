import Verif.Props.Geometry

/-!
C66: conversions between angles and detector coordinates on a planar detector.
-/

namespace Hexrd.Transforms

open Matrix Spec

theorem one_mulV (v : V) : mulV 1 v = v := by rw [mulV_eq, one_mulVec]

/-- When the two angles are between zero and half a turn, `angles_to_cart` reads them back from the matrix. -/
theorem anglesToCart_eq {chi ome : ℝ} (hc : 0 ≤ chi ∧ chi ≤ Real.pi) (ho : 0 ≤ ome ∧ ome ≤ Real.pi)
    (tth eta : ℝ) (rd : M) (td b e ts tc : V) :
    anglesToCart tth eta rd td b e (sampleRmat chi ome) ts 1 tc =
      gvecToXY (anglesToGvec tth eta ome b e chi 1) rd (sampleRmat chi ome) 1 td ts tc b := by
  have h1 : sampleRmat chi ome 1 1 = Real.cos chi := by simp [sampleRmat]
  have h2 : sampleRmat chi ome 0 0 = Real.cos ome := by simp [sampleRmat]
  unfold anglesToCart
  simp only [h1, h2, Real.arccos_cos hc.1 hc.2, Real.arccos_cos ho.1 ho.2]

/-- C66 (part): for sample rotations made from chi and omega between 0 and 180 degrees, and no crystal rotation, a
point returned by `angles_to_cart` is where the ray with the given two-theta and eta, leaving the crystal, meets the
detector. -/
theorem anglesToCart_hits_partial {b e : V} (hr : BeamResolved b) {rb : M} (hrb : beamRmat b e = some rb) {rd : M}
    (hd : IsRotation rd) {chi ome : ℝ} (hc : 0 ≤ chi ∧ chi ≤ Real.pi) (ho : 0 ≤ ome ∧ ome ≤ Real.pi)
    {tth eta : ℝ} {td ts tc : V} {xy : ℝ × ℝ}
    (h : anglesToCart tth eta rd td b e (sampleRmat chi ome) ts 1 tc = some xy) :
    Hits rd td (crystalPosition (sampleRmat chi ome) ts tc)
      (rb *ᵥ ![Real.sin tth * Real.cos eta, Real.sin tth * Real.sin eta, -Real.cos tth]) xy := by
  rw [anglesToCart_eq hc ho] at h
  have hE := beamRmat_isBeamFrame hrb
  have hb : IsDirection (fun i => -rb i 2) b := hE.2.1
  have hbe := cross_ne_zero_of_frame hrb
  have hits := gvecToXY_hits hr hb hd h
  rw [← dvec_is_reflection hbe hb isRotation_one] at hits
  simp only [← mulV_eq, anglesToDvec] at hits
  rw [lab_of_toCrystal isRotation_one, eigenBeamFrame_eq_beamRmat hrb, mulV_eq] at hits
  exact hits

/-- C66 (part): `cart_to_angles` undoes `angles_to_cart` for such sample rotations. -/
theorem cart_angles_round_trip_partial {b e : V} (hr : BeamResolved b) {rb : M} (hrb : beamRmat b e = some rb)
    {rd : M} (hd : IsRotation rd) {chi ome : ℝ} (hc : 0 ≤ chi ∧ chi ≤ Real.pi) (ho : 0 ≤ ome ∧ ome ≤ Real.pi)
    {tth eta : ℝ} (ht : 0 < tth ∧ tth < Real.pi) (he : -Real.pi < eta ∧ eta ≤ Real.pi) {td ts tc : V} {xy : ℝ × ℝ}
    (h : anglesToCart tth eta rd td b e (sampleRmat chi ome) ts 1 tc = some xy)
    (hf : FarEnough xy rd (sampleRmat chi ome) td ts tc) :
    ∃ out, xyToGvec xy rd (sampleRmat chi ome) td ts tc rb = some out ∧ out.tTh = tth ∧ out.eta = eta := by
  rw [anglesToCart_eq hc ho] at h
  exact ⟨_, angles_gvec_xy_round_trip hr hrb hd isRotation_one ome chi ht he h hf, rfl, rfl⟩

/-- C66 fails for negative omega: with the sample turned by `-90` degrees, a detector one metre downstream and the
ray going up at two-theta of 60 degrees, the point returned is below the beam instead of above. -/
theorem anglesToCart_negative_omega :
    anglesToCart (Real.pi / 3) (Real.pi / 2) 1 ![0, 0, -1000] ![0, 0, -1] ![1, 0, 0]
        (sampleRmat 0 (-(Real.pi / 2))) 0 1 0 = some (0, -(1000 * √3)) ∧
    Hits 1 ![0, 0, -1000] (crystalPosition (sampleRmat 0 (-(Real.pi / 2))) 0 0)
      ((1 : M) *ᵥ ![Real.sin (Real.pi / 3) * Real.cos (Real.pi / 2),
        Real.sin (Real.pi / 3) * Real.sin (Real.pi / 2), -Real.cos (Real.pi / 3)]) (0, 1000 * √3) := by
  have h3 : √3 * √3 = 3 := Real.mul_self_sqrt (by norm_num)
  constructor
  · have hb : IsDirection (![0, 0, -1] : V) ![0, 0, -1] :=
      ⟨by rw [IsUnit3, ← dot_eq]; simp [dot], 1, one_pos, by simp⟩
    have hG : sampleRmat 0 (-(Real.pi / 2)) *ᵥ ((1 : M) *ᵥ
        anglesToGvec (Real.pi / 3) (Real.pi / 2) (Real.pi / 2) ![0, 0, -1] ![1, 0, 0] 0 1) =
        ![0, √3 / 2, -(1 / 2)] := by
      have e6 : Real.pi / 3 * (1 / 2) = Real.pi / 6 := by ring
      simp only [anglesToGvec]
      rw [default_frame, toCrystal_eq, one_mulVec, ← mulV_eq, one_mulV, e6]
      ext i
      fin_cases i <;> simp [mulV, mulTV, sampleRmat]
    unfold anglesToCart
    have h1 : sampleRmat 0 (-(Real.pi / 2)) 1 1 = 1 := by simp [sampleRmat]
    have h2 : sampleRmat 0 (-(Real.pi / 2)) 0 0 = 0 := by simp [sampleRmat]
    simp only [h1, h2, Real.arccos_one, Real.arccos_zero]
    have hR : reflected ![0, 0, -1] ![0, √3 / 2, -(1 / 2)] = ![0, -(√3 / 2), -(1 / 2)] := by
      unfold reflected; rw [← dot_eq]
      ext i; fin_cases i <;> simp [dot] <;> ring
    refine gvecToXY_complete resolved_default hb isRotation_one ?_ ?_
    · rw [hG, hR]
      refine ⟨2000, by norm_num, ?_⟩
      ext i; fin_cases i <;> simp [crystalPosition, Matrix.one_apply] <;> ring
    · rw [hG, hR, ← dot_eq]; simp [dot]
  · refine ⟨2000, by norm_num, ?_⟩
    rw [one_mulVec]
    ext i; fin_cases i <;> simp [crystalPosition, Matrix.one_apply] <;> ring

/-- C66: the position vector of a detector point. -/
theorem cartToDvec_eq (rd : M) (td : V) (xy : ℝ × ℝ) :
    cartToDvec rd td xy = td + (xy.1 • (fun i => rd i 0) + xy.2 • (fun i => rd i 1)) := by
  ext i
  fin_cases i <;> simp [cartToDvec, mulV] <;> ring

/-- C66: the beam position is where the beam, taken as a line through the origin, meets the detector plane; the
beam reaches it going forward exactly if the detector is downstream (seen from its front). -/
theorem beamPosition_spec {rd : M} (hd : IsRotation rd) {td b : V} {tol : ℝ} {xy : ℝ × ℝ}
    (h : beamPosition rd td b tol = some xy) :
    (∃ u : ℝ, u • b = td + (xy.1 • (fun i => rd i 0) + xy.2 • (fun i => rd i 1))) ∧
      (Hits rd td 0 b xy ↔ (fun i => rd i 2) ⬝ᵥ td < 0) := by
  unfold beamPosition at h
  simp only at h
  split at h
  · rename_i hc
    rw [Option.some.injEq] at h
    have hn : dot b (col rd 2) ≠ 0 := hc.2.ne
    set u := dot (col rd 2) td / dot b (col rd 2) with hu
    have hz : u * dot b (col rd 2) = dot (col rd 2) td := by rw [hu]; field_simp
    obtain ⟨a00, a11, a22, a01, a02, a12⟩ := rot_entries' hd.1
    obtain ⟨c00, c11, c22, c01, c02, c12⟩ := rot_entries hd.1
    have hx : u • b = td + (xy.1 • (fun i => rd i 0) + xy.2 • (fun i => rd i 1)) := by
      rw [← h]
      clear_value u
      simp only [dot, col] at hz
      ext i
      fin_cases i
      · simp [mulTV]
        linear_combination (-(u * b 0 - td 0)) * a00 + (-(u * b 1 - td 1)) * a01 + (-(u * b 2 - td 2)) * a02
          + rd 0 2 * hz
      · simp [mulTV]
        linear_combination (-(u * b 0 - td 0)) * a01 + (-(u * b 1 - td 1)) * a11 + (-(u * b 2 - td 2)) * a12
          + rd 1 2 * hz
      · simp [mulTV]
        linear_combination (-(u * b 0 - td 0)) * a02 + (-(u * b 1 - td 1)) * a12 + (-(u * b 2 - td 2)) * a22
          + rd 2 2 * hz
    refine ⟨⟨u, hx⟩, ?_⟩
    have hcol : (fun i => rd i 2) ⬝ᵥ td = dot (col rd 2) td := by rw [dot_eq]; rfl
    rw [hcol]
    constructor
    · rintro ⟨s, hs, e⟩
      have e0 := congrFun e 0
      have e1 := congrFun e 1
      have e2 := congrFun e 2
      simp at e0 e1 e2
      have : s * dot b (col rd 2) = dot (col rd 2) td := by
        simp only [dot, col]
        linear_combination rd 0 2 * e0 + rd 1 2 * e1 + rd 2 2 * e2 + xy.1 * c02 + xy.2 * c12
      rw [← this]
      exact mul_neg_of_pos_of_neg hs hc.2
    · intro hneg
      exact ⟨u, div_pos_of_neg_of_neg hneg hc.2, by rw [zero_add]; exact hx⟩
  · simp at h

/-- C66: it is missing exactly if the beam runs within the tolerance of the detector plane or into its back. -/
theorem beamPosition_none_iff (rd : M) (td b : V) (tol : ℝ) (ht : 0 ≤ tol) :
    beamPosition rd td b tol = none ↔ -tol ≤ b ⬝ᵥ (fun i => rd i 2) := by
  have hcol : b ⬝ᵥ (fun i => rd i 2) = dot b (col rd 2) := by rw [dot_eq]; rfl
  rw [hcol]
  unfold beamPosition
  simp only
  split
  · rename_i h
    rw [abs_of_neg h.2] at h
    simp; linarith [h.1]
  · rename_i h
    simp
    by_contra hc
    push Not at hc
    exact h ⟨by rw [abs_of_neg (by linarith)]; linarith, by linarith⟩

/-- A detector that meets the hypotheses. -/
example : beamPosition 1 ![1, 2, -500] ![0, 0, -1] (15 / 10 ^ 9) = some (-1, -2) := by
  unfold beamPosition
  simp [dot, col, mulTV, Matrix.one_apply]
  norm_num

end Hexrd.Transforms
