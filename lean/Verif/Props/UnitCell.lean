import Verif.Lemmas.CellOps
import Mathlib.Analysis.SpecialFunctions.Trigonometric.Inverse

/-!
# Properties of the cell matrices (C27), of lattice parameters and operators together (C25)
and of the operators in reciprocal and Cartesian space (C58)

A cell with non-zero volume is one whose metric has positive determinant. `NoTiny` says
that no non-zero entry of the structure matrices is below 2^-26, the size under which the
code clears entries.
-/
namespace Hexrd.UnitCell

open Matrix Hexrd.SpaceGroup Cell

variable {L : Cell}

/-- C27: the determinant of the metric is positive for every cell whose edges are not zero
and whose angles can be the angles of a corner. -/
theorem volume_positive (ha : L.a ≠ 0) (hb : L.b ≠ 0) (hc : L.c ≠ 0)
    (h : 0 < 1 - L.ca ^ 2 - L.cb ^ 2 - L.cg ^ 2 + 2 * L.ca * L.cb * L.cg) : 0 < L.dmt.det ∧ 0 < L.vol := by
  have : 0 < L.dmt.det := by
    rw [det_dmt]
    have : L.a * L.b * L.c ≠ 0 := mul_ne_zero (mul_ne_zero ha hb) hc
    positivity
  exact ⟨this, vol_pos this⟩

/-- C27: the reciprocal metric is the inverse of the direct metric. -/
theorem metrics_inverse (h : 0 < L.dmt.det) : L.rmt * L.dmt = 1 ∧ L.dmt * L.rmt = 1 :=
  ⟨rmt_dmt h, dmt_rmt h⟩

/-- C27: the reciprocal structure matrix is the inverse transpose of the direct one, the
metrics are the scalar products of their columns, and the volume is the determinant. -/
theorem structure_dual (h : 0 < L.dmt.det) (hn : NoTiny L) :
    L.rsm = (L.dsm⁻¹)ᵀ ∧ L.dsmᵀ * L.dsm = L.dmt ∧ L.rsmᵀ * L.rsm = L.rmt ∧ L.vol = L.dsm.det := by
  refine ⟨?_, dsm_gram h hn, (rmt_eq h hn).symm, (det_dsm h hn).symm⟩
  rw [Matrix.inv_eq_left_inv (rsm_dsm h hn), Matrix.transpose_transpose]

/-- C27: transforming a vector to another space and back is the identity. -/
theorem trans_roundtrip (h : 0 < L.dmt.det) (hn : NoTiny L) (v : V3) (s t : Space) :
    transSpace L (transSpace L v s t) t s = v :=
  frame_inj h hn s _ _ (by rw [frame_trans h hn, frame_trans h hn])

/-- C27: going through a third space makes no difference. -/
theorem trans_compose (h : 0 < L.dmt.det) (hn : NoTiny L) (v : V3) (s t u : Space) :
    transSpace L (transSpace L v s t) t u = transSpace L v s u :=
  frame_inj h hn u _ _ (by rw [frame_trans h hn, frame_trans h hn, frame_trans h hn])

/-- C27: scalar products and lengths do not depend on the space they are computed in. -/
theorem length_invariant (h : 0 < L.dmt.det) (hn : NoTiny L) (u v : V3) (s t : Space) :
    calcDot L (transSpace L u s t) (transSpace L v s t) t = calcDot L u v s ∧
    calcLength L (transSpace L v s t) t = calcLength L v s := by
  constructor
  · rw [calcDot_eq, calcDot_eq, dot_frame h hn, dot_frame h hn, frame_trans h hn, frame_trans h hn]
  · rw [calcLength, calcLength, dot_frame h hn, dot_frame h hn, frame_trans h hn]

/-- C27: with the volume factor, the cross product computed in any space, expressed in any
space, is the vector product of the Cartesian vectors. -/
theorem cross_invariant (h : 0 < L.dmt.det) (hn : NoTiny L) (p q : V3) (s t : Space) :
    calcCross L p q s t true = transSpace L (cross (transSpace L p s .c) (transSpace L q s .c)) .c t := by
  apply frame_inj h hn t
  rw [frame_trans h hn]
  cases s
  · have e : cross (transSpace L p .d .c) (transSpace L q .d .c) = L.vol • (L.rsm *ᵥ cross p q) := by
      rw [← det_dsm h hn]
      exact cross_frame L.dsm L.rsm (rsm_dsmT h hn) p q
    rw [e]
    cases t <;> simp only [calcCross, if_true]
    · rw [frame_trans h hn]; simp [frame, Matrix.mulVec_smul]
    · simp [frame, Matrix.mulVec_smul]
    · rw [frame_trans h hn]; simp [frame, Matrix.mulVec_smul]
  · have e : cross (transSpace L p .r .c) (transSpace L q .r .c) = L.vol⁻¹ • (L.dsm *ᵥ cross p q) := by
      rw [← det_rsm h hn]
      exact cross_frame L.rsm L.dsm (dsm_rsm h hn) p q
    rw [e]
    cases t <;> simp only [calcCross, if_true]
    · simp [frame, Matrix.mulVec_smul]
    · rw [frame_trans h hn]; simp [frame, Matrix.mulVec_smul]
    · rw [frame_trans h hn]; simp [frame, Matrix.mulVec_smul]
  · have e : ∀ x : V3, transSpace L x .c .c = x := fun x => by simp [transSpace]
    rw [e, e]
    cases t <;> simp only [calcCross]
    · rw [frame_trans h hn]
    · rw [frame_trans h hn]

/-- C27 fails without `NoTiny`: for a cell with unit edges and gamma so close to 90 degrees
that its cosine is 2^-28, the entry is cleared, and scalar products computed in direct space
and after transformation to Cartesian space differ. -/
theorem clearing_breaks_dot :
    ∃ (L : Cell) (u v : V3), 0 < L.dmt.det ∧
      calcDot L (transSpace L u .d .c) (transSpace L v .d .c) .c ≠ calcDot L u v .d := by
  let g : ℝ := Real.arccos (1 / 2 ^ 28)
  let L : Cell := ⟨1, 1, 1, 90, 90, g * 180 / Real.pi⟩
  have hg : L.cg = 1 / 2 ^ 28 := by
    have : radians (g * 180 / Real.pi) = g := by
      rw [radians]; have := Real.pi_pos.ne'; field_simp
    rw [cg, this, Real.cos_arccos (by norm_num) (by norm_num)]
  have ha : L.ca = 0 := cos_90
  have hb : L.cb = 0 := cos_90
  refine ⟨L, ![1, 0, 0], ![0, 1, 0], ?_, ?_⟩
  · rw [det_dmt, hg, ha, hb]
    norm_num [L]
  · intro e01
    have h1 : L.dsm 0 1 = 0 := by
      have : L.dsm0 0 1 = 1 / 2 ^ 28 := by simp [dsm0, hg, L]
      rw [dsm, clip, this, if_pos]
      rw [eps, abs_of_pos (by positivity)]
      norm_num
    have h2 : L.dsm 1 0 = 0 := by
      have : L.dsm0 1 0 = 0 := by simp [dsm0]
      rw [dsm, clip, this]; simp
    have h3 : L.dsm 2 0 = 0 := by
      have : L.dsm0 2 0 = 0 := by simp [dsm0]
      rw [dsm, clip, this]; simp
    rw [calcDot_eq, calcDot_eq] at e01
    simp [transSpace, metric, Matrix.mulVec, dotProduct, Fin.sum_univ_three, h1, h2, h3, dmt] at e01
    rw [hg] at e01
    norm_num [L] at e01

/-- C25, operators: the metric of a cell is invariant under the generated point group if the
lattice parameters satisfy the conditions of the crystal system. -/
theorem metric_fits_operators (sg setting : Nat) (h1 : 1 ≤ sg) (h2 : sg ≤ 230) :
    ∃ S lt, generateSGSym sg setting = some S ∧ latticeTypeZ sg = some lt ∧
      ∀ L : Cell, SpaceGroup.Spec.MetricConditions 90 120 lt L.a L.b L.c L.alpha L.beta L.gamma →
        ∀ m ∈ S.pg, (toReal m)ᵀ * L.dmt * toReal m = L.dmt := by
  obtain ⟨S, lt, e, el, hiff⟩ := pg_invariant sg setting h1 h2
  exact ⟨S, lt, e, el, fun L hL => (hiff _ _ _ _ _ _).1 (conditions_form lt L hL)⟩

/-- C25, operators, converse: if the metric of a cell (edges positive, angles between 0 and
180 degrees) is invariant under the generated point group, the lattice parameters satisfy
the conditions of the crystal system. So the reduced parameters are all the freedom the
operators leave. -/
theorem operators_force_metric (sg setting : Nat) (h1 : 1 ≤ sg) (h2 : sg ≤ 230) (L : Cell)
    (ha : 0 < L.a) (hb : 0 < L.b) (hc : 0 < L.c) (hal : 0 < L.alpha ∧ L.alpha < 180)
    (hbe : 0 < L.beta ∧ L.beta < 180) (hga : 0 < L.gamma ∧ L.gamma < 180) :
    ∃ S lt, generateSGSym sg setting = some S ∧ latticeTypeZ sg = some lt ∧
      ((∀ m ∈ S.pg, (toReal m)ᵀ * L.dmt * toReal m = L.dmt) →
        SpaceGroup.Spec.MetricConditions 90 120 lt L.a L.b L.c L.alpha L.beta L.gamma) := by
  obtain ⟨S, lt, e, el, hiff⟩ := pg_invariant sg setting h1 h2
  exact ⟨S, lt, e, el, fun hi => form_conditions lt L ha hb hc hal hbe hga ((hiff _ _ _ _ _ _).2 hi)⟩

/-- C58: for every space group and every fitting cell, the reciprocal operators are exactly
the inverse transposes of the direct ones: `r' g = 1` with `r'` the transpose, in integers.
So they do not depend on the lattice parameters. -/
theorem reciprocal_operators (sg setting : Nat) (h1 : 1 ≤ sg) (h2 : sg ≤ 230) :
    ∃ S lt, generateSGSym sg setting = some S ∧ latticeTypeZ sg = some lt ∧
      ∀ L : Cell, SpaceGroup.Spec.MetricConditions 90 120 lt L.a L.b L.c L.alpha L.beta L.gamma →
        0 < L.dmt.det →
        ∀ G, (G = S.pg ∨ G = S.laue) →
          List.Forall₂ (fun g r => r.transpose.mul g = Mat.one ∧ g.mul r.transpose = Mat.one) G (recipSym L G) := by
  obtain ⟨S, lt, e, el, hiff⟩ := pg_invariant sg setting h1 h2
  refine ⟨S, lt, e, el, ?_⟩
  intro L hL hd G hG
  have hinv := (hiff _ _ _ _ _ _).1 (conditions_form lt L hL)
  rw [← dmt_symmForm] at hinv
  exact recip_spec sg setting h1 h2 S e L hd hinv G hG

/-- C58: hence they preserve the lengths of reciprocal vectors. -/
theorem reciprocal_operators_isometric (hd : 0 < L.dmt.det) (g r : Mat) (hinv : Invariant L.dmt g)
    (hr : r.transpose.mul g = Mat.one) (v : V3) :
    calcLength L (toReal r *ᵥ v) .r = calcLength L v .r := by
  rw [calcLength, calcLength]
  congr 1
  have h1 : (toReal r)ᵀ * L.rmt * toReal r = L.rmt := recip_invariant L hd g r hinv hr
  calc (toReal r *ᵥ v) ⬝ᵥ (metric L .r *ᵥ (toReal r *ᵥ v))
      = v ⬝ᵥ (((toReal r)ᵀ * L.rmt * toReal r) *ᵥ v) := by
        simp only [metric]
        rw [Matrix.mul_assoc, ← Matrix.mulVec_mulVec, Matrix.dotProduct_mulVec v, Matrix.vecMul_transpose,
          ← Matrix.mulVec_mulVec]
    _ = _ := by rw [h1]; rfl

/-- C58: in the Cartesian frame every operator that leaves the metric unchanged is an
orthogonal matrix before small entries are cleared. -/
theorem cartesian_orthogonal (hd : 0 < L.dmt.det) (hn : NoTiny L) (g : Mat) (hinv : Invariant L.dmt g) :
    (L.dsm * (toReal g * L.rsmᵀ))ᵀ * (L.dsm * (toReal g * L.rsmᵀ)) = 1 := by
  rw [Matrix.transpose_mul, Matrix.transpose_mul, Matrix.transpose_transpose]
  calc L.rsm * (toReal g)ᵀ * L.dsmᵀ * (L.dsm * (toReal g * L.rsmᵀ))
      = L.rsm * ((toReal g)ᵀ * (L.dsmᵀ * L.dsm) * toReal g) * L.rsmᵀ := by simp only [Matrix.mul_assoc]
    _ = L.rsm * (L.dsmᵀ * L.dsm) * L.rsmᵀ := by rw [dsm_gram hd hn, hinv]
    _ = L.rsm * L.dsmᵀ * (L.dsm * L.rsmᵀ) := by simp only [Matrix.mul_assoc]
    _ = 1 := by rw [rsm_dsmT hd hn, dsm_rsm hd hn, Matrix.one_mul]

/-- C58, monoclinic (partial: point groups 2 and m): the Cartesian operators, and those of
the Laue group, have the unique axis along z. -/
theorem monoclinic_axis_partial (sg setting : Nat) (h1 : 3 ≤ sg) (h2 : sg ≤ 9) (hd : 0 < L.dmt.det)
    (hn : NoTiny L) (hal : L.alpha = 90) (hga : L.gamma = 90) :
    ∃ U, unitcellSgnum sg setting = some U ∧
      ∀ Q, Q ∈ (cartSyms L U.pointGroup U.laueGroup U.latticeType U.sym.pg U.sym.laue).1 ∨
           Q ∈ (cartSyms L U.pointGroup U.laueGroup U.latticeType U.sym.pg U.sym.laue).2 →
        Q = diag 1 1 1 ∨ Q = diag (-1) (-1) 1 ∨ Q = diag (-1) (-1) (-1) ∨ Q = diag 1 1 (-1) :=
  mono_axis sg setting h1 h2 hd hn hal hga

/-- C58 fails for the point group 2/m (10 to 15): point group and Laue group share one array,
which is turned twice; the twofold axis is along y again. -/
theorem monoclinic_2m_axis_wrong (sg setting : Nat) (h1 : 10 ≤ sg) (h2 : sg ≤ 15) (hd : 0 < L.dmt.det)
    (hn : NoTiny L) (hal : L.alpha = 90) (hga : L.gamma = 90) :
    ∃ U, unitcellSgnum sg setting = some U ∧
      diag (-1) 1 (-1) ∈ (cartSyms L U.pointGroup U.laueGroup U.latticeType U.sym.pg U.sym.laue).1 ∧
      diag (-1) (-1) 1 ∉ (cartSyms L U.pointGroup U.laueGroup U.latticeType U.sym.pg U.sym.laue).1 :=
  mono_2m sg setting h1 h2 hd hn hal hga

/-- Concrete case: the cubic cell with unit edges. -/
example : 0 < (Cell.mk 1 1 1 90 90 90).dmt.det ∧ NoTiny ⟨1, 1, 1, 90, 90, 90⟩ := unit_cube

/-- Concrete case: a monoclinic cell with beta = 120 degrees. -/
example : 0 < (Cell.mk 1 1 1 90 120 90).dmt.det ∧ NoTiny ⟨1, 1, 1, 90, 120, 90⟩ := mono_cell

/-- C58: the rounding absorbs any floating-point error below 1/2 in the entries of a
conjugated operator. -/
theorem rounding_absorbs (m : Mat) (x : M3) (h : ∀ i j, |x i j - toReal m i j| < 1 / 2) : roundMat x = m := by
  have key : ∀ (n : Int) (y : ℝ), |y - n| < 1 / 2 → npRound y = n := by
    intro n y hy
    rw [abs_lt] at hy
    unfold npRound
    by_cases hn : (n : ℝ) ≤ y
    · have hf : ⌊y⌋ = n := by rw [Int.floor_eq_iff]; constructor <;> linarith
      have : Int.fract y < 1 / 2 := by unfold Int.fract; rw [hf]; linarith
      rw [if_pos this, hf]
    · have hf : ⌊y⌋ = n - 1 := by rw [Int.floor_eq_iff]; push_cast; constructor <;> linarith
      have h1 : 1 / 2 < Int.fract y := by unfold Int.fract; rw [hf]; push_cast; linarith
      rw [if_neg (not_lt.2 h1.le), if_neg h1.ne', hf]; ring
  simp only [roundMat]
  obtain ⟨a, b, c, d, e, f, g, k, l⟩ := m
  congr 1
  · exact key _ _ (h 0 0)
  · exact key _ _ (h 0 1)
  · exact key _ _ (h 0 2)
  · exact key _ _ (h 1 0)
  · exact key _ _ (h 1 1)
  · exact key _ _ (h 1 2)
  · exact key _ _ (h 2 0)
  · exact key _ _ (h 2 1)
  · exact key _ _ (h 2 2)

end Hexrd.UnitCell
