import Verif.Spec.MarchDollase
import Verif.Lemmas.HklFamily
import Verif.Props.HarmonicSeries
import Verif.Props.Hkls
import Mathlib.Analysis.SpecialFunctions.Integrals.Basic
import Mathlib.MeasureTheory.Integral.IntervalIntegral.FundThmCalculus
import Mathlib.Analysis.SpecialFunctions.Sqrt

/-! C125: the March–Dollase texture model. -/
namespace Hexrd.MarchDollase

open Hexrd.SpaceGroup Hexrd.UnitCell Hexrd.UnitCell.Cell Hexrd.Hkls Spec
open scoped Matrix

variable {L : Cell}

/-! ## Scalar products -/

theorem rmt_eq0 (h : 0 < L.dmt.det) : L.rmt = L.rsm0ᵀ * L.rsm0 := by
  have h0 := rsm0_dual h
  have h1 : L.dsm0 * L.rsm0ᵀ = 1 := mul_eq_one_comm.1 h0
  have h2 : L.dsm0ᵀ * L.rsm0 = 1 := by
    have := congrArg Matrix.transpose h0
    simpa [Matrix.transpose_mul] using this
  have h3 : L.dmt * (L.rsm0ᵀ * L.rsm0) = 1 := by
    rw [← dsm0_gram h, Matrix.mul_assoc, ← Matrix.mul_assoc L.dsm0, h1, Matrix.one_mul, h2]
  calc L.rmt = L.rmt * (L.dmt * (L.rsm0ᵀ * L.rsm0)) := by rw [h3, Matrix.mul_one]
    _ = L.rsm0ᵀ * L.rsm0 := by rw [← Matrix.mul_assoc, rmt_dmt h, Matrix.one_mul]

theorem rdot (h : 0 < L.dmt.det) (u v : V3) : u ⬝ᵥ (metric L .r *ᵥ v) = cart L u ⬝ᵥ cart L v := by
  rw [metric, rmt_eq0 h, ← Matrix.mulVec_mulVec, Matrix.dotProduct_mulVec, Matrix.vecMul_transpose]; rfl

theorem cart_ne (h : 0 < L.dmt.det) {v : V3} (hv : v ≠ 0) : cart L v ≠ 0 := by
  intro e
  apply hv
  have h2 : L.dsm0ᵀ * L.rsm0 = 1 := by
    have := congrArg Matrix.transpose (rsm0_dual h)
    simpa [Matrix.transpose_mul] using this
  have := congrArg (L.dsm0ᵀ *ᵥ ·) e
  simpa [cart, Matrix.mulVec_mulVec, h2] using this

theorem dot3 (u v : V3) : u ⬝ᵥ v = u 0 * v 0 + u 1 * v 1 + u 2 * v 2 := by
  simp [dotProduct, Fin.sum_univ_three]

theorem dot_pos {u : V3} (hu : u ≠ 0) : 0 < u ⬝ᵥ u := by
  by_contra h
  apply hu
  rw [dot3] at h
  have h0 := mul_self_nonneg (u 0)
  have h1 := mul_self_nonneg (u 1)
  have h2 := mul_self_nonneg (u 2)
  have e0 : u 0 = 0 := mul_self_eq_zero.1 (by linarith)
  have e1 : u 1 = 0 := mul_self_eq_zero.1 (by linarith)
  have e2 : u 2 = 0 := mul_self_eq_zero.1 (by linarith)
  ext i
  fin_cases i <;> assumption

theorem cauchy (u v : V3) : (u ⬝ᵥ v) ^ 2 ≤ (u ⬝ᵥ u) * (v ⬝ᵥ v) := by
  simp only [dot3]
  nlinarith [sq_nonneg (u 0 * v 1 - u 1 * v 0), sq_nonneg (u 0 * v 2 - u 2 * v 0), sq_nonneg (u 1 * v 2 - u 2 * v 1)]

theorem length_cart (h : 0 < L.dmt.det) (u : V3) : calcLength L u .r = √(cart L u ⬝ᵥ cart L u) := by
  rw [calcLength, rdot h]

theorem length_pos (h : 0 < L.dmt.det) {u : V3} (hu : u ≠ 0) : 0 < calcLength L u .r := by
  rw [length_cart h]
  exact Real.sqrt_pos.2 (dot_pos (cart_ne h hu))

/-- The cosine of the angle between two vectors that are not zero. -/
theorem cos_angle {u v : V3} (hu : u ≠ 0) (hv : v ≠ 0) :
    Real.cos (angle u v) = u ⬝ᵥ v / (√(u ⬝ᵥ u) * √(v ⬝ᵥ v)) := by
  have h1 := Real.sqrt_pos.2 (dot_pos hu)
  have h2 := Real.sqrt_pos.2 (dot_pos hv)
  have h3 : |u ⬝ᵥ v| ≤ √(u ⬝ᵥ u) * √(v ⬝ᵥ v) := by
    rw [← Real.sqrt_mul (dot_pos hu).le]
    exact Real.abs_le_sqrt (cauchy u v)
  have h4 : |u ⬝ᵥ v / (√(u ⬝ᵥ u) * √(v ⬝ᵥ v))| ≤ 1 := by
    rw [abs_div, abs_of_pos (mul_pos h1 h2)]
    exact (div_le_one (mul_pos h1 h2)).2 h3
  exact Real.cos_arccos (abs_le.1 h4).1 (abs_le.1 h4).2

theorem vec_ne {g : Vec} (hg : g ≠ ⟨0, 0, 0⟩) : vec g ≠ 0 := by
  intro e
  apply hg
  obtain ⟨x, y, z⟩ := g
  have h0 := congrFun e 0
  have h1 := congrFun e 1
  have h2 := congrFun e 2
  simp [vec] at h0 h1 h2
  simp [h0, h1, h2]

/-- C125: the square that the code computes is the squared cosine of the angle between the
two lattice vectors. -/
theorem cos2_angle (h : 0 < L.dmt.det) {g : Vec} (hg : g ≠ ⟨0, 0, 0⟩) {hkl : V3} (hh : hkl ≠ 0) :
    cos2Alpha L hkl (calcLength L hkl .r) g = some (Real.cos (angle (cart L (vec g)) (cart L hkl)) ^ 2) := by
  have h1 := length_pos h (vec_ne hg)
  have h2 := length_pos h hh
  rw [cos2Alpha]
  simp only [h1.ne', h2.ne', or_self, if_false, Option.some.injEq]
  rw [cos_angle (cart_ne h (vec_ne hg)) (cart_ne h hh), calcDot_eq, rdot h, length_cart h, length_cart h, div_div]

theorem base_pos {P : ℝ} (hP : 0 < P) (c : ℝ) (h0 : 0 ≤ c) (h1 : c ≤ 1) : 0 < P ^ 2 * c + (1 - c) / P := by
  rcases h0.eq_or_lt with e | e
  · rw [← e]; simp [hP]
  · have : 0 ≤ (1 - c) / P := div_nonneg (by linarith) hP.le
    positivity

theorem term_march {P : ℝ} (hP : 0 < P) (α : ℝ) : term P (Real.cos α ^ 2) = some (march P α) := by
  have := base_pos hP (Real.cos α ^ 2) (sq_nonneg _) (Real.cos_sq_le_one α)
  rw [term, if_neg hP.ne', if_pos this, march, Real.sin_sq]
  norm_num

theorem act_ne {sym : List Mat} (hS : Closed sym) {g h : Vec} (hg : g ≠ ⟨0, 0, 0⟩) (e : Hkls.Spec.Equivalent sym g h) :
    h ≠ ⟨0, 0, 0⟩ := by
  rintro rfl
  obtain ⟨s, _, hs⟩ := equiv_symm hS e
  apply hg
  rw [← hs]
  simp [Mat.act]

/-- C125: the factor of a reflection is the mean, over the family of its equivalents, each
taken once, of the March–Dollase function of the angle to the preferred axis. -/
theorem factor_mean (m : Material) (h : 0 < m.cell.dmt.det) (hG : SpaceGroup.Spec.IsGroup Mat.mul Mat.one m.sym)
    (h1 : m.sym.head? = some Mat.one) {hkl : V3} (hh : hkl ≠ 0) {P : ℝ} (hP : 0 < P) {g : Vec} (hg : g ≠ ⟨0, 0, 0⟩) (fam : List Vec) (hn : fam.Nodup)
    (hf : ∀ w, w ∈ fam ↔ Hkls.Spec.Equivalent m.sym g w) :
    reflection m hkl (calcLength m.cell hkl .r) P g =
      some ((fam.map fun k => march P (angle (cart m.cell (vec k)) (cart m.cell hkl))).sum / fam.length) := by
  have hS := closed_of_group hG h1
  obtain ⟨h1, _, h3⟩ := star_spec hS g
  have hp : (calcStar m.sym g).Perm fam :=
    (List.perm_ext_iff_of_nodup h1 hn).2 fun w => (h3 w).trans (hf w).symm
  have hm : ((calcStar m.sym g).mapM fun k =>
      (cos2Alpha m.cell hkl (calcLength m.cell hkl .r) k).bind (term P)) =
      some ((calcStar m.sym g).map fun k => march P (angle (cart m.cell (vec k)) (cart m.cell hkl))) := by
    apply Texture.mapM_some
    intro k hk
    rw [cos2_angle h (act_ne hS hg ((h3 k).1 hk)) hh, Option.bind_some, term_march hP]
  rw [reflection, hm, Option.map_some, hp.length_eq, (hp.map _).sum_eq]
  simp only [Option.some.injEq]
  ring

/-- The hypotheses on the operators hold for every space group and every fitting cell
(`Hkls.unitcell_operators_form_group`); here for the trivial group. -/
example : SpaceGroup.Spec.IsGroup Mat.mul Mat.one [Mat.one] ∧ [Mat.one].head? = some Mat.one := by
  refine ⟨⟨by decide, by decide, ?_, ?_, ?_, ?_, ?_⟩, rfl⟩
  all_goals simp only [List.mem_singleton, forall_eq, exists_eq_left]
  all_goals decide

/-! ## Consequences -/

/-- C125: equivalent reflections have the same factor. -/
theorem factor_family (m : Material) (h : 0 < m.cell.dmt.det) (hG : SpaceGroup.Spec.IsGroup Mat.mul Mat.one m.sym)
    (h1 : m.sym.head? = some Mat.one) {hkl : V3} (hh : hkl ≠ 0) {P : ℝ} (hP : 0 < P) {g g' : Vec} (hg : g ≠ ⟨0, 0, 0⟩)
    (e : Hkls.Spec.Equivalent m.sym g g') :
    reflection m hkl (calcLength m.cell hkl .r) P g' = reflection m hkl (calcLength m.cell hkl .r) P g := by
  have hS := closed_of_group hG h1
  obtain ⟨s1, _, s3⟩ := star_spec hS g
  rw [factor_mean m h hG h1 hh hP hg _ s1 s3, factor_mean m h hG h1 hh hP (act_ne hS hg e) _ s1]
  intro w
  rw [s3]
  exact ⟨equiv_trans hS (equiv_symm hS e), equiv_trans hS e⟩

theorem sum_bounds (l : List ℝ) (a b : ℝ) (h : ∀ x ∈ l, a ≤ x ∧ x ≤ b) : l.length * a ≤ l.sum ∧ l.sum ≤ l.length * b := by
  induction l with
  | nil => simp
  | cons x l ih =>
    have h1 := h x List.mem_cons_self
    have h2 := ih fun y hy => h y (List.mem_cons_of_mem _ hy)
    simp only [List.length_cons, List.sum_cons, Nat.cast_add, Nat.cast_one]
    constructor <;> linarith [h1.1, h1.2, h2.1, h2.2]

theorem mean_bounds (l : List ℝ) (hl : l ≠ []) (a b : ℝ) (h : ∀ x ∈ l, a ≤ x ∧ x ≤ b) :
    a ≤ l.sum / l.length ∧ l.sum / l.length ≤ b := by
  have hp : (0 : ℝ) < l.length := by exact_mod_cast List.length_pos_iff.2 hl
  have := sum_bounds l a b h
  rw [le_div_iff₀ hp, div_le_iff₀ hp]
  constructor <;> linarith [this.1, this.2]

/-- The values of the March–Dollase function lie between those along and across the axis. -/
theorem march_bounds {P : ℝ} (hP : 0 < P) (α : ℝ) :
    min (march P 0) (march P (Real.pi / 2)) ≤ march P α ∧ march P α ≤ max (march P 0) (march P (Real.pi / 2)) := by
  have hb := base_pos hP (Real.cos α ^ 2) (sq_nonneg _) (Real.cos_sq_le_one α)
  have hc := Real.cos_sq_le_one α
  have hc0 := sq_nonneg (Real.cos α)
  have e0 : march P 0 = (P ^ 2) ^ (-(3 / 2) : ℝ) := by simp [march]
  have e1 : march P (Real.pi / 2) = (1 / P) ^ (-(3 / 2) : ℝ) := by simp [march]
  have e : march P α = (P ^ 2 * Real.cos α ^ 2 + (1 - Real.cos α ^ 2) / P) ^ (-(3 / 2) : ℝ) := by
    rw [march, Real.sin_sq]
  have p0 : 0 < P ^ 2 := by positivity
  have p1 : 0 < 1 / P := by positivity
  have conv : P ^ 2 * Real.cos α ^ 2 + (1 - Real.cos α ^ 2) / P =
      Real.cos α ^ 2 * P ^ 2 + (1 - Real.cos α ^ 2) * (1 / P) := by ring
  have hn : (-(3 / 2) : ℝ) ≤ 0 := by norm_num
  rw [e0, e1, e]
  rcases le_total (P ^ 2) (1 / P) with hle | hle
  · have l1 : P ^ 2 ≤ P ^ 2 * Real.cos α ^ 2 + (1 - Real.cos α ^ 2) / P := by rw [conv]; nlinarith
    have l2 : P ^ 2 * Real.cos α ^ 2 + (1 - Real.cos α ^ 2) / P ≤ 1 / P := by rw [conv]; nlinarith
    exact ⟨(min_le_right _ _).trans (Real.rpow_le_rpow_of_nonpos hb l2 hn),
      (Real.rpow_le_rpow_of_nonpos p0 l1 hn).trans (le_max_left _ _)⟩
  · have l1 : P ^ 2 * Real.cos α ^ 2 + (1 - Real.cos α ^ 2) / P ≤ P ^ 2 := by rw [conv]; nlinarith
    have l2 : 1 / P ≤ P ^ 2 * Real.cos α ^ 2 + (1 - Real.cos α ^ 2) / P := by rw [conv]; nlinarith
    exact ⟨(min_le_left _ _).trans (Real.rpow_le_rpow_of_nonpos hb l1 hn),
      (Real.rpow_le_rpow_of_nonpos p1 l2 hn).trans (le_max_right _ _)⟩

theorem march_axis {P : ℝ} (hP : 0 < P) : march P 0 = 1 / P ^ 3 := by
  rw [march]
  simp only [Real.cos_zero, one_pow, mul_one, Real.sin_zero, ne_eq, OfNat.ofNat_ne_zero, not_false_eq_true, zero_pow,
    zero_div, add_zero]
  rw [← Real.rpow_natCast, ← Real.rpow_mul hP.le, one_div, ← Real.rpow_natCast, ← Real.rpow_neg hP.le]
  norm_num

theorem march_across {P : ℝ} (hP : 0 < P) : march P (Real.pi / 2) = P * √P := by
  rw [march]
  simp only [Real.cos_pi_div_two, Real.sin_pi_div_two, ne_eq, OfNat.ofNat_ne_zero, not_false_eq_true, zero_pow, mul_zero,
    one_pow, zero_add, one_div]
  rw [Real.inv_rpow hP.le, Real.rpow_neg hP.le, inv_inv, show (3 / 2 : ℝ) = 1 + 1 / 2 by norm_num, Real.rpow_add hP,
    Real.rpow_one, ← Real.sqrt_eq_rpow]

/-- C125: for a positive parameter every factor is a positive number between `1/P³`, the
value for planes along the axis, and `P^(3/2)`, that for planes across it. -/
theorem factor_bounds (m : Material) (h : 0 < m.cell.dmt.det) (hG : SpaceGroup.Spec.IsGroup Mat.mul Mat.one m.sym)
    (h1 : m.sym.head? = some Mat.one) {hkl : V3} (hh : hkl ≠ 0) {P : ℝ} (hP : 0 < P) {g : Vec} (hg : g ≠ ⟨0, 0, 0⟩) :
    ∃ f, reflection m hkl (calcLength m.cell hkl .r) P g = some f ∧ 0 < f ∧
      min (1 / P ^ 3) (P * √P) ≤ f ∧ f ≤ max (1 / P ^ 3) (P * √P) := by
  have hS := closed_of_group hG h1
  obtain ⟨s1, s2, s3⟩ := star_spec hS g
  rw [factor_mean m h hG h1 hh hP hg _ s1 s3]
  have hne : ((calcStar m.sym g).map fun k => march P (angle (cart m.cell (vec k)) (cart m.cell hkl))) ≠ [] := by
    intro e
    rw [List.map_eq_nil_iff] at e
    rw [e] at s2
    cases s2
  have hb := mean_bounds _ hne (min (1 / P ^ 3) (P * √P)) (max (1 / P ^ 3) (P * √P)) (by
    intro x hx
    obtain ⟨k, _, rfl⟩ := List.mem_map.1 hx
    rw [← march_axis hP, ← march_across hP]
    exact march_bounds hP _)
  rw [List.length_map] at hb
  refine ⟨_, rfl, lt_of_lt_of_le ?_ hb.1, hb.1, hb.2⟩
  have : 0 < √P := Real.sqrt_pos.2 hP
  exact lt_min (by positivity) (by positivity)

/-- C125: the parameter 1 means no texture: every factor is 1. -/
theorem factor_one (m : Material) (h : 0 < m.cell.dmt.det) (hG : SpaceGroup.Spec.IsGroup Mat.mul Mat.one m.sym)
    (h1 : m.sym.head? = some Mat.one) {hkl : V3} (hh : hkl ≠ 0) {g : Vec} (hg : g ≠ ⟨0, 0, 0⟩) :
    reflection m hkl (calcLength m.cell hkl .r) 1 g = some 1 := by
  obtain ⟨f, e, _, a, b⟩ := factor_bounds m h hG h1 hh one_pos hg
  norm_num at a b
  rw [e, le_antisymm b a]

/-- C125: the length and the sense of the vector given for the axis do not matter. -/
theorem factor_axis_scale (m : Material) (h : 0 < m.cell.dmt.det) (hG : SpaceGroup.Spec.IsGroup Mat.mul Mat.one m.sym)
    (h1 : m.sym.head? = some Mat.one) {hkl : V3} (hh : hkl ≠ 0) {P : ℝ} (hP : 0 < P) {g : Vec} (hg : g ≠ ⟨0, 0, 0⟩)
    {t : ℝ} (ht : t ≠ 0) :
    reflection m (t • hkl) (calcLength m.cell (t • hkl) .r) P g = reflection m hkl (calcLength m.cell hkl .r) P g := by
  have hS := closed_of_group hG h1
  obtain ⟨s1, s2, s3⟩ := star_spec hS g
  have ht' : t • hkl ≠ 0 := smul_ne_zero ht hh
  rw [factor_mean m h hG h1 hh hP hg _ s1 s3, factor_mean m h hG h1 ht' hP hg _ s1 s3]
  congr 3
  apply List.map_congr_left
  intro k hk
  have hk := act_ne hS hg ((s3 k).1 hk)
  have key : Real.cos (angle (cart m.cell (vec k)) (cart m.cell (t • hkl))) ^ 2 =
      Real.cos (angle (cart m.cell (vec k)) (cart m.cell hkl)) ^ 2 := by
    rw [cos_angle (cart_ne h (vec_ne hk)) (cart_ne h ht'), cos_angle (cart_ne h (vec_ne hk)) (cart_ne h hh)]
    have e : cart m.cell (t • hkl) = t • cart m.cell hkl := Matrix.mulVec_smul _ _ _
    have p1 := dot_pos (cart_ne h (vec_ne hk))
    have p2 := dot_pos (cart_ne h hh)
    rw [e, dotProduct_smul, dotProduct_smul, smul_dotProduct, div_pow, div_pow, mul_pow, mul_pow, Real.sq_sqrt p1.le,
      Real.sq_sqrt p2.le, Real.sq_sqrt]
    · simp only [smul_eq_mul]
      field_simp
    · simp only [smul_eq_mul]
      rw [← mul_assoc]
      exact mul_nonneg (mul_self_nonneg t) p2.le
  rw [march, march, Real.sin_sq, Real.sin_sq, key]

theorem invariant_dot {G : M3} {r : Mat} (hr : Invariant G r) (u v : V3) :
    (toReal r *ᵥ u) ⬝ᵥ (G *ᵥ (toReal r *ᵥ v)) = u ⬝ᵥ (G *ᵥ v) := by
  have hr' : (toReal r)ᵀ * G * toReal r = G := hr
  conv_rhs => rw [← hr']
  rw [Matrix.mul_assoc, ← Matrix.mulVec_mulVec, Matrix.dotProduct_mulVec u, Matrix.vecMul_transpose, ← Matrix.mulVec_mulVec]

/-- C125: an axis and its image under an operator of the reciprocal point group that keeps
lengths give the same factors: the model depends on the family of the axis. -/
theorem factor_axis_family (m : Material) (h : 0 < m.cell.dmt.det) (hG : SpaceGroup.Spec.IsGroup Mat.mul Mat.one m.sym)
    (h1 : m.sym.head? = some Mat.one) {hkl : V3} (hh : hkl ≠ 0) {P : ℝ} (hP : 0 < P) {g : Vec} (hg : g ≠ ⟨0, 0, 0⟩)
    (r : Mat) (hr : r ∈ m.sym) (hi : Invariant m.cell.rmt r) :
    reflection m (toReal r *ᵥ hkl) (calcLength m.cell (toReal r *ᵥ hkl) .r) P g =
      reflection m hkl (calcLength m.cell hkl .r) P g := by
  have hS := closed_of_group hG h1
  obtain ⟨s1, s2, s3⟩ := star_spec hS g
  obtain ⟨n, hn, rn, nr⟩ := hS.inv r hr
  have hr0 : toReal r *ᵥ hkl ≠ 0 := by
    intro e
    apply hh
    have := congrArg (toReal n *ᵥ ·) e
    simpa [Matrix.mulVec_mulVec, ← toReal_mul, nr, toReal_one] using this
  have hinj : Function.Injective (fun k : Vec => r.act k) := by
    intro a b e
    have := congrArg n.act e
    simpa [← act_mul, nr, act_one] using this
  rw [factor_mean m h hG h1 hh hP hg _ s1 s3,
    factor_mean m h hG h1 hr0 hP hg ((calcStar m.sym g).map fun k => r.act k) (s1.map hinj)]
  · rw [List.length_map, List.map_map]
    congr 3
    apply List.map_congr_left
    intro k hk
    have hk := act_ne hS hg ((s3 k).1 hk)
    have hk' : r.act k ≠ ⟨0, 0, 0⟩ := act_ne hS hk ⟨r, hr, rfl⟩
    have e : ∀ u v : V3, cart m.cell (toReal r *ᵥ u) ⬝ᵥ cart m.cell (toReal r *ᵥ v) = cart m.cell u ⬝ᵥ cart m.cell v := by
      intro u v
      rw [← rdot h, ← rdot h]
      exact invariant_dot hi u v
    have ea : angle (cart m.cell (vec (r.act k))) (cart m.cell (toReal r *ᵥ hkl)) =
        angle (cart m.cell (vec k)) (cart m.cell hkl) := by
      rw [vec_act, angle, angle, e, e, e]
    rw [Function.comp_apply, ea]
  · intro w
    rw [List.mem_map]
    constructor
    · rintro ⟨k, hk, rfl⟩
      exact equiv_trans hS ((s3 k).1 hk) ⟨r, hr, rfl⟩
    · intro hw
      refine ⟨n.act w, (s3 _).2 (equiv_trans hS hw ⟨n, hn, rfl⟩), ?_⟩
      rw [← act_mul, rn, act_one]

/-- The operators of every space group meet the hypotheses in every fitting cell. -/
theorem spacegroup_operators (sg setting : Nat) (h1 : 1 ≤ sg) (h2 : sg ≤ 230) :
    ∃ S lt, generateSGSym sg setting = some S ∧ latticeTypeZ sg = some lt ∧
      ∀ L : Cell, SpaceGroup.Spec.MetricConditions 90 120 lt L.a L.b L.c L.alpha L.beta L.gamma →
        0 < L.dmt.det →
          SpaceGroup.Spec.IsGroup Mat.mul Mat.one (recipSym L S.pg) ∧ (recipSym L S.pg).head? = some Mat.one ∧
          ∀ r ∈ recipSym L S.pg, Invariant L.rmt r := by
  obtain ⟨S, lt, e, el, hiff⟩ := pg_invariant sg setting h1 h2
  obtain ⟨S', lt', e', el', hgr⟩ := unitcell_operators_form_group sg setting h1 h2
  rw [e] at e'; cases e'
  rw [el] at el'; cases el'
  refine ⟨S, lt, e, el, ?_⟩
  intro L hL hd
  have hinv := (hiff _ _ _ _ _ _).1 (conditions_form lt L hL)
  rw [← dmt_symmForm] at hinv
  have hf := recip_spec sg setting h1 h2 S e L hd hinv S.pg (Or.inl rfl)
  obtain ⟨m1, m2⟩ := forall2_mem hf
  refine ⟨(hgr L hL hd _ (Or.inl rfl)).1, (hgr L hL hd _ (Or.inl rfl)).2, ?_⟩
  intro r hr
  obtain ⟨g, hg, g1, _⟩ := m1 r hr
  exact recip_invariant L hd g r (hinv g hg) g1

/-! ## Normalisation -/

/-- C125: the function integrates to 1 over the hemisphere of directions: the texture moves
intensity but keeps the total. -/
theorem march_integral {P : ℝ} (hP : 0 < P) : ∫ α in (0 : ℝ)..(Real.pi / 2), march P α * Real.sin α = 1 := by
  have hb : ∀ α, 0 < P ^ 2 * Real.cos α ^ 2 + Real.sin α ^ 2 / P := fun α => by
    have := base_pos hP (Real.cos α ^ 2) (sq_nonneg _) (Real.cos_sq_le_one α)
    rwa [← Real.sin_sq] at this
  have hd : ∀ α ∈ Set.uIcc (0 : ℝ) (Real.pi / 2),
      HasDerivAt (fun α => -(P * Real.cos α) / √(P ^ 2 * Real.cos α ^ 2 + Real.sin α ^ 2 / P))
        (march P α * Real.sin α) α := by
    intro α _
    have b := hb α
    have hs := Real.sqrt_pos.2 b
    have d1 : HasDerivAt (fun α => P ^ 2 * Real.cos α ^ 2 + Real.sin α ^ 2 / P)
        (P ^ 2 * (2 * Real.cos α * -Real.sin α) + 2 * Real.sin α * Real.cos α / P) α := by
      have a1 := ((Real.hasDerivAt_cos α).pow 2).const_mul (P ^ 2)
      have a2 := ((Real.hasDerivAt_sin α).pow 2).div_const P
      refine (a1.add a2).congr_deriv ?_
      norm_num
    have d2 := d1.sqrt b.ne'
    have d3 := ((Real.hasDerivAt_cos α).const_mul P).neg
    refine (d3.div d2 hs.ne').congr_deriv ?_
    have em : march P α = 1 / ((P ^ 2 * Real.cos α ^ 2 + Real.sin α ^ 2 / P) *
        √(P ^ 2 * Real.cos α ^ 2 + Real.sin α ^ 2 / P)) := by
      rw [march, Real.rpow_neg b.le, show (3 / 2 : ℝ) = 1 + 1 / 2 by norm_num, Real.rpow_add b, Real.rpow_one,
        ← Real.sqrt_eq_rpow, one_div]
    rw [em]
    have hsq := Real.sq_sqrt b.le
    have hcs := Real.sin_sq_add_cos_sq α
    have bdef : P ^ 2 * Real.cos α ^ 2 + Real.sin α ^ 2 / P = (P ^ 3 * Real.cos α ^ 2 + Real.sin α ^ 2) / P := by
      field_simp
    generalize hq : √(P ^ 2 * Real.cos α ^ 2 + Real.sin α ^ 2 / P) = q at *
    generalize hB : P ^ 2 * Real.cos α ^ 2 + Real.sin α ^ 2 / P = B at *
    have hB' : B * P = P ^ 3 * Real.cos α ^ 2 + Real.sin α ^ 2 := by rw [bdef]; field_simp
    have hq2 : B = q ^ 2 := hsq.symm
    subst hq2
    field_simp
    simp only [Pi.neg_apply]
    linear_combination Real.sin α * P * hB' + P * Real.sin α * hcs
  rw [intervalIntegral.integral_eq_sub_of_hasDerivAt hd]
  · simp [Real.sqrt_sq hP.le, hP.ne']
  · apply ContinuousOn.intervalIntegrable
    apply Continuous.continuousOn
    refine Continuous.mul ?_ Real.continuous_sin
    refine Continuous.rpow_const (by fun_prop) fun α => Or.inl (hb α).ne'

/-! ## Histories -/

theorem getTextureFactor_current {s t : MD} (e : s.getTextureFactor = some t) (m : Material) (hm : s.material = some m)
    (hl : s.hklLength = calcLength m.cell s.hkl .r) : Current t := by
  rw [MD.getTextureFactor, hm, Option.map_some, Option.some.injEq] at e
  subst e
  exact ⟨m, rfl, hl, by simp only [hl]⟩

theorem setP_current {s t : MD} {P : ℝ} (hs : Current s) (e : s.setP P = some t) : Current t ∧ t.p = P := by
  obtain ⟨m, hm, hl, hf⟩ := hs
  refine ⟨getTextureFactor_current (s := { s with p := P }) e m hm hl, ?_⟩
  rw [MD.setP, MD.getTextureFactor] at e
  simp only [hm, Option.map_some, Option.some.injEq] at e
  rw [← e]

/-- C125: setting the axis brings the factors up to date, whatever happened before. -/
theorem setHKL_current {s t : MD} {hkl : List ℝ} (e : step s (.setHKL hkl) = some t) : Current t := by
  simp only [step, MD.setHKL] at e
  split at e
  · obtain ⟨m, hm, e⟩ := Option.bind_eq_some_iff.1 e
    rw [if_pos trivial] at e
    exact getTextureFactor_current e m hm rfl
  · cases e

/-- C125: every call that does not replace the material keeps the factors up to date. -/
theorem step_current {s t : MD} (o : Op) (ho : ∀ m, o ≠ .setMaterial m) (hs : Current s) (e : step s o = some t) :
    Current t := by
  cases o with
  | setMaterial m => exact absurd rfl (ho m)
  | setHKL h => exact setHKL_current e
  | setP P => exact (setP_current hs e).1
  | factor ps =>
    obtain ⟨m, hm, _⟩ := id hs
    rw [step, MD.calcTextureFactor, hm, Option.bind_some] at e
    split at e
    · rw [Option.map_map, Option.map_eq_some_iff] at e
      obtain ⟨s', e', rfl⟩ := e
      exact (setP_current hs e').1
    · simp only [Option.map_some, Option.some.injEq] at e
      exact e ▸ hs
  | index ps =>
    obtain ⟨m, hm, _⟩ := id hs
    rw [step, MD.textureIndex, hm, Option.bind_some] at e
    split at e
    · rw [Option.map_map, Option.map_eq_some_iff] at e
      obtain ⟨s', e', rfl⟩ := e
      exact (setP_current hs e').1
    · simp only [Option.map_some, Option.some.injEq] at e
      exact e ▸ hs
  | rings ps a b c =>
    rw [step, Option.map_eq_some_iff] at e
    obtain ⟨r, e, rfl⟩ := e
    obtain ⟨m, hm, _⟩ := id hs
    rw [MD.calcPfRings, hm, Option.bind_some] at e
    obtain ⟨v, _, e⟩ := Option.bind_eq_some_iff.1 e
    obtain ⟨s', e', e⟩ := Option.bind_eq_some_iff.1 e
    simp only at e
    split at e
    · cases e
    · simp only [Option.some.injEq] at e
      subst e
      exact (setP_current hs e').1

/-- C125: from the constructor on, through any calls that do not replace the material, the
stored factors are those of the material, the axis and the parameter. -/
theorem run_current {m : Option Material} {hkl : List ℝ} {P : ℝ} {s t : MD} (e : MD.init m hkl P = some s) (ops : List Op)
    (ho : ∀ o ∈ ops, ∀ m, o ≠ .setMaterial m) (er : run s ops = some t) : Current t := by
  have h0 : Current s := by
    rw [MD.init, Option.bind_eq_some_iff] at e
    obtain ⟨s', e', e⟩ := e
    simp only [MD.setHKL] at e'
    split at e'
    · obtain ⟨m', hm, e'⟩ := Option.bind_eq_some_iff.1 e'
      simp only [Bool.false_eq_true, if_false, Option.some.injEq] at e'
      subst e'
      exact getTextureFactor_current e m' hm rfl
    · cases e'
  clear e
  induction ops generalizing s with
  | nil =>
    simp only [run, Option.some.injEq] at er
    exact er ▸ h0
  | cons o l ih =>
    obtain ⟨s', e', er⟩ := Option.bind_eq_some_iff.1 er
    exact ih (fun o' h' => ho o' (List.mem_cons_of_mem _ h')) er (step_current o (ho o List.mem_cons_self) h0 e')

/-- C125: so the factors returned for given parameters are those of the value in the
parameters, if there is one, and of the present value otherwise. -/
theorem calc_result {s : MD} (hs : Current s) (m : Material) (hm : s.material = some m) (params : Params) :
    ∃ t, s.calcTextureFactor params = some (t, m.hkls.map (reflection m s.hkl (calcLength m.cell s.hkl .r)
      ((params (pname m)).elim s.p Prod.fst))) := by
  obtain ⟨m', hm', hl, hf⟩ := hs
  rw [hm] at hm'; cases hm'
  cases hp : params (pname m) with
  | none =>
    refine ⟨s, ?_⟩
    rw [MD.calcTextureFactor, hm, Option.bind_some, hp]
    simp only [Option.elim_none]
    rw [← hf]
  | some v =>
    rw [MD.calcTextureFactor, hm, Option.bind_some, hp]
    simp only [Option.elim_some, MD.setP, MD.getTextureFactor, hm, Option.map_some, hl]
    exact ⟨_, rfl⟩

/-- C125: the rings of a two-dimensional pattern are constant, each with the factor of its
reflection for the parameter's value, and have one point less than there are whole steps. -/
theorem rings_constant {s : MD} (hs : Current s) (m : Material) (hm : s.material = some m) (params : Params) (v : ℝ × Bool)
    (hp : params (pname m) = some v) (etaMin etaMax etaStep : ℝ) (n : ℕ) (hn : (n + 1 : ℝ) * etaStep ≤ etaMax - etaMin)
    (hn' : etaMax - etaMin < (n + 2) * etaStep) (h0 : 0 < etaStep) :
    ∃ t, s.calcPfRings params etaMin etaMax etaStep true = some (t, m.hkls.map fun g =>
      (g, List.replicate n (reflection m s.hkl (calcLength m.cell s.hkl .r) v.1 g))) := by
  obtain ⟨m', hm', hl, hf⟩ := hs
  rw [hm] at hm'; cases hm'
  have hq : truncate ((etaMax - etaMin) / etaStep) = n + 1 := by
    have h1 : (n + 1 : ℝ) ≤ (etaMax - etaMin) / etaStep := (le_div_iff₀ h0).2 hn
    have h2 : (etaMax - etaMin) / etaStep < n + 2 := (div_lt_iff₀ h0).2 hn'
    have h3 : (0 : ℝ) ≤ n := Nat.cast_nonneg n
    rw [truncate, if_pos (by linarith), Int.floor_eq_iff]
    push_cast
    constructor <;> linarith
  rw [MD.calcPfRings, hm, Option.bind_some, hp, Option.bind_some]
  simp only [MD.setP, MD.getTextureFactor, hm, Option.map_some, Option.bind_some, hq, hl, add_sub_cancel_right]
  rw [if_neg (by simp [h0.ne'])]
  have e : ∀ (l : List Vec) (f : Vec → Option ℝ), (l.zip (l.map f)).map (fun hf => (hf.1, List.replicate n hf.2)) =
      l.map fun g => (g, List.replicate n (f g)) := by
    intro l f
    induction l with
    | nil => rfl
    | cons a l ih => simp [ih]
  rw [Int.toNat_natCast, e]
  exact ⟨_, rfl⟩

/-- C125: replacing the material, or editing its lattice parameters, leaves the old factors
and the old length of the axis. -/
theorem setMaterial_stale (s : MD) (m : Option Material) :
    (s.setMaterial m).factors = s.factors ∧ (s.setMaterial m).hklLength = s.hklLength := ⟨rfl, rfl⟩

/-- The cube of edge `a`. -/
def cube (a : ℝ) : Cell := ⟨a, a, a, 90, 90, 90⟩

theorem cube_dmt (a : ℝ) : (cube a).dmt = !![a ^ 2, 0, 0; 0, a ^ 2, 0; 0, 0, a ^ 2] := by
  ext i j
  fin_cases i <;> fin_cases j <;> simp [cube, dmt, ca, cb, cg, cos_90]

theorem cube_rmt {a : ℝ} (ha : a ≠ 0) : (cube a).rmt = !![1 / a ^ 2, 0, 0; 0, 1 / a ^ 2, 0; 0, 0, 1 / a ^ 2] := by
  refine Matrix.inv_eq_right_inv ?_
  rw [cube_dmt]
  ext i j
  fin_cases i <;> fin_cases j <;> simp [Matrix.mul_apply, Fin.sum_univ_three, ha]

theorem cube_dot {a : ℝ} (ha : a ≠ 0) (u v : V3) :
    u ⬝ᵥ (metric (cube a) .r *ᵥ v) = (u 0 * v 0 + u 1 * v 1 + u 2 * v 2) / a ^ 2 := by
  rw [metric, cube_rmt ha]
  simp [Matrix.mulVec, dotProduct, Fin.sum_univ_three]
  ring

/-- Cubic phases without symmetry with the reflection (1 0 0). -/
def cubic (a : ℝ) : Material := ⟨['c'], cube a, [Mat.one], [⟨1, 0, 0⟩]⟩

theorem cubic_cos2 {a : ℝ} (ha : 0 < a) (l : ℝ) (hl : l ≠ 0) : cos2Alpha (cube a) ![1, 0, 0] l ⟨1, 0, 0⟩ = some (1 / (a * l) ^ 2) := by
  have e : calcLength (cube a) (vec ⟨1, 0, 0⟩) .r = 1 / a := by
    rw [calcLength, cube_dot ha.ne']
    simp [vec, Real.sqrt_sq ha.le]
  have e2 : calcDot (cube a) (vec ⟨1, 0, 0⟩) ![1, 0, 0] .r = 1 / a ^ 2 := by
    rw [calcDot_eq, cube_dot ha.ne']
    simp [vec]
  rw [cos2Alpha]
  simp only [e, e2]
  rw [if_neg (by simp [ha.ne', hl])]
  congr 1
  field_simp

theorem cubic_len {a : ℝ} (ha : 0 < a) : calcLength (cube a) ![1, 0, 0] .r = 1 / a := by
  rw [calcLength, cube_dot ha.ne']
  simp [Real.sqrt_sq ha.le]

theorem cubic_reflection {a : ℝ} (ha : 0 < a) (l P : ℝ) (hl : l ≠ 0) :
    reflection (cubic a) ![1, 0, 0] l P ⟨1, 0, 0⟩ = term P (1 / (a * l) ^ 2) := by
  have : calcStar (cubic a).sym ⟨1, 0, 0⟩ = [⟨1, 0, 0⟩] := rfl
  rw [reflection, this]
  have e : (cubic a).cell = cube a := rfl
  simp only [List.mapM_cons, List.mapM_nil, e, cubic_cos2 ha l hl, List.length_singleton]
  generalize 1 / (a * l) ^ 2 = c
  cases h : term P c <;> simp [h]

/-- C125 fails when the lattice changes under the model: with the axis (1 0 0) of a cubic
phase and the parameter 2, the factor of (1 0 0) should be 1/8. After the edge has grown from
1 to 2 and the parameter has been set again, the model has the squared cosine 1/4 for a
vector parallel to the axis, and the factor is not 1/8, although it is for a new model. -/
theorem lattice_change_fails :
    ∃ s t u, MD.init (some (cubic 1)) [1, 0, 0] 2 = some s ∧ s.factors = [some (1 / 8)] ∧
      run s [.setMaterial (some (cubic 2)), .setP 2] = some t ∧
      MD.init (some (cubic 2)) [1, 0, 0] 2 = some u ∧ u.factors = [some (1 / 8)] ∧
      t.material = u.material ∧ t.hkl = u.hkl ∧ t.p = u.p ∧ t.factors ≠ u.factors := by
  have e8 : term 2 1 = some (1 / 8) := by
    have := term_march (P := 2) (by norm_num) 0
    rw [Real.cos_zero, one_pow] at this
    rw [this, march_axis (by norm_num)]
    norm_num
  have ini : ∀ a : ℝ, 0 < a → MD.init (some (cubic a)) [1, 0, 0] 2 =
      some ⟨some (cubic a), ![1, 0, 0], 1 / a, 2, [some (1 / 8)]⟩ := by
    intro a ha
    have l1 : calcLength (cubic a).cell ![1, 0, 0] .r = 1 / a := cubic_len ha
    simp only [MD.init, MD.setHKL, Option.bind_some, Bool.false_eq_true, if_false, Option.bind_some, MD.setP, MD.getTextureFactor,
      Option.map_some, l1]
    have : (cubic a).hkls = [⟨1, 0, 0⟩] := rfl
    rw [this]
    simp only [List.map_cons, List.map_nil]
    rw [cubic_reflection ha (1 / a) 2 (by positivity), show (1 : ℝ) / (a * (1 / a)) ^ 2 = 1 by field_simp, e8]
  refine ⟨_, ⟨some (cubic 2), ![1, 0, 0], 1 / 1, 2, [term 2 (1 / 4)]⟩, _, ini 1 one_pos, rfl, ?_, ini 2 two_pos, rfl, ?_⟩
  · simp only [run, step, MD.setMaterial, Option.bind_some, MD.setP, MD.getTextureFactor, Option.map_some]
    have : (cubic 2).hkls = [⟨1, 0, 0⟩] := rfl
    rw [this]
    simp only [List.map_cons, List.map_nil]
    rw [cubic_reflection two_pos (1 / 1) 2 (by norm_num)]
    norm_num
  · refine ⟨rfl, rfl, rfl, ?_⟩
    have hlt : (1 : ℝ) < (2 ^ 2 * (1 / 4) + (1 - 1 / 4) / 2 : ℝ) := by norm_num
    simp only [ne_eq, List.cons.injEq, and_true]
    rw [term, if_neg (by norm_num), if_pos (by norm_num), Option.some.injEq]
    norm_num
    intro e
    have : ((11 / 8 : ℝ)) ^ (-(3 / 2) : ℝ) = 1 / 8 := by rw [← e]
    rw [Real.rpow_neg (by norm_num), show (3 / 2 : ℝ) = 1 + 1 / 2 by norm_num, Real.rpow_add (by norm_num), Real.rpow_one,
      ← Real.sqrt_eq_rpow] at this
    have hs : √(11 / 8 : ℝ) ≤ 2 := by rw [Real.sqrt_le_left (by norm_num)]; norm_num
    have hs0 : 0 < √(11 / 8 : ℝ) := Real.sqrt_pos.2 (by norm_num)
    have h8 : (11 / 8 : ℝ) * √(11 / 8) = 8 := by
      rw [inv_eq_iff_eq_inv] at this
      rw [this]; norm_num
    linarith

/-- Concrete case of a history: a model with parameter 2, whose parameter is then set to 3 and
1/2; the hypotheses of the theorems about `Current` states are met, and the operators of the
phase form a group. -/
example : ∃ s t, MD.init (some (cubic 1)) [1, 0, 0] 2 = some s ∧ run s [.setP 3, .setHKL [1, 1, 0], .setP (1 / 2)] = some t ∧
    Current t ∧ t.p = 1 / 2 := by
  have e1 : ∃ s, MD.init (some (cubic 1)) [1, 0, 0] 2 = some s := by
    obtain ⟨s, _, _, h, _⟩ := lattice_change_fails
    exact ⟨s, h⟩
  obtain ⟨s, hs⟩ := e1
  have hm : s.material = some (cubic 1) := by
    simp only [MD.init, MD.setHKL, Option.bind_some, Bool.false_eq_true, if_false, MD.setP, MD.getTextureFactor,
      Option.map_some, Option.some.injEq] at hs
    rw [← hs]
  have hr : ∃ t, run s [.setP 3, .setHKL [1, 1, 0], .setP (1 / 2)] = some t ∧ t.p = 1 / 2 := by
    simp only [run, step, MD.setP, MD.setHKL, MD.getTextureFactor, hm, Option.map_some, Option.bind_some, if_true]
    exact ⟨_, rfl, rfl⟩
  obtain ⟨t, ht, hp⟩ := hr
  exact ⟨s, t, hs, ht, run_current hs _ (by simp) ht, hp⟩

/-- C125 fails for the generated parameters: they always hold 1 without variation, whatever
the model's value and the argument `vary`, so that the next calculation with them undoes the
texture: the parameter is 1 afterwards and every factor is 1. -/
theorem parameters_reset_fails (s : MD) (hs : Current s) (m : Material) (hm : s.material = some m) (h : 0 < m.cell.dmt.det)
    (hG : SpaceGroup.Spec.IsGroup Mat.mul Mat.one m.sym) (h1 : m.sym.head? = some Mat.one) (hh : s.hkl ≠ 0)
    (hg : ∀ g ∈ m.hkls, g ≠ ⟨0, 0, 0⟩) (params : Params) (vary : Bool) :
    ∃ ps t, s.getParameters params vary = some ps ∧ ps (pname m) = some (1, false) ∧
      (∀ n, n ≠ pname m → ps n = params n) ∧
      s.calcTextureFactor ps = some (t, m.hkls.map fun _ => some 1) ∧ t.p = 1 := by
  obtain ⟨m', hm', hl, hf⟩ := hs
  rw [hm] at hm'; cases hm'
  refine ⟨_, { s with p := 1, factors := m.hkls.map fun _ => some 1 }, by rw [MD.getParameters, hm]; rfl, if_pos rfl,
    fun n hn => if_neg hn, ?_⟩
  · refine ⟨?_, rfl⟩
    rw [MD.calcTextureFactor, hm, Option.bind_some]
    simp only [if_true, MD.setP, MD.getTextureFactor, hm, Option.map_some, hl]
    have : m.hkls.map (reflection m s.hkl (calcLength m.cell s.hkl .r) 1) = m.hkls.map fun _ => some 1 :=
      List.map_congr_left fun g hg' => factor_one m h hG h1 hh (hg g hg')
    rw [this]

end Hexrd.MarchDollase
