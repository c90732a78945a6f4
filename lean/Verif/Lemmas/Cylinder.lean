import Verif.Model.Cylinder
import Verif.Spec.Cylinder
import Verif.Props.Geometry
import Mathlib.LinearAlgebra.Matrix.Adjugate

/-!
Auxiliary facts for the cylindrical detector: everything is computed in the panel's own frame.
-/

namespace Hexrd.Cylinder

open Matrix Hexrd.Transforms Hexrd.Transforms.Spec Spec

/-! ### The circle -/

theorem circle_angle {s c : ℝ} (h : s ^ 2 + c ^ 2 = 1) :
    ∃ th : ℝ, -Real.pi < th ∧ th ≤ Real.pi ∧ Real.cos th = c ∧ Real.sin th = s := by
  have h1 : -1 ≤ c := by nlinarith [sq_nonneg s]
  have h2 : c ≤ 1 := by nlinarith [sq_nonneg s]
  have hs : √(1 - c ^ 2) = |s| := by rw [← Real.sqrt_sq_eq_abs]; congr 1; linarith
  rcases le_or_gt 0 s with h0 | h0
  · exact ⟨Real.arccos c, by linarith [Real.arccos_nonneg c, Real.pi_pos], Real.arccos_le_pi c,
      Real.cos_arccos h1 h2, by rw [Real.sin_arccos, hs, abs_of_nonneg h0]⟩
  · refine ⟨-Real.arccos c, ?_, by linarith [Real.arccos_nonneg c, Real.pi_pos], ?_, ?_⟩
    · have : c ≠ -1 := by rintro rfl; nlinarith
      have h3 : Real.arccos c ≠ Real.pi := fun h => by
        have := Real.arccos_eq_pi.1 h
        exact ‹c ≠ -1› (le_antisymm this h1)
      have := lt_of_le_of_ne (Real.arccos_le_pi c) h3
      linarith
    · rw [Real.cos_neg, Real.cos_arccos h1 h2]
    · rw [Real.sin_neg, Real.sin_arccos, hs, abs_of_neg h0, neg_neg]

theorem arccos_cos_abs {th : ℝ} (h1 : -Real.pi ≤ th) (h2 : th ≤ Real.pi) : Real.arccos (Real.cos th) = |th| := by
  rcases le_or_gt 0 th with h | h
  · rw [abs_of_nonneg h, Real.arccos_cos h h2]
  · rw [abs_of_neg h, ← Real.cos_neg, Real.arccos_cos (by linarith) (by linarith)]

theorem clampOne_of_le {x : ℝ} (h : |x| ≤ 1) : clampOne x = x := by
  unfold clampOne; rw [if_neg (by linarith)]

theorem clampOne_cos (th : ℝ) : clampOne (Real.cos th) = Real.cos th := clampOne_of_le (Real.abs_cos_le_one th)

theorem signed_abs {r th : ℝ} (hr : 0 < r) (h1 : -Real.pi < th) (h2 : th ≤ Real.pi) :
    |th| * signOne (r * Real.sin th) = th := by
  unfold signOne
  rcases le_or_gt 0 th with h | h
  · have := Real.sin_nonneg_of_nonneg_of_le_pi h h2
    rw [if_neg (by nlinarith [mul_nonneg hr.le this]), abs_of_nonneg h, mul_one]
  · have := Real.sin_neg_of_neg_of_neg_pi_lt h h1
    rw [if_pos (by nlinarith), abs_of_neg h]; ring

/-! ### The panel's frame -/

/-- Coordinates of a vector in the panel's frame. -/
def fr (r : M) (v : V) : V := mulTV r v

theorem fr_ext {r : M} (h : IsRotation r) {u v : V} (e : fr r u = fr r v) : u = v := by
  have := congrArg (mulV r) e
  rwa [fr, fr, mulV_mulTV h.1, mulV_mulTV h.1] at this

theorem dot_fr {r : M} (h : IsRotation r) (u v : V) : dot u v = dot (fr r u) (fr r v) :=
  (dot_mulTV_mulTV h.1 u v).symm

theorem fr_mulV {r : M} (h : IsRotation r) (v : V) : fr r (mulV r v) = v := mulTV_mulV h.1 v

theorem cross_mulV {r : M} (h : IsRotation r) (u v : V) : cross (mulV r u) (mulV r v) = mulV r (cross u v) := by
  have hadj : r.adjugate = rᵀ := by
    have h1 : rᵀ * r = 1 := h.1
    have h2 : r.adjugate * r = 1 := by rw [adjugate_mul, h.2, one_smul]
    have h3 : r * rᵀ = 1 := rot_mul_transpose h.1
    calc r.adjugate = r.adjugate * (r * rᵀ) := by rw [h3, mul_one]
      _ = rᵀ := by rw [← mul_assoc, h2, one_mul]
  rw [adjugate_fin_three] at hadj
  have a := fun i j => congrFun (congrFun hadj i) j
  have a00 := a 0 0; have a01 := a 0 1; have a02 := a 0 2
  have a10 := a 1 0; have a11 := a 1 1; have a12 := a 1 2
  have a20 := a 2 0; have a21 := a 2 1; have a22 := a 2 2
  simp [transpose_apply] at a00 a01 a02 a10 a11 a12 a20 a21 a22
  ext i
  fin_cases i <;> simp [cross, mulV]
  · rw [← a00, ← a10, ← a20]; ring
  · rw [← a01, ← a11, ← a21]; ring
  · rw [← a02, ← a12, ← a22]; ring

variable {pn : Panel}

theorem cross_cp (h : IsRotation pn.rmat) : cross pn.caxis pn.paxis = mulV pn.rmat ![0, 0, -1] := by
  unfold Panel.caxis Panel.paxis
  rw [cross_mulV h]; congr 1; ext i; fin_cases i <;> simp [cross]

theorem cross_pc (h : IsRotation pn.rmat) : cross pn.paxis pn.caxis = mulV pn.rmat ![0, 0, 1] := by
  unfold Panel.caxis Panel.paxis
  rw [cross_mulV h]; congr 1; ext i; fin_cases i <;> simp [cross]

theorem unitNormal_eq (h : IsRotation pn.rmat) : unitNormal pn.caxis pn.paxis = mulV pn.rmat ![0, 0, -1] := by
  unfold unitNormal
  rw [cross_cp h, dot_mulV_mulV h.1]
  simp [dot]

theorem dot_c (h : IsRotation pn.rmat) (v : V) : dot v pn.caxis = fr pn.rmat v 1 := by
  unfold Panel.caxis; rw [dot_fr h, fr_mulV h]; simp [dot]

theorem dot_p (h : IsRotation pn.rmat) (v : V) : dot v pn.paxis = fr pn.rmat v 0 := by
  unfold Panel.paxis; rw [dot_fr h, fr_mulV h]; simp [dot]

theorem dot_n (h : IsRotation pn.rmat) (v : V) : dot v (mulV pn.rmat ![0, 0, -1]) = -fr pn.rmat v 2 := by
  rw [dot_fr h, fr_mulV h]; simp [dot]

theorem fr_lin (r : M) (a b : ℝ) (u v : V) (i : Fin 3) :
    fr r (fun j => a * u j + b * v j) i = a * fr r u i + b * fr r v i := by
  fin_cases i <;> simp [fr, mulTV] <;> ring

theorem fr_sub (r : M) (u v : V) (i : Fin 3) : fr r (fun j => u j - v j) i = fr r u i - fr r v i := by
  fin_cases i <;> simp [fr, mulTV] <;> ring

theorem fr_smul (r : M) (a : ℝ) (u : V) (i : Fin 3) : fr r (fun j => a * u j) i = a * fr r u i := by
  fin_cases i <;> simp [fr, mulTV] <;> ring

/-- The vector from the crystal to the centre of the panel. -/
def toPanel (pn : Panel) (ts tc : V) (rs : M) : V := fun i => pn.tvec i - (ts i + mulV rs tc i)

/-- The point of the cylinder axis, in the panel's frame. -/
theorem fr_delta (h : IsRotation pn.rmat) (ts tc : V) (rs : M) (i : Fin 3) :
    fr pn.rmat (delta (mulV pn.rmat ![0, 0, -1]) pn.tvec pn.radius ts tc rs) i =
      fr pn.rmat (toPanel pn ts tc rs) i + (if i = 2 then pn.radius else 0) := by
  have e : delta (mulV pn.rmat ![0, 0, -1]) pn.tvec pn.radius ts tc rs =
      fun j => 1 * toPanel pn ts tc rs j + (-pn.radius) * mulV pn.rmat ![0, 0, -1] j := by
    ext j; simp only [delta, toPanel]; ring
  rw [e, fr_lin, fr_mulV h]
  fin_cases i <;> simp

/-- The bent sheet in the panel's frame. -/
theorem fr_warp (h : IsRotation pn.rmat) (xy : ℝ × ℝ) (ts tc : V) (rs : M) (i : Fin 3) :
    fr pn.rmat (cartToDvec pn xy ts rs tc) i = fr pn.rmat (toPanel pn ts tc rs) i +
      (![pn.radius * Real.sin (xy.1 / pn.radius), xy.2, pn.radius * (1 - Real.cos (xy.1 / pn.radius))] : V) i := by
  have e : cartToDvec pn xy ts rs tc = fun j => 1 * toPanel pn ts tc rs j + 1 * mulV pn.rmat
      ![pn.radius * Real.sin (xy.1 / pn.radius), xy.2, pn.radius * (1 - Real.cos (xy.1 / pn.radius))] j := by
    ext j
    simp only [cartToDvec, warp, cross_pc h, toPanel]
    simp only [Panel.caxis, Panel.paxis]
    fin_cases j <;> simp [mulV] <;> ring
  rw [e, fr_lin, fr_mulV h]; ring

end Hexrd.Cylinder
