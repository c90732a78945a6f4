import Verif.Lemmas.RotLog
import Verif.Spec.Calib
import Verif.Props.Frames

/-!
Lemmas on the calibration model.
-/

namespace Hexrd.Calib

open Hexrd.Transforms Hexrd.Transforms.Spec Hexrd.Calib.Spec Matrix

/-- What is assumed of SciPy: the logarithm and the Euler angles of a rotation give the rotation back. -/
structure RotLib.Lawful (L : RotLib) : Prop where
  log : ∀ r, IsRotation r → expmapRmat (L.log r) = r
  xyz : ∀ r, IsRotation r → rmatOf .xyz (L.toEuler .xyz r) = r
  zxz : ∀ r, IsRotation r → rmatOf .zxz (L.toEuler .zxz r) = r

/-- The assumption can be met. -/
theorem exists_lawful : ∃ L : RotLib, L.Lawful := by
  classical
  have hl : ∀ r : M, ∃ e : V, IsRotation r → expmapRmat e = r := fun r => by
    by_cases h : IsRotation r
    · obtain ⟨e, he⟩ := exists_log h; exact ⟨e, fun _ => he⟩
    · exact ⟨0, fun h' => absurd h' h⟩
  have hx : ∀ r : M, ∃ e : V, IsRotation r → rmatOf .xyz e = r := fun r => by
    by_cases h : IsRotation r
    · obtain ⟨e, he⟩ := exists_xyz h; exact ⟨e, fun _ => he⟩
    · exact ⟨0, fun h' => absurd h' h⟩
  have hz : ∀ r : M, ∃ e : V, IsRotation r → rmatOf .zxz e = r := fun r => by
    by_cases h : IsRotation r
    · obtain ⟨e, he⟩ := exists_zxz h; exact ⟨e, fun _ => he⟩
    · exact ⟨0, fun h' => absurd h' h⟩
  choose l hl using hl
  choose x hx using hx
  choose z hz using hz
  exact ⟨⟨l, fun c => match c with | .zxz => z | _ => x⟩, hl, hx, hz⟩

theorem degrees_radians (x : ℝ) : degrees (radians x) = x := by
  unfold degrees radians
  have := Real.pi_ne_zero
  field_simp

theorem radians_degrees (x : ℝ) : radians (degrees x) = x := by
  unfold degrees radians
  have := Real.pi_ne_zero
  field_simp

theorem rmatOf_isRotation (c : Conv) (a : V) : IsRotation (rmatOf c a) := by
  cases c
  · exact expmapRmat_isRotation a
  · exact isRotation_mul (isRotation_mul (rz_isRotation _) (ry_isRotation _)) (rx_isRotation _)
  · exact isRotation_mul (isRotation_mul (rz_isRotation _) (rx_isRotation _)) (rz_isRotation _)

theorem tiltToRmat_isRotation (c : Conv) (a : V) : IsRotation (tiltToRmat c a) := by
  cases c
  · exact expmapRmat_isRotation a
  · simp only [tiltToRmat]; exact rmatOf_isRotation .xyz _
  · simp only [tiltToRmat]; exact rmatOf_isRotation .zxz _

/-- Writing the angles of a detector and reading them again gives the same orientation. -/
theorem setAngles_detectorAngles {L : RotLib} (hL : L.Lawful) (c : Conv) (tilt : V) :
    expmapRmat (setAngles L c (detectorAngles L c tilt)) = expmapRmat tilt := by
  cases c
  · rfl
  · simp only [setAngles, detectorAngles, radians_degrees]
    rw [hL.log _ (rmatOf_isRotation _ _)]
    exact hL.xyz _ (expmapRmat_isRotation tilt)
  · simp only [setAngles, detectorAngles, radians_degrees]
    rw [hL.log _ (rmatOf_isRotation _ _)]
    exact hL.zxz _ (expmapRmat_isRotation tilt)

theorem tiltToRmat_detectorAngles {L : RotLib} (hL : L.Lawful) (c : Conv) (tilt : V) :
    tiltToRmat c (detectorAngles L c tilt) = expmapRmat tilt := by
  cases c
  · rfl
  · simp only [tiltToRmat, detectorAngles, radians_degrees]
    exact hL.xyz _ (expmapRmat_isRotation tilt)
  · simp only [tiltToRmat, detectorAngles, radians_degrees]
    exact hL.zxz _ (expmapRmat_isRotation tilt)

/-- Orientation and position of a panel. -/
noncomputable def pose (q : Panel) : Pose := (expmapRmat q.tilt, q.tvec)

/-- Everything else calibration knows of a panel. -/
def attrs (q : Panel) : Option Distortion × Option ℝ × Option Name := (q.distortion, q.radius, q.group)

theorem moved_moved (q q' : M) (t t' : V) (x : Pose) :
    moved q' t' (moved q t x) = moved (q' * q) (q' *ᵥ t + t') x := by
  simp [moved, Matrix.mul_assoc, mulVec_add, mulVec_mulVec, add_assoc]

theorem moved_one (x : Pose) : moved 1 0 x = x := by simp [moved]

theorem rigidlyMoved_refl (l : List Pose) : RigidlyMoved l l :=
  ⟨1, 0, isRotation_one, by
    rw [List.map_congr_left (g := id) (fun x _ => moved_one x), List.map_id]⟩

theorem rigidlyMoved_trans {a b c : List Pose} (h : RigidlyMoved a b) (h' : RigidlyMoved b c) : RigidlyMoved a c := by
  obtain ⟨q, t, hq, rfl⟩ := h
  obtain ⟨q', t', hq', rfl⟩ := h'
  exact ⟨q' * q, q' *ᵥ t + t', isRotation_mul hq' hq, by
    rw [List.map_map]; exact List.map_congr_left fun x _ => moved_moved q q' t t' x⟩

theorem sameArrangement_of_rigidlyMoved {a b : List Pose} (h : RigidlyMoved a b) : SameArrangement a b := by
  obtain ⟨q, t, hq, rfl⟩ := h
  refine ⟨by simp, fun i j x y x' y' hx hy hx' hy' => ?_⟩
  simp only [List.getElem?_map, hx, hy, Option.map_some, Option.some.injEq] at hx' hy'
  subst hx' hy'
  have hq' := hq.1
  simp only [relative, moved, transpose_mul]
  rw [Matrix.mul_assoc, ← Matrix.mul_assoc qᵀ, hq', Matrix.one_mul]
  rw [add_sub_add_right_eq_sub, ← mulVec_sub, mulVec_mulVec, Matrix.mul_assoc, hq', Matrix.mul_one]

/-- The rotation of one update, and its shift. -/
noncomputable def stepRot (c : Conv) (p : CParams) (k : Constraint) : M :=
  if p.tiltVary then tiltToRmat c p.tilt * (expmapRmat k.tilt)ᵀ else 1

/-- See `stepRot`. -/
noncomputable def stepShift (p : CParams) (k : Constraint) : V := if p.tvecVary then p.tvec - k.tvec else 0

theorem stepRot_isRotation (c : Conv) (p : CParams) (k : Constraint) : IsRotation (stepRot c p k) := by
  unfold stepRot
  split
  · exact isRotation_mul (tiltToRmat_isRotation c _) (isRotation_transpose (expmapRmat_isRotation _))
  · exact isRotation_one

/-- The panels after one update. -/
noncomputable def movePanel (L : RotLib) (c : Conv) (center : V) (p : CParams) (k : Constraint) (q : Panel) : Panel :=
  ((constrainedStep L c center p ([q], k)).1.headD q)

theorem step_panels (L : RotLib) (c : Conv) (center : V) (p : CParams) (l : List Panel) (k : Constraint) :
    (constrainedStep L c center p (l, k)).1 = l.map (movePanel L c center p k) ∧
    (constrainedStep L c center p (l, k)).2 = (constrainedStep L c center p ([], k)).2 := by
  unfold movePanel constrainedStep shiftStep rotateStep
  cases p.tiltVary <;> cases p.tvecVary <;> simp

theorem pose_movePanel {L : RotLib} (hL : L.Lawful) (c : Conv) (center : V) (p : CParams) (k : Constraint) (q : Panel) :
    pose (movePanel L c center p k q) =
      moved (stepRot c p k) (center - stepRot c p k *ᵥ center + stepShift p k) (pose q) := by
  have hr : expmapRmat (L.log (tiltToRmat c p.tilt * (expmapRmat k.tilt)ᵀ * expmapRmat q.tilt)) =
      tiltToRmat c p.tilt * (expmapRmat k.tilt)ᵀ * expmapRmat q.tilt := hL.log _ (isRotation_mul
    (isRotation_mul (tiltToRmat_isRotation c _) (isRotation_transpose (expmapRmat_isRotation _)))
    (expmapRmat_isRotation _))
  unfold movePanel constrainedStep shiftStep rotateStep stepRot stepShift pose moved
  cases p.tiltVary <;> cases p.tvecVary <;> simp [hr, mulV_eq]
  · rfl
  · ext i
    rw [show (fun j => q.tvec j - center j) = q.tvec - center from rfl, mulVec_sub]
    simp; ring
  · ext i
    rw [show (fun j => q.tvec j - center j) = q.tvec - center from rfl, mulVec_sub]
    simp; ring

theorem attrs_movePanel (L : RotLib) (c : Conv) (center : V) (p : CParams) (k : Constraint) (q : Panel) :
    attrs (movePanel L c center p k q) = attrs q := by
  unfold movePanel constrainedStep shiftStep rotateStep attrs
  cases p.tiltVary <;> cases p.tvecVary <;> simp

theorem group_movePanel (L : RotLib) (c : Conv) (center : V) (p : CParams) (k : Constraint) (q : Panel) :
    (movePanel L c center p k q).group = q.group :=
  congrArg (fun x => x.2.2) (attrs_movePanel L c center p k q)

/-- The stored constraint after one update. -/
theorem step_constraint {L : RotLib} (hL : L.Lawful) (c : Conv) (center : V) (p : CParams) (l : List Panel)
    (k : Constraint) :
    expmapRmat (constrainedStep L c center p (l, k)).2.tilt =
      (if p.tiltVary then tiltToRmat c p.tilt else expmapRmat k.tilt) ∧
    (constrainedStep L c center p (l, k)).2.tvec = if p.tvecVary then p.tvec else k.tvec := by
  have hr := hL.log _ (tiltToRmat_isRotation c p.tilt)
  unfold constrainedStep shiftStep rotateStep
  cases p.tiltVary <;> cases p.tvecVary <;> simp [hr]

end Hexrd.Calib
