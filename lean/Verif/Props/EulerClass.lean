import Verif.Spec.EulerClass
import Mathlib.Tactic.FinCases
import Mathlib.Tactic.FieldSimp
import Mathlib.Tactic.LinearCombination

/-! # C177: rotations given by Euler angles -/
namespace Hexrd.EulerClass

theorem rot_rotation (a : Axis) (t : ℝ) : Spec.IsRotation (rot a t) := by
  have h := Real.sin_sq_add_cos_sq t
  constructor
  · ext i j
    cases a <;> fin_cases i <;> fin_cases j <;> simp [rot, Matrix.mul_apply, Fin.sum_univ_three] <;> nlinarith
  · cases a <;> simp [rot, Matrix.det_fin_three] <;> nlinarith

/-- **C177** every single rotation is the right-handed one about its axis. -/
theorem rot_sense (a : Axis) (t : ℝ) (v : Fin 3 → ℝ) : (rot a t).mulVec v = Spec.turn (Spec.dir a) t v := by
  ext i
  cases a <;> fin_cases i <;> simp [rot, Spec.turn, Spec.dir, Matrix.mulVec, dotProduct, Fin.sum_univ_three] <;> ring

/-- **C177** extrinsic angles are turns about the fixed axes, the first angle first. -/
theorem extrinsic_turns (a b c : ℝ) (i j k : Axis) (v : Fin 3 → ℝ) : (makeRmat (a, b, c) (i, j, k) true).mulVec v =
    Spec.turn (Spec.dir k) c (Spec.turn (Spec.dir j) b (Spec.turn (Spec.dir i) a v)) := by
  simp [makeRmat, ← rot_sense, Matrix.mulVec_mulVec, Matrix.mul_assoc]

theorem orderOk_iff (o : Order) : orderOk o = true ↔ o ∈ Spec.twelve := by
  obtain ⟨a, b, c⟩ := o
  cases a <;> cases b <;> cases c <;> decide

/-- **C177** an object is made exactly for the twelve orders of axes and for the two units. -/
theorem create_iff (lower : String → String) (a : Angles) (arr : Bool) (o : Order) (b : Bool) (u : String) :
    (create lower a arr o b u).isSome = true ↔ o ∈ Spec.twelve ∧ (lower u = "degrees" ∨ lower u = "radians") := by
  rw [← orderOk_iff]
  unfold create
  by_cases h : orderOk o = true <;> by_cases h1 : lower u = "degrees" <;> by_cases h2 : lower u = "radians" <;> simp [h, h1, h2]

theorem mul_rotation {m n : M} (hm : Spec.IsRotation m) (hn : Spec.IsRotation n) : Spec.IsRotation (m * n) := by
  obtain ⟨m1, m2⟩ := hm
  obtain ⟨n1, n2⟩ := hn
  refine ⟨?_, by rw [Matrix.det_mul, m2, n2, one_mul]⟩
  rw [Matrix.transpose_mul, Matrix.mul_assoc, ← Matrix.mul_assoc n, n1, Matrix.one_mul, m1]

/-- **C177** the matrix of any angles, in any order and convention, is a proper rotation. -/
theorem makeRmat_rotation (a : Angles) (o : Order) (b : Bool) : Spec.IsRotation (makeRmat a o b) := by
  unfold makeRmat
  split <;> exact mul_rotation (mul_rotation (rot_rotation _ _) (rot_rotation _ _)) (rot_rotation _ _)

/-- **C177** rotations about axes that move along are those about fixed axes in the opposite order. -/
theorem intrinsic_extrinsic (a b c : ℝ) (i j k : Axis) : makeRmat (a, b, c) (i, j, k) false = makeRmat (c, b, a) (k, j, i) true := by
  simp [makeRmat]

theorem rot_turn (a : Axis) (s t : ℝ) : rot a s * rot a t = rot a (s + t) := by
  ext i j
  cases a <;> fin_cases i <;> fin_cases j <;> simp [rot, Matrix.mul_apply, Fin.sum_univ_three, Real.sin_add, Real.cos_add] <;> ring

/-- **C177** the opposite rotation: opposite angles in the opposite order, with the same convention. -/
theorem makeRmat_inverse (a b c : ℝ) (i j k : Axis) (e : Bool) : makeRmat (a, b, c) (i, j, k) e * makeRmat (-c, -b, -a) (k, j, i) e = 1 := by
  have h0 : ∀ q, rot q 0 = 1 := by
    intro q
    ext i j
    cases q <;> fin_cases i <;> fin_cases j <;> simp [rot]
  have h : ∀ q t, rot q t * rot q (-t) = 1 := by intro q t; rw [rot_turn, add_neg_cancel, h0]
  cases e
  · show rot i a * rot j b * rot k c * (rot k (-c) * rot j (-b) * rot i (-a)) = 1
    calc _ = rot i a * (rot j b * (rot k c * rot k (-c)) * rot j (-b)) * rot i (-a) := by simp only [Matrix.mul_assoc]
      _ = 1 := by rw [h, Matrix.mul_one, h, Matrix.mul_one, h]
  · show rot k c * rot j b * rot i a * (rot i (-a) * rot j (-b) * rot k (-c)) = 1
    calc _ = rot k c * (rot j b * (rot i a * rot i (-a)) * rot j (-b)) * rot k (-c) := by simp only [Matrix.mul_assoc]
      _ = 1 := by rw [h, Matrix.mul_one, h, Matrix.mul_one, h]

theorem scale_back (a : Angles) : scale (Real.pi / 180) (scale (180 / Real.pi) a) = a ∧ scale (180 / Real.pi) (scale (Real.pi / 180) a) = a := by
  have := Real.pi_ne_zero
  obtain ⟨x, y, z⟩ := a
  constructor <;> simp only [scale, Prod.mk.injEq] <;> refine ⟨?_, ?_, ?_⟩ <;> field_simp

theorem setUnits_keeps (e e' : Euler) (u : String) (hp : Spec.Plain e) (ha : e.isArray = true) (h : setUnits e u = some e') :
    Spec.Plain e' ∧ e'.isArray = true ∧ e'.units = u ∧ getRmat e' = getRmat e := by
  unfold setUnits at h
  split at h
  · rename_i hu
    split at h
    · rename_i hne
      simp only [Option.some.injEq] at h
      subst h
      refine ⟨hu, rfl, rfl, ?_⟩
      obtain ⟨a, ar, o, ex, un⟩ := e
      simp only at ha hne
      subst ha
      rcases hu with rfl | rfl <;> rcases hp with hp | hp <;> simp only at hp <;> subst hp
      · exact absurd rfl hne
      · simp [getRmat, conversion, (scale_back a).1]
      · simp [getRmat, conversion]
      · exact absurd rfl hne
    · rename_i hne
      simp only [ne_eq, not_not] at hne
      simp only [Option.some.injEq] at h
      subst h
      exact ⟨hu, ha, rfl, by subst hne; rfl⟩
  · simp at h

/-- **C177** changing the units, any number of times, leaves the rotation as it is. -/
theorem units_keep_partial (us : List String) : ∀ e e' : Euler, Spec.Plain e → e.isArray = true → Spec.Change e e' us →
    Spec.Plain e' ∧ getRmat e' = getRmat e := by
  induction us with
  | nil =>
    intro e e' hp _ h
    simp only [Spec.Change, List.foldlM_nil, Option.pure_def, Option.some.injEq] at h
    subst h
    exact ⟨hp, rfl⟩
  | cons u us ih =>
    intro e e' hp ha h
    simp only [Spec.Change, List.foldlM_cons, Option.bind_eq_bind] at h
    cases h1 : setUnits e u with
    | none => simp [h1] at h
    | some e1 =>
      obtain ⟨p1, a1, -, r1⟩ := setUnits_keeps e e1 u hp ha h1
      simp only [h1, Option.bind_some] at h
      obtain ⟨p2, r2⟩ := ih e1 e' p1 a1 h
      exact ⟨p2, r2.trans r1⟩

/-- **C177** the two units are accepted, all others refused. -/
theorem setUnits_iff (e : Euler) (u : String) : (setUnits e u).isSome = true ↔ u = "degrees" ∨ u = "radians" := by
  unfold setUnits
  split
  · rename_i h; split <;> simpa using h
  · rename_i h; simpa using h

/-- **C177** a rotation that is set is the rotation that is read, in both units, whatever the order and the convention. -/
theorem setRmat_getRmat (asEuler : M → Order → Bool → Angles) (hc : Spec.Contract asEuler) (e : Euler) (m : M) (hm : Spec.IsRotation m)
    (ho : orderOk e.order = true) : getRmat (setRmat asEuler e m) = some m := by
  unfold getRmat setRmat
  by_cases h : e.units = "degrees"
  · simp only [h, if_true]
    rw [show conversion "radians" = Real.pi / 180 by simp [conversion], (scale_back _).1, hc m _ _ hm ho]
  · simp only [h, if_false]
    rw [hc m _ _ hm ho]

/-- **C177** what is created with plain units and an array is the rotation by these angles: in radians as they are, in degrees converted. -/
theorem create_rmat_partial (lower : String → String) (hl : lower "degrees" = "degrees" ∧ lower "radians" = "radians") (a : Angles) (o : Order)
    (b : Bool) (ho : orderOk o = true) :
    (create lower a true o b "radians").bind getRmat = some (makeRmat a o b) ∧
    (create lower a true o b "degrees").bind getRmat = some (makeRmat (scale (Real.pi / 180) a) o b) := by
  simp [create, ho, hl, getRmat, conversion]

/-- **C177 is false** for units in other letters, such as `Degrees`: they are accepted, but the angles are taken as radians, and setting
the units to `degrees` multiplies the angles. -/
theorem letters_fails (lower : String → String) (u : String) (hu : lower u = "degrees") (hne : u ≠ "degrees") (a : Angles) (o : Order) (b : Bool)
    (ho : orderOk o = true) : (create lower a true o b u).bind getRmat = some (makeRmat a o b) ∧
    ((create lower a true o b u).bind fun e => setUnits e "degrees") = some ⟨scale (180 / Real.pi) a, true, o, b, "degrees"⟩ := by
  simp [create, ho, hu, getRmat, hne, setUnits, conversion]

/-- **C177 is false** for a list of angles in degrees: it is accepted, and there is no matrix. -/
theorem list_fails (lower : String → String) (hl : lower "degrees" = "degrees") (a : Angles) (o : Order) (b : Bool) (ho : orderOk o = true) :
    (create lower a false o b "degrees").isSome = true ∧ (create lower a false o b "degrees").bind getRmat = none := by
  simp [create, ho, hl, getRmat]

/-- The order of the tilts of detectors is valid, one with an axis after itself is not. -/
example : orderOk (.x, .y, .z) = true ∧ orderOk (.z, .x, .z) = true ∧ orderOk (.x, .x, .z) = false := by decide

/-- A quarter turn about x and then about z, both fixed, takes y to z and leaves it there. -/
example : (makeRmat (Real.pi / 2, 0, Real.pi / 2) (.x, .y, .z) true).mulVec ![0, 1, 0] = ![0, 0, 1] := by
  funext i
  fin_cases i <;> simp [makeRmat, rot, Matrix.mulVec, dotProduct, Matrix.mul_apply, Fin.sum_univ_three]

end Hexrd.EulerClass
