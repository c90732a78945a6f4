import Verif.Lemmas.Laue
import Verif.Props.Quat
import Mathlib.Tactic.IntervalCases

/-!
# The quaternions of the Laue groups (C35)
-/
namespace Hexrd.Rotations

open Quat Spec Matrix

/-- The number of rotations in each Laue group (International Tables). -/
def laueOrder : LaueTag → ℕ
  | .ci => 1
  | .s2 => 1
  | .c2h => 2
  | .d2h => 4
  | .vh => 4
  | .c4h => 4
  | .d4h => 8
  | .c3i => 3
  | .s6 => 3
  | .d3d => 6
  | .c6h => 6
  | .d6h => 12
  | .th => 12
  | .oh => 24

/-- C35: for every tag the quaternions are a group of rotations, all different, and as many as the
Laue group has. -/
theorem laue_group (sigma : ℕ → ℝ) (hs : ∀ i, sigma i = 1 ∨ sigma i = -1) (tag : LaueTag) :
    IsRotGroup (quatOfLaueGroup sigma tag) ∧
      (quatOfLaueGroup sigma tag).Pairwise (fun p q => ¬ SameUpToSign p q) ∧
      (quatOfLaueGroup sigma tag).length = laueOrder tag := by
  have n2 : ∀ n : ℤ, (2 : ℤ) ≠ n * n := by
    intro n h
    have h1 : n ≤ 1 := by nlinarith
    have h2 : -1 ≤ n := by nlinarith
    interval_cases n <;> omega
  have n3 : ∀ n : ℤ, (3 : ℤ) ≠ n * n := by
    intro n h
    have h1 : n ≤ 1 := by nlinarith
    have h2 : -1 ≤ n := by nlinarith
    interval_cases n <;> omega
  rw [← and_assoc]
  refine ⟨?_, by unfold quatOfLaueGroup; rw [List.length_mapIdx]; cases tag <;> rfl⟩
  cases tag
  · exact group_congr (forall2_ci sigma hs) (table_group _ n2 table_ci_ok)
  · exact group_congr (forall2_ci sigma hs) (table_group _ n2 table_ci_ok)
  · exact group_congr (forall2_c2h sigma hs) (table_group _ n2 table_c2h_ok)
  · exact group_congr (forall2_d2h sigma hs) (table_group _ n2 table_d2h_ok)
  · exact group_congr (forall2_d2h sigma hs) (table_group _ n2 table_d2h_ok)
  · exact group_congr (forall2_c4h sigma hs) (table_group _ n2 table_c4h_ok)
  · exact group_congr (forall2_d4h sigma hs) (table_group _ n2 table_d4h_ok)
  · exact group_congr (forall2_c3i sigma hs) (table_group _ n3 table_c3i_ok)
  · exact group_congr (forall2_c3i sigma hs) (table_group _ n3 table_c3i_ok)
  · exact group_congr (forall2_d3d sigma hs) (table_group _ n3 table_d3d_ok)
  · exact group_congr (forall2_c6h sigma hs) (table_group _ n3 table_c6h_ok)
  · exact group_congr (forall2_d6h sigma hs) (table_group _ n3 table_d6h_ok)
  · exact group_congr (forall2_th sigma hs) (table_group _ n2 table_th_ok)
  · exact group_congr (forall2_oh sigma hs) (table_group _ n2 table_oh_ok)

/-- Half a turn about x, y and z; a quarter turn, a third of a turn and a sixth of a turn about z;
a third of a turn about the body diagonal. -/
def turn2x : Matrix (Fin 3) (Fin 3) ℝ := !![1, 0, 0; 0, -1, 0; 0, 0, -1]
@[inherit_doc turn2x] def turn2y : Matrix (Fin 3) (Fin 3) ℝ := !![-1, 0, 0; 0, 1, 0; 0, 0, -1]
@[inherit_doc turn2x] def turn2z : Matrix (Fin 3) (Fin 3) ℝ := !![-1, 0, 0; 0, -1, 0; 0, 0, 1]
@[inherit_doc turn2x] def turn4z : Matrix (Fin 3) (Fin 3) ℝ := !![0, -1, 0; 1, 0, 0; 0, 0, 1]
@[inherit_doc turn2x] noncomputable def turn3z : Matrix (Fin 3) (Fin 3) ℝ :=
  !![-(1 / 2), -(√3 / 2), 0; √3 / 2, -(1 / 2), 0; 0, 0, 1]
@[inherit_doc turn2x] noncomputable def turn6z : Matrix (Fin 3) (Fin 3) ℝ :=
  !![1 / 2, -(√3 / 2), 0; √3 / 2, 1 / 2, 0; 0, 0, 1]
@[inherit_doc turn2x] def turn3d : Matrix (Fin 3) (Fin 3) ℝ := !![0, 0, 1; 1, 0, 0; 0, 1, 0]

/-- Generators of the rotations of each Laue group, in the axes of Nye. -/
noncomputable def generators : LaueTag → List (Matrix (Fin 3) (Fin 3) ℝ)
  | .ci => []
  | .s2 => []
  | .c2h => [turn2y]
  | .d2h => [turn2x, turn2z]
  | .vh => [turn2x, turn2z]
  | .c4h => [turn4z]
  | .d4h => [turn4z, turn2x]
  | .c3i => [turn3z]
  | .s6 => [turn3z]
  | .d3d => [turn3z, turn2x]
  | .c6h => [turn6z]
  | .d6h => [turn6z, turn2x]
  | .th => [turn2z, turn3d]
  | .oh => [turn4z, turn3d]

/-- Entries of a rotation matrix with `√2` and `√3`. -/
macro "laue_mat" : tactic => `(tactic| (ext i j; fin_cases i <;> fin_cases j <;>
  simp [rotMat, evalQ, turn2x, turn2y, turn2z, turn4z, turn3z, turn6z, turn3d, Zsqrtd.toReal] <;> grind))

/-- C35: the groups contain the generators of their Laue group. As they have the right number of elements
(`laue_group`), they are the Laue groups. -/
theorem laue_generators (sigma : ℕ → ℝ) (hs : ∀ i, sigma i = 1 ∨ sigma i = -1) (tag : LaueTag) :
    ∀ M ∈ generators tag, ∃ q ∈ quatOfLaueGroup sigma tag, rotMat q = M := by
  have key : ∀ {d : ℤ} {h : 0 ≤ d} {L : List (Quat ℝ)} {T : List (Quat (ℤ√d))} (A : Quat (ℤ√d))
      (M : Matrix (Fin 3) (Fin 3) ℝ), List.Forall₂ SameUpToSign L (T.map (evalQ h)) → A ∈ T →
      rotMat (evalQ h A) = M → ∃ q ∈ L, rotMat q = M := by
    intro d h L T A M hf hA hM
    have f2 : ∀ q ∈ T.map (evalQ h), ∃ p ∈ L, SameUpToSign p q := by
      generalize T.map (evalQ h) = T' at hf
      induction hf with
      | nil => simp
      | cons a _ ih =>
        intro q hq
        rcases List.mem_cons.1 hq with rfl | hq
        · exact ⟨_, List.mem_cons_self, a⟩
        · obtain ⟨p, hp, hs⟩ := ih q hq; exact ⟨p, List.mem_cons_of_mem _ hp, hs⟩
    obtain ⟨p, hp, hs⟩ := f2 (evalQ h A) (List.mem_map.2 ⟨A, hA, rfl⟩)
    exact ⟨p, hp, by rw [rotMat_same hs, hM]⟩
  obtain ⟨s2, s3, -, -⟩ := sqrt_facts
  cases tag <;> simp only [generators, List.mem_cons, List.not_mem_nil, or_false, false_imp_iff, implies_true,
    forall_eq_or_imp, forall_eq]
  · exact key ⟨0, 0, 2, 0⟩ _ (forall2_c2h sigma hs) (by decide) (by laue_mat)
  · exact ⟨key ⟨0, 2, 0, 0⟩ _ (forall2_d2h sigma hs) (by decide) (by laue_mat),
      key ⟨0, 0, 0, 2⟩ _ (forall2_d2h sigma hs) (by decide) (by laue_mat)⟩
  · exact ⟨key ⟨0, 2, 0, 0⟩ _ (forall2_d2h sigma hs) (by decide) (by laue_mat),
      key ⟨0, 0, 0, 2⟩ _ (forall2_d2h sigma hs) (by decide) (by laue_mat)⟩
  · exact key ⟨⟨0, 1⟩, 0, 0, ⟨0, 1⟩⟩ _ (forall2_c4h sigma hs) (by decide) (by laue_mat)
  · exact ⟨key ⟨⟨0, 1⟩, 0, 0, ⟨0, 1⟩⟩ _ (forall2_d4h sigma hs) (by decide) (by laue_mat),
      key ⟨0, 2, 0, 0⟩ _ (forall2_d4h sigma hs) (by decide) (by laue_mat)⟩
  · exact key ⟨1, 0, 0, ⟨0, 1⟩⟩ _ (forall2_c3i sigma hs) (by decide) (by laue_mat)
  · exact key ⟨1, 0, 0, ⟨0, 1⟩⟩ _ (forall2_c3i sigma hs) (by decide) (by laue_mat)
  · exact ⟨key ⟨1, 0, 0, ⟨0, 1⟩⟩ _ (forall2_d3d sigma hs) (by decide) (by laue_mat),
      key ⟨0, 2, 0, 0⟩ _ (forall2_d3d sigma hs) (by decide) (by laue_mat)⟩
  · exact key ⟨⟨0, 1⟩, 0, 0, 1⟩ _ (forall2_c6h sigma hs) (by decide) (by laue_mat)
  · exact ⟨key ⟨⟨0, 1⟩, 0, 0, 1⟩ _ (forall2_d6h sigma hs) (by decide) (by laue_mat),
      key ⟨0, 2, 0, 0⟩ _ (forall2_d6h sigma hs) (by decide) (by laue_mat)⟩
  · exact ⟨key ⟨0, 0, 0, 2⟩ _ (forall2_th sigma hs) (by decide) (by laue_mat),
      key ⟨1, 1, 1, 1⟩ _ (forall2_th sigma hs) (by decide) (by laue_mat)⟩
  · exact ⟨key ⟨⟨0, 1⟩, 0, 0, ⟨0, 1⟩⟩ _ (forall2_oh sigma hs) (by decide) (by laue_mat),
      key ⟨1, 1, 1, 1⟩ _ (forall2_oh sigma hs) (by decide) (by laue_mat)⟩

/-- C35: scalar parts are never negative, unless they are zero up to rounding. -/
theorem laue_scalar (sigma : ℕ → ℝ) (tag : LaueTag) : ∀ q ∈ quatOfLaueGroup sigma tag, 0 ≤ q.w := by
  intro q hq
  unfold quatOfLaueGroup at hq
  obtain ⟨i, hi, rfl⟩ := List.mem_mapIdx.1 hq
  unfold quatOfAngleAxis
  simp only [qsmul]
  split
  · next h => rw [h, mul_zero]
  · unfold npSign
    split
    · linarith
    · linarith

/-- Non-vacuity: the signs can be chosen. -/
example : ∀ i : ℕ, (fun _ => (1 : ℝ)) i = 1 ∨ (fun _ => (1 : ℝ)) i = -1 := fun _ => Or.inl rfl

/-- C34, C51: with every Laue group, the fundamental region and the distance have the properties proved for
groups; for example the distance is zero exactly for equivalent orientations. -/
theorem laue_distance_zero (sigma : ℕ → ℝ) (hs : ∀ i, sigma i = 1 ∨ sigma i = -1) (tag : LaueTag) (p q : Quat ℝ)
    (hp : UnitQ p) (hq : UnitQ q) : quatDistance p q (quatOfLaueGroup sigma tag) = some 0 ↔
      Equivalent (quatOfLaueGroup sigma tag) p q :=
  distance_zero _ (laue_group sigma hs tag).1 p q hp hq

end Hexrd.Rotations
