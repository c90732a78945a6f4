import Verif.Model.Laue
import Verif.Lemmas.Quat
import Mathlib.NumberTheory.Zsqrtd.ToReal
import Mathlib.Tactic.NormNum

/-!
# Exact tables of the Laue-group quaternions

Twice the components of the quaternions are in `ℤ[√2]` or `ℤ[√3]`, where products can be decided.
-/
set_option linter.unusedTactic false
set_option linter.unreachableTactic false
set_option linter.unnecessarySeqFocus false

namespace Hexrd.Rotations

open Quat Spec

/-- The real quaternion with the given double components. -/
noncomputable def evalQ {d : ℤ} (h : 0 ≤ d) (A : Quat (ℤ√d)) : Quat ℝ :=
  ⟨Zsqrtd.toReal h A.w / 2, Zsqrtd.toReal h A.x / 2, Zsqrtd.toReal h A.y / 2, Zsqrtd.toReal h A.z / 2⟩

/-- A table of double components is a group, decidable. -/
def TableOk {d : ℤ} (L : List (Quat (ℤ√d))) : Prop :=
  (∀ A ∈ L, norm2 A = 4) ∧ (∃ A ∈ L, A = ⟨2, 0, 0, 0⟩) ∧
  (∀ A ∈ L, ∀ B ∈ L, ∃ C ∈ L, qmul A B = qsmul 2 C ∨ qmul A B = qneg (qsmul 2 C)) ∧
  (∀ A ∈ L, ∃ C ∈ L, Spec.conj A = C ∨ Spec.conj A = qneg C) ∧
  L.Pairwise fun A B => A ≠ B ∧ A ≠ qneg B

instance {d : ℤ} (L : List (Quat (ℤ√d))) : Decidable (TableOk L) := by unfold TableOk; infer_instance

/-- Double components of the group ci. -/
def table_ci : List (Quat (ℤ√2)) :=
  [⟨⟨2, 0⟩, ⟨0, 0⟩, ⟨0, 0⟩, ⟨0, 0⟩⟩]

theorem table_ci_ok : TableOk table_ci := by decide +kernel

/-- Double components of the group c2h. -/
def table_c2h : List (Quat (ℤ√2)) :=
  [⟨⟨2, 0⟩, ⟨0, 0⟩, ⟨0, 0⟩, ⟨0, 0⟩⟩,
   ⟨⟨0, 0⟩, ⟨0, 0⟩, ⟨2, 0⟩, ⟨0, 0⟩⟩]

theorem table_c2h_ok : TableOk table_c2h := by decide +kernel

/-- Double components of the group d2h. -/
def table_d2h : List (Quat (ℤ√2)) :=
  [⟨⟨2, 0⟩, ⟨0, 0⟩, ⟨0, 0⟩, ⟨0, 0⟩⟩,
   ⟨⟨0, 0⟩, ⟨2, 0⟩, ⟨0, 0⟩, ⟨0, 0⟩⟩,
   ⟨⟨0, 0⟩, ⟨0, 0⟩, ⟨2, 0⟩, ⟨0, 0⟩⟩,
   ⟨⟨0, 0⟩, ⟨0, 0⟩, ⟨0, 0⟩, ⟨2, 0⟩⟩]

theorem table_d2h_ok : TableOk table_d2h := by decide +kernel

/-- Double components of the group c4h. -/
def table_c4h : List (Quat (ℤ√2)) :=
  [⟨⟨2, 0⟩, ⟨0, 0⟩, ⟨0, 0⟩, ⟨0, 0⟩⟩,
   ⟨⟨0, 1⟩, ⟨0, 0⟩, ⟨0, 0⟩, ⟨0, 1⟩⟩,
   ⟨⟨0, 0⟩, ⟨0, 0⟩, ⟨0, 0⟩, ⟨2, 0⟩⟩,
   ⟨⟨0, -1⟩, ⟨0, 0⟩, ⟨0, 0⟩, ⟨0, 1⟩⟩]

theorem table_c4h_ok : TableOk table_c4h := by decide +kernel

/-- Double components of the group d4h. -/
def table_d4h : List (Quat (ℤ√2)) :=
  [⟨⟨2, 0⟩, ⟨0, 0⟩, ⟨0, 0⟩, ⟨0, 0⟩⟩,
   ⟨⟨0, 1⟩, ⟨0, 0⟩, ⟨0, 0⟩, ⟨0, 1⟩⟩,
   ⟨⟨0, 0⟩, ⟨0, 0⟩, ⟨0, 0⟩, ⟨2, 0⟩⟩,
   ⟨⟨0, -1⟩, ⟨0, 0⟩, ⟨0, 0⟩, ⟨0, 1⟩⟩,
   ⟨⟨0, 0⟩, ⟨2, 0⟩, ⟨0, 0⟩, ⟨0, 0⟩⟩,
   ⟨⟨0, 0⟩, ⟨0, 0⟩, ⟨2, 0⟩, ⟨0, 0⟩⟩,
   ⟨⟨0, 0⟩, ⟨0, 1⟩, ⟨0, 1⟩, ⟨0, 0⟩⟩,
   ⟨⟨0, 0⟩, ⟨0, -1⟩, ⟨0, 1⟩, ⟨0, 0⟩⟩]

theorem table_d4h_ok : TableOk table_d4h := by decide +kernel

/-- Double components of the group c3i. -/
def table_c3i : List (Quat (ℤ√3)) :=
  [⟨⟨2, 0⟩, ⟨0, 0⟩, ⟨0, 0⟩, ⟨0, 0⟩⟩,
   ⟨⟨1, 0⟩, ⟨0, 0⟩, ⟨0, 0⟩, ⟨0, 1⟩⟩,
   ⟨⟨-1, 0⟩, ⟨0, 0⟩, ⟨0, 0⟩, ⟨0, 1⟩⟩]

theorem table_c3i_ok : TableOk table_c3i := by decide +kernel

/-- Double components of the group d3d. -/
def table_d3d : List (Quat (ℤ√3)) :=
  [⟨⟨2, 0⟩, ⟨0, 0⟩, ⟨0, 0⟩, ⟨0, 0⟩⟩,
   ⟨⟨1, 0⟩, ⟨0, 0⟩, ⟨0, 0⟩, ⟨0, 1⟩⟩,
   ⟨⟨-1, 0⟩, ⟨0, 0⟩, ⟨0, 0⟩, ⟨0, 1⟩⟩,
   ⟨⟨0, 0⟩, ⟨2, 0⟩, ⟨0, 0⟩, ⟨0, 0⟩⟩,
   ⟨⟨0, 0⟩, ⟨-1, 0⟩, ⟨0, 1⟩, ⟨0, 0⟩⟩,
   ⟨⟨0, 0⟩, ⟨-1, 0⟩, ⟨0, -1⟩, ⟨0, 0⟩⟩]

theorem table_d3d_ok : TableOk table_d3d := by decide +kernel

/-- Double components of the group c6h. -/
def table_c6h : List (Quat (ℤ√3)) :=
  [⟨⟨2, 0⟩, ⟨0, 0⟩, ⟨0, 0⟩, ⟨0, 0⟩⟩,
   ⟨⟨0, 1⟩, ⟨0, 0⟩, ⟨0, 0⟩, ⟨1, 0⟩⟩,
   ⟨⟨1, 0⟩, ⟨0, 0⟩, ⟨0, 0⟩, ⟨0, 1⟩⟩,
   ⟨⟨0, 0⟩, ⟨0, 0⟩, ⟨0, 0⟩, ⟨2, 0⟩⟩,
   ⟨⟨-1, 0⟩, ⟨0, 0⟩, ⟨0, 0⟩, ⟨0, 1⟩⟩,
   ⟨⟨0, -1⟩, ⟨0, 0⟩, ⟨0, 0⟩, ⟨1, 0⟩⟩]

theorem table_c6h_ok : TableOk table_c6h := by decide +kernel

/-- Double components of the group d6h. -/
def table_d6h : List (Quat (ℤ√3)) :=
  [⟨⟨2, 0⟩, ⟨0, 0⟩, ⟨0, 0⟩, ⟨0, 0⟩⟩,
   ⟨⟨0, 1⟩, ⟨0, 0⟩, ⟨0, 0⟩, ⟨1, 0⟩⟩,
   ⟨⟨1, 0⟩, ⟨0, 0⟩, ⟨0, 0⟩, ⟨0, 1⟩⟩,
   ⟨⟨0, 0⟩, ⟨0, 0⟩, ⟨0, 0⟩, ⟨2, 0⟩⟩,
   ⟨⟨-1, 0⟩, ⟨0, 0⟩, ⟨0, 0⟩, ⟨0, 1⟩⟩,
   ⟨⟨0, -1⟩, ⟨0, 0⟩, ⟨0, 0⟩, ⟨1, 0⟩⟩,
   ⟨⟨0, 0⟩, ⟨2, 0⟩, ⟨0, 0⟩, ⟨0, 0⟩⟩,
   ⟨⟨0, 0⟩, ⟨-1, 0⟩, ⟨0, 1⟩, ⟨0, 0⟩⟩,
   ⟨⟨0, 0⟩, ⟨-1, 0⟩, ⟨0, -1⟩, ⟨0, 0⟩⟩,
   ⟨⟨0, 0⟩, ⟨0, 1⟩, ⟨1, 0⟩, ⟨0, 0⟩⟩,
   ⟨⟨0, 0⟩, ⟨0, 0⟩, ⟨2, 0⟩, ⟨0, 0⟩⟩,
   ⟨⟨0, 0⟩, ⟨0, -1⟩, ⟨1, 0⟩, ⟨0, 0⟩⟩]

theorem table_d6h_ok : TableOk table_d6h := by decide +kernel

/-- Double components of the group th. -/
def table_th : List (Quat (ℤ√2)) :=
  [⟨⟨2, 0⟩, ⟨0, 0⟩, ⟨0, 0⟩, ⟨0, 0⟩⟩,
   ⟨⟨0, 0⟩, ⟨2, 0⟩, ⟨0, 0⟩, ⟨0, 0⟩⟩,
   ⟨⟨0, 0⟩, ⟨0, 0⟩, ⟨2, 0⟩, ⟨0, 0⟩⟩,
   ⟨⟨0, 0⟩, ⟨0, 0⟩, ⟨0, 0⟩, ⟨2, 0⟩⟩,
   ⟨⟨1, 0⟩, ⟨1, 0⟩, ⟨1, 0⟩, ⟨1, 0⟩⟩,
   ⟨⟨-1, 0⟩, ⟨1, 0⟩, ⟨1, 0⟩, ⟨1, 0⟩⟩,
   ⟨⟨1, 0⟩, ⟨-1, 0⟩, ⟨1, 0⟩, ⟨1, 0⟩⟩,
   ⟨⟨-1, 0⟩, ⟨-1, 0⟩, ⟨1, 0⟩, ⟨1, 0⟩⟩,
   ⟨⟨1, 0⟩, ⟨-1, 0⟩, ⟨-1, 0⟩, ⟨1, 0⟩⟩,
   ⟨⟨-1, 0⟩, ⟨-1, 0⟩, ⟨-1, 0⟩, ⟨1, 0⟩⟩,
   ⟨⟨1, 0⟩, ⟨1, 0⟩, ⟨-1, 0⟩, ⟨1, 0⟩⟩,
   ⟨⟨-1, 0⟩, ⟨1, 0⟩, ⟨-1, 0⟩, ⟨1, 0⟩⟩]

theorem table_th_ok : TableOk table_th := by decide +kernel

/-- Double components of the group oh. -/
def table_oh : List (Quat (ℤ√2)) :=
  [⟨⟨2, 0⟩, ⟨0, 0⟩, ⟨0, 0⟩, ⟨0, 0⟩⟩,
   ⟨⟨0, 1⟩, ⟨0, 1⟩, ⟨0, 0⟩, ⟨0, 0⟩⟩,
   ⟨⟨0, 0⟩, ⟨2, 0⟩, ⟨0, 0⟩, ⟨0, 0⟩⟩,
   ⟨⟨0, -1⟩, ⟨0, 1⟩, ⟨0, 0⟩, ⟨0, 0⟩⟩,
   ⟨⟨0, 1⟩, ⟨0, 0⟩, ⟨0, 1⟩, ⟨0, 0⟩⟩,
   ⟨⟨0, 0⟩, ⟨0, 0⟩, ⟨2, 0⟩, ⟨0, 0⟩⟩,
   ⟨⟨0, -1⟩, ⟨0, 0⟩, ⟨0, 1⟩, ⟨0, 0⟩⟩,
   ⟨⟨0, 1⟩, ⟨0, 0⟩, ⟨0, 0⟩, ⟨0, 1⟩⟩,
   ⟨⟨0, 0⟩, ⟨0, 0⟩, ⟨0, 0⟩, ⟨2, 0⟩⟩,
   ⟨⟨0, -1⟩, ⟨0, 0⟩, ⟨0, 0⟩, ⟨0, 1⟩⟩,
   ⟨⟨1, 0⟩, ⟨1, 0⟩, ⟨1, 0⟩, ⟨1, 0⟩⟩,
   ⟨⟨-1, 0⟩, ⟨1, 0⟩, ⟨1, 0⟩, ⟨1, 0⟩⟩,
   ⟨⟨1, 0⟩, ⟨-1, 0⟩, ⟨1, 0⟩, ⟨1, 0⟩⟩,
   ⟨⟨-1, 0⟩, ⟨-1, 0⟩, ⟨1, 0⟩, ⟨1, 0⟩⟩,
   ⟨⟨1, 0⟩, ⟨-1, 0⟩, ⟨-1, 0⟩, ⟨1, 0⟩⟩,
   ⟨⟨-1, 0⟩, ⟨-1, 0⟩, ⟨-1, 0⟩, ⟨1, 0⟩⟩,
   ⟨⟨1, 0⟩, ⟨1, 0⟩, ⟨-1, 0⟩, ⟨1, 0⟩⟩,
   ⟨⟨-1, 0⟩, ⟨1, 0⟩, ⟨-1, 0⟩, ⟨1, 0⟩⟩,
   ⟨⟨0, 0⟩, ⟨0, 1⟩, ⟨0, 1⟩, ⟨0, 0⟩⟩,
   ⟨⟨0, 0⟩, ⟨0, -1⟩, ⟨0, 1⟩, ⟨0, 0⟩⟩,
   ⟨⟨0, 0⟩, ⟨0, 1⟩, ⟨0, 0⟩, ⟨0, 1⟩⟩,
   ⟨⟨0, 0⟩, ⟨0, 0⟩, ⟨0, 1⟩, ⟨0, 1⟩⟩,
   ⟨⟨0, 0⟩, ⟨0, -1⟩, ⟨0, 0⟩, ⟨0, 1⟩⟩,
   ⟨⟨0, 0⟩, ⟨0, 0⟩, ⟨0, -1⟩, ⟨0, 1⟩⟩]

theorem table_oh_ok : TableOk table_oh := by decide +kernel


theorem evalQ_mul {d : ℤ} (h : 0 ≤ d) (A B : Quat (ℤ√d)) :
    qsmul 2 (qmul (evalQ h A) (evalQ h B)) = evalQ h (qmul A B) := by
  ext <;> simp only [evalQ, qmul, qsmul, map_sub, map_add, map_mul] <;> ring

theorem evalQ_neg {d : ℤ} (h : 0 ≤ d) (A : Quat (ℤ√d)) : evalQ h (qneg A) = qneg (evalQ h A) := by
  ext <;> simp only [evalQ, qneg, map_neg] <;> ring

theorem evalQ_smul2 {d : ℤ} (h : 0 ≤ d) (A : Quat (ℤ√d)) : evalQ h (qsmul 2 A) = qsmul 2 (evalQ h A) := by
  ext <;> simp only [evalQ, qsmul, map_mul, map_ofNat] <;> ring

theorem evalQ_conj {d : ℤ} (h : 0 ≤ d) (A : Quat (ℤ√d)) : evalQ h (Spec.conj A) = Spec.conj (evalQ h A) := by
  ext <;> simp only [evalQ, Spec.conj, map_neg] <;> ring

theorem evalQ_norm {d : ℤ} (h : 0 ≤ d) (A : Quat (ℤ√d)) : 4 * norm2 (evalQ h A) = Zsqrtd.toReal h (norm2 A) := by
  simp only [evalQ, norm2, map_add, map_pow]; ring

theorem evalQ_inj {d : ℤ} (h : 0 ≤ d) (hd : ∀ n : ℤ, d ≠ n * n) {A B : Quat (ℤ√d)}
    (e : evalQ h A = evalQ h B) : A = B := by
  have i := Zsqrtd.toReal_injective h hd
  simp only [evalQ, Quat.mk.injEq] at e
  ext1 <;> apply i <;> linarith

theorem qsmul2_inj {p q : Quat ℝ} (h : qsmul 2 p = qsmul 2 q) : p = q := by
  simp only [qsmul, Quat.mk.injEq] at h
  ext <;> linarith

/-- A good table gives a rotation group of distinct rotations. -/
theorem table_group {d : ℤ} (h : 0 ≤ d) (hd : ∀ n : ℤ, d ≠ n * n) {L : List (Quat (ℤ√d))} (hL : TableOk L) :
    IsRotGroup (L.map (evalQ h)) ∧ (L.map (evalQ h)).Pairwise fun p q => ¬ SameUpToSign p q := by
  obtain ⟨h1, h2, h3, h4, h5⟩ := hL
  refine ⟨⟨?_, ?_, ?_, ?_⟩, ?_⟩
  · intro g hg
    obtain ⟨A, hA, rfl⟩ := List.mem_map.1 hg
    have := evalQ_norm h A
    rw [h1 A hA, map_ofNat] at this
    unfold UnitQ; linarith
  · obtain ⟨A, hA, rfl⟩ := h2
    refine ⟨_, List.mem_map.2 ⟨_, hA, rfl⟩, Or.inl ?_⟩
    ext <;> simp [evalQ, qone]
  · intro g hg k hk
    obtain ⟨A, hA, rfl⟩ := List.mem_map.1 hg
    obtain ⟨B, hB, rfl⟩ := List.mem_map.1 hk
    obtain ⟨C, hC, hs⟩ := h3 A hA B hB
    refine ⟨_, List.mem_map.2 ⟨C, hC, rfl⟩, ?_⟩
    have e := evalQ_mul h A B
    rcases hs with hs | hs <;> rw [hs] at e
    · left; rw [evalQ_smul2] at e; exact (qsmul2_inj e).symm
    · right
      rw [evalQ_neg, evalQ_smul2] at e
      have e' : qsmul 2 (qneg (qmul (evalQ h A) (evalQ h B))) = qsmul 2 (evalQ h C) := by
        have : qsmul (2 : ℝ) (qneg (qmul (evalQ h A) (evalQ h B))) = qneg (qsmul 2 (qmul (evalQ h A) (evalQ h B))) := by
          ext <;> simp [qsmul, qneg]
        rw [this, e, neg_neg']
      exact (qsmul2_inj e').symm
  · intro g hg
    obtain ⟨A, hA, rfl⟩ := List.mem_map.1 hg
    obtain ⟨C, hC, hs⟩ := h4 A hA
    refine ⟨_, List.mem_map.2 ⟨C, hC, rfl⟩, ?_⟩
    rw [← evalQ_conj]
    rcases hs with hs | hs
    · left; rw [hs]
    · right; rw [hs, evalQ_neg, neg_neg']
  · rw [List.pairwise_map]
    refine h5.imp ?_
    rintro A B ⟨ha, hb⟩ (e | e)
    · exact ha (evalQ_inj h hd e)
    · rw [← evalQ_neg] at e; exact hb (evalQ_inj h hd e)

/-- Being a group of distinct rotations does not depend on the signs of the quaternions. -/
theorem group_congr {L M : List (Quat ℝ)} (h : List.Forall₂ SameUpToSign M L)
    (hL : IsRotGroup L ∧ L.Pairwise fun p q => ¬ SameUpToSign p q) :
    IsRotGroup M ∧ M.Pairwise fun p q => ¬ SameUpToSign p q := by
  have f1 : ∀ p ∈ M, ∃ q ∈ L, SameUpToSign p q := by
    clear hL
    induction h with
    | nil => simp
    | cons a _ ih =>
      intro p hp
      rcases List.mem_cons.1 hp with rfl | hp
      · exact ⟨_, List.mem_cons_self, a⟩
      · obtain ⟨q, hq, hs⟩ := ih p hp; exact ⟨q, List.mem_cons_of_mem _ hq, hs⟩
  have f2 : ∀ q ∈ L, ∃ p ∈ M, SameUpToSign p q := by
    clear hL f1
    induction h with
    | nil => simp
    | cons a _ ih =>
      intro q hq
      rcases List.mem_cons.1 hq with rfl | hq
      · exact ⟨_, List.mem_cons_self, a⟩
      · obtain ⟨p, hp, hs⟩ := ih q hq; exact ⟨p, List.mem_cons_of_mem _ hp, hs⟩
  obtain ⟨⟨u, o, m, i⟩, pw⟩ := hL
  refine ⟨⟨?_, ?_, ?_, ?_⟩, ?_⟩
  · intro g hg
    obtain ⟨q, hq, hs⟩ := f1 g hg
    unfold UnitQ; rw [sameUpToSign_norm hs]; exact u q hq
  · obtain ⟨e, he, hs⟩ := o
    obtain ⟨p, hp, ht⟩ := f2 e he
    exact ⟨p, hp, sameUpToSign_trans ht hs⟩
  · intro g hg k hk
    obtain ⟨g', hg', hs⟩ := f1 g hg
    obtain ⟨k', hk', ht⟩ := f1 k hk
    obtain ⟨c, hc, hu⟩ := m g' hg' k' hk'
    obtain ⟨p, hp, hv⟩ := f2 c hc
    refine ⟨p, hp, sameUpToSign_trans hv (sameUpToSign_trans hu (sameUpToSign_symm ?_))⟩
    exact sameUpToSign_trans (sameUpToSign_mul hs k).1 (sameUpToSign_mul ht g').2
  · intro g hg
    obtain ⟨g', hg', hs⟩ := f1 g hg
    obtain ⟨c, hc, hu⟩ := i g' hg'
    obtain ⟨p, hp, hv⟩ := f2 c hc
    exact ⟨p, hp, sameUpToSign_trans hv (sameUpToSign_trans hu (sameUpToSign_symm (same_conj hs)))⟩
  · clear u o m i f1 f2
    induction h with
    | nil => simp
    | @cons a b l₁ l₂ hab hl ih =>
      rw [List.pairwise_cons] at pw ⊢
      refine ⟨fun p hp hs => ?_, ih pw.2⟩
      obtain ⟨q, hq, ht⟩ : ∃ q ∈ l₂, SameUpToSign p q := by
        clear ih pw
        induction hl with
        | nil => simp at hp
        | cons a _ ih =>
          rcases List.mem_cons.1 hp with rfl | hp
          · exact ⟨_, List.mem_cons_self, a⟩
          · obtain ⟨q, hq, hs⟩ := ih hp; exact ⟨q, List.mem_cons_of_mem _ hq, hs⟩
      exact pw.1 q hq (sameUpToSign_trans (sameUpToSign_symm hab) (sameUpToSign_trans hs ht))

/-- The quaternion of an angle and an axis of length `n`. -/
theorem quatOfAngleAxis_same {sigma a x y z : ℝ} (hs : sigma = 1 ∨ sigma = -1) (ha : 0 ≤ a) (c s n X Y Z : ℝ)
    (hc : Real.cos (a / 2) = c) (hsn : Real.sin (a / 2) = s) (hn : 0 < n) (hn1 : tenEps < n)
    (hn2 : n * n = x ^ 2 + y ^ 2 + z ^ 2) (hX : X * n = s * x) (hY : Y * n = s * y) (hZ : Z * n = s * z) :
    SameUpToSign (quatOfAngleAxis sigma a x y z) ⟨c, X, Y, Z⟩ := by
  have hl : √(x ^ 2 + y ^ 2 + z ^ 2) = n := by rw [← hn2]; exact Real.sqrt_mul_self hn.le
  have hu : unitLen x y z = n := by unfold unitLen; rw [hl, if_neg (not_le.2 hn1)]
  have hang : √((a * (x / n)) ^ 2 + (a * (y / n)) ^ 2 + (a * (z / n)) ^ 2) = a := by
    have : (a * (x / n)) ^ 2 + (a * (y / n)) ^ 2 + (a * (z / n)) ^ 2 = a * a := by
      have hn' := hn.ne'
      field_simp
      linear_combination -a ^ 2 * hn2
    rw [this]; exact Real.sqrt_mul_self ha
  have hr : fromRotvec (a * (x / n)) (a * (y / n)) (a * (z / n)) = ⟨c, X, Y, Z⟩ := by
    unfold fromRotvec
    rw [hang]
    simp only [hc, hsn]
    have hk : ∀ x X : ℝ, X * n = s * x → s / a * (a * (x / n)) = X := by
      intro x X h
      rcases eq_or_lt_of_le ha with h0 | h0
      · have s0 : s = 0 := by rw [← hsn, ← h0]; simp
        rw [s0, zero_mul] at h
        rcases mul_eq_zero.1 h with h | h
        · simp [s0, h]
        · exact absurd h hn.ne'
      · have h0' := h0.ne'
        have hn' := hn.ne'
        field_simp
        linarith
    rw [hk x X hX, hk y Y hY, hk z Z hZ]
  unfold quatOfAngleAxis
  simp only [hu, hr]
  have hsg : (if c = 0 then sigma else npSign c) = 1 ∨ (if c = 0 then sigma else npSign c) = -1 := by
    split
    · exact hs
    · unfold npSign; split
      · right; rfl
      · left; rfl
  rcases hsg with h | h <;> rw [h]
  · left; ext <;> simp [qsmul]
  · right; ext <;> simp [qsmul, qneg]

theorem sqrt_facts : √(2 : ℝ) * √2 = 2 ∧ √(3 : ℝ) * √3 = 3 ∧ 1 < √(2 : ℝ) ∧ 1 < √(3 : ℝ) := by
  refine ⟨Real.mul_self_sqrt (by norm_num), Real.mul_self_sqrt (by norm_num), ?_, ?_⟩ <;>
    · rw [Real.lt_sqrt (by norm_num)]; norm_num

theorem cos_two_thirds : Real.cos (Real.pi / 3 * 4 / 2) = -(1 / 2) := by
  rw [show Real.pi / 3 * 4 / 2 = Real.pi - Real.pi / 3 by ring, Real.cos_pi_sub, Real.cos_pi_div_three]

theorem sin_two_thirds : Real.sin (Real.pi / 3 * 4 / 2) = √3 / 2 := by
  rw [show Real.pi / 3 * 4 / 2 = Real.pi - Real.pi / 3 by ring, Real.sin_pi_sub, Real.sin_pi_div_three]

theorem cos_five_sixths : Real.cos (Real.pi / 3 * 5 / 2) = -(√3 / 2) := by
  rw [show Real.pi / 3 * 5 / 2 = Real.pi - Real.pi / 6 by ring, Real.cos_pi_sub, Real.cos_pi_div_six]

theorem sin_five_sixths : Real.sin (Real.pi / 3 * 5 / 2) = 1 / 2 := by
  rw [show Real.pi / 3 * 5 / 2 = Real.pi - Real.pi / 6 by ring, Real.sin_pi_sub, Real.sin_pi_div_six]

theorem cos_three_fourths : Real.cos (Real.pi / 2 * 3 / 2) = -(√2 / 2) := by
  rw [show Real.pi / 2 * 3 / 2 = Real.pi - Real.pi / 4 by ring, Real.cos_pi_sub, Real.cos_pi_div_four]

theorem sin_three_fourths : Real.sin (Real.pi / 2 * 3 / 2) = √2 / 2 := by
  rw [show Real.pi / 2 * 3 / 2 = Real.pi - Real.pi / 4 by ring, Real.sin_pi_sub, Real.sin_pi_div_four]

/-- Arithmetic with `√2` and `√3`. -/
macro "laue_num" : tactic => `(tactic| (first | (simp only [sq3by2]; grind) | grind))

/-- The values of half angles used. -/
theorem half_angles :
    (Real.cos (0 / 2) = 1 ∧ Real.sin (0 / 2) = 0) ∧ (Real.cos (Real.pi / 2) = 0 ∧ Real.sin (Real.pi / 2) = 1) ∧
    (Real.cos (piby2 / 2) = √2 / 2 ∧ Real.sin (piby2 / 2) = √2 / 2) ∧
    (Real.cos (piby2 * 3 / 2) = -(√2 / 2) ∧ Real.sin (piby2 * 3 / 2) = √2 / 2) ∧
    (Real.cos (piby3 / 2) = √3 / 2 ∧ Real.sin (piby3 / 2) = 1 / 2) ∧
    (Real.cos (piby3 * 2 / 2) = 1 / 2 ∧ Real.sin (piby3 * 2 / 2) = √3 / 2) ∧
    (Real.cos (piby3 * 4 / 2) = -(1 / 2) ∧ Real.sin (piby3 * 4 / 2) = √3 / 2) ∧
    (Real.cos (piby3 * 5 / 2) = -(√3 / 2) ∧ Real.sin (piby3 * 5 / 2) = 1 / 2) := by
  unfold piby2 piby3
  refine ⟨by simp, by simp, ⟨?_, ?_⟩, ⟨cos_three_fourths, sin_three_fourths⟩, ⟨?_, ?_⟩, ⟨?_, ?_⟩,
    ⟨cos_two_thirds, sin_two_thirds⟩, ⟨cos_five_sixths, sin_five_sixths⟩⟩
  · rw [show Real.pi / 2 / 2 = Real.pi / 4 by ring, Real.cos_pi_div_four]
  · rw [show Real.pi / 2 / 2 = Real.pi / 4 by ring, Real.sin_pi_div_four]
  · rw [show Real.pi / 3 / 2 = Real.pi / 6 by ring, Real.cos_pi_div_six]
  · rw [show Real.pi / 3 / 2 = Real.pi / 6 by ring, Real.sin_pi_div_six]
  · rw [show Real.pi / 3 * 2 / 2 = Real.pi / 3 by ring, Real.cos_pi_div_three]
  · rw [show Real.pi / 3 * 2 / 2 = Real.pi / 3 by ring, Real.sin_pi_div_three]


theorem forall2_ci (sigma : ℕ → ℝ) (hs : ∀ i, sigma i = 1 ∨ sigma i = -1) :
    List.Forall₂ SameUpToSign (angleAxis_ci.mapIdx fun i c => quatOfAngleAxis (sigma i) c.a c.x c.y c.z)
      (table_ci.map (evalQ (d := 2) (by norm_num))) := by
  obtain ⟨s2, s3, l2, l3⟩ := sqrt_facts
  have te := tenEps_lt_one
  have p2 : 0 < piby2 := by unfold piby2; positivity
  have p3 : 0 < piby3 := by unfold piby3; positivity
  simp only [angleAxis_ci, table_ci, List.mapIdx_cons, List.mapIdx_nil, List.map_cons, List.map_nil]
  refine .cons ?_ (.nil)
  · refine sameUpToSign_trans (quatOfAngleAxis_same (hs _) (a := 0) (x := 1) (y := 0) (z := 0) (by positivity) 1 0 1 0 0 0
      half_angles.1.1 half_angles.1.2 (by linarith) (by linarith) (by laue_num) (by laue_num) (by laue_num) (by laue_num)) (Or.inl ?_)
    ext <;> simp [evalQ, Zsqrtd.toReal] <;> ring

theorem forall2_c2h (sigma : ℕ → ℝ) (hs : ∀ i, sigma i = 1 ∨ sigma i = -1) :
    List.Forall₂ SameUpToSign (angleAxis_c2h.mapIdx fun i c => quatOfAngleAxis (sigma i) c.a c.x c.y c.z)
      (table_c2h.map (evalQ (d := 2) (by norm_num))) := by
  obtain ⟨s2, s3, l2, l3⟩ := sqrt_facts
  have te := tenEps_lt_one
  have p2 : 0 < piby2 := by unfold piby2; positivity
  have p3 : 0 < piby3 := by unfold piby3; positivity
  simp only [angleAxis_c2h, table_c2h, List.mapIdx_cons, List.mapIdx_nil, List.map_cons, List.map_nil]
  refine .cons ?_ (.cons ?_ (.nil))
  · refine sameUpToSign_trans (quatOfAngleAxis_same (hs _) (a := 0) (x := 1) (y := 0) (z := 0) (by positivity) 1 0 1 0 0 0
      half_angles.1.1 half_angles.1.2 (by linarith) (by linarith) (by laue_num) (by laue_num) (by laue_num) (by laue_num)) (Or.inl ?_)
    ext <;> simp [evalQ, Zsqrtd.toReal] <;> ring
  · refine sameUpToSign_trans (quatOfAngleAxis_same (hs _) (a := Real.pi) (x := 0) (y := 1) (z := 0) (by positivity) 0 1 1 0 1 0
      half_angles.2.1.1 half_angles.2.1.2 (by linarith) (by linarith) (by laue_num) (by laue_num) (by laue_num) (by laue_num)) (Or.inl ?_)
    ext <;> simp [evalQ, Zsqrtd.toReal] <;> ring

theorem forall2_d2h (sigma : ℕ → ℝ) (hs : ∀ i, sigma i = 1 ∨ sigma i = -1) :
    List.Forall₂ SameUpToSign (angleAxis_d2h.mapIdx fun i c => quatOfAngleAxis (sigma i) c.a c.x c.y c.z)
      (table_d2h.map (evalQ (d := 2) (by norm_num))) := by
  obtain ⟨s2, s3, l2, l3⟩ := sqrt_facts
  have te := tenEps_lt_one
  have p2 : 0 < piby2 := by unfold piby2; positivity
  have p3 : 0 < piby3 := by unfold piby3; positivity
  simp only [angleAxis_d2h, table_d2h, List.mapIdx_cons, List.mapIdx_nil, List.map_cons, List.map_nil]
  refine .cons ?_ (.cons ?_ (.cons ?_ (.cons ?_ (.nil))))
  · refine sameUpToSign_trans (quatOfAngleAxis_same (hs _) (a := 0) (x := 1) (y := 0) (z := 0) (by positivity) 1 0 1 0 0 0
      half_angles.1.1 half_angles.1.2 (by linarith) (by linarith) (by laue_num) (by laue_num) (by laue_num) (by laue_num)) (Or.inl ?_)
    ext <;> simp [evalQ, Zsqrtd.toReal] <;> ring
  · refine sameUpToSign_trans (quatOfAngleAxis_same (hs _) (a := Real.pi) (x := 1) (y := 0) (z := 0) (by positivity) 0 1 1 1 0 0
      half_angles.2.1.1 half_angles.2.1.2 (by linarith) (by linarith) (by laue_num) (by laue_num) (by laue_num) (by laue_num)) (Or.inl ?_)
    ext <;> simp [evalQ, Zsqrtd.toReal] <;> ring
  · refine sameUpToSign_trans (quatOfAngleAxis_same (hs _) (a := Real.pi) (x := 0) (y := 1) (z := 0) (by positivity) 0 1 1 0 1 0
      half_angles.2.1.1 half_angles.2.1.2 (by linarith) (by linarith) (by laue_num) (by laue_num) (by laue_num) (by laue_num)) (Or.inl ?_)
    ext <;> simp [evalQ, Zsqrtd.toReal] <;> ring
  · refine sameUpToSign_trans (quatOfAngleAxis_same (hs _) (a := Real.pi) (x := 0) (y := 0) (z := 1) (by positivity) 0 1 1 0 0 1
      half_angles.2.1.1 half_angles.2.1.2 (by linarith) (by linarith) (by laue_num) (by laue_num) (by laue_num) (by laue_num)) (Or.inl ?_)
    ext <;> simp [evalQ, Zsqrtd.toReal] <;> ring

theorem forall2_c4h (sigma : ℕ → ℝ) (hs : ∀ i, sigma i = 1 ∨ sigma i = -1) :
    List.Forall₂ SameUpToSign (angleAxis_c4h.mapIdx fun i c => quatOfAngleAxis (sigma i) c.a c.x c.y c.z)
      (table_c4h.map (evalQ (d := 2) (by norm_num))) := by
  obtain ⟨s2, s3, l2, l3⟩ := sqrt_facts
  have te := tenEps_lt_one
  have p2 : 0 < piby2 := by unfold piby2; positivity
  have p3 : 0 < piby3 := by unfold piby3; positivity
  simp only [angleAxis_c4h, table_c4h, List.mapIdx_cons, List.mapIdx_nil, List.map_cons, List.map_nil]
  refine .cons ?_ (.cons ?_ (.cons ?_ (.cons ?_ (.nil))))
  · refine sameUpToSign_trans (quatOfAngleAxis_same (hs _) (a := 0) (x := 1) (y := 0) (z := 0) (by positivity) 1 0 1 0 0 0
      half_angles.1.1 half_angles.1.2 (by linarith) (by linarith) (by laue_num) (by laue_num) (by laue_num) (by laue_num)) (Or.inl ?_)
    ext <;> simp [evalQ, Zsqrtd.toReal] <;> ring
  · refine sameUpToSign_trans (quatOfAngleAxis_same (hs _) (a := piby2) (x := 0) (y := 0) (z := 1) (by positivity) (√2 / 2) (√2 / 2) 1 0 0 (√2 / 2)
      half_angles.2.2.1.1 half_angles.2.2.1.2 (by linarith) (by linarith) (by laue_num) (by laue_num) (by laue_num) (by laue_num)) (Or.inl ?_)
    ext <;> simp [evalQ, Zsqrtd.toReal] <;> ring
  · refine sameUpToSign_trans (quatOfAngleAxis_same (hs _) (a := Real.pi) (x := 0) (y := 0) (z := 1) (by positivity) 0 1 1 0 0 1
      half_angles.2.1.1 half_angles.2.1.2 (by linarith) (by linarith) (by laue_num) (by laue_num) (by laue_num) (by laue_num)) (Or.inl ?_)
    ext <;> simp [evalQ, Zsqrtd.toReal] <;> ring
  · refine sameUpToSign_trans (quatOfAngleAxis_same (hs _) (a := piby2 * 3) (x := 0) (y := 0) (z := 1) (by positivity) (-(√2 / 2)) (√2 / 2) 1 0 0 (√2 / 2)
      half_angles.2.2.2.1.1 half_angles.2.2.2.1.2 (by linarith) (by linarith) (by laue_num) (by laue_num) (by laue_num) (by laue_num)) (Or.inl ?_)
    ext <;> simp [evalQ, Zsqrtd.toReal] <;> ring

theorem forall2_d4h (sigma : ℕ → ℝ) (hs : ∀ i, sigma i = 1 ∨ sigma i = -1) :
    List.Forall₂ SameUpToSign (angleAxis_d4h.mapIdx fun i c => quatOfAngleAxis (sigma i) c.a c.x c.y c.z)
      (table_d4h.map (evalQ (d := 2) (by norm_num))) := by
  obtain ⟨s2, s3, l2, l3⟩ := sqrt_facts
  have te := tenEps_lt_one
  have p2 : 0 < piby2 := by unfold piby2; positivity
  have p3 : 0 < piby3 := by unfold piby3; positivity
  simp only [angleAxis_d4h, table_d4h, List.mapIdx_cons, List.mapIdx_nil, List.map_cons, List.map_nil]
  refine .cons ?_ (.cons ?_ (.cons ?_ (.cons ?_ (.cons ?_ (.cons ?_ (.cons ?_ (.cons ?_ (.nil))))))))
  · refine sameUpToSign_trans (quatOfAngleAxis_same (hs _) (a := 0) (x := 1) (y := 0) (z := 0) (by positivity) 1 0 1 0 0 0
      half_angles.1.1 half_angles.1.2 (by linarith) (by linarith) (by laue_num) (by laue_num) (by laue_num) (by laue_num)) (Or.inl ?_)
    ext <;> simp [evalQ, Zsqrtd.toReal] <;> ring
  · refine sameUpToSign_trans (quatOfAngleAxis_same (hs _) (a := piby2) (x := 0) (y := 0) (z := 1) (by positivity) (√2 / 2) (√2 / 2) 1 0 0 (√2 / 2)
      half_angles.2.2.1.1 half_angles.2.2.1.2 (by linarith) (by linarith) (by laue_num) (by laue_num) (by laue_num) (by laue_num)) (Or.inl ?_)
    ext <;> simp [evalQ, Zsqrtd.toReal] <;> ring
  · refine sameUpToSign_trans (quatOfAngleAxis_same (hs _) (a := Real.pi) (x := 0) (y := 0) (z := 1) (by positivity) 0 1 1 0 0 1
      half_angles.2.1.1 half_angles.2.1.2 (by linarith) (by linarith) (by laue_num) (by laue_num) (by laue_num) (by laue_num)) (Or.inl ?_)
    ext <;> simp [evalQ, Zsqrtd.toReal] <;> ring
  · refine sameUpToSign_trans (quatOfAngleAxis_same (hs _) (a := piby2 * 3) (x := 0) (y := 0) (z := 1) (by positivity) (-(√2 / 2)) (√2 / 2) 1 0 0 (√2 / 2)
      half_angles.2.2.2.1.1 half_angles.2.2.2.1.2 (by linarith) (by linarith) (by laue_num) (by laue_num) (by laue_num) (by laue_num)) (Or.inl ?_)
    ext <;> simp [evalQ, Zsqrtd.toReal] <;> ring
  · refine sameUpToSign_trans (quatOfAngleAxis_same (hs _) (a := Real.pi) (x := 1) (y := 0) (z := 0) (by positivity) 0 1 1 1 0 0
      half_angles.2.1.1 half_angles.2.1.2 (by linarith) (by linarith) (by laue_num) (by laue_num) (by laue_num) (by laue_num)) (Or.inl ?_)
    ext <;> simp [evalQ, Zsqrtd.toReal] <;> ring
  · refine sameUpToSign_trans (quatOfAngleAxis_same (hs _) (a := Real.pi) (x := 0) (y := 1) (z := 0) (by positivity) 0 1 1 0 1 0
      half_angles.2.1.1 half_angles.2.1.2 (by linarith) (by linarith) (by laue_num) (by laue_num) (by laue_num) (by laue_num)) (Or.inl ?_)
    ext <;> simp [evalQ, Zsqrtd.toReal] <;> ring
  · refine sameUpToSign_trans (quatOfAngleAxis_same (hs _) (a := Real.pi) (x := 1) (y := 1) (z := 0) (by positivity) 0 1 √2 (√2 / 2) (√2 / 2) 0
      half_angles.2.1.1 half_angles.2.1.2 (by linarith) (by linarith) (by laue_num) (by laue_num) (by laue_num) (by laue_num)) (Or.inl ?_)
    ext <;> simp [evalQ, Zsqrtd.toReal] <;> ring
  · refine sameUpToSign_trans (quatOfAngleAxis_same (hs _) (a := Real.pi) (x := -1) (y := 1) (z := 0) (by positivity) 0 1 √2 (-(√2 / 2)) (√2 / 2) 0
      half_angles.2.1.1 half_angles.2.1.2 (by linarith) (by linarith) (by laue_num) (by laue_num) (by laue_num) (by laue_num)) (Or.inl ?_)
    ext <;> simp [evalQ, Zsqrtd.toReal] <;> ring

theorem forall2_c3i (sigma : ℕ → ℝ) (hs : ∀ i, sigma i = 1 ∨ sigma i = -1) :
    List.Forall₂ SameUpToSign (angleAxis_c3i.mapIdx fun i c => quatOfAngleAxis (sigma i) c.a c.x c.y c.z)
      (table_c3i.map (evalQ (d := 3) (by norm_num))) := by
  obtain ⟨s2, s3, l2, l3⟩ := sqrt_facts
  have te := tenEps_lt_one
  have p2 : 0 < piby2 := by unfold piby2; positivity
  have p3 : 0 < piby3 := by unfold piby3; positivity
  simp only [angleAxis_c3i, table_c3i, List.mapIdx_cons, List.mapIdx_nil, List.map_cons, List.map_nil]
  refine .cons ?_ (.cons ?_ (.cons ?_ (.nil)))
  · refine sameUpToSign_trans (quatOfAngleAxis_same (hs _) (a := 0) (x := 1) (y := 0) (z := 0) (by positivity) 1 0 1 0 0 0
      half_angles.1.1 half_angles.1.2 (by linarith) (by linarith) (by laue_num) (by laue_num) (by laue_num) (by laue_num)) (Or.inl ?_)
    ext <;> simp [evalQ, Zsqrtd.toReal] <;> ring
  · refine sameUpToSign_trans (quatOfAngleAxis_same (hs _) (a := piby3 * 2) (x := 0) (y := 0) (z := 1) (by positivity) (1 / 2) (√3 / 2) 1 0 0 (√3 / 2)
      half_angles.2.2.2.2.2.1.1 half_angles.2.2.2.2.2.1.2 (by linarith) (by linarith) (by laue_num) (by laue_num) (by laue_num) (by laue_num)) (Or.inl ?_)
    ext <;> simp [evalQ, Zsqrtd.toReal] <;> ring
  · refine sameUpToSign_trans (quatOfAngleAxis_same (hs _) (a := piby3 * 4) (x := 0) (y := 0) (z := 1) (by positivity) (-(1 / 2)) (√3 / 2) 1 0 0 (√3 / 2)
      half_angles.2.2.2.2.2.2.1.1 half_angles.2.2.2.2.2.2.1.2 (by linarith) (by linarith) (by laue_num) (by laue_num) (by laue_num) (by laue_num)) (Or.inl ?_)
    ext <;> simp [evalQ, Zsqrtd.toReal] <;> ring

theorem forall2_d3d (sigma : ℕ → ℝ) (hs : ∀ i, sigma i = 1 ∨ sigma i = -1) :
    List.Forall₂ SameUpToSign (angleAxis_d3d.mapIdx fun i c => quatOfAngleAxis (sigma i) c.a c.x c.y c.z)
      (table_d3d.map (evalQ (d := 3) (by norm_num))) := by
  obtain ⟨s2, s3, l2, l3⟩ := sqrt_facts
  have te := tenEps_lt_one
  have p2 : 0 < piby2 := by unfold piby2; positivity
  have p3 : 0 < piby3 := by unfold piby3; positivity
  simp only [angleAxis_d3d, table_d3d, List.mapIdx_cons, List.mapIdx_nil, List.map_cons, List.map_nil]
  refine .cons ?_ (.cons ?_ (.cons ?_ (.cons ?_ (.cons ?_ (.cons ?_ (.nil))))))
  · refine sameUpToSign_trans (quatOfAngleAxis_same (hs _) (a := 0) (x := 1) (y := 0) (z := 0) (by positivity) 1 0 1 0 0 0
      half_angles.1.1 half_angles.1.2 (by linarith) (by linarith) (by laue_num) (by laue_num) (by laue_num) (by laue_num)) (Or.inl ?_)
    ext <;> simp [evalQ, Zsqrtd.toReal] <;> ring
  · refine sameUpToSign_trans (quatOfAngleAxis_same (hs _) (a := piby3 * 2) (x := 0) (y := 0) (z := 1) (by positivity) (1 / 2) (√3 / 2) 1 0 0 (√3 / 2)
      half_angles.2.2.2.2.2.1.1 half_angles.2.2.2.2.2.1.2 (by linarith) (by linarith) (by laue_num) (by laue_num) (by laue_num) (by laue_num)) (Or.inl ?_)
    ext <;> simp [evalQ, Zsqrtd.toReal] <;> ring
  · refine sameUpToSign_trans (quatOfAngleAxis_same (hs _) (a := piby3 * 4) (x := 0) (y := 0) (z := 1) (by positivity) (-(1 / 2)) (√3 / 2) 1 0 0 (√3 / 2)
      half_angles.2.2.2.2.2.2.1.1 half_angles.2.2.2.2.2.2.1.2 (by linarith) (by linarith) (by laue_num) (by laue_num) (by laue_num) (by laue_num)) (Or.inl ?_)
    ext <;> simp [evalQ, Zsqrtd.toReal] <;> ring
  · refine sameUpToSign_trans (quatOfAngleAxis_same (hs _) (a := Real.pi) (x := 1) (y := 0) (z := 0) (by positivity) 0 1 1 1 0 0
      half_angles.2.1.1 half_angles.2.1.2 (by linarith) (by linarith) (by laue_num) (by laue_num) (by laue_num) (by laue_num)) (Or.inl ?_)
    ext <;> simp [evalQ, Zsqrtd.toReal] <;> ring
  · refine sameUpToSign_trans (quatOfAngleAxis_same (hs _) (a := Real.pi) (x := -(1 / 2)) (y := sq3by2) (z := 0) (by positivity) 0 1 1 (-(1 / 2)) (√3 / 2) 0
      half_angles.2.1.1 half_angles.2.1.2 (by linarith) (by linarith) (by laue_num) (by laue_num) (by laue_num) (by laue_num)) (Or.inl ?_)
    ext <;> simp [evalQ, Zsqrtd.toReal] <;> ring
  · refine sameUpToSign_trans (quatOfAngleAxis_same (hs _) (a := Real.pi) (x := -(1 / 2)) (y := -sq3by2) (z := 0) (by positivity) 0 1 1 (-(1 / 2)) (-(√3 / 2)) 0
      half_angles.2.1.1 half_angles.2.1.2 (by linarith) (by linarith) (by laue_num) (by laue_num) (by laue_num) (by laue_num)) (Or.inl ?_)
    ext <;> simp [evalQ, Zsqrtd.toReal] <;> ring

theorem forall2_c6h (sigma : ℕ → ℝ) (hs : ∀ i, sigma i = 1 ∨ sigma i = -1) :
    List.Forall₂ SameUpToSign (angleAxis_c6h.mapIdx fun i c => quatOfAngleAxis (sigma i) c.a c.x c.y c.z)
      (table_c6h.map (evalQ (d := 3) (by norm_num))) := by
  obtain ⟨s2, s3, l2, l3⟩ := sqrt_facts
  have te := tenEps_lt_one
  have p2 : 0 < piby2 := by unfold piby2; positivity
  have p3 : 0 < piby3 := by unfold piby3; positivity
  simp only [angleAxis_c6h, table_c6h, List.mapIdx_cons, List.mapIdx_nil, List.map_cons, List.map_nil]
  refine .cons ?_ (.cons ?_ (.cons ?_ (.cons ?_ (.cons ?_ (.cons ?_ (.nil))))))
  · refine sameUpToSign_trans (quatOfAngleAxis_same (hs _) (a := 0) (x := 1) (y := 0) (z := 0) (by positivity) 1 0 1 0 0 0
      half_angles.1.1 half_angles.1.2 (by linarith) (by linarith) (by laue_num) (by laue_num) (by laue_num) (by laue_num)) (Or.inl ?_)
    ext <;> simp [evalQ, Zsqrtd.toReal] <;> ring
  · refine sameUpToSign_trans (quatOfAngleAxis_same (hs _) (a := piby3) (x := 0) (y := 0) (z := 1) (by positivity) (√3 / 2) (1 / 2) 1 0 0 (1 / 2)
      half_angles.2.2.2.2.1.1 half_angles.2.2.2.2.1.2 (by linarith) (by linarith) (by laue_num) (by laue_num) (by laue_num) (by laue_num)) (Or.inl ?_)
    ext <;> simp [evalQ, Zsqrtd.toReal] <;> ring
  · refine sameUpToSign_trans (quatOfAngleAxis_same (hs _) (a := piby3 * 2) (x := 0) (y := 0) (z := 1) (by positivity) (1 / 2) (√3 / 2) 1 0 0 (√3 / 2)
      half_angles.2.2.2.2.2.1.1 half_angles.2.2.2.2.2.1.2 (by linarith) (by linarith) (by laue_num) (by laue_num) (by laue_num) (by laue_num)) (Or.inl ?_)
    ext <;> simp [evalQ, Zsqrtd.toReal] <;> ring
  · refine sameUpToSign_trans (quatOfAngleAxis_same (hs _) (a := Real.pi) (x := 0) (y := 0) (z := 1) (by positivity) 0 1 1 0 0 1
      half_angles.2.1.1 half_angles.2.1.2 (by linarith) (by linarith) (by laue_num) (by laue_num) (by laue_num) (by laue_num)) (Or.inl ?_)
    ext <;> simp [evalQ, Zsqrtd.toReal] <;> ring
  · refine sameUpToSign_trans (quatOfAngleAxis_same (hs _) (a := piby3 * 4) (x := 0) (y := 0) (z := 1) (by positivity) (-(1 / 2)) (√3 / 2) 1 0 0 (√3 / 2)
      half_angles.2.2.2.2.2.2.1.1 half_angles.2.2.2.2.2.2.1.2 (by linarith) (by linarith) (by laue_num) (by laue_num) (by laue_num) (by laue_num)) (Or.inl ?_)
    ext <;> simp [evalQ, Zsqrtd.toReal] <;> ring
  · refine sameUpToSign_trans (quatOfAngleAxis_same (hs _) (a := piby3 * 5) (x := 0) (y := 0) (z := 1) (by positivity) (-(√3 / 2)) (1 / 2) 1 0 0 (1 / 2)
      half_angles.2.2.2.2.2.2.2.1 half_angles.2.2.2.2.2.2.2.2 (by linarith) (by linarith) (by laue_num) (by laue_num) (by laue_num) (by laue_num)) (Or.inl ?_)
    ext <;> simp [evalQ, Zsqrtd.toReal] <;> ring

theorem forall2_d6h (sigma : ℕ → ℝ) (hs : ∀ i, sigma i = 1 ∨ sigma i = -1) :
    List.Forall₂ SameUpToSign (angleAxis_d6h.mapIdx fun i c => quatOfAngleAxis (sigma i) c.a c.x c.y c.z)
      (table_d6h.map (evalQ (d := 3) (by norm_num))) := by
  obtain ⟨s2, s3, l2, l3⟩ := sqrt_facts
  have te := tenEps_lt_one
  have p2 : 0 < piby2 := by unfold piby2; positivity
  have p3 : 0 < piby3 := by unfold piby3; positivity
  simp only [angleAxis_d6h, table_d6h, List.mapIdx_cons, List.mapIdx_nil, List.map_cons, List.map_nil]
  refine .cons ?_ (.cons ?_ (.cons ?_ (.cons ?_ (.cons ?_ (.cons ?_ (.cons ?_ (.cons ?_ (.cons ?_ (.cons ?_ (.cons ?_ (.cons ?_ (.nil))))))))))))
  · refine sameUpToSign_trans (quatOfAngleAxis_same (hs _) (a := 0) (x := 1) (y := 0) (z := 0) (by positivity) 1 0 1 0 0 0
      half_angles.1.1 half_angles.1.2 (by linarith) (by linarith) (by laue_num) (by laue_num) (by laue_num) (by laue_num)) (Or.inl ?_)
    ext <;> simp [evalQ, Zsqrtd.toReal] <;> ring
  · refine sameUpToSign_trans (quatOfAngleAxis_same (hs _) (a := piby3) (x := 0) (y := 0) (z := 1) (by positivity) (√3 / 2) (1 / 2) 1 0 0 (1 / 2)
      half_angles.2.2.2.2.1.1 half_angles.2.2.2.2.1.2 (by linarith) (by linarith) (by laue_num) (by laue_num) (by laue_num) (by laue_num)) (Or.inl ?_)
    ext <;> simp [evalQ, Zsqrtd.toReal] <;> ring
  · refine sameUpToSign_trans (quatOfAngleAxis_same (hs _) (a := piby3 * 2) (x := 0) (y := 0) (z := 1) (by positivity) (1 / 2) (√3 / 2) 1 0 0 (√3 / 2)
      half_angles.2.2.2.2.2.1.1 half_angles.2.2.2.2.2.1.2 (by linarith) (by linarith) (by laue_num) (by laue_num) (by laue_num) (by laue_num)) (Or.inl ?_)
    ext <;> simp [evalQ, Zsqrtd.toReal] <;> ring
  · refine sameUpToSign_trans (quatOfAngleAxis_same (hs _) (a := Real.pi) (x := 0) (y := 0) (z := 1) (by positivity) 0 1 1 0 0 1
      half_angles.2.1.1 half_angles.2.1.2 (by linarith) (by linarith) (by laue_num) (by laue_num) (by laue_num) (by laue_num)) (Or.inl ?_)
    ext <;> simp [evalQ, Zsqrtd.toReal] <;> ring
  · refine sameUpToSign_trans (quatOfAngleAxis_same (hs _) (a := piby3 * 4) (x := 0) (y := 0) (z := 1) (by positivity) (-(1 / 2)) (√3 / 2) 1 0 0 (√3 / 2)
      half_angles.2.2.2.2.2.2.1.1 half_angles.2.2.2.2.2.2.1.2 (by linarith) (by linarith) (by laue_num) (by laue_num) (by laue_num) (by laue_num)) (Or.inl ?_)
    ext <;> simp [evalQ, Zsqrtd.toReal] <;> ring
  · refine sameUpToSign_trans (quatOfAngleAxis_same (hs _) (a := piby3 * 5) (x := 0) (y := 0) (z := 1) (by positivity) (-(√3 / 2)) (1 / 2) 1 0 0 (1 / 2)
      half_angles.2.2.2.2.2.2.2.1 half_angles.2.2.2.2.2.2.2.2 (by linarith) (by linarith) (by laue_num) (by laue_num) (by laue_num) (by laue_num)) (Or.inl ?_)
    ext <;> simp [evalQ, Zsqrtd.toReal] <;> ring
  · refine sameUpToSign_trans (quatOfAngleAxis_same (hs _) (a := Real.pi) (x := 1) (y := 0) (z := 0) (by positivity) 0 1 1 1 0 0
      half_angles.2.1.1 half_angles.2.1.2 (by linarith) (by linarith) (by laue_num) (by laue_num) (by laue_num) (by laue_num)) (Or.inl ?_)
    ext <;> simp [evalQ, Zsqrtd.toReal] <;> ring
  · refine sameUpToSign_trans (quatOfAngleAxis_same (hs _) (a := Real.pi) (x := -(1 / 2)) (y := sq3by2) (z := 0) (by positivity) 0 1 1 (-(1 / 2)) (√3 / 2) 0
      half_angles.2.1.1 half_angles.2.1.2 (by linarith) (by linarith) (by laue_num) (by laue_num) (by laue_num) (by laue_num)) (Or.inl ?_)
    ext <;> simp [evalQ, Zsqrtd.toReal] <;> ring
  · refine sameUpToSign_trans (quatOfAngleAxis_same (hs _) (a := Real.pi) (x := -(1 / 2)) (y := -sq3by2) (z := 0) (by positivity) 0 1 1 (-(1 / 2)) (-(√3 / 2)) 0
      half_angles.2.1.1 half_angles.2.1.2 (by linarith) (by linarith) (by laue_num) (by laue_num) (by laue_num) (by laue_num)) (Or.inl ?_)
    ext <;> simp [evalQ, Zsqrtd.toReal] <;> ring
  · refine sameUpToSign_trans (quatOfAngleAxis_same (hs _) (a := Real.pi) (x := sq3by2) (y := 1 / 2) (z := 0) (by positivity) 0 1 1 (√3 / 2) (1 / 2) 0
      half_angles.2.1.1 half_angles.2.1.2 (by linarith) (by linarith) (by laue_num) (by laue_num) (by laue_num) (by laue_num)) (Or.inl ?_)
    ext <;> simp [evalQ, Zsqrtd.toReal] <;> ring
  · refine sameUpToSign_trans (quatOfAngleAxis_same (hs _) (a := Real.pi) (x := 0) (y := 1) (z := 0) (by positivity) 0 1 1 0 1 0
      half_angles.2.1.1 half_angles.2.1.2 (by linarith) (by linarith) (by laue_num) (by laue_num) (by laue_num) (by laue_num)) (Or.inl ?_)
    ext <;> simp [evalQ, Zsqrtd.toReal] <;> ring
  · refine sameUpToSign_trans (quatOfAngleAxis_same (hs _) (a := Real.pi) (x := -sq3by2) (y := 1 / 2) (z := 0) (by positivity) 0 1 1 (-(√3 / 2)) (1 / 2) 0
      half_angles.2.1.1 half_angles.2.1.2 (by linarith) (by linarith) (by laue_num) (by laue_num) (by laue_num) (by laue_num)) (Or.inl ?_)
    ext <;> simp [evalQ, Zsqrtd.toReal] <;> ring

theorem forall2_th (sigma : ℕ → ℝ) (hs : ∀ i, sigma i = 1 ∨ sigma i = -1) :
    List.Forall₂ SameUpToSign (angleAxis_th.mapIdx fun i c => quatOfAngleAxis (sigma i) c.a c.x c.y c.z)
      (table_th.map (evalQ (d := 2) (by norm_num))) := by
  obtain ⟨s2, s3, l2, l3⟩ := sqrt_facts
  have te := tenEps_lt_one
  have p2 : 0 < piby2 := by unfold piby2; positivity
  have p3 : 0 < piby3 := by unfold piby3; positivity
  simp only [angleAxis_th, table_th, List.mapIdx_cons, List.mapIdx_nil, List.map_cons, List.map_nil]
  refine .cons ?_ (.cons ?_ (.cons ?_ (.cons ?_ (.cons ?_ (.cons ?_ (.cons ?_ (.cons ?_ (.cons ?_ (.cons ?_ (.cons ?_ (.cons ?_ (.nil))))))))))))
  · refine sameUpToSign_trans (quatOfAngleAxis_same (hs _) (a := 0) (x := 1) (y := 0) (z := 0) (by positivity) 1 0 1 0 0 0
      half_angles.1.1 half_angles.1.2 (by linarith) (by linarith) (by laue_num) (by laue_num) (by laue_num) (by laue_num)) (Or.inl ?_)
    ext <;> simp [evalQ, Zsqrtd.toReal] <;> ring
  · refine sameUpToSign_trans (quatOfAngleAxis_same (hs _) (a := Real.pi) (x := 1) (y := 0) (z := 0) (by positivity) 0 1 1 1 0 0
      half_angles.2.1.1 half_angles.2.1.2 (by linarith) (by linarith) (by laue_num) (by laue_num) (by laue_num) (by laue_num)) (Or.inl ?_)
    ext <;> simp [evalQ, Zsqrtd.toReal] <;> ring
  · refine sameUpToSign_trans (quatOfAngleAxis_same (hs _) (a := Real.pi) (x := 0) (y := 1) (z := 0) (by positivity) 0 1 1 0 1 0
      half_angles.2.1.1 half_angles.2.1.2 (by linarith) (by linarith) (by laue_num) (by laue_num) (by laue_num) (by laue_num)) (Or.inl ?_)
    ext <;> simp [evalQ, Zsqrtd.toReal] <;> ring
  · refine sameUpToSign_trans (quatOfAngleAxis_same (hs _) (a := Real.pi) (x := 0) (y := 0) (z := 1) (by positivity) 0 1 1 0 0 1
      half_angles.2.1.1 half_angles.2.1.2 (by linarith) (by linarith) (by laue_num) (by laue_num) (by laue_num) (by laue_num)) (Or.inl ?_)
    ext <;> simp [evalQ, Zsqrtd.toReal] <;> ring
  · refine sameUpToSign_trans (quatOfAngleAxis_same (hs _) (a := piby3 * 2) (x := 1) (y := 1) (z := 1) (by positivity) (1 / 2) (√3 / 2) √3 (1 / 2) (1 / 2) (1 / 2)
      half_angles.2.2.2.2.2.1.1 half_angles.2.2.2.2.2.1.2 (by linarith) (by linarith) (by laue_num) (by laue_num) (by laue_num) (by laue_num)) (Or.inl ?_)
    ext <;> simp [evalQ, Zsqrtd.toReal] <;> ring
  · refine sameUpToSign_trans (quatOfAngleAxis_same (hs _) (a := piby3 * 4) (x := 1) (y := 1) (z := 1) (by positivity) (-(1 / 2)) (√3 / 2) √3 (1 / 2) (1 / 2) (1 / 2)
      half_angles.2.2.2.2.2.2.1.1 half_angles.2.2.2.2.2.2.1.2 (by linarith) (by linarith) (by laue_num) (by laue_num) (by laue_num) (by laue_num)) (Or.inl ?_)
    ext <;> simp [evalQ, Zsqrtd.toReal] <;> ring
  · refine sameUpToSign_trans (quatOfAngleAxis_same (hs _) (a := piby3 * 2) (x := -1) (y := 1) (z := 1) (by positivity) (1 / 2) (√3 / 2) √3 (-(1 / 2)) (1 / 2) (1 / 2)
      half_angles.2.2.2.2.2.1.1 half_angles.2.2.2.2.2.1.2 (by linarith) (by linarith) (by laue_num) (by laue_num) (by laue_num) (by laue_num)) (Or.inl ?_)
    ext <;> simp [evalQ, Zsqrtd.toReal] <;> ring
  · refine sameUpToSign_trans (quatOfAngleAxis_same (hs _) (a := piby3 * 4) (x := -1) (y := 1) (z := 1) (by positivity) (-(1 / 2)) (√3 / 2) √3 (-(1 / 2)) (1 / 2) (1 / 2)
      half_angles.2.2.2.2.2.2.1.1 half_angles.2.2.2.2.2.2.1.2 (by linarith) (by linarith) (by laue_num) (by laue_num) (by laue_num) (by laue_num)) (Or.inl ?_)
    ext <;> simp [evalQ, Zsqrtd.toReal] <;> ring
  · refine sameUpToSign_trans (quatOfAngleAxis_same (hs _) (a := piby3 * 2) (x := -1) (y := -1) (z := 1) (by positivity) (1 / 2) (√3 / 2) √3 (-(1 / 2)) (-(1 / 2)) (1 / 2)
      half_angles.2.2.2.2.2.1.1 half_angles.2.2.2.2.2.1.2 (by linarith) (by linarith) (by laue_num) (by laue_num) (by laue_num) (by laue_num)) (Or.inl ?_)
    ext <;> simp [evalQ, Zsqrtd.toReal] <;> ring
  · refine sameUpToSign_trans (quatOfAngleAxis_same (hs _) (a := piby3 * 4) (x := -1) (y := -1) (z := 1) (by positivity) (-(1 / 2)) (√3 / 2) √3 (-(1 / 2)) (-(1 / 2)) (1 / 2)
      half_angles.2.2.2.2.2.2.1.1 half_angles.2.2.2.2.2.2.1.2 (by linarith) (by linarith) (by laue_num) (by laue_num) (by laue_num) (by laue_num)) (Or.inl ?_)
    ext <;> simp [evalQ, Zsqrtd.toReal] <;> ring
  · refine sameUpToSign_trans (quatOfAngleAxis_same (hs _) (a := piby3 * 2) (x := 1) (y := -1) (z := 1) (by positivity) (1 / 2) (√3 / 2) √3 (1 / 2) (-(1 / 2)) (1 / 2)
      half_angles.2.2.2.2.2.1.1 half_angles.2.2.2.2.2.1.2 (by linarith) (by linarith) (by laue_num) (by laue_num) (by laue_num) (by laue_num)) (Or.inl ?_)
    ext <;> simp [evalQ, Zsqrtd.toReal] <;> ring
  · refine sameUpToSign_trans (quatOfAngleAxis_same (hs _) (a := piby3 * 4) (x := 1) (y := -1) (z := 1) (by positivity) (-(1 / 2)) (√3 / 2) √3 (1 / 2) (-(1 / 2)) (1 / 2)
      half_angles.2.2.2.2.2.2.1.1 half_angles.2.2.2.2.2.2.1.2 (by linarith) (by linarith) (by laue_num) (by laue_num) (by laue_num) (by laue_num)) (Or.inl ?_)
    ext <;> simp [evalQ, Zsqrtd.toReal] <;> ring

theorem forall2_oh (sigma : ℕ → ℝ) (hs : ∀ i, sigma i = 1 ∨ sigma i = -1) :
    List.Forall₂ SameUpToSign (angleAxis_oh.mapIdx fun i c => quatOfAngleAxis (sigma i) c.a c.x c.y c.z)
      (table_oh.map (evalQ (d := 2) (by norm_num))) := by
  obtain ⟨s2, s3, l2, l3⟩ := sqrt_facts
  have te := tenEps_lt_one
  have p2 : 0 < piby2 := by unfold piby2; positivity
  have p3 : 0 < piby3 := by unfold piby3; positivity
  simp only [angleAxis_oh, table_oh, List.mapIdx_cons, List.mapIdx_nil, List.map_cons, List.map_nil]
  refine .cons ?_ (.cons ?_ (.cons ?_ (.cons ?_ (.cons ?_ (.cons ?_ (.cons ?_ (.cons ?_ (.cons ?_ (.cons ?_ (.cons ?_ (.cons ?_ (.cons ?_ (.cons ?_ (.cons ?_ (.cons ?_ (.cons ?_ (.cons ?_ (.cons ?_ (.cons ?_ (.cons ?_ (.cons ?_ (.cons ?_ (.cons ?_ (.nil))))))))))))))))))))))))
  · refine sameUpToSign_trans (quatOfAngleAxis_same (hs _) (a := 0) (x := 1) (y := 0) (z := 0) (by positivity) 1 0 1 0 0 0
      half_angles.1.1 half_angles.1.2 (by linarith) (by linarith) (by laue_num) (by laue_num) (by laue_num) (by laue_num)) (Or.inl ?_)
    ext <;> simp [evalQ, Zsqrtd.toReal] <;> ring
  · refine sameUpToSign_trans (quatOfAngleAxis_same (hs _) (a := piby2) (x := 1) (y := 0) (z := 0) (by positivity) (√2 / 2) (√2 / 2) 1 (√2 / 2) 0 0
      half_angles.2.2.1.1 half_angles.2.2.1.2 (by linarith) (by linarith) (by laue_num) (by laue_num) (by laue_num) (by laue_num)) (Or.inl ?_)
    ext <;> simp [evalQ, Zsqrtd.toReal] <;> ring
  · refine sameUpToSign_trans (quatOfAngleAxis_same (hs _) (a := Real.pi) (x := 1) (y := 0) (z := 0) (by positivity) 0 1 1 1 0 0
      half_angles.2.1.1 half_angles.2.1.2 (by linarith) (by linarith) (by laue_num) (by laue_num) (by laue_num) (by laue_num)) (Or.inl ?_)
    ext <;> simp [evalQ, Zsqrtd.toReal] <;> ring
  · refine sameUpToSign_trans (quatOfAngleAxis_same (hs _) (a := piby2 * 3) (x := 1) (y := 0) (z := 0) (by positivity) (-(√2 / 2)) (√2 / 2) 1 (√2 / 2) 0 0
      half_angles.2.2.2.1.1 half_angles.2.2.2.1.2 (by linarith) (by linarith) (by laue_num) (by laue_num) (by laue_num) (by laue_num)) (Or.inl ?_)
    ext <;> simp [evalQ, Zsqrtd.toReal] <;> ring
  · refine sameUpToSign_trans (quatOfAngleAxis_same (hs _) (a := piby2) (x := 0) (y := 1) (z := 0) (by positivity) (√2 / 2) (√2 / 2) 1 0 (√2 / 2) 0
      half_angles.2.2.1.1 half_angles.2.2.1.2 (by linarith) (by linarith) (by laue_num) (by laue_num) (by laue_num) (by laue_num)) (Or.inl ?_)
    ext <;> simp [evalQ, Zsqrtd.toReal] <;> ring
  · refine sameUpToSign_trans (quatOfAngleAxis_same (hs _) (a := Real.pi) (x := 0) (y := 1) (z := 0) (by positivity) 0 1 1 0 1 0
      half_angles.2.1.1 half_angles.2.1.2 (by linarith) (by linarith) (by laue_num) (by laue_num) (by laue_num) (by laue_num)) (Or.inl ?_)
    ext <;> simp [evalQ, Zsqrtd.toReal] <;> ring
  · refine sameUpToSign_trans (quatOfAngleAxis_same (hs _) (a := piby2 * 3) (x := 0) (y := 1) (z := 0) (by positivity) (-(√2 / 2)) (√2 / 2) 1 0 (√2 / 2) 0
      half_angles.2.2.2.1.1 half_angles.2.2.2.1.2 (by linarith) (by linarith) (by laue_num) (by laue_num) (by laue_num) (by laue_num)) (Or.inl ?_)
    ext <;> simp [evalQ, Zsqrtd.toReal] <;> ring
  · refine sameUpToSign_trans (quatOfAngleAxis_same (hs _) (a := piby2) (x := 0) (y := 0) (z := 1) (by positivity) (√2 / 2) (√2 / 2) 1 0 0 (√2 / 2)
      half_angles.2.2.1.1 half_angles.2.2.1.2 (by linarith) (by linarith) (by laue_num) (by laue_num) (by laue_num) (by laue_num)) (Or.inl ?_)
    ext <;> simp [evalQ, Zsqrtd.toReal] <;> ring
  · refine sameUpToSign_trans (quatOfAngleAxis_same (hs _) (a := Real.pi) (x := 0) (y := 0) (z := 1) (by positivity) 0 1 1 0 0 1
      half_angles.2.1.1 half_angles.2.1.2 (by linarith) (by linarith) (by laue_num) (by laue_num) (by laue_num) (by laue_num)) (Or.inl ?_)
    ext <;> simp [evalQ, Zsqrtd.toReal] <;> ring
  · refine sameUpToSign_trans (quatOfAngleAxis_same (hs _) (a := piby2 * 3) (x := 0) (y := 0) (z := 1) (by positivity) (-(√2 / 2)) (√2 / 2) 1 0 0 (√2 / 2)
      half_angles.2.2.2.1.1 half_angles.2.2.2.1.2 (by linarith) (by linarith) (by laue_num) (by laue_num) (by laue_num) (by laue_num)) (Or.inl ?_)
    ext <;> simp [evalQ, Zsqrtd.toReal] <;> ring
  · refine sameUpToSign_trans (quatOfAngleAxis_same (hs _) (a := piby3 * 2) (x := 1) (y := 1) (z := 1) (by positivity) (1 / 2) (√3 / 2) √3 (1 / 2) (1 / 2) (1 / 2)
      half_angles.2.2.2.2.2.1.1 half_angles.2.2.2.2.2.1.2 (by linarith) (by linarith) (by laue_num) (by laue_num) (by laue_num) (by laue_num)) (Or.inl ?_)
    ext <;> simp [evalQ, Zsqrtd.toReal] <;> ring
  · refine sameUpToSign_trans (quatOfAngleAxis_same (hs _) (a := piby3 * 4) (x := 1) (y := 1) (z := 1) (by positivity) (-(1 / 2)) (√3 / 2) √3 (1 / 2) (1 / 2) (1 / 2)
      half_angles.2.2.2.2.2.2.1.1 half_angles.2.2.2.2.2.2.1.2 (by linarith) (by linarith) (by laue_num) (by laue_num) (by laue_num) (by laue_num)) (Or.inl ?_)
    ext <;> simp [evalQ, Zsqrtd.toReal] <;> ring
  · refine sameUpToSign_trans (quatOfAngleAxis_same (hs _) (a := piby3 * 2) (x := -1) (y := 1) (z := 1) (by positivity) (1 / 2) (√3 / 2) √3 (-(1 / 2)) (1 / 2) (1 / 2)
      half_angles.2.2.2.2.2.1.1 half_angles.2.2.2.2.2.1.2 (by linarith) (by linarith) (by laue_num) (by laue_num) (by laue_num) (by laue_num)) (Or.inl ?_)
    ext <;> simp [evalQ, Zsqrtd.toReal] <;> ring
  · refine sameUpToSign_trans (quatOfAngleAxis_same (hs _) (a := piby3 * 4) (x := -1) (y := 1) (z := 1) (by positivity) (-(1 / 2)) (√3 / 2) √3 (-(1 / 2)) (1 / 2) (1 / 2)
      half_angles.2.2.2.2.2.2.1.1 half_angles.2.2.2.2.2.2.1.2 (by linarith) (by linarith) (by laue_num) (by laue_num) (by laue_num) (by laue_num)) (Or.inl ?_)
    ext <;> simp [evalQ, Zsqrtd.toReal] <;> ring
  · refine sameUpToSign_trans (quatOfAngleAxis_same (hs _) (a := piby3 * 2) (x := -1) (y := -1) (z := 1) (by positivity) (1 / 2) (√3 / 2) √3 (-(1 / 2)) (-(1 / 2)) (1 / 2)
      half_angles.2.2.2.2.2.1.1 half_angles.2.2.2.2.2.1.2 (by linarith) (by linarith) (by laue_num) (by laue_num) (by laue_num) (by laue_num)) (Or.inl ?_)
    ext <;> simp [evalQ, Zsqrtd.toReal] <;> ring
  · refine sameUpToSign_trans (quatOfAngleAxis_same (hs _) (a := piby3 * 4) (x := -1) (y := -1) (z := 1) (by positivity) (-(1 / 2)) (√3 / 2) √3 (-(1 / 2)) (-(1 / 2)) (1 / 2)
      half_angles.2.2.2.2.2.2.1.1 half_angles.2.2.2.2.2.2.1.2 (by linarith) (by linarith) (by laue_num) (by laue_num) (by laue_num) (by laue_num)) (Or.inl ?_)
    ext <;> simp [evalQ, Zsqrtd.toReal] <;> ring
  · refine sameUpToSign_trans (quatOfAngleAxis_same (hs _) (a := piby3 * 2) (x := 1) (y := -1) (z := 1) (by positivity) (1 / 2) (√3 / 2) √3 (1 / 2) (-(1 / 2)) (1 / 2)
      half_angles.2.2.2.2.2.1.1 half_angles.2.2.2.2.2.1.2 (by linarith) (by linarith) (by laue_num) (by laue_num) (by laue_num) (by laue_num)) (Or.inl ?_)
    ext <;> simp [evalQ, Zsqrtd.toReal] <;> ring
  · refine sameUpToSign_trans (quatOfAngleAxis_same (hs _) (a := piby3 * 4) (x := 1) (y := -1) (z := 1) (by positivity) (-(1 / 2)) (√3 / 2) √3 (1 / 2) (-(1 / 2)) (1 / 2)
      half_angles.2.2.2.2.2.2.1.1 half_angles.2.2.2.2.2.2.1.2 (by linarith) (by linarith) (by laue_num) (by laue_num) (by laue_num) (by laue_num)) (Or.inl ?_)
    ext <;> simp [evalQ, Zsqrtd.toReal] <;> ring
  · refine sameUpToSign_trans (quatOfAngleAxis_same (hs _) (a := Real.pi) (x := 1) (y := 1) (z := 0) (by positivity) 0 1 √2 (√2 / 2) (√2 / 2) 0
      half_angles.2.1.1 half_angles.2.1.2 (by linarith) (by linarith) (by laue_num) (by laue_num) (by laue_num) (by laue_num)) (Or.inl ?_)
    ext <;> simp [evalQ, Zsqrtd.toReal] <;> ring
  · refine sameUpToSign_trans (quatOfAngleAxis_same (hs _) (a := Real.pi) (x := -1) (y := 1) (z := 0) (by positivity) 0 1 √2 (-(√2 / 2)) (√2 / 2) 0
      half_angles.2.1.1 half_angles.2.1.2 (by linarith) (by linarith) (by laue_num) (by laue_num) (by laue_num) (by laue_num)) (Or.inl ?_)
    ext <;> simp [evalQ, Zsqrtd.toReal] <;> ring
  · refine sameUpToSign_trans (quatOfAngleAxis_same (hs _) (a := Real.pi) (x := 1) (y := 0) (z := 1) (by positivity) 0 1 √2 (√2 / 2) 0 (√2 / 2)
      half_angles.2.1.1 half_angles.2.1.2 (by linarith) (by linarith) (by laue_num) (by laue_num) (by laue_num) (by laue_num)) (Or.inl ?_)
    ext <;> simp [evalQ, Zsqrtd.toReal] <;> ring
  · refine sameUpToSign_trans (quatOfAngleAxis_same (hs _) (a := Real.pi) (x := 0) (y := 1) (z := 1) (by positivity) 0 1 √2 0 (√2 / 2) (√2 / 2)
      half_angles.2.1.1 half_angles.2.1.2 (by linarith) (by linarith) (by laue_num) (by laue_num) (by laue_num) (by laue_num)) (Or.inl ?_)
    ext <;> simp [evalQ, Zsqrtd.toReal] <;> ring
  · refine sameUpToSign_trans (quatOfAngleAxis_same (hs _) (a := Real.pi) (x := -1) (y := 0) (z := 1) (by positivity) 0 1 √2 (-(√2 / 2)) 0 (√2 / 2)
      half_angles.2.1.1 half_angles.2.1.2 (by linarith) (by linarith) (by laue_num) (by laue_num) (by laue_num) (by laue_num)) (Or.inl ?_)
    ext <;> simp [evalQ, Zsqrtd.toReal] <;> ring
  · refine sameUpToSign_trans (quatOfAngleAxis_same (hs _) (a := Real.pi) (x := 0) (y := -1) (z := 1) (by positivity) 0 1 √2 0 (-(√2 / 2)) (√2 / 2)
      half_angles.2.1.1 half_angles.2.1.2 (by linarith) (by linarith) (by laue_num) (by laue_num) (by laue_num) (by laue_num)) (Or.inl ?_)
    ext <;> simp [evalQ, Zsqrtd.toReal] <;> ring

end Hexrd.Rotations
