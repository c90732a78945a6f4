import Verif.Spec.CheckRun
import Mathlib.Tactic.NormNum

/-! # C174: comparison of results with a reference -/
namespace Hexrd.CheckRun

theorem allclose_iff (value reference : Arr) (h : value.cols = reference.cols) :
    ∃ b, allclose (min reference.rows value.rows) value reference = some b ∧ (b = true ↔ Spec.AgreeAll value reference) := by
  refine ⟨_, by rw [allclose, if_pos h], ?_⟩
  simp only [List.all_eq_true, List.mem_range, close, decide_eq_true_eq, Spec.AgreeAll, Spec.Agree]
  constructor
  · intro H i j h1 h2 h3 _
    exact H i (by omega) j h3
  · intro H i hi j hj
    exact H i j (by omega) (by omega) hj (by omega)

theorem compare_spec (value reference : Arr) (h : value.cols = reference.cols) :
    (compare value reference = .fail ↔ ¬ Spec.AgreeAll value reference) ∧
    (compare value reference = .partialPass ↔ Spec.AgreeAll value reference ∧ reference.rows < value.rows) ∧
    (compare value reference = .fullPass ↔ Spec.AgreeAll value reference ∧ value.rows ≤ reference.rows) := by
  obtain ⟨b, hb, hi⟩ := allclose_iff value reference h
  unfold compare
  simp only [hb]
  rw [← hi]
  cases b
  · simp
  · by_cases hr : reference.rows < value.rows
    · have : min reference.rows value.rows < value.rows := by omega
      simp [hr]
    · simp [hr]; omega

theorem agree_transpose (value reference : Arr) : Spec.AgreeAll (transpose value) (transpose reference) ↔ Spec.AgreeAll value reference := by
  unfold Spec.AgreeAll transpose
  constructor
  · intro H i j a b c d; exact H j i c d a b
  · intro H i j a b c d; exact H j i c d a b

/-- **C174** for results of the same length as those of the reference: they fail if some entry that both have differs, pass in part if
none differs but the reference has fewer results, and pass in full if none differs and the reference has them all. -/
theorem handle_spec (refs : Key → Option Arr) (key : Key) (value reference : Arr) (he : key ≠ .experiment) (hs : key ≠ .imageStack)
    (hr : refs key = some reference) (hw : (Spec.extent key value).2 = (Spec.extent key reference).2) :
    (handle refs key value = .fail ↔ ¬ Spec.AgreeAll value reference) ∧
    (handle refs key value = .partialPass ↔ Spec.AgreeAll value reference ∧ (Spec.extent key reference).1 < (Spec.extent key value).1) ∧
    (handle refs key value = .fullPass ↔ Spec.AgreeAll value reference ∧ (Spec.extent key value).1 ≤ (Spec.extent key reference).1) := by
  cases key with
  | experiment => exact absurd rfl he
  | imageStack => exact absurd rfl hs
  | confidence =>
    have h := compare_spec (transpose value) (transpose reference) (by simpa [Spec.extent, transpose] using hw)
    rw [agree_transpose] at h
    simpa [handle, hr, Spec.extent, transpose] using h
  | other n =>
    have h := compare_spec value reference (by simpa [Spec.extent] using hw)
    simpa [handle, hr, Spec.extent] using h

/-- **C174** a result without a reference, or of another length, never passes; it is reported as an error. -/
theorem handle_error (refs : Key → Option Arr) (key : Key) (value : Arr) (he : key ≠ .experiment) (hs : key ≠ .imageStack) :
    handle refs key value = .error ↔ ∀ reference, refs key = some reference → (Spec.extent key value).2 ≠ (Spec.extent key reference).2 := by
  have cmp : ∀ v r : Arr, compare v r = .error ↔ v.cols ≠ r.cols := by
    intro v r
    by_cases h : v.cols = r.cols
    · obtain ⟨b, hb, -⟩ := allclose_iff v r h
      unfold compare
      simp only [hb, h, ne_eq, not_true_eq_false, iff_false]
      cases b <;> simp
      split <;> simp
    · simp [compare, allclose, h]
  cases key with
  | experiment => exact absurd rfl he
  | imageStack => exact absurd rfl hs
  | confidence =>
    cases hr : refs .confidence with
    | none => simp [handle, hr]
    | some r => simp [handle, hr, cmp, transpose, Spec.extent]
  | other n =>
    cases hr : refs (.other n) with
    | none => simp [handle, hr]
    | some r => simp [handle, hr, cmp, Spec.extent]

/-- **C174** the results of a run pass in full against themselves. -/
theorem handle_self (refs : Key → Option Arr) (key : Key) (value : Arr) (he : key ≠ .experiment) (hs : key ≠ .imageStack)
    (hr : refs key = some value) : handle refs key value = .fullPass := by
  rw [(handle_spec refs key value value he hs hr rfl).2.2]
  refine ⟨fun i j _ _ _ _ => ?_, Nat.le_refl _⟩
  unfold Spec.Agree
  rw [sub_self, abs_zero]
  have := abs_nonneg (value.at' i j)
  positivity

/-- **C174 is false** for results that are missing: a run that gave no results passes in full against every reference. -/
theorem empty_fails (refs : Key → Option Arr) (name : String) (reference : Arr) (hr : refs (.other name) = some reference) :
    handle refs (.other name) ⟨0, reference.cols, fun _ _ => 0⟩ = .fullPass := by
  rw [(handle_spec refs (.other name) _ reference (by simp) (by simp) hr (by simp [Spec.extent])).2.2]
  exact ⟨fun i j h => absurd h (Nat.not_lt_zero i), by simp [Spec.extent]⟩

/-- Two coordinates and one grain: the second coordinate is not in the reference. -/
example : handle (fun _ => some ⟨1, 1, fun _ _ => 1 / 2⟩) .confidence ⟨1, 2, fun _ j => if j = 0 then 1 / 2 else 1⟩ = .partialPass := by
  rw [(handle_spec _ .confidence _ ⟨1, 1, fun _ _ => 1 / 2⟩ (by simp) (by simp) rfl (by simp [Spec.extent])).2.1]
  refine ⟨fun i j _ _ _ h => ?_, by simp [Spec.extent]⟩
  have : j = 0 := by simp at h; omega
  subst this
  norm_num [Spec.Agree]

end Hexrd.CheckRun
