import Verif.Model.DupVectors
import Mathlib.Tactic.Linarith
import Mathlib.Tactic.NormNum
import Mathlib.Algebra.BigOperators.Fin

/-!
# Duplicate vectors (C37)
-/
namespace Hexrd.DupVectors

variable {d : ℕ}

/-- Two vectors are within the tolerance, in the sum norm, if asked for also up to sign. -/
def Near (tol : ℝ) (pm : Bool) (a b : Fin d → ℝ) : Prop :=
  ∑ k, |a k - b k| < tol ∨ (pm = true ∧ ∑ k, |a k + b k| < tol)

theorem near_iff (tol : ℝ) (pm : Bool) (a b : Fin d → ℝ) : near tol pm a b = true ↔ Near tol pm a b := by
  unfold near Near dist1
  cases pm <;> simp [List.sum_ofFn, or_comm]

theorem close_iff (tol : ℝ) (pm : Bool) (vec : List (Fin d → ℝ)) (i j : ℕ) :
    close tol pm vec i j = true ↔ ∃ a b, vec[i]? = some a ∧ vec[j]? = some b ∧ Near tol pm a b := by
  unfold close
  split
  · next a b h1 h2 => rw [near_iff]; simp [h1, h2]
  · next h =>
    simp only [Bool.false_eq_true, false_iff]
    rintro ⟨a, b, h1, h2, -⟩
    exact h a b h1 h2

theorem innerLoop_spec (close : ℕ → ℕ → Bool) (ii n jj : ℕ) (elem master : List ℕ) :
    ∃ new, innerLoop close ii n jj elem master = (elem ++ new, master ++ new) ∧ new.Nodup ∧
      ∀ j, j ∈ new ↔ (jj ≤ j ∧ j < jj + n ∧ j ∉ master ∧ close ii j = true) := by
  induction n generalizing jj elem master with
  | zero => exact ⟨[], by simp [innerLoop], by simp, by intro j; simp; omega⟩
  | succ n ih =>
    unfold innerLoop
    by_cases h : jj ∈ master
    · rw [if_pos h]
      obtain ⟨new, e, nd, hm⟩ := ih (jj + 1) elem master
      refine ⟨new, e, nd, fun j => ?_⟩
      rw [hm]
      constructor
      · rintro ⟨a, b, c, e⟩; exact ⟨by omega, by omega, c, e⟩
      · rintro ⟨a, b, c, e⟩
        have : j ≠ jj := fun h' => c (h' ▸ h)
        exact ⟨by omega, by omega, c, e⟩
    · rw [if_neg h]
      by_cases hc : close ii jj = true
      · rw [if_pos hc]
        obtain ⟨new, e, nd, hm⟩ := ih (jj + 1) (elem ++ [jj]) (master ++ [jj])
        refine ⟨jj :: new, by rw [e]; simp, ?_, fun j => ?_⟩
        · rw [List.nodup_cons]; exact ⟨fun hj => by have := (hm jj).1 hj; omega, nd⟩
        · rw [List.mem_cons, hm]
          constructor
          · rintro (rfl | ⟨a, b, c, e⟩)
            · exact ⟨le_rfl, by omega, h, hc⟩
            · exact ⟨by omega, by omega, fun hj => c (List.mem_append_left _ hj), e⟩
          · rintro ⟨a, b, c, e⟩
            by_cases hj : j = jj
            · exact Or.inl hj
            · right
              refine ⟨by omega, by omega, ?_, e⟩
              simp [c, hj]
      · rw [if_neg hc]
        obtain ⟨new, e, nd, hm⟩ := ih (jj + 1) elem master
        refine ⟨new, e, nd, fun j => ?_⟩
        rw [hm]
        constructor
        · rintro ⟨a, b, c, e⟩; exact ⟨by omega, by omega, c, e⟩
        · rintro ⟨a, b, c, e⟩
          have : j ≠ jj := fun h' => hc (h' ▸ e)
          exact ⟨by omega, by omega, c, e⟩

theorem outerLoop_spec (close : ℕ → ℕ → Bool) (m n ii : ℕ) (master : List ℕ) (h : ii + n = m) :
    (outerLoop close m n ii master).length = n ∧
    (outerLoop close m n ii master).flatten.Nodup ∧
    (∀ k l, (outerLoop close m n ii master)[k]? = some l → ∀ j ∈ l,
      ii + k < j ∧ j < m ∧ j ∉ master ∧ close (ii + k) j = true) ∧
    (∀ i j, ii ≤ i → i < j → j < m → close i j = true → j ∈ master ∨ j ∈ (outerLoop close m n ii master).flatten) := by
  induction n generalizing ii master with
  | zero =>
    refine ⟨rfl, by simp [outerLoop], by simp [outerLoop], fun i j h1 h2 h3 h4 => ?_⟩
    omega
  | succ n ih =>
    unfold outerLoop
    obtain ⟨new, e, nd, hm⟩ := innerLoop_spec close ii (m - (ii + 1)) (ii + 1) [] master
    simp only [List.nil_append] at e
    simp only [e]
    obtain ⟨hl, hnd, hr, hc⟩ := ih (ii + 1) (master ++ new) (by omega)
    refine ⟨by simp [hl], ?_, ?_, ?_⟩
    · rw [List.flatten_cons, List.nodup_append]
      refine ⟨nd, hnd, fun a ha b hb hab => ?_⟩
      subst hab
      obtain ⟨l, hl', hal⟩ := List.mem_flatten.1 hb
      obtain ⟨k, hk⟩ := List.mem_iff_getElem?.1 hl'
      exact (hr k l hk a hal).2.2.1 (List.mem_append_right _ ha)
    · intro k l hk j hj
      cases k with
      | zero =>
        simp only [List.getElem?_cons_zero, Option.some.injEq] at hk
        subst hk
        obtain ⟨a, b, c, e⟩ := (hm j).1 hj
        exact ⟨by omega, by omega, c, e⟩
      | succ k =>
        simp only [List.getElem?_cons_succ] at hk
        obtain ⟨a, b, c, e⟩ := hr k l hk j hj
        refine ⟨by omega, b, fun hj => c (List.mem_append_left _ hj), ?_⟩
        rw [show ii + (k + 1) = ii + 1 + k by omega]; exact e
    · intro i j h1 h2 h3 h4
      rw [List.flatten_cons, List.mem_append]
      by_cases hi : i = ii
      · subst hi
        by_cases hj : j ∈ master
        · exact Or.inl hj
        · right; left; rw [hm]; exact ⟨by omega, by omega, hj, h4⟩
      · rcases hc i j (by omega) h2 h3 h4 with h | h
        · rcases List.mem_append.1 h with h | h
          · exact Or.inl h
          · exact Or.inr (Or.inl h)
        · exact Or.inr (Or.inr h)

/-- C37: the vectors that are kept are pairwise not within the tolerance. -/
theorem kept_apart (tol : ℝ) (pm : Bool) (vec : List (Fin d → ℝ)) (i j : ℕ) (hij : i < j)
    (hj : j ∈ uid tol pm vec) (a b : Fin d → ℝ) (ha : vec[i]? = some a) (hb : vec[j]? = some b) :
    ¬ Near tol pm a b := by
  intro hn
  simp only [uid, List.mem_filter, List.mem_range, decide_eq_true_eq] at hj
  obtain ⟨-, -, -, hc⟩ := outerLoop_spec (close tol pm vec) vec.length vec.length 0 [] (by omega)
  rcases hc i j (by omega) hij hj.1 ((close_iff ..).2 ⟨a, b, ha, hb, hn⟩) with h | h
  · simp at h
  · exact hj.2 h

/-- C37: each vector is either kept or listed once, in the group of an earlier vector within the tolerance. -/
theorem dropped_near_earlier (tol : ℝ) (pm : Bool) (vec : List (Fin d → ℝ)) :
    (rows tol pm vec).flatten.Nodup ∧ (uid tol pm vec).Nodup ∧
    ∀ j < vec.length, j ∉ uid tol pm vec → ∃ i < j, ∃ l ∈ eqv tol pm vec, l.head? = some i ∧ j ∈ l ∧
      ∃ a b, vec[i]? = some a ∧ vec[j]? = some b ∧ Near tol pm a b := by
  obtain ⟨hl, hnd, hr, -⟩ := outerLoop_spec (close tol pm vec) vec.length vec.length 0 [] (by omega)
  refine ⟨hnd, List.nodup_range.filter _, fun j hj hu => ?_⟩
  simp only [uid, List.mem_filter, List.mem_range, decide_eq_true_eq, not_and, not_not] at hu
  obtain ⟨l, hl', hjl⟩ := List.mem_flatten.1 (hu hj)
  obtain ⟨k, hk⟩ := List.mem_iff_getElem?.1 hl'
  obtain ⟨h1, h2, -, h4⟩ := hr k l hk j hjl
  rw [Nat.zero_add] at h1 h4
  refine ⟨k, h1, k :: l, ?_, rfl, List.mem_cons_of_mem _ hjl, (close_iff ..).1 h4⟩
  unfold eqv
  rw [List.mem_filterMap]
  refine ⟨(l, k), ?_, ?_⟩
  · rw [List.mem_zipIdx_iff_getElem?]; exact hk
  · rw [if_neg (List.ne_nil_of_mem hjl)]

/-- C37: the groups returned hold only vectors within the tolerance of their first member. -/
theorem groups_sound (tol : ℝ) (pm : Bool) (vec : List (Fin d → ℝ)) (l : List ℕ) (hl : l ∈ eqv tol pm vec) :
    ∃ i t, l = i :: t ∧ t ≠ [] ∧ ∀ j ∈ t, i < j ∧ ∃ a b, vec[i]? = some a ∧ vec[j]? = some b ∧ Near tol pm a b := by
  obtain ⟨-, -, hr, -⟩ := outerLoop_spec (close tol pm vec) vec.length vec.length 0 [] (by omega)
  unfold eqv at hl
  obtain ⟨⟨t, i⟩, hp, he⟩ := List.mem_filterMap.1 hl
  rw [List.mem_zipIdx_iff_getElem?] at hp
  simp only at hp he
  split at he
  · simp at he
  · next hne =>
    simp only [Option.some.injEq] at he
    refine ⟨i, t, he.symm, hne, fun j hj => ?_⟩
    obtain ⟨h1, -, -, h4⟩ := hr i t hp j hj
    rw [Nat.zero_add] at h1 h4
    exact ⟨h1, (close_iff ..).1 h4⟩

/-- C37 (not fully provable): every dropped vector is within the tolerance of a kept one, if being within the
tolerance is transitive on the list. Without that it is false: see `chain_dropped`. -/
theorem dropped_near_kept_partial (tol : ℝ) (pm : Bool) (vec : List (Fin d → ℝ))
    (ht : ∀ a ∈ vec, ∀ b ∈ vec, ∀ c ∈ vec, Near tol pm a b → Near tol pm b c → Near tol pm a c) (j : ℕ)
    (hj : j < vec.length) (hu : j ∉ uid tol pm vec) :
    ∃ i ∈ uid tol pm vec, ∃ a b, vec[i]? = some a ∧ vec[j]? = some b ∧ Near tol pm a b := by
  induction j using Nat.strong_induction_on with
  | _ j ih =>
    obtain ⟨i, hij, -, -, -, -, a, b, ha, hb, hn⟩ := (dropped_near_earlier tol pm vec).2.2 j hj hu
    by_cases hi : i ∈ uid tol pm vec
    · exact ⟨i, hi, a, b, ha, hb, hn⟩
    · obtain ⟨k, hk, a', b', ha', hb', hn'⟩ := ih i hij (by omega) hi
      rw [ha] at hb'; cases hb'
      refine ⟨k, hk, a', b, ha', hb, ht a' ?_ a ?_ b ?_ hn' hn⟩
      · exact List.mem_of_getElem? ha'
      · exact List.mem_of_getElem? ha
      · exact List.mem_of_getElem? hb

/-- A vector with one component. -/
def v1 (x : ℝ) : Fin 1 → ℝ := fun _ => x

theorem near_v1 (x y : ℝ) : near 1 false (v1 x) (v1 y) = true ↔ |x - y| < 1 := by
  rw [near_iff]; simp [Near, v1]

/-- C37: along a chain of vectors each within the tolerance of the next, only the first one is kept, although
the last one is farther away from it than the tolerance. -/
theorem chain_dropped : uid 1 false [v1 0, v1 (2 / 3), v1 (4 / 3)] = [0] ∧
    ¬ Near 1 false (v1 0) (v1 (4 / 3)) := by
  constructor
  · have h1 : near 1 false (v1 0) (v1 (2 / 3)) = true := by rw [near_v1, abs_lt]; norm_num
    have h2 : near 1 false (v1 (2 / 3)) (v1 (4 / 3)) = true := by rw [near_v1, abs_lt]; norm_num
    have h3 : near 1 false (v1 0) (v1 (4 / 3)) = false := by
      rw [Bool.eq_false_iff, Ne, near_v1, abs_lt]; norm_num
    have c : rows 1 false [v1 0, v1 (2 / 3), v1 (4 / 3)] = [[1], [2], []] := by
      simp [rows, outerLoop, innerLoop, close, h1, h2, h3]
    simp [uid, c, List.range_succ]
  · rw [← near_iff, near_v1, abs_lt]; norm_num

/-- Non-vacuity of `dropped_near_kept_partial`: a list with a duplicate and transitive nearness. -/
example : ∀ a ∈ [v1 0, v1 5, v1 0], ∀ b ∈ [v1 0, v1 5, v1 0], ∀ c ∈ [v1 0, v1 5, v1 0],
    Near 1 false a b → Near 1 false b c → Near 1 false a c := by
  have h : ∀ x y, Near 1 false (v1 x) (v1 y) ↔ |x - y| < 1 := fun x y => by rw [← near_iff, near_v1]
  simp only [List.mem_cons, List.not_mem_nil, or_false, forall_eq_or_imp, forall_eq, h]
  norm_num [abs_lt]

end Hexrd.DupVectors
