import Verif.Model.Calib
import Mathlib.Data.Fintype.EquivFin
import Mathlib.Data.List.Nodup
import Mathlib.Tactic.Linarith

/-!
C54: renaming of colliding parameters.  C55: distance of the TARDIS plates.
-/

namespace Hexrd.Calib

/-! ### Renaming -/

theorem toDigits_inj {m n : Nat} (h : Nat.toDigits 10 m = Nat.toDigits 10 n) : m = n := by
  rw [← Nat.ofDigitChars_ten_toDigits (n := m), h, Nat.ofDigitChars_ten_toDigits]

/-- The numbered names are all different. -/
theorem numbered_inj (n : Name) {i j : Nat}
    (h : Nat.toDigits 10 i ++ '_' :: n = Nat.toDigits 10 j ++ '_' :: n) : i = j :=
  toDigits_inj (List.append_cancel_right h)

theorem firstFree_spec (names : List Name) (n : Name) (k i : Nat) :
    (∀ j, i ≤ j → j < firstFree names n k i → (Nat.toDigits 10 j ++ '_' :: n) ∈ names) ∧
    i ≤ firstFree names n k i ∧
    ((Nat.toDigits 10 (firstFree names n k i) ++ '_' :: n) ∈ names → firstFree names n k i = i + k) := by
  induction k generalizing i with
  | zero => simp [firstFree]; omega
  | succ k ih =>
    unfold firstFree
    split
    · rename_i h
      obtain ⟨h1, h2, h3⟩ := ih (i + 1)
      refine ⟨fun j hj hlt => ?_, by omega, fun hm => by rw [h3 hm]; omega⟩
      rcases Nat.eq_or_lt_of_le hj with rfl | hj
      · exact h
      · exact h1 j hj hlt
    · rename_i h
      exact ⟨by omega, le_refl _, fun hm => absurd hm h⟩

/-- The loop stops at a free name. -/
theorem firstFree_free (names : List Name) (n : Name) :
    (Nat.toDigits 10 (firstFree names n names.length 1) ++ '_' :: n) ∉ names := by
  intro hm
  obtain ⟨h1, -, h3⟩ := firstFree_spec names n names.length 1
  have he := h3 hm
  have hall : ∀ j ∈ List.range (names.length + 1), (Nat.toDigits 10 (j + 1) ++ '_' :: n) ∈ names := by
    intro j hj
    rw [List.mem_range] at hj
    rcases Nat.lt_or_ge (j + 1) (firstFree names n names.length 1) with h | h
    · exact h1 _ (by omega) h
    · have : j + 1 = firstFree names n names.length 1 := by omega
      rw [this]; exact hm
  have hnd : ((List.range (names.length + 1)).map fun j => Nat.toDigits 10 (j + 1) ++ '_' :: n).Nodup := by
    refine List.Nodup.map (fun a b hab => ?_) List.nodup_range
    have := numbered_inj n hab
    omega
  have hsub : ((List.range (names.length + 1)).map fun j => Nat.toDigits 10 (j + 1) ++ '_' :: n) ⊆ names := by
    intro x hx
    obtain ⟨j, hj, rfl⟩ := List.mem_map.1 hx
    exact hall j hj
  have := (hnd.subperm hsub).length_le
  simp at this

/-- C54: a name is changed only if it is in use; the new name is not in use. -/
theorem renameOne_spec (used : List Name) (n : Name) :
    renameOne used n ∉ used ∧ (n ∉ used → renameOne used n = n) ∧
      (n ∈ used → ∃ i, 1 ≤ i ∧ renameOne used n = Nat.toDigits 10 i ++ '_' :: n ∧
        ∀ j, 1 ≤ j → j < i → (Nat.toDigits 10 j ++ '_' :: n) ∈ used) := by
  unfold renameOne
  by_cases h : n ∈ used
  · rw [if_pos h]
    obtain ⟨h1, h2, -⟩ := firstFree_spec used n used.length 1
    exact ⟨firstFree_free used n, fun h' => absurd h h', fun _ => ⟨_, h2, rfl, h1⟩⟩
  · rw [if_neg h]
    exact ⟨h, fun _ => rfl, fun h' => absurd h' h⟩

theorem renameAll_aux (current done ns : List Name) :
    (renameAll current done ns).1.length = ns.length ∧
    (renameAll current done ns).1.Nodup ∧
    (∀ x ∈ (renameAll current done ns).1, x ∉ current ∧ x ∉ done) ∧
    (renameAll current done ns).2 = ns.zip (renameAll current done ns).1 := by
  induction ns generalizing done with
  | nil => simp [renameAll]
  | cons n ns ih =>
    obtain ⟨h1, h2, h3, h4⟩ := ih (done ++ [renameOne (current ++ done) n])
    obtain ⟨r1, -, -⟩ := renameOne_spec (current ++ done) n
    simp only [renameAll, List.length_cons, h1, List.zip_cons_cons, ← h4, List.nodup_cons, List.mem_cons,
      forall_eq_or_imp, true_and]
    rw [List.mem_append, not_or] at r1
    refine ⟨⟨fun hm => ?_, h2⟩, ⟨r1, fun x hx => ?_⟩, trivial⟩
    · exact (h3 _ hm).2 (by simp)
    · exact ⟨(h3 x hx).1, fun hd => (h3 x hx).2 (by simp [hd])⟩

/-- C54: the new names are different from each other and from all names that exist already; there is one for each
parameter. -/
theorem rename_unique (current names : List Name) :
    (renameAll current [] names).1.length = names.length ∧ (renameAll current [] names).1.Nodup ∧
      ∀ x ∈ (renameAll current [] names).1, x ∉ current :=
  ⟨(renameAll_aux current [] names).1, (renameAll_aux current [] names).2.1,
    fun x hx => ((renameAll_aux current [] names).2.2.1 x hx).1⟩

/-- C54: appended to parameters that pass validation, the renamed ones pass validation too. -/
theorem rename_append_nodup (current names : List Name) (h : current.Nodup) :
    (current ++ (renameAll current [] names).1).Nodup := by
  obtain ⟨-, h2, h3⟩ := rename_unique current names
  rw [List.nodup_append]
  exact ⟨h, h2, fun a ha b hb hab => h3 b hb (hab ▸ ha)⟩

theorem renameAll_getElem (current done ns : List Name) (i : Nat) (hi : i < ns.length) :
    (renameAll current done ns).1[i]? =
      some (renameOne (current ++ done ++ (renameAll current done ns).1.take i) ns[i]) := by
  induction ns generalizing done i with
  | nil => simp at hi
  | cons n ns ih =>
    cases i with
    | zero => simp [renameAll]
    | succ i =>
      simp only [renameAll, List.getElem?_cons_succ, List.take_succ_cons, List.getElem_cons_succ]
      rw [ih _ i (by simpa using hi)]
      simp

/-- C54: a name that neither exists already nor was given to an earlier parameter is kept. -/
theorem rename_keeps (current names : List Name) (i : Nat) (hi : i < names.length) (h1 : names[i] ∉ current)
    (h2 : names[i] ∉ (renameAll current [] names).1.take i) :
    (renameAll current [] names).1[i]? = some names[i] := by
  rw [renameAll_getElem current [] names i hi]
  congr 1
  exact (renameOne_spec _ _).2.1 (by simp [h1, h2])

/-- C54: with distinct old names, the mapping sends each old name to the new name of the same parameter. -/
theorem rename_mapping (current names : List Name) (hn : names.Nodup) (i : Nat) (hi : i < names.length) :
    lookupLast (renameAll current [] names).2 names[i] = (renameAll current [] names).1[i]? := by
  obtain ⟨h1, -, -, h4⟩ := renameAll_aux current [] names
  rw [h4]
  generalize (renameAll current [] names).1 = new at *
  unfold lookupLast
  have hi' : i < (names.zip new).length := by simp [h1, hi]
  have hmem : (names[i], new[i]'(by omega)) ∈ (names.zip new).reverse := by
    rw [List.mem_reverse, List.mem_iff_getElem]
    exact ⟨i, hi', by simp⟩
  cases hf : (names.zip new).reverse.find? fun p => p.1 = names[i] with
  | none =>
    have := List.find?_eq_none.1 hf _ hmem
    simp at this
  | some p =>
    have hp := List.find?_some hf
    have hpm := List.mem_of_find?_eq_some hf
    rw [List.mem_reverse, List.mem_iff_getElem] at hpm
    obtain ⟨j, hj, rfl⟩ := hpm
    simp at hp
    have : j = i := (List.Nodup.getElem_inj_iff hn).1 hp
    subst this
    simp [h1, hi]

/-- A parameter that collides with nothing that exists can still be renamed: the first parameter took its name. -/
theorem rename_steals : (renameAll [['a']] [] [['a'], ['1', '_', 'a']]).1 =
    [['1', '_', 'a'], ['1', '_', '1', '_', 'a']] := by
  decide

/-- With a name given twice, the mapping only knows the second. -/
theorem rename_mapping_duplicate : lookupLast (renameAll [['a']] [] [['a'], ['a']]).2 ['a'] = some ['2', '_', 'a'] ∧
    (renameAll [['a']] [] [['a'], ['a']]).1 = [['1', '_', 'a'], ['2', '_', 'a']] := by
  decide

/-- C54: `validate_params_list` accepts exactly the lists without a repeated name. -/
theorem validate_iff (l : List Name) : duplicateNames l = [] ↔ l.Nodup := by
  induction l with
  | nil => simp [duplicateNames]
  | cons x l ih =>
    simp only [duplicateNames, List.append_eq_nil_iff, List.map_eq_nil_iff, List.nodup_cons, ih]
    apply and_congr_left
    intro _
    rw [List.filter_eq_nil_iff]
    constructor
    · intro h hx; exact h x hx (by simp)
    · intro h a ha hxa; exact h (by simp at hxa; rwa [hxa])

/-! ### TARDIS -/

/-- C55 (part): the plates are within the allowed distance after the constraint is applied, when plate 2 ends up on its
side of the origin. -/
theorem tardis_distance_partial (y2 y4 : ℝ) (h : (tardis y2 y4).1 ≤ 0) :
    minDist ≤ (tardis y2 y4).2.1 - (tardis y2 y4).1 ∧ (tardis y2 y4).2.1 - (tardis y2 y4).1 ≤ maxDist := by
  have hm : minDist ≤ maxDist := by unfold minDist maxDist; norm_num
  unfold tardis at *
  simp only at *
  split at h
  · rename_i h1
    rw [if_pos h1, abs_of_nonpos h]; constructor <;> linarith
  · rename_i h1
    rw [if_neg h1]
    split at h
    · rename_i h2
      rw [if_pos h2, abs_of_nonpos h]; constructor <;> linarith
    · rename_i h2
      rw [if_neg h2, abs_of_nonpos h]
      push Not at h1 h2
      rw [abs_of_nonpos h] at h1 h2
      constructor <;> simp <;> linarith

/-- C55: it does end up there when the plates are on their sides and not lopsided: plate 2 below, plate 4 above and the
sum of the two heights at most the largest distance. -/
theorem tardis_distance (y2 y4 : ℝ) (h2 : y2 ≤ 0) (h4 : 0 ≤ y4) (hs : y2 + y4 ≤ maxDist) :
    minDist ≤ (tardis y2 y4).2.1 - (tardis y2 y4).1 ∧ (tardis y2 y4).2.1 - (tardis y2 y4).1 ≤ maxDist := by
  apply tardis_distance_partial
  unfold tardis
  simp only
  rw [abs_of_nonpos h2, abs_of_nonneg h4]
  split
  · rename_i h
    simp only
    rw [abs_of_pos (by linarith)]
    linarith
  · split
    · simp only
      have := abs_nonneg (-y2 + y4 - minDist)
      linarith
    · exact h2

/-- C55: the distance is left alone if it is allowed. -/
theorem tardis_unchanged (y2 y4 : ℝ) (h2 : y2 ≤ 0) (h4 : 0 ≤ y4) (h : minDist ≤ y4 - y2) (h' : y4 - y2 ≤ maxDist) :
    tardis y2 y4 = (y2, y4, y4 - y2) := by
  unfold tardis
  simp only
  rw [abs_of_nonpos h2, abs_of_nonneg h4, if_neg (by linarith), if_neg (by linarith)]
  simp; ring

/-- C55 fails for plates on their sides but lopsided: plate 2 is pushed across the origin. -/
theorem tardis_lopsided : (tardis (-1) 40).2.1 - (tardis (-1) 40).1 < minDist := by
  unfold tardis minDist maxDist
  norm_num [abs_of_pos, abs_of_neg]

/-- C55 fails for exchanged plates: "these plates always have opposite signs" is not checked. -/
theorem tardis_exchanged : (tardis 11 (-12)).2.1 - (tardis 11 (-12)).1 < minDist := by
  unfold tardis minDist maxDist
  norm_num [abs_of_pos, abs_of_neg]

end Hexrd.Calib
