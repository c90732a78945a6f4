import Verif.Spec.AtomData

/-! # C176: the atoms of a material and of its unit cell -/
namespace Hexrd.AtomData

variable {K D : Type}

theorem chargeOk_iff (allowed : ℕ → List String) (types : List ℕ) (charge : List String) : chargeOk allowed types charge = true ↔
    charge.length = types.length ∧ ∀ (i : ℕ) (z : ℕ) (q : String), types[i]? = some z → charge[i]? = some q → q ∈ allowed z := by
  simp only [chargeOk, Bool.and_eq_true, beq_iff_eq, List.all_eq_true, decide_eq_true_eq]
  refine and_congr_right fun _ => ⟨fun h i z q hz hq => ?_, fun h p hp => ?_⟩
  · exact h (z, q) (List.mem_iff_getElem?.2 ⟨i, by rw [List.getElem?_zip_eq_some]; exact ⟨hz, hq⟩⟩)
  · obtain ⟨i, hi⟩ := List.mem_iff_getElem?.1 hp
    rw [List.getElem?_zip_eq_some] at hi
    exact h i p.1 p.2 hi.1 hi.2

theorem infoOk_iff (info : List (List K)) : infoOk info = true ↔ info ≠ [] ∧ ∀ r ∈ info, r.length = 4 := by
  cases info <;> simp [infoOk]

theorem sizesOk_iff (d : Data K D) : sizesOk d = true ↔
    d.info.length = d.types.length ∧ d.u.length = d.types.length ∧ d.charge.length = d.types.length := by
  simp only [sizesOk, Bool.and_eq_true, beq_iff_eq]
  omega

theorem valid_iff (allowed : ℕ → List String) (d : Data K D) : Spec.Valid allowed d ↔
    sizesOk d = true ∧ infoOk d.info = true ∧ chargeOk allowed d.types d.charge = true := by
  rw [sizesOk_iff, infoOk_iff, chargeOk_iff]
  constructor
  · rintro ⟨h1, h2, h3, h4, h5, h6⟩
    refine ⟨⟨h2, h3, h4⟩, ⟨fun h => h1 ?_, h5⟩, h4, h6⟩
    rw [h] at h2
    exact List.length_eq_zero_iff.1 h2.symm
  · rintro ⟨⟨h2, h3, h4⟩, ⟨h1, h5⟩, -, h6⟩
    refine ⟨fun h => h1 ?_, h2, h3, h4, h5, h6⟩
    rw [h] at h2
    exact List.length_eq_zero_iff.1 h2

/-- **C176** setting the atoms of a material succeeds exactly with valid data, and then the material and its unit cell hold these data. -/
theorem setAtomdata_iff (allowed : ℕ → List String) (m : Mat K D) (d : Data K D) :
    ((setAtomdata allowed m d).2 = true ↔ Spec.Valid allowed d) ∧
    (Spec.Valid allowed d → (setAtomdata allowed m d).1 = ⟨d, d⟩) := by
  rw [valid_iff]
  unfold setAtomdata
  by_cases h1 : sizesOk d = true
  · by_cases h2 : infoOk d.info = true
    · by_cases h3 : chargeOk allowed d.types d.charge = true
      · have := (sizesOk_iff d).1 h1
        simp [h1, h2, h3, newUnitcell, this.1]
      · simp only [Bool.not_eq_true] at h3
        simp [h1, h2, h3]
    · simp only [Bool.not_eq_true] at h2
      simp [h1, h2]
  · simp only [Bool.not_eq_true] at h1
    simp [h1]

/-- **C176** data with numbers of entries that differ are refused and change nothing. Missing: other invalid data, for which it is false. -/
theorem setAtomdata_refused_partial (allowed : ℕ → List String) (m : Mat K D) (d : Data K D)
    (h : ¬ (d.info.length = d.types.length ∧ d.u.length = d.types.length ∧ d.charge.length = d.types.length)) :
    setAtomdata allowed m d = (m, false) := by
  rw [← sizesOk_iff] at h
  simp only [Bool.not_eq_true] at h
  simp [setAtomdata, h]

/-- **C176 is false** for charges that an element cannot have: an exception is raised, but the material already has the new atomic numbers,
positions and displacement parameters, with the old charges, and its unit cell is the old one. -/
theorem setAtomdata_half_fails (allowed : ℕ → List String) (m : Mat K D) (d : Data K D) (hs : sizesOk d = true) (hi : infoOk d.info = true)
    (hc : ¬ ∀ (i : ℕ) (z : ℕ) (q : String), d.types[i]? = some z → d.charge[i]? = some q → q ∈ allowed z) :
    setAtomdata allowed m d = (⟨{ d with charge := m.own.charge }, m.cell⟩, false) := by
  have h3 : chargeOk allowed d.types d.charge = false := by
    rw [← Bool.not_eq_true, chargeOk_iff]
    exact fun h => hc h.2
  simp [setAtomdata, hs, hi, h3]

theorem select_getElem? {α : Type} (l : List α) (idx : List ℕ) (h : ∀ i ∈ idx, i < l.length) (j : ℕ) :
    (select l idx)[j]? = idx[j]?.bind fun i => l[i]? := by
  induction idx generalizing j with
  | nil => simp [select]
  | cons a idx ih =>
    obtain ⟨x, ha⟩ : ∃ x, l[a]? = some x := ⟨l[a]'(h a (by simp)), List.getElem?_eq_getElem _⟩
    have e : select l (a :: idx) = x :: select l idx := by simp [select, ha]
    rw [e]
    cases j with
    | zero => simp [ha]
    | succ j => simpa using ih (fun i hi => h i (List.mem_cons_of_mem _ hi)) j

theorem select_length {α : Type} (l : List α) (idx : List ℕ) (h : ∀ i ∈ idx, i < l.length) : (select l idx).length = idx.length := by
  induction idx with
  | nil => rfl
  | cons a idx ih =>
    obtain ⟨x, ha⟩ : ∃ x, l[a]? = some x := ⟨l[a]'(h a (by simp)), List.getElem?_eq_getElem _⟩
    have e : select l (a :: idx) = x :: select l idx := by simp [select, ha]
    rw [e, List.length_cons, ih fun i hi => h i (List.mem_cons_of_mem _ hi), List.length_cons]

/-- **C176** removing duplicates leaves in the cell the kept atoms, each with all of its own data. -/
theorem cellKeep_atoms (allowed : ℕ → List String) (d : Data K D) (idx : List ℕ) (hv : Spec.Valid allowed d) (h : ∀ i ∈ idx, i < d.types.length) :
    ∀ j i, idx[j]? = some i → Spec.atom (cellKeep d idx) j = Spec.atom d i := by
  intro j i hj
  unfold Spec.atom cellKeep
  simp only
  rw [select_getElem? d.types idx h, select_getElem? d.info idx (by rw [hv.info]; exact h), select_getElem? d.u idx (by rw [hv.u]; exact h),
    select_getElem? d.charge idx (by rw [hv.charge]; exact h), hj]
  rfl

theorem cellKeep_valid (allowed : ℕ → List String) (d : Data K D) (idx : List ℕ) (hv : Spec.Valid allowed d) (hn : idx ≠ [])
    (h : ∀ i ∈ idx, i < d.types.length) : Spec.Valid allowed (cellKeep d idx) := by
  have l1 := select_length d.types idx h
  have l2 := select_length d.info idx (by rw [hv.info]; exact h)
  have l3 := select_length d.u idx (by rw [hv.u]; exact h)
  have l4 := select_length d.charge idx (by rw [hv.charge]; exact h)
  refine ⟨fun e => hn ?_, by simp [cellKeep, l1, l2], by simp [cellKeep, l1, l3], by simp [cellKeep, l1, l4], fun r hr => ?_, fun i z q hz hq => ?_⟩
  · have e : select d.types idx = [] := e
    rw [e] at l1
    exact List.length_eq_zero_iff.1 l1.symm
  · obtain ⟨i, -, hi⟩ := List.mem_filterMap.1 hr
    exact hv.four r (List.mem_of_getElem? hi)
  · simp only [cellKeep] at hz hq
    rw [select_getElem? d.types idx h] at hz
    rw [select_getElem? d.charge idx (by rw [hv.charge]; exact h)] at hq
    cases hj : idx[i]? with
    | none => simp [hj] at hz
    | some k =>
      simp only [hj, Option.bind_some] at hz hq
      exact hv.states k z q hz hq

/-- **C176** removing duplicates from a material in step with its cell succeeds; the cell has the kept atoms, and the material has their
atomic numbers, positions and charges. Missing: the displacement parameters, which the material does not take over. -/
theorem removeDuplicates_partial (allowed : ℕ → List String) (m : Mat K D) (idx : List ℕ) (hs : Spec.InSync m) (hv : Spec.Valid allowed m.own)
    (hn : idx ≠ []) (h : ∀ i ∈ idx, i < m.own.types.length) :
    removeDuplicates allowed m idx = (⟨{ cellKeep m.own idx with u := m.own.u }, cellKeep m.own idx⟩, true) := by
  unfold Spec.InSync at hs
  have hk := (valid_iff allowed _).1 (cellKeep_valid allowed m.own idx hv hn h)
  unfold removeDuplicates
  simp [hs, hk.2.1, hk.2.2]

/-- **C176 is false** after duplicates were removed: whenever some atom was, the material and its cell differ, and the next cell that is made
of the material has displacement parameters for more atoms than there are. -/
theorem removeDuplicates_fails (allowed : ℕ → List String) (m : Mat K D) (idx : List ℕ) (hs : Spec.InSync m) (hv : Spec.Valid allowed m.own)
    (hn : idx ≠ []) (h : ∀ i ∈ idx, i < m.own.types.length) (hl : idx.length < m.own.types.length) :
    ¬ Spec.InSync (removeDuplicates allowed m idx).1 ∧ (newUnitcell (removeDuplicates allowed m idx).1).2 = true ∧
    (newUnitcell (removeDuplicates allowed m idx).1).1.cell.u.length > (newUnitcell (removeDuplicates allowed m idx).1).1.cell.types.length := by
  rw [removeDuplicates_partial allowed m idx hs hv hn h]
  have l1 := select_length m.own.types idx h
  have l2 := select_length m.own.info idx (by rw [hv.info]; exact h)
  have l3 := select_length m.own.u idx (by rw [hv.u]; exact h)
  have hu := hv.u
  refine ⟨fun e => ?_, by simp [newUnitcell, cellKeep, l1, l2], by simp [newUnitcell, cellKeep, l1, l2]; omega⟩
  have := congrArg (fun d : Data K D => d.u.length) (show _ = _ from e)
  simp only [cellKeep] at this
  omega

/-- Three atoms of which the second is removed: the third, of kind 8, then has the displacement parameter 2 of the second. -/
example : Spec.atom (newUnitcell (removeDuplicates (K := ℕ) (D := ℕ) (fun _ => ["0"])
      ⟨⟨[6, 6, 8], [[0, 0, 0, 1], [0, 0, 0, 1], [1, 1, 1, 1]], [1, 2, 3], ["0", "0", "0"]⟩,
       ⟨[6, 6, 8], [[0, 0, 0, 1], [0, 0, 0, 1], [1, 1, 1, 1]], [1, 2, 3], ["0", "0", "0"]⟩⟩ [0, 2]).1).1.cell 1 = some (8, [1, 1, 1, 1], 2, "0") := by
  decide

/-- Data that are valid. -/
example : Spec.Valid (K := ℕ) (D := ℕ) (fun _ => ["0", "2+"]) ⟨[6, 8], [[0, 0, 0, 1], [1, 1, 1, 1]], [1, 3], ["0", "2+"]⟩ := by
  rw [valid_iff]; decide

end Hexrd.AtomData
