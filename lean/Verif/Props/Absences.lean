import Verif.Lemmas.Absences

/-!
# Properties of the systematic absences (C19)

`allowedHKLs` models `Allowed_HKLs`; `Spec.Extinct` says that some operator of the space
group extinguishes a reflection. Each theorem holds for every list of reflections and for
every origin setting.
-/
namespace Hexrd.SpaceGroup

/-- C19 (partial: all space groups except 205): the reflections kept are exactly those no
operator extinguishes, in their order. -/
theorem allowed_iff_not_extinct_partial (sg setting : Nat) (h1 : 1 ≤ sg) (h2 : sg ≤ 230) (h205 : sg ≠ 205)
    (l : List Vec) :
    ∃ S l', generateSGSym sg setting = some S ∧ allowedHKLs sg l = some l' ∧ l'.Sublist l ∧
      ∀ h, h ∈ l' ↔ h ∈ l ∧ ¬ Spec.Extinct S.ops h := by
  obtain ⟨S, A, eS, eA, hh⟩ := conds_extinct sg setting h1 h2
  refine ⟨S, keepAll A l, eS, allowed_spec sg A eA l, List.filter_sublist, ?_⟩
  intro h
  have := hh h
  rw [properConds, if_neg h205] at this
  rw [keepAll, List.mem_filter, decide_eq_true_eq, this]

/-- C19 (one direction, all 230 space groups): a reflection that some operator extinguishes
is never kept. -/
theorem extinct_never_allowed (sg setting : Nat) (h1 : 1 ≤ sg) (h2 : sg ≤ 230) (l : List Vec) :
    ∃ S l', generateSGSym sg setting = some S ∧ allowedHKLs sg l = some l' ∧
      ∀ h ∈ l', h ∈ l ∧ ¬ Spec.Extinct S.ops h := by
  obtain ⟨S, A, eS, eA, hh⟩ := conds_extinct sg setting h1 h2
  refine ⟨S, keepAll A l, eS, allowed_spec sg A eA l, ?_⟩
  intro h hm
  rw [keepAll, List.mem_filter, decide_eq_true_eq] at hm
  refine ⟨hm.1, (hh h).1 ?_⟩
  intro k hk
  refine hm.2 k ?_
  rw [properConds] at hk
  split at hk
  · exact (List.mem_filter.1 hk).1
  · exact hk

/-- C19, what happens in Pa-3 (205): besides the extinguished reflections the code also
drops `0kl` with odd `l` and `h0l` with odd `h`. -/
theorem allowed_205 (setting : Nat) (l : List Vec) :
    ∃ S l', generateSGSym 205 setting = some S ∧ allowedHKLs 205 l = some l' ∧ l'.Sublist l ∧
      ∀ h, h ∈ l' ↔ h ∈ l ∧ ¬ Spec.Extinct S.ops h ∧ (h.x = 0 → h.z % 2 = 0) ∧ (h.y = 0 → h.x % 2 = 0) := by
  obtain ⟨S, A, eS, eA, hh⟩ := conds_extinct 205 setting (by decide) (by decide)
  refine ⟨S, keepAll A l, eS, allowed_spec 205 A eA l, List.filter_sublist, ?_⟩
  have hx : (∀ k ∈ extra205, k ∈ A) ∧ ∀ k ∈ A, k ∈ properConds 205 A ∨ k ∈ extra205 := by
    constructor
    · have : (condsOf 205).map (fun A => decide (∀ k ∈ extra205, k ∈ A)) = some true := by decide +kernel
      rw [eA] at this
      simpa using this
    · intro k hk
      by_cases he : k ∈ extra205
      · exact Or.inr he
      · refine Or.inl ?_
        rw [properConds, if_pos rfl, List.mem_filter]
        exact ⟨hk, by simpa using he⟩
  intro h
  rw [keepAll, List.mem_filter, decide_eq_true_eq, ← hh h]
  have e1 : (∀ k ∈ extra205, k.holds h) ↔ (h.x = 0 → h.z % 2 = 0) ∧ (h.y = 0 → h.x % 2 = 0) := by
    obtain ⟨x, y, z⟩ := h
    simp only [extra205, List.forall_mem_cons, List.not_mem_nil, false_imp_iff, implies_true, and_true, holds_x0,
      holds_y0, Vec.dot]
    omega
  rw [← e1]
  constructor
  · rintro ⟨hl, hA⟩
    refine ⟨hl, ?_, fun k hk => hA k (hx.1 k hk)⟩
    intro k hk
    rw [properConds, if_pos rfl] at hk
    exact hA k (List.mem_filter.1 hk).1
  · rintro ⟨hl, hp, he⟩
    refine ⟨hl, ?_⟩
    intro k hk
    rcases hx.2 k hk with h | h
    · exact hp k h
    · exact he k h

/-- C19 fails for Pa-3 (205): the reflection (0 2 1) is dropped although no operator
extinguishes it. -/
theorem allowed_205_wrong (setting : Nat) :
    ∃ S, generateSGSym 205 setting = some S ∧ allowedHKLs 205 [⟨0, 2, 1⟩] = some [] ∧
      ¬ Spec.Extinct S.ops ⟨0, 2, 1⟩ := by
  obtain ⟨S, A, eS, eA, hh⟩ := conds_extinct 205 setting (by decide) (by decide)
  refine ⟨S, eS, by decide +kernel, (hh _).1 ?_⟩
  have : (condsOf 205).map (fun A => decide (∀ k ∈ properConds 205 A, k.holds ⟨0, 2, 1⟩)) = some true := by
    decide +kernel
  rw [eA] at this
  simpa using this

/-- Concrete cases: silicon (227): (1 1 1) is kept, (2 0 0) is dropped; in P2_1 (4), (0 1 0)
is dropped and (0 2 0) is kept. -/
example : allowedHKLs 227 [⟨1,1,1⟩, ⟨2,0,0⟩, ⟨2,2,0⟩] = some [⟨1,1,1⟩, ⟨2,2,0⟩] ∧
    allowedHKLs 4 [⟨0,1,0⟩, ⟨0,2,0⟩, ⟨1,1,0⟩] = some [⟨0,2,0⟩, ⟨1,1,0⟩] := by decide +kernel

end Hexrd.SpaceGroup
