import Verif.Lemmas.AbsRunA
import Verif.Lemmas.AbsRunB
import Verif.Lemmas.AbsRunC
import Verif.Lemmas.SpaceGroup

/-! The reflection conditions of all space groups in all settings. -/
namespace Hexrd.SpaceGroup

/-- The operators come from the table of the setting. -/
theorem ops_codes (sg setting : Nat) (h1 : 1 ≤ sg) (h2 : sg ≤ 237) :
    ∃ S C T, generateSGSym sg setting = some S ∧ S.ops = C.map dec ∧
      (table0[sg - 1]? = some (C, T) ∨ ∃ i, i < 24 ∧ altGroups[i]? = some sg ∧ table1[i]? = some (C, T)) := by
  have key : ∀ k C T, checkSG sg k C T = true →
      (∀ s, symGL[sg - 1]? = some s → makeGenerators s setting = makeGenerators s k) →
      (table0[sg - 1]? = some (C, T) ∨ ∃ i, i < 24 ∧ altGroups[i]? = some sg ∧ table1[i]? = some (C, T)) →
      ∃ S C T, generateSGSym sg setting = some S ∧ S.ops = C.map dec ∧
      (table0[sg - 1]? = some (C, T) ∨ ∃ i, i < 24 ∧ altGroups[i]? = some sg ∧ table1[i]? = some (C, T)) := by
    intro k C T hc hm hT
    obtain ⟨S, _, _, e, _, hops, _⟩ := checkSG_sound sg k C T (by omega) hc
    refine ⟨S, C, T, ?_, hops, hT⟩
    rw [generateSGSym_congr sg setting k hm]
    exact e
  have h0 : ∃ C T, table0[sg - 1]? = some (C, T) ∧ checkSG sg 0 C T = true := by
    have : checkAt sg = true := by
      by_cases hs : sg ≤ 142
      · exact List.all_eq_true.1 runA sg (List.mem_range'_1.2 (by omega))
      · exact List.all_eq_true.1 runB sg (List.mem_range'_1.2 (by omega))
    unfold checkAt at this
    cases e : table0[sg - 1]? with
    | none => rw [e] at this; cases this
    | some p => rw [e] at this; exact ⟨p.1, p.2, rfl, this⟩
  by_cases hk : setting = 0
  · obtain ⟨C, T, e, h⟩ := h0
    exact key 0 C T h (fun s _ => by rw [hk]) (Or.inl e)
  by_cases ha : sg ∈ altGroups
  · obtain ⟨i, hi, e⟩ := List.mem_iff_getElem.1 ha
    have hlt : i < 24 := hi
    have : checkAlt i = true := List.all_eq_true.1 runC i (List.mem_range'_1.2 (by omega))
    unfold checkAlt at this
    have ei : altGroups[i]? = some sg := by rw [List.getElem?_eq_getElem hi, e]
    rw [ei] at this
    cases e' : table1[i]? with
    | none => rw [e'] at this; cases this
    | some p =>
      rw [e'] at this
      exact key 1 p.1 p.2 this (fun s _ => makeGenerators_setting s setting hk) (Or.inr ⟨i, hlt, ei, e'⟩)
  · obtain ⟨C, T, e, h⟩ := h0
    refine key 0 C T h ?_ (Or.inl e)
    intro s hs
    have := List.all_eq_true.1 runSame sg (List.mem_range'_1.2 (by omega))
    unfold sameSetting at this
    rw [hs, Bool.or_eq_true, decide_eq_true_eq] at this
    simp only [decide_eq_true_eq] at this
    rw [makeGenerators_setting s setting hk]
    exact this.resolve_left ha

/-- The conditions of the code for every space group and setting: a reflection is
extinguished exactly if one of the proper ones fails. -/
theorem conds_extinct (sg setting : Nat) (h1 : 1 ≤ sg) (h2 : sg ≤ 230) :
    ∃ S A, generateSGSym sg setting = some S ∧ condsOf sg = some A ∧
      ∀ h, (∀ k ∈ properConds sg A, k.holds h) ↔ ¬ Spec.Extinct S.ops h := by
  have hc : checkAbs sg = true := by
    by_cases hs : sg ≤ 142
    · exact List.all_eq_true.1 absRunA sg (List.mem_range'_1.2 (by omega))
    · exact List.all_eq_true.1 absRunB sg (List.mem_range'_1.2 (by omega))
  unfold checkAbs at hc
  cases eA : condsOf sg with
  | none => rw [eA] at hc; cases hc
  | some A =>
  cases eX : absTable[sg - 1]? with
  | none => rw [eA, eX] at hc; cases hc
  | some X =>
  obtain ⟨S, C, T, eS, eops, hT⟩ := ops_codes sg setting h1 (by omega)
  cases e0 : table0[sg - 1]? with
  | none => rw [eA, eX, e0] at hc; cases hc
  | some p =>
  obtain ⟨C0, T0⟩ := p
  rw [eA, eX, e0] at hc
  simp only [Bool.and_eq_true, decide_eq_true_eq] at hc
  obtain ⟨⟨⟨hA, hsp⟩, hops⟩, hw⟩ := hc
  refine ⟨S, A, eS, rfl, ?_⟩
  rw [hA, eops]
  rcases hT with hT | ⟨i, hi, ei, e1⟩
  · rw [e0] at hT
    cases hT
    exact fun h => ⟨not_extinct_of_conds X.A X.spans C hsp hops h, conds_of_not_extinct X.A C X.wits hw h⟩
  · have hc : checkAbsAlt i = true := List.all_eq_true.1 absRunC i (List.mem_range'_1.2 (by omega))
    unfold checkAbsAlt at hc
    rw [ei, e1] at hc
    simp only [eX, Bool.and_eq_true] at hc
    exact fun h => ⟨not_extinct_of_conds X.A X.spans C hsp hc.1 h, conds_of_not_extinct X.A C X.witsAlt hc.2 h⟩

end Hexrd.SpaceGroup
