import Verif.Lemmas.SGRunA
import Verif.Lemmas.SGRunB
import Verif.Lemmas.SGRunC

/-! The check of all space groups in all settings. -/
namespace Hexrd.SpaceGroup

/-- All non-zero settings are the same setting. -/
theorem makeGenerators_setting (s : List Char) (k : Nat) (hk : k ≠ 0) :
    makeGenerators s k = makeGenerators s 1 := by
  unfold makeGenerators
  simp only [hk, ne_eq, not_false_eq_true, and_true, Nat.one_ne_zero]

/-- Without a second origin the setting is ignored. -/
def sameSetting (sg : Nat) : Bool :=
  decide (sg ∈ altGroups) ||
  match symGL[sg - 1]? with
  | none => false
  | some s => decide (makeGenerators s 1 = makeGenerators s 0)

set_option maxRecDepth 100000 in
theorem runSame : (List.range' 1 237).all sameSetting = true := by decide +kernel

theorem generateSGSym_congr (sg k k' : Nat)
    (h : ∀ s, symGL[sg - 1]? = some s → makeGenerators s k = makeGenerators s k') :
    generateSGSym sg k = generateSGSym sg k' := by
  unfold generateSGSym
  cases e : symGL[sg - 1]? with
  | none => simp
  | some s => simp only [Option.bind_eq_bind, Option.bind_some, h s e]

/-- Every space group in every setting has passed the check, possibly under another number
for the same setting. -/
theorem checked (sg setting : Nat) (h1 : 1 ≤ sg) (h2 : sg ≤ 237) :
    ∃ k C T, checkSG sg k C T = true ∧
      ∀ s, symGL[sg - 1]? = some s → makeGenerators s setting = makeGenerators s k := by
  have h0 : ∃ C T, checkSG sg 0 C T = true := by
    have : checkAt sg = true := by
      by_cases hs : sg ≤ 142
      · exact List.all_eq_true.1 runA sg (List.mem_range'_1.2 (by omega))
      · exact List.all_eq_true.1 runB sg (List.mem_range'_1.2 (by omega))
    unfold checkAt at this
    cases e : table0[sg - 1]? with
    | none => rw [e] at this; cases this
    | some p => rw [e] at this; exact ⟨p.1, p.2, this⟩
  by_cases hk : setting = 0
  · obtain ⟨C, T, h⟩ := h0
    exact ⟨0, C, T, h, fun s _ => by rw [hk]⟩
  by_cases ha : sg ∈ altGroups
  · obtain ⟨i, hi, e⟩ := List.mem_iff_getElem.1 ha
    have hlt : i < 24 := hi
    have : checkAlt i = true := List.all_eq_true.1 runC i (List.mem_range'_1.2 (by omega))
    unfold checkAlt at this
    rw [List.getElem?_eq_getElem hi, e] at this
    cases e' : table1[i]? with
    | none => rw [e'] at this; cases this
    | some p =>
      rw [e'] at this
      exact ⟨1, p.1, p.2, this, fun s _ => makeGenerators_setting s setting hk⟩
  · obtain ⟨C, T, h⟩ := h0
    refine ⟨0, C, T, h, ?_⟩
    intro s hs
    have := List.all_eq_true.1 runSame sg (List.mem_range'_1.2 (by omega))
    unfold sameSetting at this
    rw [hs, Bool.or_eq_true, decide_eq_true_eq] at this
    simp only [decide_eq_true_eq] at this
    rw [makeGenerators_setting s setting hk]
    exact this.resolve_left ha

/-- The operators of every space group, with their codes. -/
theorem main (sg setting : Nat) (h1 : 1 ≤ sg) (h2 : sg ≤ 237) :
    ∃ S gs c0, generateSGSym sg setting = some S ∧
      (symGL[sg - 1]?).bind (fun s => makeGenerators s setting) = some (gs, c0) ∧
      Spec.IsGroup Op.comp Op.one S.ops ∧ (∀ x ∈ S.ops, Spec.Generated Op.comp gs x) ∧
      (∀ g ∈ gs, g ∈ S.ops) ∧ (∀ x ∈ S.ops, x.r.det * x.r.det = 1) ∧
      S.ops.length = Spec.order sg ∧ S.pg = pointGroup S.ops ∧ S.pg.length = Spec.pointGroupOrder sg ∧
      S.laue = laueGroup S.pg ∧
      (Mat.minusOne ∈ S.pg ∨ S.pg.length ≤ 24) ∧ (S.centro = true ↔ Mat.minusOne ∈ S.pg) := by
  obtain ⟨k, C, T, hc, hm⟩ := checked sg setting h1 h2
  obtain ⟨S, gs, c0, e, h1', h3, h4⟩ := checkSG_sound sg k C T (by omega) hc
  refine ⟨S, gs, c0, ?_, ?_, h4⟩
  · rw [generateSGSym_congr sg setting k hm]
    exact e
  · rw [← h1']
    cases e : symGL[sg - 1]? with
    | none => rfl
    | some s => simp only [Option.bind_some, hm s e]

end Hexrd.SpaceGroup
