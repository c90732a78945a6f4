import Verif.Model.Calib
import Mathlib.Data.List.Basic
import Mathlib.Data.List.Nodup

/-!
Where the text `_distortion_param` can occur in parameter names.
-/

namespace Hexrd.Calib

/-- A word occurring in `d ++ suf` lies in one of the two, or across the boundary. -/
theorem infix_append_cases {w d suf : Name} (h : w <:+: d ++ suf) :
    w <:+: d ∨ w <:+: suf ∨ ∃ y, y ≠ [] ∧ y <:+ w ∧ y <+: suf := by
  obtain ⟨a, b, h⟩ := h
  rw [List.append_assoc, List.append_eq_append_iff] at h
  rcases h with ⟨c, hd, hw⟩ | ⟨c, ha, hs⟩
  · rw [List.append_eq_append_iff] at hw
    rcases hw with ⟨e, hc, hb⟩ | ⟨e, hw, hs⟩
    · exact Or.inl ⟨a, e, by rw [hd, hc, List.append_assoc]⟩
    · by_cases he : e = []
      · subst he
        rw [List.append_nil] at hw
        exact Or.inl ⟨a, [], by rw [hd, hw]; simp⟩
      · exact Or.inr (Or.inr ⟨e, he, ⟨c, hw.symm⟩, ⟨b, hs.symm⟩⟩)
  · exact Or.inr (Or.inl ⟨c, b, by rw [hs, List.append_assoc]⟩)

/-- A suffix that shares nothing with `_distortion_param`. -/
def clean (suf : Name) : Bool :=
  !(decide (sDist <:+: suf)) && sDist.tails.all fun y => y.isEmpty || !(decide (y <+: suf))

theorem clean_append {d suf : Name} (hc : clean suf = true) (h : sDist <:+: d ++ suf) : sDist <:+: d := by
  simp only [clean, Bool.and_eq_true, Bool.not_eq_true', decide_eq_false_iff_not, List.all_eq_true, Bool.or_eq_true,
    List.isEmpty_iff] at hc
  rcases infix_append_cases h with h | h | ⟨y, h1, h2, h3⟩
  · exact h
  · exact absurd h hc.1
  · rcases hc.2 y ((List.mem_tails _ _).2 h2) with h | h
    · exact absurd h h1
    · exact absurd h3 h

theorem clean_angles (c : Conv) : clean (angleNames c).1 = true ∧ clean (angleNames c).2.1 = true ∧
    clean (angleNames c).2.2 = true := by
  cases c <;> decide

theorem clean_tvec : clean sTX = true ∧ clean sTY = true ∧ clean sTZ = true ∧ clean sRadius = true := by decide

theorem clean_stage : ¬ sDist <:+: sChi ∧ ¬ sDist <:+: sITX ∧ ¬ sDist <:+: sITY ∧ ¬ sDist <:+: sITZ := by decide

theorem clean_beam : clean ('_' :: sPolar) = true ∧ clean ('_' :: sAzim) = true ∧ clean ('_' :: sEnergy) = true ∧
    clean ('_' :: (sCorr ++ sIcpt)) = true ∧ clean ('_' :: (sCorr ++ sSlope)) = true := by decide

theorem clean_beam' : ¬ sDist <:+: sPolar ∧ ¬ sDist <:+: sAzim ∧ ¬ sDist <:+: sEnergy ∧
    ¬ sDist <:+: sCorr ++ sIcpt ∧ ¬ sDist <:+: sCorr ++ sSlope := by decide

theorem no_border : ∀ e ∈ sDist.tails, e <+: sDist → e = sDist ∨ e = [] := by decide

theorem no_shift {b c t : Name} (h : sDist ++ b = c ++ (sDist ++ t)) : c = [] ∨ sDist <+: c := by
  rw [List.append_eq_append_iff] at h
  rcases h with ⟨e, hc, -⟩ | ⟨e, hc, he⟩
  · exact Or.inr ⟨e, hc.symm⟩
  · have hp : e <+: sDist := by
      refine List.prefix_of_prefix_length_le ⟨b, he.symm⟩ ⟨t, rfl⟩ ?_
      rw [hc]; simp
    rcases no_border e ((List.mem_tails _ _).2 ⟨c, hc.symm⟩) hp with h | h
    · left
      rw [h] at hc
      have := congrArg List.length hc
      rw [List.length_append] at this
      exact List.length_eq_zero_iff.1 (by omega)
    · right
      rw [h, List.append_nil] at hc
      exact ⟨[], by rw [List.append_nil, hc]⟩

/-- The distortion text of one detector occurs in a distortion name of another only if the name of the first ends the
name of the second. -/
theorem suffix_of_infix_distName {det det' : Name} {ii : Nat} (hd : ¬ sDist <:+: det')
    (h : (det ++ sDist) <:+: distName det' ii) : det <:+ det' := by
  obtain ⟨a, b, h⟩ := h
  unfold distName at h
  rw [show a ++ (det ++ sDist) ++ b = (a ++ det) ++ (sDist ++ b) by simp,
    show det' ++ sDist ++ '_' :: Nat.toDigits 10 ii = det' ++ (sDist ++ '_' :: Nat.toDigits 10 ii) by simp,
    List.append_eq_append_iff] at h
  rcases h with ⟨c, hd', hs⟩ | ⟨c, ha, hs⟩
  · rcases no_shift hs with rfl | ⟨e, he⟩
    · exact ⟨a, by rw [hd', List.append_nil]⟩
    · exact absurd ⟨a ++ det, e, by rw [hd', ← he]; simp⟩ hd
  · rcases no_shift hs with rfl | ⟨e, he⟩
    · exact ⟨a, by rw [ha, List.append_nil]⟩
    · exfalso
      rw [← he, List.append_assoc] at hs
      have hs' := List.append_cancel_left hs
      have hm : 'd' ∈ '_' :: Nat.toDigits 10 ii := by
        rw [hs']; simp [sDist]
      rcases List.mem_cons.1 hm with h | h
      · exact absurd h (by decide)
      · exact absurd (Nat.isDigit_of_mem_toDigits (by decide) (by decide) h) (by decide)

theorem own_infix (det : Name) (ii : Nat) : (det ++ sDist) <:+: distName det ii :=
  ⟨[], '_' :: Nat.toDigits 10 ii, by simp [distName]⟩

theorem digits_sorted : ∀ i < 10, ∀ j < 10, i < j → '_' :: Nat.toDigits 10 i ≤ '_' :: Nat.toDigits 10 j := by
  decide

/-- Up to ten distortion parameters are already in order. -/
theorem sortNames_dist (det : Name) (n : Nat) (hn : n ≤ 10) :
    sortNames ((List.range n).map (distName det)) = (List.range n).map (distName det) := by
  unfold sortNames
  apply List.mergeSort_of_pairwise
  rw [List.pairwise_map]
  refine List.Pairwise.imp_of_mem ?_ List.pairwise_lt_range
  intro i j hi hj hij
  rw [List.mem_range] at hi hj
  rw [decide_eq_true_iff, distName, distName]
  exact List.append_left_le (digits_sorted i (by omega) j (by omega) hij)

theorem distName_inj (det : Name) {i j : Nat} (h : distName det i = distName det j) : i = j := by
  unfold distName at h
  have h1 := List.append_cancel_left h
  have h2 := (List.cons.inj h1).2
  rw [← Nat.ofDigitChars_ten_toDigits (n := i), h2, Nat.ofDigitChars_ten_toDigits]

end Hexrd.Calib
