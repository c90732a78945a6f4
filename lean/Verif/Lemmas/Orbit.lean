import Verif.Model.Orbit
import Verif.Props.SpaceGroup
import Mathlib.Tactic.Linarith

/-! Lemmas on collecting positions that are new. -/
namespace Hexrd.UnitCell

open Matrix Hexrd.SpaceGroup

/-- Collecting the candidates that are not close to what is already there. -/
def collect {α : Type} (new : List α → α → Bool) (acc cands : List α) : List α :=
  cands.foldl (fun l c => if new l c then l ++ [c] else l) acc

variable {α : Type} (close : α → α → Bool)

theorem collect_facts (acc cands : List α) (new : List α → α → Bool)
    (hnew : ∀ l c, new l c = l.all fun w => !close c w) :
    (∀ w ∈ acc, w ∈ collect new acc cands) ∧
    (∀ w ∈ collect new acc cands, w ∈ acc ∨ w ∈ cands) ∧
    (∀ c ∈ cands, c ∈ collect new acc cands ∨ ∃ w ∈ collect new acc cands, close c w = true) ∧
    (acc.Pairwise (fun a b => close b a = false) → (collect new acc cands).Pairwise fun a b => close b a = false) := by
  induction cands generalizing acc with
  | nil => exact ⟨fun w h => h, fun w h => Or.inl h, by simp, fun h => h⟩
  | cons c cs ih =>
    have e : collect new acc (c :: cs) = collect new (if new acc c then acc ++ [c] else acc) cs := rfl
    rw [e]
    obtain ⟨h1, h2, h3, h4⟩ := ih (if new acc c then acc ++ [c] else acc)
    have sub : ∀ w ∈ acc, w ∈ (if new acc c then acc ++ [c] else acc) := by
      intro w hw; split
      · exact List.mem_append_left _ hw
      · exact hw
    refine ⟨fun w hw => h1 w (sub w hw), ?_, ?_, ?_⟩
    · intro w hw
      rcases h2 w hw with h | h
      · split at h
        · rcases List.mem_append.1 h with h | h
          · exact Or.inl h
          · rw [List.mem_singleton] at h; subst h; exact Or.inr List.mem_cons_self
        · exact Or.inl h
      · exact Or.inr (List.mem_cons_of_mem _ h)
    · intro d hd
      rcases List.mem_cons.1 hd with rfl | hd
      · by_cases hn : new acc d
        · left; apply h1; rw [if_pos hn]; simp
        · right
          have hn' := hn
          rw [hnew] at hn'
          simp only [List.all_eq_true, Bool.not_eq_true', not_forall, Bool.not_eq_false] at hn'
          obtain ⟨w, hw, hc⟩ := hn'
          exact ⟨w, h1 w (sub w hw), hc⟩
      · exact h3 d hd
    · intro hp
      apply h4
      split
      · rename_i hn
        rw [hnew, List.all_eq_true] at hn
        rw [List.pairwise_append]
        refine ⟨hp, List.pairwise_singleton _ _, ?_⟩
        intro a ha b hb
        rw [List.mem_singleton] at hb; subst hb
        simpa using hn a ha
      · exact hp

theorem calcOrbit_eq (L : Cell) (ops : List Op) (v : V3) :
    calcOrbit L ops v = collect (isNewPos L) [v] (ops.map fun p i => reduce1 (applyOp p v i)) := by
  unfold calcOrbit collect
  rw [List.foldl_map]

/-- The reduction of the code is the fractional part, cleared if it is tiny. -/
theorem reduce1_eq (x : ℝ) : reduce1 x = if Int.fract x < 1 / 1000000 then 0 else Int.fract x := by
  have h0 := Int.fract_nonneg x
  have h1 := Int.fract_lt_one x
  have key : (if modf x < 0 then modf x + 1 else modf x) = Int.fract x := by
    unfold modf
    split
    · rename_i hx
      have : x - ⌊x⌋ = Int.fract x := rfl
      rw [this, if_neg (not_lt.2 h0)]
    · rename_i hx
      rcases eq_or_lt_of_le (Int.ceil_le_floor_add_one x) with h | h
      · by_cases hi : x - ⌈x⌉ < 0
        · rw [if_pos hi]
          rw [h]; push_cast; unfold Int.fract; ring
        · exfalso
          have h2 := Int.lt_floor_add_one x
          rw [h] at hi; push_cast at hi
          linarith
      · have h2 : ⌈x⌉ = ⌊x⌋ := le_antisymm (by omega) (by
          have := Int.floor_le_ceil x; exact this)
        have h3 : x = ⌊x⌋ := le_antisymm (by rw [← h2]; exact Int.le_ceil x) (Int.floor_le x)
        have h4 : x - ⌈x⌉ = Int.fract x := by rw [h2]; rfl
        rw [h4, if_neg (not_lt.2 h0)]
  unfold reduce1
  simp only [key, abs_of_nonneg h0]

theorem calcLength_zero (L : Cell) : calcLength L 0 .d = 0 := by
  simp [calcLength]

theorem calcLength_neg (L : Cell) (u : V3) : calcLength L (-u) .d = calcLength L u .d := by
  simp [calcLength, Matrix.mulVec_neg]

end Hexrd.UnitCell
