import Verif.Lemmas.Tasks
/-! # C01: task distribution -/
namespace Hexrd.Tasks

/-- Specification: the list of half-open ranges, read in order, tiles `[a, b)`:
each range starts where the previous one stopped and the last stops at `b`. -/
def Tiles : List (Nat × Nat) → Nat → Nat → Prop
  | [], a, b => a = b
  | r :: rs, a, b => r.1 = a ∧ r.1 ≤ r.2 ∧ Tiles rs r.2 b

theorem chunks_spec (tpw : Nat) : ∀ k prev rem, rem ≤ k →
    Tiles (chunks tpw k prev rem) prev (prev + k * tpw + rem) ∧
    (chunks tpw k prev rem).length ≤ k ∧
    (∀ r ∈ chunks tpw k prev rem, r.1 < r.2) ∧
    (∀ r ∈ chunks tpw k prev rem, r.2 - r.1 = tpw ∨ r.2 - r.1 = tpw + 1) := by
  intro k
  induction k with
  | zero => intro prev rem h; have : rem = 0 := by omega
            subst this; simp [chunks, Tiles]
  | succ k ih =>
    intro prev rem h
    by_cases h0 : rem = 0
    · by_cases ht : tpw = 0
      · subst h0; subst ht; simp [chunks, Tiles]
      · obtain ⟨h1, h2, h3, h4⟩ := ih (prev + tpw) 0 (by omega)
        have e : prev + (k+1) * tpw + rem = prev + tpw + k * tpw + 0 := by rw [Nat.succ_mul]; omega
        rw [e]
        simp only [chunks, h0, ht, ne_eq, not_true_eq_false, if_false, Tiles, List.length_cons, List.mem_cons]
        refine ⟨⟨trivial, by omega, h1⟩, by omega, ?_, ?_⟩
        · rintro r (rfl | hr); · simp only; omega
          exact h3 r hr
        · rintro r (rfl | hr); · simp only; omega
          exact h4 r hr
    · obtain ⟨h1, h2, h3, h4⟩ := ih (prev + (tpw+1)) (rem - 1) (by omega)
      have e : prev + (k+1) * tpw + rem = prev + (tpw+1) + k * tpw + (rem - 1) := by rw [Nat.succ_mul]; omega
      rw [e]
      simp only [chunks, h0, ne_eq, not_false_eq_true, if_true, Tiles, List.length_cons, List.mem_cons]
      refine ⟨⟨trivial, by omega, h1⟩, by omega, ?_, ?_⟩
      · rintro r (rfl | hr); · simp only; omega
        exact h3 r hr
      · rintro r (rfl | hr); · simp only; omega
        exact h4 r hr

/-- **C01.** The ranges tile `[0, n)` in order, there are at most `w`, none is
empty and sizes differ by at most one. -/
theorem distribute_tiles (n w : Nat) (hw : 0 < w) :
    ∃ rs, distributeTasks n w = some rs ∧ Tiles rs 0 n ∧ rs.length ≤ w ∧
      (∀ r ∈ rs, r.1 < r.2) ∧
      (∀ r ∈ rs, ∀ s ∈ rs, r.2 - r.1 ≤ (s.2 - s.1) + 1) := by
  refine ⟨_, distribute_eq n w hw, ?_⟩
  obtain ⟨h1, h2, h3, h4⟩ := chunks_spec (n/w) w 0 (n % w) (Nat.le_of_lt (Nat.mod_lt _ hw))
  have e : 0 + w * (n / w) + n % w = n := by have := Nat.div_add_mod n w; omega
  rw [e] at h1
  refine ⟨h1, h2, h3, ?_⟩
  intro r hr s hs
  have := h4 r hr; have := h4 s hs; omega

/-- Ranges that tile `[a,b)` contain each index of `[a,b)` exactly once. -/
theorem tiles_unique : ∀ (rs : List (Nat × Nat)) (a b : Nat), Tiles rs a b → ∀ i,
    (rs.filter (fun r => decide (r.1 ≤ i ∧ i < r.2))).length = if a ≤ i ∧ i < b then 1 else 0 := by
  intro rs
  have mono : ∀ (rs : List (Nat × Nat)) a b, Tiles rs a b → a ≤ b := by
    intro rs; induction rs with
    | nil => intro a b h; simp [Tiles] at h; omega
    | cons r rs ih => intro a b h; have := ih _ _ h.2.2; have := h.1; have := h.2.1; omega
  induction rs with
  | nil => intro a b h i; simp only [Tiles] at h; subst h; simp
  | cons r rs ih =>
    intro a b h i
    have hm := mono rs _ _ h.2.2
    have := ih _ _ h.2.2 i
    have h1 := h.1; have h2 := h.2.1
    rw [List.filter_cons]
    by_cases hc : r.1 ≤ i ∧ i < r.2
    · simp only [hc, and_self, decide_true, if_true, List.length_cons, this]
      rw [if_neg (by omega), if_pos (by omega)]
    · simp only [hc, decide_false, Bool.false_eq_true, if_false, this]
      by_cases h3 : r.2 ≤ i ∧ i < b
      · rw [if_pos h3, if_pos (by omega)]
      · rw [if_neg h3, if_neg (by omega)]

/-- **C01 (observable form).** Every task index below `n` is in exactly one
returned range and no other index is in any. -/
theorem distribute_each_task_once (n w : Nat) (hw : 0 < w) (i : Nat) :
    ∃ rs, distributeTasks n w = some rs ∧
      (rs.filter (fun r => decide (r.1 ≤ i ∧ i < r.2))).length = if i < n then 1 else 0 := by
  obtain ⟨rs, h, ht, _⟩ := distribute_tiles n w hw
  refine ⟨rs, h, ?_⟩
  rw [tiles_unique rs 0 n ht i]; simp

example : distributeTasks 10 4 = some [(0,3),(3,6),(6,8),(8,10)] := by decide
example : distributeTasks 2 4 = some [(0,1),(1,2)] := by decide

end Hexrd.Tasks
